import Verif.Lemmas.Advop1
/-! Refinement of the 1-D array program to a memory-free recursion, for any boundary conditions. -/
set_option linter.unusedSectionVars false
namespace Mpdata
variable {K : Type} [Field K] [LinearOrder K]

/-- memory-free description: parameters and extension operators standing for the boundary conditions -/
structure Ref1 (K : Type) where
  p : Spec1.Par K
  extS : (Int → K) → (Int → K)
  extV : Bool → (Int → K) → (Int → K)

/-- antidiffusive velocity of corrective pass `k ≥ 1` out of `n`, extended where the program extends it -/
def Ref1.vel (r : Ref1 K) (n k : Nat) (psi U : Int → K) : Int → K :=
  let A := Spec1.velocity r.p psi U
  if isset r.p.o oFct then r.extV true A
  else if isset r.p.o oDfl && k != n - 1 then r.extV false A else A

def Ref1.passes (r : Ref1 K) (n : Nat) (psi0 GC : Int → K) : Nat → (Int → K) × (Int → K)
  | 0 => (Spec1.first r.p (r.extS psi0) GC, GC)
  | k + 1 =>
    let s := r.passes n psi0 GC k
    let psi := r.extS s.1
    let A := r.vel n (k + 1) psi s.2
    (Spec1.corrective r.p (r.extS psi0) psi A, A)

/-- the memory-level configuration implements the reference one -/
structure Implements (c : Cfg1 K) (r : Ref1 K) (halo : Int) (GoodS GoodV : (Int → K) → Prop) : Prop where
  ho : c.o = r.p.o
  hsi : c.si = r.p.si
  hte : c.te = r.p.te
  htiny : c.tiny = r.p.tiny
  heps : c.eps = r.p.eps
  hG : Agree (c.ijk.first - halo) (c.ijk.last + halo) c.G r.p.G
  hndt : Agree (c.ijk.first - halo) (c.ijk.last + halo - 1) c.ndtGC r.p.ndtGC
  hndtt : Agree (c.ijk.first - halo) (c.ijk.last + halo - 1) c.ndttGC r.p.ndttGC
  hhalo : (mpdataHalo c.o : Int) ≤ halo
  hhalo2 : isset c.o oFct = true → 2 ≤ halo
  hS : ∀ a b, GoodS b → Agree c.ijk.first c.ijk.last a b →
    Agree (c.ijk.first - halo) (c.ijk.last + halo) (c.fillS a) (r.extS b)
  hV : ∀ ad a b, GoodV b → Agree (c.ijk.first - 1) c.ijk.last a b →
    Agree (c.ijk.first - halo) (c.ijk.last + halo - 1) (c.fillV ad a) (r.extV ad b)

section
variable {c : Cfg1 K} {r : Ref1 K} {halo : Int} {GoodS GoodV : (Int → K) → Prop}

theorem gcCorr_setCorr (iter : Nat) (m : Mem1 K) (a : Int → K) : gcCorr iter (setCorr iter m a) = a := by
  unfold gcCorr setCorr; split <;> rfl

@[simp] theorem setCorr_psi (iter : Nat) (m : Mem1 K) (a : Int → K) : (setCorr iter m a).psi = m.psi := by
  unfold setCorr; split <;> rfl
@[simp] theorem setCorr_GC (iter : Nat) (m : Mem1 K) (a : Int → K) : (setCorr iter m a).GC = m.GC := by
  unfold setCorr; split <;> rfl
@[simp] theorem setCorr_psiN (iter : Nat) (m : Mem1 K) (a : Int → K) : (setCorr iter m a).psiN = m.psiN := by
  unfold setCorr; split <;> rfl
@[simp] theorem setCorr_psiMin (iter : Nat) (m : Mem1 K) (a : Int → K) : (setCorr iter m a).psiMin = m.psiMin := by
  unfold setCorr; split <;> rfl
@[simp] theorem setCorr_psiMax (iter : Nat) (m : Mem1 K) (a : Int → K) : (setCorr iter m a).psiMax = m.psiMax := by
  unfold setCorr; split <;> rfl

/-- the next iteration's velocity-to-correct is this iteration's corrected velocity -/
theorem gcUnco_succ (iter : Nat) (h : 1 ≤ iter) (m : Mem1 K) : gcUnco (iter + 1) m = gcCorr iter m := by
  unfold gcUnco gcCorr
  have : ¬ iter + 1 = 1 := by omega
  rw [if_neg this]
  by_cases h2 : iter % 2 = 1
  · rw [if_pos h2, if_neg (by omega)]
  · rw [if_neg h2, if_pos (by omega)]

/-- psi_min/psi_max hold the extrema of the step's initial field where they are needed -/
def ExtremaOk (c : Cfg1 K) (psi0 : Int → K) (m : Mem1 K) : Prop :=
  isset c.o oFct = true →
    Agree (c.ijk.first - 1) (c.ijk.last + 1) m.psiMax (fun i => max (max (psi0 (i - 1)) (psi0 i)) (psi0 (i + 1))) ∧
    Agree (c.ijk.first - 1) (c.ijk.last + 1) m.psiMin (fun i => min (min (psi0 (i - 1)) (psi0 i)) (psi0 (i + 1)))

theorem fctAdjust1_spec (hi : Implements c r halo GoodS GoodV) (iter : Nat) (m : Mem1 K) (psi0 psi A : Int → K)
    (hpsi : Agree (c.ijk.first - halo) (c.ijk.last + halo) m.psi psi)
    (hA : Agree (c.ijk.first - 1) c.ijk.last (gcCorr iter m) A) (hgood : GoodV A)
    (hex : ExtremaOk c psi0 m) (hf : isset c.o oFct = true) :
    let m' := fctAdjust1 c iter m
    m'.psi = m.psi ∧ m'.psiN = m.psiN ∧ m'.GC = m.GC ∧ m'.psiMin = m.psiMin ∧ m'.psiMax = m.psiMax ∧
    Agree (c.ijk.first - halo) (c.ijk.last + halo - 1) (gcCorr iter m') (r.extV true A) ∧
    Agree (c.ijk.first - 1) c.ijk.last m'.mono (Spec1.limited r.p psi0 psi (r.extV true A)) := by
  have h2 := hi.hhalo2 hf
  obtain ⟨hmx, hmn⟩ := hex hf
  unfold fctAdjust1
  simp only [hf, if_true]
  have hA' := hi.hV true _ _ hgood hA
  generalize c.fillV true (gcCorr iter m) = A' at *
  generalize r.extV true A = B at *
  have hcorr : ∀ (m1 : Mem1 K) (x : Int → K), gcCorr iter { (setCorr iter m1 A') with flux := x } = A' := by
    intro m1 x; unfold gcCorr setCorr; split <;> rfl
  have hflux : Agree (c.ijk.first - 2) (c.ijk.last + 1)
      (if isset c.o oIga = true then gcCorr iter (setCorr iter m A') else
        asg (c.im.ext 1) (makeFlux1 c.o m.psi A') (setCorr iter m A').flux)
      (if isset r.p.o oIga = true then B else makeFlux1 r.p.o psi B) := by
    rw [← hi.ho]
    split
    · rw [gcCorr_setCorr]; exact hA'.mono (by omega) (by omega)
    · intro i h1 h3
      rw [asg_mem (by simp only [Rng.Mem, Rng.ext, Cfg1.im]; omega)]
      exact makeFlux1_congr _ (hpsi.mono (by omega) (by omega)) (hA' i (by omega) (by omega))
  refine ⟨?_, ?_, ?_, ?_, ?_, ?_, ?_⟩
  · split <;> simp
  · split <;> simp
  · split <;> simp
  · split <;> simp
  · split <;> simp
  · have : ∀ (m1 : Mem1 K) (a b d : Int → K), gcCorr iter { m1 with bUp := a, bDn := b, mono := d } = gcCorr iter m1 := by
      intro m1 a b d; rfl
    rw [this]
    split
    · rw [gcCorr_setCorr]; exact hA'
    · rw [hcorr]; exact hA'
  · intro i h1 h3
    have hmem : c.im.Mem i := ⟨h1, h3⟩
    have eU : Agree (c.ijk.first - 1) (c.ijk.last + 1)
        (betaUp1 c.o c.eps m.psi m.psiMax (if isset c.o oIga = true then gcCorr iter (setCorr iter m A') else
        asg (c.im.ext 1) (makeFlux1 c.o m.psi A') (setCorr iter m A').flux) c.G)
        (betaUp1 r.p.o r.p.eps psi (fun i => max (max (psi0 (i - 1)) (psi0 i)) (psi0 (i + 1)))
          (if isset r.p.o oIga = true then B else makeFlux1 r.p.o psi B) r.p.G) := by
      intro j j1 j2
      rw [hi.ho, hi.heps]
      refine betaUp1_congr _ _ (hpsi.mono (by omega) (by omega)) (hmx j j1 j2) ?_ (hi.hG j (by omega) (by omega))
      rw [← hi.ho] at hflux ⊢
      exact hflux.mono (by omega) (by omega)
    have eD : Agree (c.ijk.first - 1) (c.ijk.last + 1)
        (betaDn1 c.o c.eps m.psi m.psiMin (if isset c.o oIga = true then gcCorr iter (setCorr iter m A') else
        asg (c.im.ext 1) (makeFlux1 c.o m.psi A') (setCorr iter m A').flux) c.G)
        (betaDn1 r.p.o r.p.eps psi (fun i => min (min (psi0 (i - 1)) (psi0 i)) (psi0 (i + 1)))
          (if isset r.p.o oIga = true then B else makeFlux1 r.p.o psi B) r.p.G) := by
      intro j j1 j2
      rw [hi.ho, hi.heps]
      refine betaDn1_congr _ _ (hpsi.mono (by omega) (by omega)) (hmn j j1 j2) ?_ (hi.hG j (by omega) (by omega))
      rw [← hi.ho] at hflux ⊢
      exact hflux.mono (by omega) (by omega)
    rw [asg_mem hmem]
    unfold Spec1.limited
    rw [← hi.ho] at eU eD ⊢
    refine gcMono1_congr _ ?_ ?_ ?_ ?_
    · have : Agree i (i + 1) m.psi psi := hpsi.mono (by omega) (by omega)
      split <;> simpa using this
    · intro j j1 j2
      rw [asg_mem (by simp only [Rng.Mem, Rng.ext]; omega)]
      have := eU j (by omega) (by omega)
      rw [← this]
      split <;> simp [gcCorr_setCorr]
    · intro j j1 j2
      rw [asg_mem (by simp only [Rng.Mem, Rng.ext]; omega)]
      have := eD j (by omega) (by omega)
      rw [← this]
      split <;> simp [gcCorr_setCorr]
    · have : ∀ (m1 : Mem1 K) (a b : Int → K), gcCorr iter { m1 with bUp := a, bDn := b } = gcCorr iter m1 := by
        intro m1 a b; rfl
      rw [this]
      split
      · rw [gcCorr_setCorr]; exact hA' i (by omega) (by omega)
      · rw [hcorr]; exact hA' i (by omega) (by omega)


/-- loop invariant before corrective iteration `k ≥ 1`, with `s = passes (k-1)` -/
structure LoopInv (c : Cfg1 K) (psi0 GC : Int → K) (k : Nat) (s : (Int → K) × (Int → K)) (m : Mem1 K) : Prop where
  hpsi : Agree c.ijk.first c.ijk.last m.psiN s.1
  hU : Agree (c.ijk.first - 1 - gcReach c.o) (c.ijk.last + gcReach c.o) (gcUnco k m) s.2
  hex : ExtremaOk c psi0 m

theorem flux_last (hi : Implements c r halo GoodS GoodV) (h0 : 0 < halo) (iter : Nat) (m : Mem1 K) (psi C : Int → K)
    (hpsi : Agree (c.ijk.first - halo) (c.ijk.last + halo) m.psi psi)
    (hC : Agree (c.ijk.first - 1) c.ijk.last (gcUsed c.o iter m) C) :
    let m' := if !isset c.o oIga || iter == 0
      then { m with flux := asg c.im (makeFlux1 c.o m.psi (gcUsed c.o iter m)) m.flux } else m
    let flx := if !isset c.o oIga || iter == 0 then m'.flux else gcUsed c.o iter m'
    Agree c.ijk.first c.ijk.last (donorStep1 c.o m'.psi flx c.G)
      (donorStep1 r.p.o psi (if !isset r.p.o oIga || iter == 0 then makeFlux1 r.p.o psi C else C) r.p.G) := by
  intro m' flx i h1 h2
  rw [← hi.ho]
  have hm' : m'.psi = m.psi := by simp only [m']; split <;> rfl
  rw [hm']
  refine donorStep1_congr _ (hpsi i (by omega) (by omega)) ?_ (hi.hG i (by omega) (by omega))
  intro j j1 j2
  simp only [flx, m']
  split
  · show asg c.im (makeFlux1 c.o m.psi (gcUsed c.o iter m)) m.flux j = _
    rw [asg_mem (by simp only [Rng.Mem, Cfg1.im]; omega)]
    exact makeFlux1_congr _ (hpsi.mono (by omega) (by omega)) (hC j (by omega) (by omega))
  · exact hC j (by omega) (by omega)

theorem halo_pos (hi : Implements c r halo GoodS GoodV) : 0 < halo := by
  have := hi.hhalo
  rcases mpdataHalo_cases c.o with h | ⟨h, _⟩ <;> rw [h] at this <;> omega

theorem advIter1_corr (hi : Implements c r halo GoodS GoodV) (n k : Nat) (hk : 1 ≤ k) (hn : c.nIters = n) (_hkn : k < n)
    (psi0 GC : Int → K) (s : (Int → K) × (Int → K)) (m : Mem1 K)
    (hx : n ≤ 2 ∨ isset c.o oFct = true ∨ (isset c.o oDiv2 = false ∧ isset c.o oDiv3 = false))
    (hgs : GoodS s.1) (hgv : GoodV (Spec1.velocity r.p (r.extS s.1) s.2))
    (hinv : LoopInv c psi0 GC k s m) :
    let psi := r.extS s.1
    let A := r.vel n k psi s.2
    let m' := advIter1 c k m
    Agree c.ijk.first c.ijk.last m'.psiN (Spec1.corrective r.p psi0 psi A) ∧ ExtremaOk c psi0 m' ∧
    (k + 1 < n → LoopInv c psi0 GC (k + 1) (Spec1.corrective r.p psi0 psi A, A) m') := by
  obtain ⟨i1, i2, i3⟩ := hinv
  have hh := halo_pos hi
  intro psi A m'
  -- memory after cycle and halo exchange
  have hk0 : k ≠ 0 := by omega
  have hk0' : (k == 0) = false := by simpa using hk0
  simp only [m', advIter1, hk0, ne_eq, not_false_eq_true, if_true, hk0', Bool.or_false]
  generalize hm1 : ({ m with psi := c.fillS m.psiN, psiN := m.psi } : Mem1 K) = m1
  have hp1 : c.fillS m.psiN = m1.psi := by rw [← hm1]
  simp only [hp1]
  have e1 : Agree (c.ijk.first - halo) (c.ijk.last + halo) m1.psi psi := by
    rw [← hm1]; exact hi.hS _ _ hgs i1
  have e2 : Agree (c.ijk.first - 1 - gcReach c.o) (c.ijk.last + gcReach c.o) (gcUnco k m1) s.2 := by
    rw [← hm1]; exact i2
  have e3 : ExtremaOk c psi0 m1 := by rw [← hm1]; exact i3
  -- antidiffusive velocity
  have hreach : gcReach c.o ≤ mpdataHalo c.o - 1 := by
    rcases gcReach_cases c.o with ⟨h, _⟩ | ⟨h, h'⟩
    · rcases mpdataHalo_cases c.o with h' | ⟨h', _⟩ <;> omega
    · omega
  have hhal := hi.hhalo
  have eA : Agree (c.ijk.first - 1) c.ijk.last
      (asg c.im (antidiff1 c.o c.si c.te c.tiny m1.psi (gcUnco k m1) c.ndtGC c.ndttGC c.G) (gcCorr k m1))
      (Spec1.velocity r.p psi s.2) := by
    intro i h1 h2
    rw [asg_mem (by simp only [Rng.Mem, Cfg1.im]; omega)]
    unfold Spec1.velocity
    rw [← hi.ho, ← hi.hsi, ← hi.hte, ← hi.htiny]
    refine antidiff1_congr _ _ _ _ (e1.mono (by omega) (by omega)) (hi.hG.mono (by omega) (by omega))
      (e2.mono (by omega) (by omega)) (fun hd => hi.hndt.mono ?_ ?_) (fun hd => hi.hndtt i ?_ ?_)
    all_goals
      rcases mpdataHalo_cases c.o with h' | ⟨h', _, _, _, h5, _⟩
      · omega
      · first | omega | (rw [hd] at h5; exact absurd h5 (by simp))
  generalize asg c.im (antidiff1 c.o c.si c.te c.tiny m1.psi (gcUnco k m1) c.ndtGC c.ndttGC c.G) (gcCorr k m1)
    = A1 at *
  generalize hm2 : setCorr k m1 A1 = m2
  have c2 : gcCorr k m2 = A1 := by rw [← hm2]; exact gcCorr_setCorr k m1 A1
  have p2 : m2.psi = m1.psi := by rw [← hm2]; simp
  have x2 : ExtremaOk c psi0 m2 := by
    intro hf; have := e3 hf; rw [← hm2]; simpa using this
  cases hf : isset c.o oFct with
  | true =>
    simp only [Bool.not_true, Bool.and_false, Bool.false_eq_true, if_false]
    have hfs := fctAdjust1_spec hi k m2 psi0 psi (Spec1.velocity r.p psi s.2) (by rw [p2]; exact e1)
      (by rw [c2]; exact eA) hgv x2 hf
    obtain ⟨q1, q2, q3, q4, q5, q6, q7⟩ := hfs
    generalize fctAdjust1 c k m2 = m3 at *
    have hAeq : A = r.extV true (Spec1.velocity r.p psi s.2) := by
      simp only [A, Ref1.vel, ← hi.ho, hf, if_true]
    have hused : Agree (c.ijk.first - 1) c.ijk.last (gcUsed c.o k m3) (Spec1.limited r.p psi0 psi A) := by
      simp only [gcUsed, hk0, hf, if_true, if_false, hAeq]; exact q7
    have hfl := flux_last hi hh k m3 psi (Spec1.limited r.p psi0 psi A) (by rw [q1, p2]; exact e1) hused
    simp only [hk0', Bool.or_false] at hfl
    have hxm : ∀ a b : Int → K, ExtremaOk c psi0 ({ m3 with flux := a, psiN := b } : Mem1 K) := by
      intro a b hf'
      have := x2 hf'
      rw [← q4, ← q5] at this
      exact this
    have hxm' : ∀ b : Int → K, ExtremaOk c psi0 ({ m3 with psiN := b } : Mem1 K) := fun b => hxm m3.flux b
    have hcor : Agree c.ijk.first c.ijk.last (donorStep1 r.p.o psi
        (if (!isset r.p.o oIga) = true then makeFlux1 r.p.o psi (Spec1.limited r.p psi0 psi A)
          else Spec1.limited r.p psi0 psi A) r.p.G) (Spec1.corrective r.p psi0 psi A) := by
      intro i _ _
      unfold Spec1.corrective
      rw [← hi.ho, hf]
      cases isset c.o oIga <;> simp
    have hres : Agree c.ijk.first c.ijk.last _ (Spec1.corrective r.p psi0 psi A) :=
      fun i a b => (hfl i a b).trans (hcor i a b)
    refine ⟨asg_agree hres, ?_, fun _ => ⟨asg_agree hres, ?_, ?_⟩⟩
    · split
      · exact hxm _ _
      · exact hxm' _
    · rw [gcUnco_succ k hk]
      have : gcCorr k m3 = _ := rfl
      have hg : Agree (c.ijk.first - 1 - gcReach c.o) (c.ijk.last + gcReach c.o) (gcCorr k m3) A := by
        rw [hAeq]
        have h2 := hi.hhalo2 hf
        rcases gcReach_cases c.o with ⟨h, _⟩ | ⟨h, h'⟩ <;> exact q6.mono (by omega) (by omega)
      split <;> exact hg
    · split
      · exact hxm _ _
      · exact hxm' _
  | false =>
    have hadj : ∀ m : Mem1 K, fctAdjust1 c k m = m := by intro m; simp [fctAdjust1, hf]
    rw [hadj]
    simp only [hn, Bool.not_false, Bool.and_true]
    -- after optional fill
    have eA2 : Agree (c.ijk.first - 1) c.ijk.last
        (gcCorr k (if (isset c.o oDfl && k != n - 1) = true then setCorr k m2 (c.fillV false (gcCorr k m2)) else m2)) A := by
      simp only [A, Ref1.vel, ← hi.ho, hf, Bool.false_eq_true, if_false]
      split
      · rw [gcCorr_setCorr, c2]
        exact (hi.hV false _ _ hgv eA).mono (by omega) (by omega)
      · rw [c2]; exact eA
    have eA3 : k + 1 < n → Agree (c.ijk.first - 1 - gcReach c.o) (c.ijk.last + gcReach c.o)
        (gcCorr k (if (isset c.o oDfl && k != n - 1) = true then setCorr k m2 (c.fillV false (gcCorr k m2)) else m2)) A := by
      intro hkn2
      rcases gcReach_cases c.o with ⟨h, _⟩ | ⟨h, h'⟩
      · rw [h]; exact eA2.mono (by omega) (by omega)
      · have hd : isset c.o oDfl = true := by
          rcases hx with hx | hx | ⟨hx1, hx2⟩
          · omega
          · rw [hf] at hx; exact absurd hx (by simp)
          · unfold gcReach at h
            rw [hx1, hx2] at h
            by_contra hc
            simp [hc] at h
        have hkk : (k != n - 1) = true := by simp; omega
        simp only [A, Ref1.vel, ← hi.ho, hf, Bool.false_eq_true, if_false, hd, hkk, Bool.and_true, if_true]
        rw [gcCorr_setCorr, c2]
        exact (hi.hV false _ _ hgv eA).mono (by omega) (by omega)
    have p3 : (if (isset c.o oDfl && k != n - 1) = true then setCorr k m2 (c.fillV false (gcCorr k m2)) else m2).psi = m1.psi := by
      split <;> simp [p2]
    have x3 : ExtremaOk c psi0 (if (isset c.o oDfl && k != n - 1) = true then setCorr k m2 (c.fillV false (gcCorr k m2)) else m2) := by
      intro hf'; rw [hf] at hf'; exact absurd hf' (by simp)
    generalize (if (isset c.o oDfl && k != n - 1) = true then setCorr k m2 (c.fillV false (gcCorr k m2)) else m2) = m3 at *
    have hused : Agree (c.ijk.first - 1) c.ijk.last (gcUsed c.o k m3) A := by
      simp only [gcUsed, hk0, hf, if_false, Bool.false_eq_true]; exact eA2
    have hfl := flux_last hi hh k m3 psi A (by rw [p3]; exact e1) hused
    simp only [hk0', Bool.or_false] at hfl
    have hcor : Agree c.ijk.first c.ijk.last (donorStep1 r.p.o psi
        (if (!isset r.p.o oIga) = true then makeFlux1 r.p.o psi A else A) r.p.G) (Spec1.corrective r.p psi0 psi A) := by
      intro i _ _
      unfold Spec1.corrective
      rw [← hi.ho, hf]
      cases isset c.o oIga <;> simp
    have hres : Agree c.ijk.first c.ijk.last _ (Spec1.corrective r.p psi0 psi A) :=
      fun i a b => (hfl i a b).trans (hcor i a b)
    have hxx : ∀ m4 : Mem1 K, ExtremaOk c psi0 m4 := by
      intro m4 hf'; rw [hf] at hf'; exact absurd hf' (by simp)
    refine ⟨asg_agree hres, hxx _, fun hkn2 => ⟨asg_agree hres, ?_, hxx _⟩⟩
    rw [gcUnco_succ k hk]
    have := eA3 hkn2
    split <;> exact this

theorem advLoop1_corr (hi : Implements c r halo GoodS GoodV) (n : Nat) (hn : c.nIters = n) (hfilt : c.filter = false)
    (psi0 GC : Int → K)
    (hx : n ≤ 2 ∨ isset c.o oFct = true ∨ (isset c.o oDiv2 = false ∧ isset c.o oDiv3 = false))
    (hgs : ∀ k, GoodS (r.passes n psi0 GC k).1)
    (hgv : ∀ k, GoodV (Spec1.velocity r.p (r.extS (r.passes n psi0 GC k).1) (r.passes n psi0 GC k).2))
    (k : Nat) (left : Nat) (hkl : k + 1 + left = n) (m : Mem1 K)
    (hinv : LoopInv c (r.extS psi0) GC (k + 1) (r.passes n psi0 GC k) m) :
    Agree c.ijk.first c.ijk.last (advLoop1 c left (k + 1) m).psiN (r.passes n psi0 GC (n - 1)).1 := by
  induction left generalizing k m with
  | zero =>
    have : n - 1 = k := by omega
    rw [this]; exact hinv.hpsi
  | succ left ih =>
    simp only [advLoop1, hfilt, Bool.false_eq_true, if_false]
    obtain ⟨h1, h2, h3⟩ := advIter1_corr hi n (k + 1) (by omega) hn (by omega) (r.extS psi0) GC _ m hx (hgs k) (hgv k) hinv
    by_cases hl : left = 0
    · subst hl
      have : n - 1 = k + 1 := by omega
      rw [this]
      exact h1
    · exact ih (k + 1) (by omega) _ (h3 (by omega))

/-- The 1-D program computes the memory-free recursion, whatever the temporary arrays and the
unassigned parts of the fields contain. -/
theorem advance1_refines (hi : Implements c r halo GoodS GoodV) (n : Nat) (hn : c.nIters = n) (hn1 : 1 ≤ n)
    (psi0 GC : Int → K) (m : Mem1 K)
    (hx : n ≤ 2 ∨ isset c.o oFct = true ∨ (isset c.o oDiv2 = false ∧ isset c.o oDiv3 = false))
    (hgs0 : GoodS psi0)
    (hgs : ∀ k, GoodS (r.passes n psi0 GC k).1)
    (hgv : ∀ k, GoodV (Spec1.velocity r.p (r.extS (r.passes n psi0 GC k).1) (r.passes n psi0 GC k).2))
    (hpsi : Agree c.ijk.first c.ijk.last m.psi psi0)
    (hGC : Agree (c.ijk.first - halo) (c.ijk.last + halo - 1) m.GC GC) :
    Agree c.ijk.first c.ijk.last (advance1 c m).psi
      (r.passes n psi0 GC (if c.filter then 0 else n - 1)).1 := by
  have hh := halo_pos hi
  have e1 := hi.hS _ _ hgs0 hpsi
  unfold advance1
  simp only
  -- after fct_init
  have hinit : ∀ m1 : Mem1 K, (fctInit1 c m1).psi = m1.psi ∧ (fctInit1 c m1).GC = m1.GC := by
    intro m1; unfold fctInit1; split <;> exact ⟨rfl, rfl⟩
  have hx1 : ExtremaOk c (r.extS psi0) (fctInit1 c { m with psi := c.fillS m.psi }) := by
    intro hf
    have h2 := hi.hhalo2 hf
    unfold fctInit1
    simp only [hf, if_true]
    constructor
    · intro i a b
      rw [asg_mem (by simp only [Rng.Mem, Rng.ext]; omega)]
      simp only [e1 i (by omega) (by omega), e1 (i - 1) (by omega) (by omega), e1 (i + 1) (by omega) (by omega)]
    · intro i a b
      rw [asg_mem (by simp only [Rng.Mem, Rng.ext]; omega)]
      simp only [e1 i (by omega) (by omega), e1 (i - 1) (by omega) (by omega), e1 (i + 1) (by omega) (by omega)]
  obtain ⟨hp, hg⟩ := hinit { m with psi := c.fillS m.psi }
  generalize fctInit1 c { m with psi := c.fillS m.psi } = m1 at *
  simp only at hp hg
  -- first pass
  obtain ⟨n', rfl⟩ : ∃ n', n = n' + 1 := ⟨n - 1, by omega⟩
  have hfirst : Agree c.ijk.first c.ijk.last (advIter1 c 0 m1).psiN (r.passes (n' + 1) psi0 GC 0).1 := by
    have hfl := flux_last hi hh 0 m1 (r.extS psi0) GC (by rw [hp]; exact e1)
      (by simp only [gcUsed, if_true]; rw [hg]; exact hGC.mono (by omega) (by omega))
    simp only [advIter1, Ref1.passes, Spec1.first]
    simp only [beq_self_eq_true, Bool.or_true, if_true, ne_eq, not_true, if_false] at hfl ⊢
    exact asg_agree hfl
  have hx2 : ExtremaOk c (r.extS psi0) (advIter1 c 0 m1) := by
    simp only [advIter1, beq_self_eq_true, Bool.or_true, if_true, ne_eq, not_true, if_false]
    exact hx1
  have hU : gcUnco 1 (advIter1 c 0 m1) = m1.GC := by
    simp only [gcUnco, advIter1, beq_self_eq_true, Bool.or_true, if_true, ne_eq, not_true, if_false]
  rw [hn]
  cases hfi : c.filter with
  | true => simpa [advLoop1, hfi] using hfirst
  | false =>
    simp only [advLoop1, hfi, Bool.false_eq_true, if_false]
    refine advLoop1_corr hi (n' + 1) hn hfi psi0 GC hx hgs hgv 0 n' (by omega) _ ⟨hfirst, ?_, hx2⟩
    rw [hU, hg]
    have hhal := hi.hhalo
    rcases gcReach_cases c.o with ⟨h, _⟩ | ⟨h, h'⟩ <;> exact hGC.mono (by omega) (by omega)

end
end Mpdata
