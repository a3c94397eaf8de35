import Verif.Lemmas.Fct
import Verif.Lemmas.Run1
import Verif.Props.Donor
/-! # C14, C15, C16: the flux limiter in 1-D -/
set_option linter.unusedSectionVars false
namespace Mpdata
variable {K : Type} [Field K] [LinearOrder K] [IsStrictOrderedRing K]
open Spec1

/-- largest of the three values around cell `i` -/
def max3 (a : Int → K) (i : Int) : K := max (max (a (i - 1)) (a i)) (a (i + 1))
/-- smallest of the three values around cell `i` -/
def min3 (a : Int → K) (i : Int) : K := min (min (a (i - 1)) (a i)) (a (i + 1))

theorem up_room (psi0 psi : Int → K) (i : Int) :
    max (max (max (max3 psi0 i) (psi (i - 1))) (psi i)) (psi (i + 1)) = max (max3 psi0 i) (max3 psi i) := by
  unfold max3; simp only [max_assoc]
theorem dn_room (psi0 psi : Int → K) (i : Int) :
    min (min (min (min3 psi0 i) (psi (i - 1))) (psi i)) (psi (i + 1)) = min (min3 psi0 i) (min3 psi i) := by
  unfold min3; simp only [min_assoc]

theorem le_max3 (a : Int → K) (i : Int) : a i ≤ max3 a i := (le_max_right _ _).trans (le_max_left _ _)
theorem min3_le (a : Int → K) (i : Int) : min3 a i ≤ a i := (min_le_left _ _).trans (min_le_right _ _)

/-- unlimited corrective flux of a pass -/
def rawFlux (p : Par K) (psi A : Int → K) : Int → K := if isset p.o oIga then A else makeFlux1 p.o psi A

theorem rawFlux_eq (p : Par K) (psi A : Int → K) (i : Int) : rawFlux p psi A i = faceFlux p.o (psi i) (psi (i + 1)) (A i) := by
  unfold rawFlux faceFlux makeFlux1; split <;> rfl

theorem betaUp_nonneg (p : Par K) (psi0 psi flx : Int → K) (i : Int) (hg : 0 < gFac1 p.o p.G i) (he : 0 ≤ p.eps) :
    0 ≤ betaUp1 p.o p.eps psi (max3 psi0) flx p.G i := by
  unfold betaUp1
  rw [up_room]
  apply fctFrac_nonneg _ _ _ he
  · exact mul_nonneg (sub_nonneg.2 ((le_max3 psi i).trans (le_max_right _ _))) hg.le
  · linarith [pospart_nonneg p.o (flx (i - 1)), negpart_nonpos p.o (flx i)]

theorem betaDn_nonneg (p : Par K) (psi0 psi flx : Int → K) (i : Int) (hg : 0 < gFac1 p.o p.G i) (he : 0 ≤ p.eps) :
    0 ≤ betaDn1 p.o p.eps psi (min3 psi0) flx p.G i := by
  unfold betaDn1
  rw [dn_room]
  apply fctFrac_nonneg _ _ _ he
  · exact mul_nonneg (sub_nonneg.2 ((min_le_right _ _).trans (min3_le psi i))) hg.le
  · linarith [pospart_nonneg p.o (flx i), negpart_nonpos p.o (flx (i - 1))]

/-- C16, 1-D: the limited antidiffusive velocity is the unlimited one times a factor in [0, 1] -
it never changes sign and never grows. -/
theorem C16_limiter_weakens_1d (p : Par K) (hg : ∀ i, 0 < gFac1 p.o p.G i) (he : 0 ≤ p.eps) (psi0 psi A : Int → K) (i : Int) :
    |limited p psi0 psi A i| ≤ |A i| ∧ 0 ≤ limited p psi0 psi A i * A i := by
  have hu := fun j => betaUp_nonneg p psi0 psi (rawFlux p psi A) j (hg j) he
  have hd := fun j => betaDn_nonneg p psi0 psi (rawFlux p psi A) j (hg j) he
  have e : limited p psi0 psi A i = A i * monoCoef p.o (psi i) (psi (i + 1)) _ _ _ _ (A i) :=
    gcMono1_eq p.o psi (betaUp1 p.o p.eps psi (max3 psi0) (rawFlux p psi A) p.G)
      (betaDn1 p.o p.eps psi (min3 psi0) (rawFlux p psi A) p.G) A i
  obtain ⟨a, b⟩ := monoCoef_range p.o (psi i) (psi (i + 1)) _ _ _ _ (A i) (hu i) (hd i) (hu (i + 1)) (hd (i + 1))
  rw [e]
  generalize monoCoef p.o (psi i) (psi (i + 1)) _ _ _ _ (A i) = l at *
  constructor
  · rw [abs_mul, abs_of_nonneg a]; exact mul_le_of_le_one_right (abs_nonneg _) b
  · have := mul_nonneg a (mul_self_nonneg (A i)); linarith [this]

/-- C14, 1-D: whatever the antidiffusive velocity `A`, after a limited corrective pass every value lies between the
extrema of the step's initial field `psi0` and of the current iterate `psi` over the cell and its neighbours.
Standard version for non-negative fields; infinite-gauge and variable-sign versions for all fields. -/
theorem C14_fct_local_bounds_1d (p : Par K) (hf : isset p.o oFct = true) (hg : ∀ i, 0 < gFac1 p.o p.G i) (he : 0 ≤ p.eps)
    (psi0 psi A : Int → K) (i : Int) (hs : ∀ j, i - 1 ≤ j → j ≤ i + 1 → SignOk p.o (psi j)) :
    min (min3 psi0 i) (min3 psi i) ≤ corrective p psi0 psi A i ∧
    corrective p psi0 psi A i ≤ max (max3 psi0 i) (max3 psi i) := by
  have hu := fun j => betaUp_nonneg p psi0 psi (rawFlux p psi A) j (hg j) he
  have hd := fun j => betaDn_nonneg p psi0 psi (rawFlux p psi A) j (hg j) he
  have e : ∀ j, limited p psi0 psi A j = A j * monoCoef p.o (psi j) (psi (j + 1)) _ _ _ _ (A j) := fun j =>
    gcMono1_eq p.o psi (betaUp1 p.o p.eps psi (max3 psi0) (rawFlux p psi A) p.G)
      (betaDn1 p.o p.eps psi (min3 psi0) (rawFlux p psi A) p.G) A j
  have hR := face_limOk p.o (psi i) (psi (i + 1)) _ _ _ _ (A i) (hu i) (hd i) (hu (i + 1)) (hd (i + 1))
    (hs i (by omega) (by omega)) (hs (i + 1) (by omega) (by omega))
  have hL := face_limOk p.o (psi (i - 1)) (psi (i - 1 + 1)) _ _ _ _ (A (i - 1)) (hu (i - 1)) (hd (i - 1)) (hu (i - 1 + 1))
    (hd (i - 1 + 1)) (hs (i - 1) (by omega) (by omega)) (hs (i - 1 + 1) (by omega) (by omega))
  rw [← e, ← rawFlux_eq] at hR hL
  have hc : corrective p psi0 psi A i = psi i + (-(rawFlux p psi (limited p psi0 psi A) i)
      + rawFlux p psi (limited p psi0 psi A) (i - 1)) / gFac1 p.o p.G i := by
    unfold corrective rawFlux donorStep1
    simp only [hf, if_true]
    rw [donorSum1_eq]
  rw [← rawFlux_eq] at hR hL
  rw [hc]
  rw [sub_add_cancel] at hL
  generalize rawFlux p psi (limited p psi0 psi A) i = FR at *
  generalize rawFlux p psi (limited p psi0 psi A) (i - 1) = FL at *
  have hgi := hg i
  have r1 : 0 ≤ max (max3 psi0 i) (max3 psi i) - psi i := sub_nonneg.2 ((le_max3 psi i).trans (le_max_right _ _))
  have r2 : 0 ≤ psi i - min (min3 psi0 i) (min3 psi i) := sub_nonneg.2 ((min_le_right _ _).trans (min3_le psi i))
  have eu : betaUp1 p.o p.eps psi (max3 psi0) (rawFlux p psi A) p.G i
      = fctFrac p.eps ((max (max3 psi0 i) (max3 psi i) - psi i) * gFac1 p.o p.G i)
        (pospart p.o (rawFlux p psi A (i - 1)) + -negpart p.o (rawFlux p psi A i)) := by
    unfold betaUp1; rw [up_room, sub_eq_add_neg (pospart _ _)]
  have ed : betaDn1 p.o p.eps psi (min3 psi0) (rawFlux p psi A) p.G i
      = fctFrac p.eps ((psi i - min (min3 psi0 i) (min3 psi i)) * gFac1 p.o p.G i)
        (pospart p.o (rawFlux p psi A i) + -negpart p.o (rawFlux p psi A (i - 1))) := by
    unfold betaDn1; rw [dn_room, sub_eq_add_neg (pospart _ _)]
  have p1 := pospart_nonneg p.o (rawFlux p psi A (i - 1))
  have p2 := pospart_nonneg p.o (rawFlux p psi A i)
  have n1 := neg_nonneg.2 (negpart_nonpos p.o (rawFlux p psi A (i - 1)))
  have n2 := neg_nonneg.2 (negpart_nonpos p.o (rawFlux p psi A i))
  have q1 := pospart_nonneg p.o FL
  have q2 := pospart_nonneg p.o FR
  have m1 := neg_nonneg.2 (negpart_nonpos p.o FL)
  have m2 := neg_nonneg.2 (negpart_nonpos p.o FR)
  have sR := flux_split p.o FR
  have sL := flux_split p.o FL
  have up := inflow_le _ _ p.eps _ (pospart p.o FL + -negpart p.o FR) r1 hgi he (add_nonneg p1 n2)
    (by rw [← eu]; have := hL.posR; have := hR.negL; linarith)
  have dn := inflow_le _ _ p.eps _ (pospart p.o FR + -negpart p.o FL) r2 hgi he (add_nonneg p2 n1)
    (by rw [← ed]; have := hR.posL; have := hL.negR; linarith)
  constructor
  · have : -(pospart p.o FR + -negpart p.o FL) / gFac1 p.o p.G i ≤ (-FR + FL) / gFac1 p.o p.G i :=
      div_le_div_of_nonneg_right (by linarith) hgi.le
    rw [neg_div] at this; linarith
  · have : (-FR + FL) / gFac1 p.o p.G i ≤ (pospart p.o FL + -negpart p.o FR) / gFac1 p.o p.G i :=
      div_le_div_of_nonneg_right (by linarith) hgi.le
    linarith

/-- bounds `lo ≤ a ≤ hi` everywhere -/
def Within (lo hi : K) (a : Int → K) : Prop := ∀ i, lo ≤ a i ∧ a i ≤ hi

theorem within_passes (p : Par K) (hf : isset p.o oFct = true) (hg : ∀ i, 0 < gFac1 p.o p.G i) (he : 0 ≤ p.eps)
    (lo hi : K) (hs : SignOk p.o lo) (GC : Int → K) (hdiv : ∀ i, GC i - GC (i - 1) = 0)
    (hc : ∀ i, outflow p.o (GC (i - 1)) (GC i) ≤ gFac1 p.o p.G i) (psi0 : Int → K) (h0 : Within lo hi psi0) (k : Nat) :
    Within lo hi (passes p psi0 GC k).1 := by
  induction k with
  | zero => exact fun i => C10_no_new_extrema_1d p.o psi0 GC p.G i lo hi (hg i) (hdiv i) (hc i) (fun j _ _ => h0 j)
  | succ k ih =>
    intro i
    obtain ⟨a, b⟩ := C14_fct_local_bounds_1d p hf hg he psi0 (passes p psi0 GC k).1
      (velocity p (passes p psi0 GC k).1 (passes p psi0 GC k).2) i (fun j _ _ => hs.shift (ih j).1)
    constructor
    · refine le_trans ?_ a
      simp only [min3, le_min_iff]
      exact ⟨⟨⟨(h0 _).1, (h0 _).1⟩, (h0 _).1⟩, ⟨⟨(ih _).1, (ih _).1⟩, (ih _).1⟩⟩
    · refine le_trans b ?_
      simp only [max3, max_le_iff]
      exact ⟨⟨⟨(h0 _).2, (h0 _).2⟩, (h0 _).2⟩, ⟨⟨(ih _).2, (ih _).2⟩, (ih _).2⟩⟩

theorem within_run (p : Par K) (hf : isset p.o oFct = true) (hg : ∀ i, 0 < gFac1 p.o p.G i) (he : 0 ≤ p.eps)
    (lo hi : K) (hs : SignOk p.o lo) (GC : Int → K) (hdiv : ∀ i, GC i - GC (i - 1) = 0)
    (hc : ∀ i, outflow p.o (GC (i - 1)) (GC i) ≤ gFac1 p.o p.G i) (n : Nat) (filt : Nat → Bool)
    (psi0 : Int → K) (h0 : Within lo hi psi0) (t : Nat) : Within lo hi (Spec1.run p n filt GC t psi0) := by
  induction t with
  | zero => exact h0
  | succ t ih => exact within_passes p hf hg he lo hi hs GC hdiv hc _ ih _

/-- C15, 1-D, about the program: with fct, cyclic boundaries, a uniform Courant number satisfying the stability bound
(`outflow ≤ G`), any other options, any number of passes and of time steps, and any contents of the temporaries, the field
never leaves the range `[lo, hi]` of its initial values. (Standard version: `lo ≥ 0`.) -/
theorem C15_fct_global_range_1d (c : Cfg1 K) (p : Par K) (N : Int) (h : CyclicSetup c p N) (hN : 0 < N)
    (hn : 1 ≤ c.nIters) (hf : isset c.o oFct = true) (hg : ∀ i, 0 < gFac1 p.o p.G i) (he : 0 ≤ c.eps)
    (lo hi : K) (hs : SignOk c.o lo) (C : K)
    (hC : ∀ i, |C| ≤ gFac1 p.o p.G i) (filt : Nat → Bool) (m : Mem1 K)
    (hGC : ∀ i, c.ijk.first ≤ i → i ≤ c.ijk.last - 1 → m.GC i = C)
    (hpsi : ∀ i, c.ijk.first ≤ i → i ≤ c.ijk.last → lo ≤ m.psi i ∧ m.psi i ≤ hi)
    (hper : m.psi c.ijk.last = m.psi c.ijk.first) (t : Nat) :
    ∀ i, c.ijk.first ≤ i → i ≤ c.ijk.last →
      lo ≤ (runProg1 c filt t { m with GC := c.fillV false m.GC }).psi i ∧
      (runProg1 c filt t { m with GC := c.fillV false m.GC }).psi i ≤ hi := by
  have hl : c.ijk.last = c.ijk.first + N := by have := h.hN; omega
  have ho := h.ho
  have hr := cyc_run h hn (.inr (.inl hf)) filt (perExt_periodic c.ijk.first N m.psi) (GC := fun _ => C)
    (fun _ => rfl) m (by rw [hl]; exact perExt_agree' _ _ _ (by rw [← hl]; exact hper)) hGC t
  have hw : Within lo hi (perExt c.ijk.first N m.psi) := by
    intro i
    have a := Int.emod_nonneg (i - c.ijk.first) hN.ne'
    have b := Int.emod_lt_of_pos (i - c.ijk.first) hN
    exact hpsi _ (by omega) (by omega)
  have hw' := within_run p (by rw [← ho]; exact hf) hg (by rw [← h.heps]; exact he) lo hi (by rw [← ho]; exact hs)
    (fun _ => C) (fun _ => sub_self _) (fun i => by
      have : outflow p.o C C = |C| := pos_sub_neg p.o C
      rw [this]; exact hC i) c.nIters filt _ hw t
  intro i h1 h2
  rw [hr i h1 h2]
  exact hw' i

/-- C15 in 1-D covers both end points of the range being equal: constants stay constant -/
theorem C15_constant_stays_1d (c : Cfg1 K) (p : Par K) (N : Int) (h : CyclicSetup c p N) (hN : 0 < N)
    (hn : 1 ≤ c.nIters) (hf : isset c.o oFct = true) (hg : ∀ i, 0 < gFac1 p.o p.G i) (he : 0 ≤ c.eps)
    (v : K) (hs : SignOk c.o v) (C : K) (hC : ∀ i, |C| ≤ gFac1 p.o p.G i) (filt : Nat → Bool) (m : Mem1 K)
    (hGC : ∀ i, c.ijk.first ≤ i → i ≤ c.ijk.last - 1 → m.GC i = C)
    (hpsi : ∀ i, c.ijk.first ≤ i → i ≤ c.ijk.last → m.psi i = v) (t : Nat) :
    ∀ i, c.ijk.first ≤ i → i ≤ c.ijk.last →
      (runProg1 c filt t { m with GC := c.fillV false m.GC }).psi i = v := by
  have hl : c.ijk.last = c.ijk.first + N := by have := h.hN; omega
  intro i h1 h2
  obtain ⟨a, b⟩ := C15_fct_global_range_1d c p N h hN hn hf hg he v v hs C hC filt m hGC
    (fun i h1 h2 => by rw [hpsi i h1 h2]; exact ⟨le_rfl, le_rfl⟩)
    (by rw [hpsi _ (by omega) (by omega), hpsi _ (by omega) (by omega)]) t i h1 h2
  exact le_antisymm b a

/-- hypotheses are met by a three-pass, third-order, flux-corrected run with Courant number 1/2 -/
example : isset (oFct ||| oTot ||| oDfl) oFct = true ∧ SignOk (oFct ||| oTot ||| oDfl) (1 : ℚ) ∧
    (∀ i, |(1/2 : ℚ)| ≤ gFac1 (oFct ||| oTot ||| oDfl) (fun _ => (1 : ℚ)) i) ∧
    (∀ i, 0 ≤ i → i ≤ 4 → 1 ≤ (demoMem 7).psi i ∧ (demoMem 7).psi i ≤ 5) ∧ (demoMem 7).psi 4 = (demoMem 7).psi 0 := by
  refine ⟨by decide, .inr (.inr (by norm_num)), fun i => ?_, fun i h1 h2 => ?_, by decide +kernel⟩
  · simp only [gFac1, show isset (oFct ||| oTot ||| oDfl) oNug = false from by decide]; norm_num [abs_of_pos]
  · have : i = 0 ∨ i = 1 ∨ i = 2 ∨ i = 3 ∨ i = 4 := by omega
    rcases this with h | h | h | h | h <;> subst h <;> decide +kernel

/-- without fct such a run does leave its initial range [1, 5]: the hypothesis on fct is needed -/
theorem C15_needs_fct :
    let m : Mem1 ℚ := { demoMem 7 with psi := fun i => if i % 4 = 0 then 5 else 1, GC := fun _ => 1/4 }
    (advance1 (demo1 oIga 2) m).psi 3 < 1 := by
  decide +kernel

end Mpdata
