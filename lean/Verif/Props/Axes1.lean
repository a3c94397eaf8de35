import Verif.Lemmas.Refl1
import Verif.Lemmas.MirrorN
import Verif.Props.Symmetry1
/-! # C59: a reversed axis in 1-D -/
set_option linter.unusedSectionVars false
namespace Mpdata
variable {K : Type} [Field K] [LinearOrder K] [IsStrictOrderedRing K]
open Spec1

/-- parameters run through in the opposite direction, cell `i` becoming cell `L - i` -/
def Spec1.Par.rev (p : Par K) (L : Int) : Par K :=
  { p with G := c1r L p.G, ndtGC := f1r L p.ndtGC, ndttGC := f1r L p.ndttGC }

theorem makeFlux1_r (o : OptsT) (L : Int) (psi A : Int → K) : makeFlux1 o (c1r L psi) (f1r L A) = f1r L (makeFlux1 o psi A) := by
  funext i
  show donorF o (psi (L - i)) (psi (L - (i + 1))) (-A (L - 1 - i)) = -donorF o (psi (L - 1 - i)) (psi (L - 1 - i + 1)) (A (L - 1 - i))
  rw [donorF_mir, show L - (i + 1) = L - 1 - i by ring, show L - 1 - i + 1 = L - i by ring]

theorem donorStep1_r (o : OptsT) (L : Int) (psi F G : Int → K) : donorStep1 o (c1r L psi) (f1r L F) (c1r L G) = c1r L (donorStep1 o psi F G) := by
  funext i
  show donorStep1 o (c1r L psi) (f1r L F) (c1r L G) i = donorStep1 o psi F G (L - i)
  unfold donorStep1
  rw [gFac1_r, donorSum1_eq, donorSum1_eq]
  simp only [c1r, f1r]
  rw [show L - 1 - (i - 1) = L - i by ring, show L - 1 - i = L - i - 1 by ring]
  ring

theorem betaUp1_r (o : OptsT) (eps : K) (L : Int) (psi mx F G : Int → K) :
    betaUp1 o eps (c1r L psi) (c1r L mx) (f1r L F) (c1r L G) = c1r L (betaUp1 o eps psi mx F G) := by
  funext i
  show _ = betaUp1 o eps psi mx F G (L - i)
  unfold betaUp1
  rw [gFac1_r]
  simp only [c1r, f1r, pos_neg, neg_pos']
  rw [show L - 1 - (i - 1) = L - i by ring, show L - 1 - i = L - i - 1 by ring, show L - (i - 1) = L - i + 1 by ring, show L - (i + 1) = L - i - 1 by ring]
  congr 1
  · congr 2
    ac_rfl
  · ring

theorem betaDn1_r (o : OptsT) (eps : K) (L : Int) (psi mn F G : Int → K) :
    betaDn1 o eps (c1r L psi) (c1r L mn) (f1r L F) (c1r L G) = c1r L (betaDn1 o eps psi mn F G) := by
  funext i
  show _ = betaDn1 o eps psi mn F G (L - i)
  unfold betaDn1
  rw [gFac1_r]
  simp only [c1r, f1r, pos_neg, neg_pos']
  rw [show L - 1 - (i - 1) = L - i by ring, show L - 1 - i = L - i - 1 by ring, show L - (i - 1) = L - i + 1 by ring, show L - (i + 1) = L - i - 1 by ring]
  congr 1
  · congr 2
    ac_rfl
  · ring

theorem gcMono1_r (o : OptsT) (L : Int) (psi u d A : Int → K) : gcMono1 o (c1r L psi) (c1r L u) (c1r L d) (f1r L A) = f1r L (gcMono1 o psi u d A) := by
  funext i
  show _ = -gcMono1 o psi u d A (L - 1 - i)
  rw [gcMono1_eq, gcMono1_eq, ← monoCoef_mir]
  simp only [c1r, f1r]
  rw [show L - (i + 1) = L - 1 - i by ring, show L - 1 - i + 1 = L - i by ring]

theorem limited_r (p : Par K) (psi0 psi A : Int → K) (L : Int) :
    limited (p.rev L) (c1r L psi0) (c1r L psi) (f1r L A) = f1r L (limited p psi0 psi A) := by
  unfold limited
  simp only [Spec1.Par.rev, makeFlux1_r]
  have hflx : (if isset p.o oIga = true then f1r L A else f1r L (makeFlux1 p.o psi A))
      = f1r L (if isset p.o oIga = true then A else makeFlux1 p.o psi A) := by split <;> rfl
  rw [hflx]
  generalize (if isset p.o oIga = true then A else makeFlux1 p.o psi A) = F
  have h1 : (fun i => max (max (c1r L psi0 (i - 1)) (c1r L psi0 i)) (c1r L psi0 (i + 1))) = c1r L (fun i => max (max (psi0 (i - 1)) (psi0 i)) (psi0 (i + 1))) := by
    funext i
    simp only [c1r]
    rw [show L - (i - 1) = L - i + 1 by ring, show L - (i + 1) = L - i - 1 by ring]
    ac_rfl
  have h2 : (fun i => min (min (c1r L psi0 (i - 1)) (c1r L psi0 i)) (c1r L psi0 (i + 1))) = c1r L (fun i => min (min (psi0 (i - 1)) (psi0 i)) (psi0 (i + 1))) := by
    funext i
    simp only [c1r]
    rw [show L - (i - 1) = L - i + 1 by ring, show L - (i + 1) = L - i - 1 by ring]
    ac_rfl
  rw [h1, h2, betaUp1_r, betaDn1_r, gcMono1_r]

theorem passes_r (p : Par K) (psi0 GC : Int → K) (L : Int) (k : Nat) :
    passes (p.rev L) (c1r L psi0) (f1r L GC) k = (c1r L (passes p psi0 GC k).1, f1r L (passes p psi0 GC k).2) := by
  induction k with
  | zero =>
    simp only [passes, first, makeFlux1_r, Spec1.Par.rev, donorStep1_r]
  | succ k ih =>
    simp only [passes, ih]
    have hv : velocity (p.rev L) (c1r L (passes p psi0 GC k).1) (f1r L (passes p psi0 GC k).2)
        = f1r L (velocity p (passes p psi0 GC k).1 (passes p psi0 GC k).2) := by
      funext i; exact antidiff1_r _ _ _ _ _ _ _ _ _ _ _
    rw [hv]
    simp only [Prod.mk.injEq, and_true]
    generalize velocity p (passes p psi0 GC k).1 (passes p psi0 GC k).2 = A
    unfold corrective
    rw [limited_r]
    have e1 : (if isset (p.rev L).o oFct = true then f1r L (limited p psi0 (passes p psi0 GC k).1 A) else f1r L A)
        = f1r L (if isset p.o oFct = true then limited p psi0 (passes p psi0 GC k).1 A else A) := by
      by_cases h : isset p.o oFct = true <;> simp [Spec1.Par.rev, h]
    simp only [e1, makeFlux1_r]
    generalize (if isset p.o oFct = true then limited p psi0 (passes p psi0 GC k).1 A else A) = C
    have e2 : (if isset (p.rev L).o oIga = true then f1r L C else f1r L (makeFlux1 (p.rev L).o (passes p psi0 GC k).1 C))
        = f1r L (if isset p.o oIga = true then C else makeFlux1 p.o (passes p psi0 GC k).1 C) := by
      by_cases h : isset p.o oIga = true <;> simp [Spec1.Par.rev, h]
    rw [e2]
    exact donorStep1_r _ _ _ _ _

theorem run_r (p : Par K) (n : Nat) (filt : Nat → Bool) (psi0 GC : Int → K) (L : Int) (t : Nat) :
    Spec1.run (p.rev L) n filt (f1r L GC) t (c1r L psi0) = c1r L (Spec1.run p n filt GC t psi0) := by
  induction t with
  | zero => rfl
  | succ t ih =>
    unfold Spec1.run step
    rw [ih, passes_r]

/-- C59 (reversed axis), 1-D, cyclic boundaries, all option sets including fct: if one solver's field is another's read backwards (point `i` becoming point `first + last - i`), and its velocity that of the
other read backwards with the opposite sign, then so is its result after any number of steps. Partial: divergence-form options with three or more passes and no fct are excluded (`HaloCovered`). -/
theorem C59_reversed_axis_1d_partial (c c' : Cfg1 K) (p : Par K) (N : Nat)
    (h : CyclicSetup c p N) (h' : CyclicSetup c' (p.rev (c.ijk.first + c.ijk.last)) N) (hf : c'.ijk = c.ijk) (hni : c'.nIters = c.nIters)
    (hn : 1 ≤ c.nIters) (hx : HaloCovered c.o c.nIters) (filt : Nat → Bool) (m m' : Mem1 K)
    (hper : m.psi c.ijk.last = m.psi c.ijk.first)
    (hpsi : ∀ i, c.ijk.first ≤ i → i ≤ c.ijk.last → m'.psi i = m.psi (c.ijk.first + c.ijk.last - i))
    (hGC : ∀ i, c.ijk.first ≤ i → i < c.ijk.last → m'.GC i = -m.GC (c.ijk.first + c.ijk.last - 1 - i)) (t : Nat) :
    ∀ i, c.ijk.first ≤ i → i ≤ c.ijk.last →
      (runProg1 c' filt t { m' with GC := c'.fillV false m'.GC }).psi i
      = (runProg1 c filt t { m with GC := c.fillV false m.GC }).psi (c.ijk.first + c.ijk.last - i) := by
  have hl : c.ijk.last = c.ijk.first + N := by have := h.hN; omega
  have P0 := perExt_periodic c.ijk.first N m.psi
  have G0 := perExt_periodic c.ijk.first N m.GC
  have a0 : Agree c.ijk.first c.ijk.last m.psi (perExt c.ijk.first N m.psi) := by
    rw [hl]; exact perExt_agree' _ _ _ (by rw [← hl]; exact hper)
  have a1 : Agree c.ijk.first (c.ijk.last - 1) m.GC (perExt c.ijk.first N m.GC) := by
    rw [hl]; exact perExt_agree _ _ _
  have hr := cyc_run h hn hx filt P0 G0 m a0 a1 t
  have key : ∀ (a : Int → K) (s i : Int), Periodic (N : Int) a → a (s - (i + N)) = a (s - i) := fun a s i ha => by
    rw [← ha (s - (i + N))]; congr 1; ring
  have P1 : Periodic (N : Int) (c1r (c.ijk.first + c.ijk.last) (perExt c.ijk.first N m.psi)) := fun i => key _ _ i P0
  have G1 : Periodic (N : Int) (f1r (c.ijk.first + c.ijk.last) (perExt c.ijk.first N m.GC)) := fun i => congrArg Neg.neg (key _ _ i G0)
  have ho : c'.o = c.o := by rw [h'.ho, h.ho]; rfl
  have hr' := cyc_run h' (by rw [hni]; exact hn) (by rw [hni, ho]; exact hx) filt P1 G1 m'
    (by rw [hf]; intro i a b; rw [hpsi i a b, a0 _ (by omega) (by omega)]; rfl)
    (by rw [hf]; intro i a b; rw [hGC i a (by omega), a1 _ (by omega) (by omega)]; rfl) t
  intro i a b
  rw [hr' i (by rw [hf]; exact a) (by rw [hf]; exact b), hni, run_r, hr _ (by omega) (by omega)]
  rfl

/-- hypotheses met: 5 points, fct, three passes, a field that is not the same read backwards -/
example : CyclicSetup (demo1 (oAbs ||| oFct) 3) ⟨oAbs ||| oFct, .exact, .noextrp, 1/1000, 1/1000, fun _ => 1, fun _ => 0, fun _ => 0⟩ (4 : Nat) ∧
    CyclicSetup (demo1 (oAbs ||| oFct) 3) (Spec1.Par.rev ⟨oAbs ||| oFct, .exact, .noextrp, 1/1000, 1/1000, fun _ => 1, fun _ => 0, fun _ => 0⟩ (0 + 4)) (4 : Nat) ∧
    (demo1 (oAbs ||| oFct) 3).ijk.first = 0 ∧ (demo1 (oAbs ||| oFct) 3).ijk.last = 4 ∧ HaloCovered (oAbs ||| oFct) 3 ∧
    (demoMem 7).psi 4 = (demoMem 7).psi 0 ∧ (demoMem 7).psi 3 ≠ (demoMem 7).psi 1 :=
  ⟨⟨rfl, rfl, rfl, rfl, rfl, rfl, by decide, rfl, rfl, ⟨fun _ => rfl, fun _ => rfl, fun _ => rfl⟩, fun _ _ _ => rfl, fun _ _ _ => rfl, fun _ _ _ => rfl⟩,
   ⟨rfl, rfl, rfl, rfl, rfl, rfl, by decide, rfl, rfl, ⟨fun _ => rfl, fun _ => by simp [Spec1.Par.rev, f1r], fun _ => by simp [Spec1.Par.rev, f1r]⟩, fun _ _ _ => rfl,
     fun _ _ _ => by simp [Spec1.Par.rev, f1r, demo1], fun _ _ _ => by simp [Spec1.Par.rev, f1r, demo1]⟩,
   rfl, rfl, Or.inr (Or.inl (by decide)), by decide +kernel, by decide +kernel⟩

end Mpdata
