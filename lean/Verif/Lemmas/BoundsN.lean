import Verif.Lemmas.CyclicN
import Verif.Lemmas.Fct
import Mathlib.Algebra.BigOperators.Ring.Finset
import Mathlib.Algebra.Order.BigOperators.Group.Finset
import Mathlib.Algebra.BigOperators.Group.Finset.Sigma
import Mathlib.Tactic.LinearCombination
/-! # Totals and bounds of the N-D scheme -/
set_option linter.unusedSectionVars false
namespace Mpdata
variable {n : Nat} {K : Type} [Field K] [LinearOrder K] [IsStrictOrderedRing K]

/-! ### totals -/
theorem donorN_total {o : OptsT} {F : Formulae n K} (hF : FGood o F) {P : Fin n → Nat} (hP : ∀ d, 1 ≤ P d) {G : Sca n K} (hG : ∀ x, gFacN o G x ≠ 0)
    (psi : Sca n K) {flx : Vec n K} (hf : ∀ d, PeriodicN P (flx d)) :
    ∑ x ∈ period P, gFacN o G x * F.donor psi flx G x = ∑ x ∈ period P, gFacN o G x * psi x := by
  have e : ∀ x, gFacN o G x * F.donor psi flx G x = gFacN o G x * psi x + ∑ d, (flx d (stepIdx x d (-1)) - flx d x) := by
    intro x; rw [hF.donor_eq, mul_add, mul_div_cancel₀ _ (hG x)]
  rw [Finset.sum_congr rfl (fun x _ => e x), Finset.sum_add_distrib, Finset.sum_comm]
  have : ∀ d, ∑ x ∈ period P, (flx d (stepIdx x d (-1)) - flx d x) = 0 := by
    intro d; rw [Finset.sum_sub_distrib, sum_shift hP (hf d) d (-1), sub_self]
  simp [this]

section
variable {p : SpecN.Par n K} {P : Fin n → Nat}

theorem makeFluxN_periodic (o : OptsT) {psi : Sca n K} {A : Vec n K} (h : PeriodicN P psi) (hA : ∀ d, PeriodicN P (A d)) (d : Fin n) :
    PeriodicN P (makeFluxN o psi A d) := by
  intro x e
  unfold makeFluxN
  rw [h, hA d, stepIdx_comm, h]

theorem limitedN_periodic (hp : ParPerN p P) {psi0 psi : Sca n K} {A : Vec n K} (h0 : PeriodicN P psi0) (h : PeriodicN P psi)
    (hA : ∀ d, PeriodicN P (A d)) (d : Fin n) : PeriodicN P (SpecN.limited p psi0 psi A d) := by
  intro x e
  have := congrFun (congrFun (limitedN_sh p psi0 psi A e (P e)) d) x
  have e1 : (fun d => shN e (P e) (A d)) = A := by funext d; exact shN_per (hA d) e
  rw [par_sh_per hp, shN_per h0, shN_per h, e1] at this
  exact this.symm

theorem passesN_total (hF : FGood p.o p.F) (hP : ∀ d, 1 ≤ P d) (hp : ParPerN p P) (hG : ∀ x, gFacN p.o p.st.G x ≠ 0) {psi0 : Sca n K} {GC : Vec n K}
    (h0 : PeriodicN P psi0) (hg : ∀ d, PeriodicN P (GC d)) (k : Nat) :
    ∑ x ∈ period P, gFacN p.o p.st.G x * (SpecN.passes p psi0 GC k).psi x = ∑ x ∈ period P, gFacN p.o p.st.G x * psi0 x := by
  induction k with
  | zero => exact donorN_total hF hP hG _ (makeFluxN_periodic _ h0 hg)
  | succ k ih =>
    obtain ⟨i1, i2, i3⟩ := passesN_periodic hF hp h0 hg k
    have hA := velocityN_periodic hF hp i1 i2 i3
    have hC : ∀ d, PeriodicN P ((if isset p.o oFct = true then SpecN.limited p psi0 (SpecN.passes p psi0 GC k).psi
        (SpecN.velocity p (SpecN.passes p psi0 GC k).psi (SpecN.passes p psi0 GC k).old (SpecN.passes p psi0 GC k).U)
        else SpecN.velocity p (SpecN.passes p psi0 GC k).psi (SpecN.passes p psi0 GC k).old (SpecN.passes p psi0 GC k).U) d) := by
      intro d
      split
      · exact limitedN_periodic hp h0 i1 hA d
      · exact hA d
    rw [← ih]
    refine donorN_total hF hP hG _ ?_
    intro d
    split
    · exact hC d
    · exact makeFluxN_periodic _ i1 hC d

theorem specN_run_total (hF : FGood p.o p.F) (hP : ∀ d, 1 ≤ P d) (hp : ParPerN p P) (hG : ∀ x, gFacN p.o p.st.G x ≠ 0) {psi0 : Sca n K} {GC : Vec n K}
    (h0 : PeriodicN P psi0) (hg : ∀ d, PeriodicN P (GC d)) (N : Nat) (filt : Nat → Bool) (t : Nat) :
    ∑ x ∈ period P, gFacN p.o p.st.G x * SpecN.run p N filt GC t psi0 x = ∑ x ∈ period P, gFacN p.o p.st.G x * psi0 x := by
  induction t with
  | zero => rfl
  | succ t ih => rw [← ih]; exact passesN_total hF hP hp hG (specN_run_periodic hF hp N filt h0 hg t) hg _
end

/-! ### the upwind pass -/
theorem upwindN_eq {o : OptsT} {F : Formulae n K} (hF : FGood o F) (psi G : Sca n K) (GC : Vec n K) (x : Idx n) (v : K) (hg : gFacN o G x ≠ 0) :
    gFacN o G x * (F.donor psi (makeFluxN o psi GC) G x - v) = (psi x - v) * (gFacN o G x - outflowN GC x) - v * divN GC x
      + ∑ d, (pospart o (GC d (stepIdx x d (-1))) * (psi (stepIdx x d (-1)) - v) + -negpart o (GC d x) * (psi (stepIdx x d 1) - v)) := by
  rw [hF.donor_eq, mul_sub, mul_add, mul_div_cancel₀ _ hg]
  have e : ∀ d, makeFluxN o psi GC d (stepIdx x d (-1)) - makeFluxN o psi GC d x =
      (pospart o (GC d (stepIdx x d (-1))) * (psi (stepIdx x d (-1)) - v) + -negpart o (GC d x) * (psi (stepIdx x d 1) - v))
      - (psi x - v) * (max 0 (GC d x) - min 0 (GC d (stepIdx x d (-1)))) - v * (GC d x - GC d (stepIdx x d (-1))) := by
    intro d
    unfold makeFluxN donorF
    rw [← pospart_eq o, ← negpart_eq o]
    rw [stepIdx_add, show (-1 : Int) + 1 = 0 by ring, stepIdx_zero]
    have h1 := pos_add_neg o (GC d x)
    have h2 := pos_add_neg o (GC d (stepIdx x d (-1)))
    linear_combination v * h2 - v * h1
  rw [Finset.sum_congr rfl (fun d _ => e d), Finset.sum_sub_distrib, Finset.sum_sub_distrib, ← Finset.mul_sum, ← Finset.mul_sum]
  unfold outflowN divN
  ring

theorem upwindN_ge {o : OptsT} {F : Formulae n K} (hF : FGood o F) (psi G : Sca n K) (GC : Vec n K) (x : Idx n) (v : K) (hg : 0 < gFacN o G x)
    (hdiv : v * divN GC x ≤ 0) (hc : outflowN GC x ≤ gFacN o G x) (h0 : v ≤ psi x) (h1 : ∀ d, v ≤ psi (stepIdx x d (-1))) (h2 : ∀ d, v ≤ psi (stepIdx x d 1)) :
    v ≤ F.donor psi (makeFluxN o psi GC) G x := by
  have e := upwindN_eq hF psi G GC x v hg.ne'
  have s : 0 ≤ ∑ d, (pospart o (GC d (stepIdx x d (-1))) * (psi (stepIdx x d (-1)) - v) + -negpart o (GC d x) * (psi (stepIdx x d 1) - v)) :=
    Finset.sum_nonneg fun d _ => add_nonneg (mul_nonneg (pospart_nonneg _ _) (sub_nonneg.2 (h1 d)))
      (mul_nonneg (neg_nonneg.2 (negpart_nonpos _ _)) (sub_nonneg.2 (h2 d)))
  have m := mul_nonneg (sub_nonneg.2 h0) (sub_nonneg.2 hc)
  have : 0 ≤ gFacN o G x * (F.donor psi (makeFluxN o psi GC) G x - v) := by rw [e]; linarith
  exact sub_nonneg.1 (nonneg_of_mul_nonneg_right this hg)

theorem upwindN_le {o : OptsT} {F : Formulae n K} (hF : FGood o F) (psi G : Sca n K) (GC : Vec n K) (x : Idx n) (v : K) (hg : 0 < gFacN o G x)
    (hdiv : 0 ≤ v * divN GC x) (hc : outflowN GC x ≤ gFacN o G x) (h0 : psi x ≤ v) (h1 : ∀ d, psi (stepIdx x d (-1)) ≤ v) (h2 : ∀ d, psi (stepIdx x d 1) ≤ v) :
    F.donor psi (makeFluxN o psi GC) G x ≤ v := by
  have e := upwindN_eq hF psi G GC x v hg.ne'
  have s : ∑ d, (pospart o (GC d (stepIdx x d (-1))) * (psi (stepIdx x d (-1)) - v) + -negpart o (GC d x) * (psi (stepIdx x d 1) - v)) ≤ 0 :=
    Finset.sum_nonpos fun d _ => add_nonpos (mul_nonpos_of_nonneg_of_nonpos (pospart_nonneg _ _) (sub_nonpos.2 (h1 d)))
      (mul_nonpos_of_nonneg_of_nonpos (neg_nonneg.2 (negpart_nonpos _ _)) (sub_nonpos.2 (h2 d)))
  have m := mul_nonneg (sub_nonneg.2 h0) (sub_nonneg.2 hc)
  have : 0 ≤ gFacN o G x * (v - F.donor psi (makeFluxN o psi GC) G x) := by
    have : gFacN o G x * (v - F.donor psi (makeFluxN o psi GC) G x) = -(gFacN o G x * (F.donor psi (makeFluxN o psi GC) G x - v)) := by ring
    rw [this, e]; nlinarith
  exact sub_nonneg.1 (nonneg_of_mul_nonneg_right this hg)

/-! ### extrema over a cell and its face neighbours -/
theorem foldl_max_le_iff (psi : Sca n K) (x : Idx n) (l : List (Fin n)) (m v : K) :
    l.foldl (fun m d => max (max m (psi (stepIdx x d 1))) (psi (stepIdx x d (-1)))) m ≤ v ↔ m ≤ v ∧ ∀ d ∈ l, psi (stepIdx x d 1) ≤ v ∧ psi (stepIdx x d (-1)) ≤ v := by
  induction l generalizing m with
  | nil => simp
  | cons a l ih =>
    rw [List.foldl_cons, ih]
    simp only [max_le_iff, List.mem_cons, forall_eq_or_imp]; tauto
theorem le_foldl_min_iff (psi : Sca n K) (x : Idx n) (l : List (Fin n)) (m v : K) :
    v ≤ l.foldl (fun m d => min (min m (psi (stepIdx x d 1))) (psi (stepIdx x d (-1)))) m ↔ v ≤ m ∧ ∀ d ∈ l, v ≤ psi (stepIdx x d 1) ∧ v ≤ psi (stepIdx x d (-1)) := by
  induction l generalizing m with
  | nil => simp
  | cons a l ih =>
    rw [List.foldl_cons, ih]
    simp only [le_min_iff, List.mem_cons, forall_eq_or_imp]; tauto

theorem nbMax_le_iff (psi : Sca n K) (x : Idx n) (v : K) : nbMax psi x ≤ v ↔ psi x ≤ v ∧ ∀ d, psi (stepIdx x d 1) ≤ v ∧ psi (stepIdx x d (-1)) ≤ v := by
  unfold nbMax; rw [foldl_max_le_iff]; simp
theorem le_nbMin_iff (psi : Sca n K) (x : Idx n) (v : K) : v ≤ nbMin psi x ↔ v ≤ psi x ∧ ∀ d, v ≤ psi (stepIdx x d 1) ∧ v ≤ psi (stepIdx x d (-1)) := by
  unfold nbMin; rw [le_foldl_min_iff]; simp
theorem le_nbMax (psi : Sca n K) (x : Idx n) : psi x ≤ nbMax psi x := ((nbMax_le_iff psi x _).1 le_rfl).1
theorem nbMin_le (psi : Sca n K) (x : Idx n) : nbMin psi x ≤ psi x := ((le_nbMin_iff psi x _).1 le_rfl).1

/-! ### the limiter -/
section
variable (p : SpecN.Par n K)

/-- unlimited corrective flux of a pass -/
def rawFluxN (psi : Sca n K) (A : Vec n K) : Vec n K := if isset p.o oIga then A else makeFluxN p.o psi A

theorem rawFluxN_eq (psi : Sca n K) (A : Vec n K) (d : Fin n) (x : Idx n) : rawFluxN p psi A d x = faceFlux p.o (psi x) (psi (stepIdx x d 1)) (A d x) := by
  unfold rawFluxN faceFlux makeFluxN; split <;> rfl

theorem betaUpN_nonneg (psi0 psi : Sca n K) (flx : Vec n K) (x : Idx n) (hg : 0 < gFacN p.o p.st.G x) (he : 0 ≤ p.eps) :
    0 ≤ betaUpN p.o p.eps psi (nbMax psi0) flx p.st.G x := by
  unfold betaUpN
  apply fctFrac_nonneg _ _ _ he
  · exact mul_nonneg (sub_nonneg.2 ((le_nbMax psi x).trans (le_max_right _ _))) hg.le
  · exact Finset.sum_nonneg fun d _ => sub_nonneg.2 ((negpart_nonpos _ _).trans (pospart_nonneg _ _))
theorem betaDnN_nonneg (psi0 psi : Sca n K) (flx : Vec n K) (x : Idx n) (hg : 0 < gFacN p.o p.st.G x) (he : 0 ≤ p.eps) :
    0 ≤ betaDnN p.o p.eps psi (nbMin psi0) flx p.st.G x := by
  unfold betaDnN
  apply fctFrac_nonneg _ _ _ he
  · exact mul_nonneg (sub_nonneg.2 ((min_le_right _ _).trans (nbMin_le psi x))) hg.le
  · exact Finset.sum_nonneg fun d _ => sub_nonneg.2 ((negpart_nonpos _ _).trans (pospart_nonneg _ _))

theorem limitedN_eq (psi0 psi : Sca n K) (A : Vec n K) (d : Fin n) (x : Idx n) : SpecN.limited p psi0 psi A d x = A d x * monoCoef p.o (psi x) (psi (stepIdx x d 1))
    (betaUpN p.o p.eps psi (nbMax psi0) (rawFluxN p psi A) p.st.G x) (betaDnN p.o p.eps psi (nbMin psi0) (rawFluxN p psi A) p.st.G x)
    (betaUpN p.o p.eps psi (nbMax psi0) (rawFluxN p psi A) p.st.G (stepIdx x d 1)) (betaDnN p.o p.eps psi (nbMin psi0) (rawFluxN p psi A) p.st.G (stepIdx x d 1)) (A d x) :=
  gcMonoN_eq _ _ _ _ _ _ _

theorem limitedN_weakens (hg : ∀ x, 0 < gFacN p.o p.st.G x) (he : 0 ≤ p.eps) (psi0 psi : Sca n K) (A : Vec n K) (d : Fin n) (x : Idx n) :
    |SpecN.limited p psi0 psi A d x| ≤ |A d x| ∧ 0 ≤ SpecN.limited p psi0 psi A d x * A d x := by
  obtain ⟨a, b⟩ := monoCoef_range p.o (psi x) (psi (stepIdx x d 1)) _ _ _ _ (A d x) (betaUpN_nonneg p psi0 psi (rawFluxN p psi A) x (hg _) he)
    (betaDnN_nonneg p psi0 psi (rawFluxN p psi A) x (hg _) he) (betaUpN_nonneg p psi0 psi (rawFluxN p psi A) (stepIdx x d 1) (hg _) he)
    (betaDnN_nonneg p psi0 psi (rawFluxN p psi A) (stepIdx x d 1) (hg _) he)
  rw [limitedN_eq]
  generalize monoCoef p.o (psi x) (psi (stepIdx x d 1)) _ _ _ _ (A d x) = l at *
  constructor
  · rw [abs_mul, abs_of_nonneg a]; exact mul_le_of_le_one_right (abs_nonneg _) b
  · have := mul_nonneg a (mul_self_nonneg (A d x)); linarith [this]

theorem fctN_bounds (hF : FGood p.o p.F) (hf : isset p.o oFct = true) (hg : ∀ x, 0 < gFacN p.o p.st.G x) (he : 0 ≤ p.eps) (psi0 psi : Sca n K) (A : Vec n K) (x : Idx n)
    (hs : SignOk p.o (psi x) ∧ ∀ d, SignOk p.o (psi (stepIdx x d 1)) ∧ SignOk p.o (psi (stepIdx x d (-1)))) :
    min (nbMin psi0 x) (nbMin psi x) ≤ SpecN.corrective p psi0 psi A x ∧ SpecN.corrective p psi0 psi A x ≤ max (nbMax psi0 x) (nbMax psi x) := by
  have hu := fun y => betaUpN_nonneg p psi0 psi (rawFluxN p psi A) y (hg y) he
  have hd := fun y => betaDnN_nonneg p psi0 psi (rawFluxN p psi A) y (hg y) he
  have hback : ∀ d, stepIdx (stepIdx x d (-1)) d 1 = x := fun d => by rw [stepIdx_add, show (-1 : Int) + 1 = 0 by ring, stepIdx_zero]
  have hR : ∀ d, _ := fun d => face_limOk p.o (psi x) (psi (stepIdx x d 1)) _ _ _ _ (A d x) (hu x) (hd x) (hu (stepIdx x d 1)) (hd (stepIdx x d 1)) hs.1 (hs.2 d).1
  have hL : ∀ d, _ := fun d => face_limOk p.o (psi (stepIdx x d (-1))) (psi (stepIdx (stepIdx x d (-1)) d 1)) _ _ _ _ (A d (stepIdx x d (-1)))
    (hu (stepIdx x d (-1))) (hd (stepIdx x d (-1))) (hu (stepIdx (stepIdx x d (-1)) d 1)) (hd (stepIdx (stepIdx x d (-1)) d 1)) (hs.2 d).2 (by rw [hback]; exact hs.1)
  simp only [← limitedN_eq, ← rawFluxN_eq] at hR hL
  have hc : SpecN.corrective p psi0 psi A x = psi x + (∑ d, (rawFluxN p psi (SpecN.limited p psi0 psi A) d (stepIdx x d (-1)) -
      rawFluxN p psi (SpecN.limited p psi0 psi A) d x)) / gFacN p.o p.st.G x := by
    unfold SpecN.corrective
    rw [hF.donor_eq, if_pos hf]; rfl
  rw [hc]
  generalize rawFluxN p psi (SpecN.limited p psi0 psi A) = FL at *
  have hgi := hg x
  have r1 : 0 ≤ max (nbMax psi0 x) (nbMax psi x) - psi x := sub_nonneg.2 ((le_nbMax psi x).trans (le_max_right _ _))
  have r2 : 0 ≤ psi x - min (nbMin psi0 x) (nbMin psi x) := sub_nonneg.2 ((min_le_right _ _).trans (nbMin_le psi x))
  have hsub : ∀ a b : K, a - b = a + -b := fun a b => sub_eq_add_neg a b
  have up := inflow_le _ _ p.eps (∑ d, (pospart p.o (rawFluxN p psi A d (stepIdx x d (-1))) - negpart p.o (rawFluxN p psi A d x)))
    (∑ d, (pospart p.o (FL d (stepIdx x d (-1))) - negpart p.o (FL d x))) r1 hgi he
    (Finset.sum_nonneg fun d _ => sub_nonneg.2 ((negpart_nonpos _ _).trans (pospart_nonneg _ _)))
    (by
      rw [Finset.mul_sum]
      refine Finset.sum_le_sum fun d _ => ?_
      have a := (hL d).posR
      have b := (hR d).negL
      rw [hback] at a
      unfold betaUpN at a b
      rw [mul_sub]; linarith)
  have dn := inflow_le _ _ p.eps (∑ d, (pospart p.o (rawFluxN p psi A d x) - negpart p.o (rawFluxN p psi A d (stepIdx x d (-1)))))
    (∑ d, (pospart p.o (FL d x) - negpart p.o (FL d (stepIdx x d (-1))))) r2 hgi he
    (Finset.sum_nonneg fun d _ => sub_nonneg.2 ((negpart_nonpos _ _).trans (pospart_nonneg _ _)))
    (by
      rw [Finset.mul_sum]
      refine Finset.sum_le_sum fun d _ => ?_
      have a := (hR d).posL
      have b := (hL d).negR
      rw [hback] at b
      unfold betaDnN at a b
      rw [mul_sub]; linarith)
  constructor
  · have : -(∑ d, (pospart p.o (FL d x) - negpart p.o (FL d (stepIdx x d (-1))))) / gFacN p.o p.st.G x ≤ (∑ d, (FL d (stepIdx x d (-1)) - FL d x)) / gFacN p.o p.st.G x := by
      refine div_le_div_of_nonneg_right ?_ hgi.le
      rw [← Finset.sum_neg_distrib]
      refine Finset.sum_le_sum fun d _ => ?_
      have s1 := flux_split p.o (FL d x); have s2 := flux_split p.o (FL d (stepIdx x d (-1)))
      have q1 := pospart_nonneg p.o (FL d (stepIdx x d (-1))); have q2 := negpart_nonpos p.o (FL d x)
      linarith
    rw [neg_div] at this; linarith
  · have : (∑ d, (FL d (stepIdx x d (-1)) - FL d x)) / gFacN p.o p.st.G x ≤ (∑ d, (pospart p.o (FL d (stepIdx x d (-1))) - negpart p.o (FL d x))) / gFacN p.o p.st.G x := by
      refine div_le_div_of_nonneg_right ?_ hgi.le
      refine Finset.sum_le_sum fun d _ => ?_
      have s1 := flux_split p.o (FL d x); have s2 := flux_split p.o (FL d (stepIdx x d (-1)))
      have q1 := pospart_nonneg p.o (FL d x); have q2 := negpart_nonpos p.o (FL d (stepIdx x d (-1)))
      linarith
    linarith

variable {p}
theorem withinN_passes (hF : FGood p.o p.F) (hf : isset p.o oFct = true) (hg : ∀ x, 0 < gFacN p.o p.st.G x) (he : 0 ≤ p.eps) (lo hi : K) (hs : SignOk p.o lo) (GC : Vec n K)
    (hdiv : ∀ x, divN GC x = 0) (hc : ∀ x, outflowN GC x ≤ gFacN p.o p.st.G x) (psi0 : Sca n K) (h0 : ∀ x, lo ≤ psi0 x ∧ psi0 x ≤ hi) (k : Nat) :
    ∀ x, lo ≤ (SpecN.passes p psi0 GC k).psi x ∧ (SpecN.passes p psi0 GC k).psi x ≤ hi := by
  induction k with
  | zero =>
    intro x
    exact ⟨upwindN_ge hF psi0 _ GC x lo (hg x) (by rw [hdiv]; simp) (hc x) (h0 _).1 (fun d => (h0 _).1) (fun d => (h0 _).1),
      upwindN_le hF psi0 _ GC x hi (hg x) (by rw [hdiv]; simp) (hc x) (h0 _).2 (fun d => (h0 _).2) (fun d => (h0 _).2)⟩
  | succ k ih =>
    intro x
    have hsg : ∀ y, SignOk p.o ((SpecN.passes p psi0 GC k).psi y) := fun y => hs.shift (ih y).1
    obtain ⟨a, b⟩ := fctN_bounds p hF hf hg he psi0 (SpecN.passes p psi0 GC k).psi
      (SpecN.velocity p (SpecN.passes p psi0 GC k).psi (SpecN.passes p psi0 GC k).old (SpecN.passes p psi0 GC k).U) x ⟨hsg _, fun d => ⟨hsg _, hsg _⟩⟩
    refine ⟨le_trans (le_min ?_ ?_) a, le_trans b (max_le ?_ ?_)⟩
    · exact (le_nbMin_iff _ _ _).2 ⟨(h0 _).1, fun d => ⟨(h0 _).1, (h0 _).1⟩⟩
    · exact (le_nbMin_iff _ _ _).2 ⟨(ih _).1, fun d => ⟨(ih _).1, (ih _).1⟩⟩
    · exact (nbMax_le_iff _ _ _).2 ⟨(h0 _).2, fun d => ⟨(h0 _).2, (h0 _).2⟩⟩
    · exact (nbMax_le_iff _ _ _).2 ⟨(ih _).2, fun d => ⟨(ih _).2, (ih _).2⟩⟩

theorem withinN_run (hF : FGood p.o p.F) (hf : isset p.o oFct = true) (hg : ∀ x, 0 < gFacN p.o p.st.G x) (he : 0 ≤ p.eps) (lo hi : K) (hs : SignOk p.o lo) (GC : Vec n K)
    (hdiv : ∀ x, divN GC x = 0) (hc : ∀ x, outflowN GC x ≤ gFacN p.o p.st.G x) (N : Nat) (filt : Nat → Bool) (psi0 : Sca n K) (h0 : ∀ x, lo ≤ psi0 x ∧ psi0 x ≤ hi) (t : Nat) :
    ∀ x, lo ≤ SpecN.run p N filt GC t psi0 x ∧ SpecN.run p N filt GC t psi0 x ≤ hi := by
  induction t with
  | zero => exact h0
  | succ t ih => exact withinN_passes hF hf hg he lo hi hs GC hdiv hc _ ih _
end
end Mpdata
