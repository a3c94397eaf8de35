import Verif.Lemmas.WallN
import Mathlib.Algebra.Order.BigOperators.Group.Finset
/-! # The sum over a period of a mirrored field is the trapezoidal sum over the domain -/
set_option linter.unusedSectionVars false
namespace Mpdata
variable {n : Nat} {K : Type} [Field K] [LinearOrder K]

/-- where a point of the doubled period lies in the domain -/
def foldI (w : Bool) (P k : Int) : Int := if k ≤ P then k else if w then 2 * P - k else k - P

def foldIdx (wall : Fin n → Bool) (P : Fin n → Nat) (x : Idx n) : Idx n := fun e => foldI (wall e) (P e) (x e)

theorem fold_one {wall : Fin n → Bool} {P : Fin n → Nat} {f : Sca n K} (hf : ContS wall P f) (d : Fin n) (x : Idx n) :
    f (fun e => if e = d then foldI (wall e) (P e) (x e) else x e) = f x := by
  by_cases h1 : x d ≤ P d
  · congr 1; funext e
    split_ifs with he
    · subst he; simp [foldI, h1]
    · rfl
  · by_cases hw : wall d = true
    · have e1 : (fun e => if e = d then foldI (wall e) (P e) (x e) else x e) = stepIdx (mirC d x) d (2 * P d) := by
        funext e; simp only [stepIdx, mirC]
        split_ifs with he
        · subst he; simp only [foldI, h1, hw, if_false, if_true]; ring
        · rfl
      rw [e1, hf.per _ d hw, hf.even _ d hw]
    · have hw' : wall d = false := by simpa using hw
      have := hf.cyc (stepIdx x d (-P d)) d hw'
      rw [stepIdx_add, neg_add_cancel, stepIdx_zero] at this
      rw [this]
      congr 1; funext e; simp only [stepIdx]
      split_ifs with he
      · subst he; simp only [foldI, h1, hw', if_false, Bool.false_eq_true]; ring
      · rfl

theorem fold_all {wall : Fin n → Bool} {P : Fin n → Nat} {f : Sca n K} (hf : ContS wall P f) (x : Idx n) : f (foldIdx wall P x) = f x := by
  have key : ∀ S : Finset (Fin n), f (fun e => if e ∈ S then foldI (wall e) (P e) (x e) else x e) = f x := by
    intro S
    induction S using Finset.induction_on with
    | empty => simp
    | insert d S hd ih =>
      rw [← ih, ← fold_one hf d (fun e => if e ∈ S then foldI (wall e) (P e) (x e) else x e)]
      congr 1; funext e
      by_cases he : e = d
      · subst he; simp [hd]
      · simp [he]
  have := key Finset.univ
  simp only [Finset.mem_univ, if_true] at this
  exact this

theorem foldI_range {w : Bool} {P k : Int} (h0 : 0 ≤ k) (h1 : k < 2 * P) : 0 ≤ foldI w P k ∧ foldI w P k ≤ P := by
  unfold foldI; split_ifs <;> omega

theorem fiber_card (w : Bool) (P : Nat) (hP : 1 ≤ P) (y : Int) (h0 : 0 ≤ y) (h1 : y ≤ P) :
    ((Finset.Ico 0 (2 * P : Int)).filter (fun k => foldI w P k = y)).card = if y = 0 ∨ y = P then 1 else 2 := by
  by_cases hy : y = 0 ∨ y = (P : Int)
  · rw [if_pos hy, Finset.card_eq_one]
    refine ⟨y, ?_⟩
    ext k
    rw [Finset.mem_filter, Finset.mem_Ico, Finset.mem_singleton]
    unfold foldI
    split_ifs <;> omega
  · rw [if_neg hy, Finset.card_eq_two]
    push Not at hy
    refine ⟨y, if w then 2 * P - y else y + P, ?_, ?_⟩
    · split_ifs <;> omega
    · ext k
      rw [Finset.mem_filter, Finset.mem_Ico, Finset.mem_insert, Finset.mem_singleton]
      unfold foldI
      cases w <;> simp only [if_true, if_false, Bool.false_eq_true] <;> split_ifs <;> omega

variable [IsStrictOrderedRing K]

theorem trap_sum {wall : Fin n → Bool} {P : Fin n → Nat} (hP : ∀ d, 1 ≤ P d) {f : Sca n K} (hf : ContS wall P f) :
    ∑ x ∈ period (fun d => 2 * P d), f x = 2 ^ n * ∑ x ∈ gridPts P, trapW P x * f x := by
  classical
  rw [← Finset.sum_congr rfl (fun x _ => fold_all hf x)]
  have hmaps : ∀ x ∈ period (fun d => 2 * P d), foldIdx wall P x ∈ gridPts P := by
    intro x hx
    have hx := mem_period.1 hx
    unfold gridPts
    rw [Fintype.mem_piFinset]
    intro d
    have := hx d
    rw [Finset.mem_Icc]
    exact foldI_range this.1 (by push_cast at this; exact this.2)
  rw [← Finset.sum_fiberwise_of_maps_to hmaps, Finset.mul_sum]
  refine Finset.sum_congr rfl (fun y hy => ?_)
  rw [Finset.sum_congr rfl (fun x hx => by rw [(Finset.mem_filter.1 hx).2]), Finset.sum_const, nsmul_eq_mul, ← mul_assoc]
  congr 1
  unfold gridPts at hy
  rw [Fintype.mem_piFinset] at hy
  have hset : (period (fun d => 2 * P d)).filter (fun x => foldIdx wall P x = y)
      = Fintype.piFinset (fun d => (Finset.Ico 0 (2 * P d : Int)).filter (fun k => foldI (wall d) (P d) k = y d)) := by
    ext x
    rw [Finset.mem_filter, Fintype.mem_piFinset, mem_period]
    simp only [Finset.mem_filter, Finset.mem_Ico]
    constructor
    · rintro ⟨h1, h2⟩ d
      have := h1 d
      push_cast at this
      exact ⟨this, congrFun h2 d⟩
    · intro h
      refine ⟨fun d => ?_, funext fun d => (h d).2⟩
      have := (h d).1
      push_cast
      exact this
  rw [hset, Fintype.card_piFinset]
  unfold trapW
  rw [show (2 : K) ^ n = ∏ _d : Fin n, (2 : K) by simp, ← Finset.prod_mul_distrib, Nat.cast_prod]
  refine Finset.prod_congr rfl (fun d _ => ?_)
  have hy' := Finset.mem_Icc.1 (hy d)
  rw [fiber_card (wall d) (P d) (hP d) (y d) hy'.1 hy'.2]
  split_ifs
  · rw [mul_one_div, div_self (two_ne_zero)]; simp
  · simp
end Mpdata
