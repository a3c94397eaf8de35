import Verif.Lemmas.PeriodicN
import Verif.Model.Prs
import Mathlib.Tactic.LinearCombination
import Mathlib.Algebra.BigOperators.Ring.Finset
import Mathlib.Tactic.FieldSimp
import Mathlib.Algebra.BigOperators.Field
/-! # C41: discrete gradient and divergence -/
set_option linter.unusedSectionVars false
namespace Mpdata
variable {K : Type} [Field K] {n : Nat}

/-- C41: gradients (centred and compact) and the divergence vanish on uniform fields. -/
theorem C41_constant (dx : Fin n → K) (a : K) (v : Fin n → K) (d : Fin n) (x : Fin n → Int) :
    calcGrad dx (fun _ => a) d x = 0 ∧ gradCmpct d (dx d) (fun _ => a) x = 0 ∧ divC dx (fun e _ => v e) x = 0 := by
  refine ⟨by simp [calcGrad, gradC], by simp [gradCmpct], by simp [divC]⟩

theorem linear_diff (dx s : Fin n → K) (d : Fin n) (x : Fin n → Int) (k : Int) :
    ∑ e, s e * (dx e * ((stepIdx x d k e : Int) : K)) = ∑ e, s e * (dx e * ((x e : Int) : K)) + s d * (dx d * (k : K)) := by
  have : ∀ e, s e * (dx e * ((stepIdx x d k e : Int) : K)) = s e * (dx e * ((x e : Int) : K)) + if e = d then s d * (dx d * (k : K)) else 0 := by
    intro e; unfold stepIdx; split_ifs with h
    · subst h; push_cast; ring
    · ring
  rw [Finset.sum_congr rfl fun e _ => this e, Finset.sum_add_distrib, Finset.sum_ite_eq' Finset.univ d]
  simp

/-- C41: on a linear field, `c + Σ s_e X_e` with the coordinates `X_e = dx_e x_e`, both gradients equal the slope at every point; on a linear vector field the
divergence is the trace. -/
theorem C41_linear [CharZero K] (dx : Fin n → K) (hdx : ∀ d, dx d ≠ 0) (c : K) (s : Fin n → K) (A : Fin n → Fin n → K) (b : Fin n → K) (d : Fin n) (x : Fin n → Int) :
    calcGrad dx (fun y => c + ∑ e, s e * (dx e * ((y e : Int) : K))) d x = s d ∧
    gradCmpct d (dx d) (fun y => c + ∑ e, s e * (dx e * ((y e : Int) : K))) x = s d ∧
    divC dx (fun f y => b f + ∑ e, A f e * (dx e * ((y e : Int) : K))) x = ∑ f, A f f := by
  have h2 : (2 : K) ≠ 0 := two_ne_zero
  refine ⟨?_, ?_, ?_⟩
  · unfold calcGrad gradC
    simp only [linear_diff]
    have := hdx d
    push_cast; field_simp; ring
  · unfold gradCmpct
    simp only [linear_diff]
    have := hdx d
    push_cast; field_simp; ring
  · unfold divC
    simp only [linear_diff]
    refine Finset.sum_congr rfl fun f _ => ?_
    have := hdx f
    push_cast; field_simp; ring

/-- C41: on a cyclic domain the divergence sums to zero. -/
theorem C41_divergence_sums_to_zero (dx : Fin n → K) (P : Fin n → Nat) (hP : ∀ d, 1 ≤ P d) (v : Fin n → (Fin n → Int) → K) (hv : ∀ d, PeriodicN P (v d)) :
    ∑ x ∈ period P, divC dx v x = 0 := by
  unfold divC
  rw [Finset.sum_comm]
  refine Finset.sum_eq_zero fun d _ => ?_
  rw [← Finset.sum_div, ← Finset.sum_div, Finset.sum_sub_distrib, sum_shift hP (hv d), sum_shift hP (hv d), sub_self]
  simp

/-- C41: on a cyclic domain gradient and divergence are negative adjoints (summation by parts). -/
theorem C41_adjoint (dx : Fin n → K) (P : Fin n → Nat) (hP : ∀ d, 1 ≤ P d) (phi : (Fin n → Int) → K) (hphi : PeriodicN P phi)
    (v : Fin n → (Fin n → Int) → K) (hv : ∀ d, PeriodicN P (v d)) :
    ∑ x ∈ period P, phi x * divC dx v x = - ∑ x ∈ period P, ∑ d, calcGrad dx phi d x * v d x := by
  unfold divC calcGrad gradC
  rw [Finset.sum_comm (s := period P) (t := Finset.univ)]
  simp_rw [Finset.mul_sum]
  rw [Finset.sum_comm (s := period P) (t := Finset.univ), ← Finset.sum_neg_distrib]
  refine Finset.sum_congr rfl fun d _ => ?_
  have e1 : ∑ x ∈ period P, phi x * v d (stepIdx x d 1) = ∑ x ∈ period P, phi (stepIdx x d (-1)) * v d x := by
    have := sum_shift hP (f := fun x => phi x * v d (stepIdx x d 1)) (PeriodicN.map2 (· * ·) hphi ((hv d).shift d 1)) d (-1)
    rw [← this]
    refine Finset.sum_congr rfl fun x _ => ?_
    rw [stepIdx_add]; simp [stepIdx_zero]
  have e2 : ∑ x ∈ period P, phi x * v d (stepIdx x d (-1)) = ∑ x ∈ period P, phi (stepIdx x d 1) * v d x := by
    have := sum_shift hP (f := fun x => phi x * v d (stepIdx x d (-1))) (PeriodicN.map2 (· * ·) hphi ((hv d).shift d (-1))) d 1
    rw [← this]
    refine Finset.sum_congr rfl fun x _ => ?_
    rw [stepIdx_add]; simp [stepIdx_zero]
  have l : ∑ x ∈ period P, phi x * ((v d (stepIdx x d 1) - v d (stepIdx x d (-1))) / dx d / 2) =
      (∑ x ∈ period P, phi x * v d (stepIdx x d 1) - ∑ x ∈ period P, phi x * v d (stepIdx x d (-1))) / dx d / 2 := by
    rw [← Finset.sum_sub_distrib, Finset.sum_div, Finset.sum_div]
    refine Finset.sum_congr rfl fun x _ => ?_
    ring
  have r : ∑ x ∈ period P, (phi (stepIdx x d 1) - phi (stepIdx x d (-1))) / dx d / 2 * v d x =
      (∑ x ∈ period P, phi (stepIdx x d 1) * v d x - ∑ x ∈ period P, phi (stepIdx x d (-1)) * v d x) / dx d / 2 := by
    rw [← Finset.sum_sub_distrib, Finset.sum_div, Finset.sum_div]
    refine Finset.sum_congr rfl fun x _ => ?_
    ring
  rw [l, r, e1, e2]; ring

/-- C41: the cyclic halo fill provides what the operators assume: for a field that is periodic with the period of the grid, the filled array agrees with the
field at every grid point and at the neighbours the operators read. -/
theorem C41_cyclic_halo (N : Fin n → Nat) (hN : ∀ d, 2 ≤ N d) (a : (Fin n → Int) → K) (ha : PeriodicN (fun d => N d - 1) a) (x : Fin n → Int) (hx : Prs.inBox N x) (d : Fin n) :
    Prs.presFill N (fun _ => .cyclic) a x = a x ∧
    Prs.presFill N (fun _ => .cyclic) a (stepIdx x d 1) = a (stepIdx x d 1) ∧
    Prs.presFill N (fun _ => .cyclic) a (stepIdx x d (-1)) = a (stepIdx x d (-1)) := by
  have inside : ∀ y, Prs.inBox N y → Prs.presFill N (fun _ => .cyclic) a y = a y := by
    intro y hy
    unfold Prs.presFill
    simp only [hy, if_true]
    rw [Finset.sum_eq_zero, add_zero]
    intro e _
    have := hy e
    rw [if_neg (by omega), if_neg (by omega)]
  refine ⟨inside x hx, ?_, ?_⟩
  · by_cases hb : Prs.inBox N (stepIdx x d 1)
    · exact inside _ hb
    · have hxd : x d = (N d : Int) - 1 := by
        by_contra hne
        refine hb fun e => ?_
        have := hx e
        unfold stepIdx
        split_ifs with he
        · subst he; omega
        · omega
      unfold Prs.presFill
      simp only [hb, if_false, zero_add]
      rw [Finset.sum_eq_single d]
      · have h1 : stepIdx x d 1 d = N d := by unfold stepIdx; simp [hxd]
        rw [if_neg (by omega), if_pos h1]
        have hset : Prs.setIdx (stepIdx x d 1) d 1 = stepIdx (stepIdx x d 1) d (-1 * ((N d - 1 : Nat) : Int)) := by
          funext e
          have := hN d
          unfold Prs.setIdx stepIdx
          split_ifs with he
          · subst he; omega
          · rfl
        have hin : Prs.inBox N (Prs.setIdx (stepIdx x d 1) d 1) := by
          intro e
          have := hx e; have := hN d
          unfold Prs.setIdx stepIdx
          split_ifs with he
          · subst he; omega
          · omega
        rw [if_pos hin, hset]
        exact ha.mul _ d (-1)
      · intro e _ hne
        have := hx e
        have he : stepIdx x d 1 e = x e := by unfold stepIdx; rw [if_neg hne]
        rw [he, if_neg (by omega), if_neg (by omega)]
      · intro h; exact absurd (Finset.mem_univ d) h
  · by_cases hb : Prs.inBox N (stepIdx x d (-1))
    · exact inside _ hb
    · have hxd : x d = 0 := by
        by_contra hne
        refine hb fun e => ?_
        have := hx e
        unfold stepIdx
        split_ifs with he
        · subst he; omega
        · omega
      unfold Prs.presFill
      simp only [hb, if_false, zero_add]
      rw [Finset.sum_eq_single d]
      · have h1 : stepIdx x d (-1) d = -1 := by unfold stepIdx; simp [hxd]
        rw [if_pos h1]
        have hset : Prs.setIdx (stepIdx x d (-1)) d ((N d : Int) - 2) = stepIdx (stepIdx x d (-1)) d (1 * ((N d - 1 : Nat) : Int)) := by
          funext e
          have := hN d
          unfold Prs.setIdx stepIdx
          split_ifs with he
          · subst he; omega
          · rfl
        have hin : Prs.inBox N (Prs.setIdx (stepIdx x d (-1)) d ((N d : Int) - 2)) := by
          intro e
          have := hx e; have := hN d
          unfold Prs.setIdx stepIdx
          split_ifs with he
          · subst he; omega
          · omega
        simp only [hin, if_true]
        rw [hset]
        exact ha.mul _ d 1
      · intro e _ hne
        have := hx e
        have he : stepIdx x d (-1) e = x e := by unfold stepIdx; rw [if_neg hne]
        rw [he, if_neg (by omega), if_neg (by omega)]
      · intro h; exact absurd (Finset.mem_univ d) h

/-- C41, C34: hence on a cyclic domain the operator of the pressure solvers, weighted with the density, is symmetric, -/
theorem C41_laplacian_symmetric (dx : Fin n → K) (P : Fin n → Nat) (hP : ∀ d, 1 ≤ P d) (G a b : (Fin n → Int) → K) (hG : PeriodicN P G)
    (ha : PeriodicN P a) (hb : PeriodicN P b) :
    ∑ x ∈ period P, a x * divC dx (fun d y => G y * calcGrad dx b d y) x = ∑ x ∈ period P, b x * divC dx (fun d y => G y * calcGrad dx a d y) x := by
  have hg : ∀ (f : (Fin n → Int) → K), PeriodicN P f → ∀ d, PeriodicN P (fun y => G y * calcGrad dx f d y) := by
    intro f hf d
    refine PeriodicN.map2 (· * ·) hG ?_
    unfold calcGrad gradC
    exact PeriodicN.map2 (fun u w => (u - w) / dx d / 2) (hf.shift d 1) (hf.shift d (-1))
  rw [C41_adjoint dx P hP a ha _ (hg b hb), C41_adjoint dx P hP b hb _ (hg a ha)]
  congr 1
  refine Finset.sum_congr rfl fun x _ => Finset.sum_congr rfl fun d _ => ?_
  ring

/-- C41, C34: ... and negative semi-definite for a non-negative density. -/
theorem C41_laplacian_negative [LinearOrder K] [IsStrictOrderedRing K] (dx : Fin n → K) (P : Fin n → Nat) (hP : ∀ d, 1 ≤ P d) (G a : (Fin n → Int) → K) (hG : PeriodicN P G)
    (hG0 : ∀ x, 0 ≤ G x) (ha : PeriodicN P a) : ∑ x ∈ period P, a x * divC dx (fun d y => G y * calcGrad dx a d y) x ≤ 0 := by
  have hg : ∀ d, PeriodicN P (fun y => G y * calcGrad dx a d y) := by
    intro d
    refine PeriodicN.map2 (· * ·) hG ?_
    unfold calcGrad gradC
    exact PeriodicN.map2 (fun u w => (u - w) / dx d / 2) (ha.shift d 1) (ha.shift d (-1))
  rw [C41_adjoint dx P hP a ha _ hg, neg_nonpos]
  refine Finset.sum_nonneg fun x _ => Finset.sum_nonneg fun d _ => ?_
  have : calcGrad dx a d x * (G x * calcGrad dx a d x) = G x * (calcGrad dx a d x * calcGrad dx a d x) := by ring
  rw [this]
  exact mul_nonneg (hG0 x) (mul_self_nonneg _)

/-- a non-constant periodic field on a 4 x 3 period meets the hypotheses -/
example : PeriodicN (n := 2) (fun d => if d = 0 then 4 else 3) (fun x => (x 0 % 4 : Int) + 2 * (x 1 % 3)) ∧ (∀ d : Fin 2, 1 ≤ if d = 0 then 4 else 3) := by
  constructor
  · intro x d
    unfold stepIdx
    match d with
    | 0 => simp
    | 1 => simp
  · intro d; split_ifs <;> omega

end Mpdata
