import Verif.Model.Stress
import Verif.Props.Nabla
import Mathlib.Algebra.Order.BigOperators.Group.Finset
import Mathlib.Tactic.FinCases
/-! # C42, C52, C53: subgrid stresses -/
set_option linter.unusedSectionVars false
namespace Mpdata
variable {K : Type} [Field K] {n : Nat}

/-! ## Conservation -/

theorem sum_back {P : Fin n → Nat} (hP : ∀ d, 1 ≤ P d) {f : (Fin n → Int) → K} (h : PeriodicN P f) (d : Fin n) :
    ∑ x ∈ period P, (f x - f (stepIdx x d (-1))) = 0 := by
  rw [Finset.sum_sub_distrib, sum_shift hP h, sub_self]

/-- a field of period 3 in both dimensions, for the examples -/
def wave3 (d : Fin 2) (x : Fin 2 → Int) : ℚ := if x d % 3 = 0 then 7 else if x (d + 1) % 3 = 1 then 2 else 1
theorem wave3_periodic (d : Fin 2) : PeriodicN (fun _ => 3) (wave3 d) := by
  intro x e
  have h : ∀ c : Fin 2, (stepIdx x e ((3 : Nat) : Int)) c % 3 = x c % 3 := by
    intro c
    by_cases hc : c = e
    · subst hc; simp [stepIdx]
    · simp [stepIdx, hc]
  unfold wave3
  rw [h, h]

/-- C42: on a cyclic domain the density-weighted compact stress tendencies of every momentum component sum to zero, for any stress tensor. -/
theorem C42_momentum_any_stress (dx : Fin n → K) (P : Fin n → Nat) (hP : ∀ d, 1 ≤ P d) (G : (Fin n → Int) → K) (hG : ∀ x, G x ≠ 0) (coeff : K)
    (tau : Fin n → Fin n → (Fin n → Int) → K) (ht : ∀ d e, PeriodicN P (tau d e)) (d : Fin n) :
    ∑ x ∈ period P, G x * stressRhs dx G coeff tau d x = 0 := by
  have e1 : ∀ x, G x * stressRhs dx G coeff tau d x = coeff * ((tau d d x - tau d d (stepIdx x d (-1))) / dx d
    + ∑ e, if e = d then 0 else 1 / 2 * (tau d e x - tau d e (stepIdx x e (-1)) + tau d e (stepIdx x d (-1)) - tau d e (stepIdx (stepIdx x d (-1)) e (-1))) / dx e) := by
    intro x; unfold stressRhs
    rw [mul_div_assoc', mul_comm (G x), mul_div_assoc, div_self (hG x), mul_one]
  simp_rw [e1]
  rw [← Finset.mul_sum, Finset.sum_add_distrib, ← Finset.sum_div, sum_back hP (ht d d), Finset.sum_comm]
  rw [Finset.sum_eq_zero (s := Finset.univ)]
  · simp
  · intro e _
    by_cases he : e = d
    · simp [he]
    · simp only [he, if_false]
      rw [← Finset.sum_div, ← Finset.mul_sum]
      have : ∑ x ∈ period P, (tau d e x - tau d e (stepIdx x e (-1)) + tau d e (stepIdx x d (-1)) - tau d e (stepIdx (stepIdx x d (-1)) e (-1))) = 0 := by
        have a := sum_back hP (ht d e) e
        have b := sum_back hP ((ht d e).shift d (-1)) e
        rw [← add_zero (0 : K)]
        nth_rewrite 1 [← a]
        rw [← b, ← Finset.sum_add_distrib]
        refine Finset.sum_congr rfl fun x _ => ?_
        rw [stepIdx_comm x d e]
        ring
      rw [this]; simp
/-- hypotheses met: a stress of period 3 in both dimensions -/
example := C42_momentum_any_stress (K := ℚ) (n := 2) (fun _ => 1) (fun _ => 3) (by decide) (fun _ => 2) (fun _ => by norm_num) 5 (fun d e => wave3 (d + e)) (fun d e => wave3_periodic _) 1

theorem deformCmpct_periodic (z : Fin n) (dx : Fin n → K) (P : Fin n → Nat) (v : Fin n → (Fin n → Int) → K) (div : (Fin n → Int) → K)
    (hv : ∀ d, PeriodicN P (v d)) (hdiv : PeriodicN P div) (d e : Fin n) : PeriodicN P (deformCmpct z dx v div d e) := by
  intro x f
  have h1 : ∀ (g : (Fin n → Int) → K), PeriodicN P g → ∀ a k, g (stepIdx (stepIdx x f (P f)) a k) = g (stepIdx x a k) :=
    fun g hg a k => by rw [stepIdx_comm, hg]
  have h2 : ∀ (g : (Fin n → Int) → K), PeriodicN P g → ∀ a k b l, g (stepIdx (stepIdx (stepIdx x f (P f)) a k) b l) = g (stepIdx (stepIdx x a k) b l) :=
    fun g hg a k b l => by rw [stepIdx_comm x, stepIdx_comm _ f b, hg]
  unfold deformCmpct
  split_ifs with hde
  · unfold deformDiag
    simp only [h1 _ (hv _), h1 _ hdiv, h2 _ hdiv, hv _ x f, hdiv x f]
  · unfold deformOff
    simp only [h1 _ (hv _), h2 _ (hv _), hv _ x f]

theorem vipDiv_periodic (z : Fin n) (dx : Fin n → K) (P : Fin n → Nat) (v : Fin n → (Fin n → Int) → K) (rho : (Fin n → Int) → K)
    (hv : ∀ d, PeriodicN P (v d)) (hr : PeriodicN P rho) : PeriodicN P (vipDiv z dx v rho) := by
  intro x f
  unfold vipDiv
  rw [stepIdx_comm, hv z, hv z x f, hr, hr x f]

theorem stgrAvg_periodic (P : Fin n → Nat) (g : (Fin n → Int) → K) (hg : PeriodicN P g) (d e : Fin n) : PeriodicN P (stgrAvg g d e) := by
  intro x f
  have h1 : ∀ a k, g (stepIdx (stepIdx x f (P f)) a k) = g (stepIdx x a k) := fun a k => by rw [stepIdx_comm, hg]
  have h2 : ∀ a k b l, g (stepIdx (stepIdx (stepIdx x f (P f)) a k) b l) = g (stepIdx (stepIdx x a k) b l) :=
    fun a k b l => by rw [stepIdx_comm x, stepIdx_comm _ f b, hg]
  unfold stgrAvg
  split_ifs
  · simp only [h1, hg x f]
  · simp only [h1, h2, hg x f]

/-- C42: hence the subgrid model, with eddy viscosity `km` and density `G`, conserves every component of momentum on a cyclic domain, whatever the velocities, -/
theorem C42_momentum_conserved (z : Fin n) (dx : Fin n → K) (P : Fin n → Nat) (hP : ∀ d, 1 ≤ P d) (G km : (Fin n → Int) → K) (hG : PeriodicN P G) (hG0 : ∀ x, G x ≠ 0)
    (hkm : PeriodicN P km) (coeff : K) (v : Fin n → (Fin n → Int) → K) (hv : ∀ d, PeriodicN P (v d)) (d : Fin n) :
    ∑ x ∈ period P, G x * stressRhs dx G coeff (multKm 1 km G (deformCmpct z dx v (vipDiv z dx v G))) d x = 0 := by
  refine C42_momentum_any_stress dx P hP G hG0 coeff _ (fun a b => ?_) d
  unfold multKm
  exact PeriodicN.map2 (fun a b => a * b) (deformCmpct_periodic z dx P v _ hv (vipDiv_periodic z dx P v G hv hG) a b)
    (PeriodicN.map2 (fun a b => 1 * a * b) (stgrAvg_periodic P km hkm a b) (stgrAvg_periodic P G hG a b))
/-- hypotheses met: periodic velocities and viscosity, constant density -/
example := C42_momentum_conserved (K := ℚ) (n := 2) 1 (fun _ => 1/2) (fun _ => 3) (by decide) (fun _ => 2) (wave3 1) (fun _ _ => rfl) (fun _ => by norm_num) (wave3_periodic _) 5 (fun d => wave3 d)
  (fun d => wave3_periodic _) 1

/-- C42: ... and so does a constant viscosity. -/
theorem C42_momentum_conserved_dns (z : Fin n) (dx : Fin n → K) (P : Fin n → Nat) (hP : ∀ d, 1 ≤ P d) (G : (Fin n → Int) → K) (hG : PeriodicN P G) (hG0 : ∀ x, G x ≠ 0)
    (eta coeff : K) (v : Fin n → (Fin n → Int) → K) (hv : ∀ d, PeriodicN P (v d)) (d : Fin n) :
    ∑ x ∈ period P, G x * stressRhs dx G coeff (multEta eta (deformCmpct z dx v (vipDiv z dx v G))) d x = 0 := by
  refine C42_momentum_any_stress dx P hP G hG0 coeff _ (fun a b => ?_) d
  unfold multEta
  exact PeriodicN.map (fun a => a * eta) (deformCmpct_periodic z dx P v _ hv (vipDiv_periodic z dx P v G hv hG) a b)
example := C42_momentum_conserved_dns (K := ℚ) (n := 2) 1 (fun _ => 1/2) (fun _ => 3) (by decide) (fun _ => 2) (fun _ _ => rfl) (fun _ => by norm_num) 7 5 (fun d => wave3 d)
  (fun d => wave3_periodic _) 1

/-- C42: the density-weighted divergence of subgrid heat fluxes sums to zero on a cyclic domain. -/
theorem C42_heat_conserved (dx : Fin n → K) (P : Fin n → Nat) (hP : ∀ d, 1 ≤ P d) (G : (Fin n → Int) → K) (hG0 : ∀ x, G x ≠ 0)
    (f : Fin n → (Fin n → Int) → K) (hf : ∀ d, PeriodicN P (f d)) : ∑ x ∈ period P, G x * fluxDiv dx G f x = 0 := by
  have e1 : ∀ x, G x * fluxDiv dx G f x = ∑ d, (f d x - f d (stepIdx x d (-1))) / dx d := by
    intro x; unfold fluxDiv; rw [mul_div_assoc', mul_comm, mul_div_assoc, div_self (hG0 x), mul_one]
  simp_rw [e1]
  rw [Finset.sum_comm]
  refine Finset.sum_eq_zero fun d _ => ?_
  rw [← Finset.sum_div, sum_back hP (hf d), zero_div]
example := C42_heat_conserved (K := ℚ) (n := 2) (fun _ => 1/2) (fun _ => 3) (by decide) (fun _ => 2) (fun _ => by norm_num) (fun d => wave3 d) (fun d => wave3_periodic _)

/-- C42: with plain centred differencing the tendencies sum to zero without the density weight. -/
theorem C42_momentum_centred (dx : Fin n → K) (P : Fin n → Nat) (hP : ∀ d, 1 ≤ P d) (coeff : K)
    (tau : Fin n → Fin n → (Fin n → Int) → K) (ht : ∀ d e, PeriodicN P (tau d e)) (c : Fin n) :
    ∑ x ∈ period P, stressRhsC dx coeff tau c x = 0 := by
  unfold stressRhsC gradC
  rw [← Finset.mul_sum, Finset.sum_comm, Finset.sum_eq_zero, mul_zero]
  intro d _
  rw [← Finset.sum_div, ← Finset.sum_div, Finset.sum_sub_distrib, sum_shift hP (ht d c), sum_shift hP (ht d c), sub_self]; simp
example := C42_momentum_centred (K := ℚ) (n := 2) (fun _ => 1/2) (fun _ => 3) (by decide) 5 (fun d e => wave3 (d + e)) (fun d e => wave3_periodic _) 1

/-- one-dimensional density and stress for `C42_centred_density_fails` -/
def exG2 (x : Fin 1 → Int) : ℚ := if x 0 % 3 = 0 then 2 else 1
def exTau2 (_ _ : Fin 1) (x : Fin 1 → Int) : ℚ := if x 0 % 3 = 1 then 1 else 0

/-- C42 does not hold, weighted with the density, for plain centred differencing when the density varies (the formulae ignore it). -/
theorem C42_centred_density_fails : PeriodicN (fun _ => 3) exG2 ∧ (∀ d e, PeriodicN (fun _ => 3) (exTau2 d e)) ∧
    ∑ x ∈ period (fun _ : Fin 1 => 3), exG2 x * stressRhsC (fun _ => 1) 1 exTau2 0 x ≠ 0 := by
  refine ⟨?_, ?_, ?_⟩
  · intro x d; unfold exG2 stepIdx; fin_cases d; simp
  · intro _ _ x d; unfold exTau2 stepIdx; fin_cases d; simp
  · decide +kernel

/-! ## Rigid motion -/

/-- rigid motion: translation `a` plus rotation with the antisymmetric matrix `w`, in the coordinates `X_e = dx_e x_e` -/
def rigidMotion (dx : Fin n → K) (a : Fin n → K) (w : Fin n → Fin n → K) (d : Fin n) (x : Fin n → Int) : K := a d + ∑ e, w d e * (dx e * ((x e : Int) : K))

/-- C42: the compact deformation vanishes for every rigid motion if the density is uniform -/
theorem C42_rigid_motion [CharZero K] (z : Fin n) (dx : Fin n → K) (hdx : ∀ d, dx d ≠ 0) (a : Fin n → K) (w : Fin n → Fin n → K) (hw : ∀ d e, w e d = - w d e) (r : K)
    (d e : Fin n) (x : Fin n → Int) : deformCmpct z dx (rigidMotion dx a w) (vipDiv z dx (rigidMotion dx a w) fun _ => r) d e x = 0 := by
  have hself : ∀ d, w d d = 0 := by
    intro d
    have := hw d d
    have h2 : (2 : K) * w d d = 0 := by linear_combination this
    rcases mul_eq_zero.1 h2 with h | h
    · exact absurd h two_ne_zero
    · exact h
  have hdiv : ∀ y, vipDiv z dx (rigidMotion dx a w) (fun _ => r) y = 0 := by
    intro y; unfold vipDiv; simp
  have hd := hdx d
  have he := hdx e
  unfold deformCmpct
  split_ifs with hde
  · unfold deformDiag
    simp only [hdiv]
    split_ifs with hz <;> unfold rigidMotion <;> simp only [linear_diff, hself] <;> ring
  · unfold deformOff rigidMotion
    simp only [linear_diff]
    rw [hw d e]
    push_cast; field_simp; ring

/-- C42: ... and for a horizontal translation whatever the density. -/
theorem C42_translation [CharZero K] (z : Fin n) (dx : Fin n → K) (a : Fin n → K) (ha : a z = 0) (rho : (Fin n → Int) → K) (d e : Fin n) (x : Fin n → Int) :
    deformCmpct z dx (fun d _ => a d) (vipDiv z dx (fun d _ => a d) rho) d e x = 0 := by
  have hdiv : ∀ y, vipDiv z dx (fun d _ => a d) rho y = 0 := by intro y; unfold vipDiv; simp [ha]
  unfold deformCmpct
  split_ifs
  · unfold deformDiag; simp only [hdiv]; split_ifs <;> ring
  · unfold deformOff; ring
example := C42_translation (K := ℚ) (n := 2) 1 (fun _ => 1/2) (fun d => if d = 0 then 3 else 0) (by decide) (wave3 1) 0 1 (fun _ => 0)

/-- C42: the centred deformation vanishes for every rigid motion. -/
theorem C42_rigid_motion_centred [CharZero K] (dx : Fin n → K) (hdx : ∀ d, dx d ≠ 0) (a : Fin n → K) (w : Fin n → Fin n → K) (hw : ∀ d e, w e d = - w d e)
    (d e : Fin n) (x : Fin n → Int) : deform (vgrad dx (rigidMotion dx a w)) d e x = 0 := by
  have hd := hdx d
  have he := hdx e
  unfold deform vgrad gradC rigidMotion
  simp only [linear_diff]
  rw [hw d e]
  push_cast; field_simp; ring

/-- a rotation in the plane meets the hypotheses -/
example : ∀ d e : Fin 2, (fun d e : Fin 2 => if d < e then (1 : ℚ) else if e < d then -1 else 0) e d = - (fun d e : Fin 2 => if d < e then (1 : ℚ) else if e < d then -1 else 0) d e := by
  decide

section ord
variable [LinearOrder K] [IsStrictOrderedRing K]

/-- C42: the squared total deformation is non-negative, -/
theorem C42_tdef_nonneg (tau : Fin n → Fin n → (Fin n → Int) → K) (x : Fin n → Int) : 0 ≤ tdefSq tau x ∧ 0 ≤ tdefSqCmpct tau x := by
  constructor
  · unfold tdefSq
    refine add_nonneg (Finset.sum_nonneg fun d _ => by positivity) (Finset.sum_nonneg fun d _ => Finset.sum_nonneg fun e _ => ?_)
    split_ifs <;> positivity
  · unfold tdefSqCmpct
    refine add_nonneg (div_nonneg (add_nonneg (Finset.sum_nonneg fun d _ => by positivity) (Finset.sum_nonneg fun d _ => Finset.sum_nonneg fun e _ => ?_)) (by norm_num))
      (div_nonneg (add_nonneg (Finset.sum_nonneg fun d _ => ?_) (Finset.sum_nonneg fun d _ => Finset.sum_nonneg fun e _ => ?_)) (by norm_num))
    · split_ifs <;> positivity
    · exact le_max_of_le_left (by positivity)
    · split_ifs
      · exact mul_nonneg (by norm_num) (le_max_of_le_left (le_max_of_le_left (by positivity)))
      · exact le_refl _

/-- C42: ... and vanishes only if no deformation component around the point is non-zero. -/
theorem C42_tdef_zero (tau : Fin n → Fin n → (Fin n → Int) → K) (x : Fin n → Int) (h : tdefSqCmpct tau x = 0) :
    ∀ d e, d ≤ e → tau d e x = 0 := by
  have key : ∀ a b : K, 0 ≤ a → 0 ≤ b → a / 8 + b / 4 = 0 → a = 0 := by
    intro a b ha hb hab
    have h1 : 0 ≤ b / 4 := div_nonneg hb (by norm_num)
    have h2 : 0 ≤ a / 8 := div_nonneg ha (by norm_num)
    linarith
  unfold tdefSqCmpct at h
  have hA := key _ _ (add_nonneg (Finset.sum_nonneg fun d _ => by positivity) (Finset.sum_nonneg fun d _ => Finset.sum_nonneg fun e _ => by split_ifs <;> positivity))
    (add_nonneg (Finset.sum_nonneg fun d _ => le_max_of_le_left (by positivity)) (Finset.sum_nonneg fun d _ => Finset.sum_nonneg fun e _ => by
      split_ifs
      · exact mul_nonneg (by norm_num) (le_max_of_le_left (le_max_of_le_left (by positivity)))
      · exact le_refl _)) h
  have hD : ∀ d, tau d d x ^ 2 + tau d d (stepIdx x d (-1)) ^ 2 = 0 := by
    have := (add_eq_zero_iff_of_nonneg (Finset.sum_nonneg fun d _ => by positivity) (Finset.sum_nonneg fun d _ => Finset.sum_nonneg fun e _ => by split_ifs <;> positivity)).1 hA
    intro d
    exact (Finset.sum_eq_zero_iff_of_nonneg fun d _ => by positivity).1 this.1 d (Finset.mem_univ d)
  have hO := ((add_eq_zero_iff_of_nonneg (Finset.sum_nonneg fun d _ => by positivity) (Finset.sum_nonneg fun d _ => Finset.sum_nonneg fun e _ => by split_ifs <;> positivity)).1 hA).2
  intro d e hde
  rcases eq_or_lt_of_le hde with rfl | hlt
  · have := hD d
    have h1 := sq_nonneg (tau d d x)
    have h2 := sq_nonneg (tau d d (stepIdx x d (-1)))
    have : tau d d x ^ 2 = 0 := by linarith
    exact pow_eq_zero_iff (two_ne_zero) |>.1 this
  · have h1 := (Finset.sum_eq_zero_iff_of_nonneg fun d _ => Finset.sum_nonneg fun e _ => by split_ifs <;> positivity).1 hO d (Finset.mem_univ d)
    have h2 := (Finset.sum_eq_zero_iff_of_nonneg fun e _ => by split_ifs <;> positivity).1 h1 e (Finset.mem_univ e)
    rw [if_pos hlt] at h2
    have a1 := sq_nonneg (tau d e x)
    have a2 := sq_nonneg (tau d e (stepIdx x d (-1)))
    have a3 := sq_nonneg (tau d e (stepIdx x e (-1)))
    have a4 := sq_nonneg (tau d e (stepIdx (stepIdx x d (-1)) e (-1)))
    have : tau d e x ^ 2 = 0 := by linarith
    exact pow_eq_zero_iff (two_ne_zero) |>.1 this
end ord

/-! ## C52: dissipation of kinetic energy -/

/-- half of the off-diagonal deformation -/
def halfOff (dx : Fin n → K) (v : Fin n → (Fin n → Int) → K) (d e : Fin n) (x : Fin n → Int) : K :=
  1 / 2 * (v d (stepIdx x e 1) - v d x + v d (stepIdx (stepIdx x d 1) e 1) - v d (stepIdx x d 1)) / dx e

theorem deformOff_eq (dx : Fin n → K) (v : Fin n → (Fin n → Int) → K) (d e : Fin n) (x : Fin n → Int) : deformOff dx v d e x = halfOff dx v d e x + halfOff dx v e d x := by
  unfold deformOff halfOff
  rw [stepIdx_comm x e d]; ring

theorem deformOff_symm (dx : Fin n → K) (v : Fin n → (Fin n → Int) → K) (d e : Fin n) (x : Fin n → Int) : deformOff dx v d e x = deformOff dx v e d x := by
  rw [deformOff_eq, deformOff_eq, add_comm]

/-- moving a shift from one factor to the other -/
theorem sum_move {P : Fin n → Nat} (hP : ∀ d, 1 ≤ P d) {f g : (Fin n → Int) → K} (hf : PeriodicN P f) (hg : PeriodicN P g) (d : Fin n) (k : Int) :
    ∑ x ∈ period P, f x * g (stepIdx x d (-k)) = ∑ x ∈ period P, f (stepIdx x d k) * g x := by
  have := sum_shift hP (f := fun x => f x * g (stepIdx x d (-k))) (PeriodicN.map2 (· * ·) hf (hg.shift d (-k))) d k
  rw [← this]
  refine Finset.sum_congr rfl fun x _ => ?_
  rw [stepIdx_add, add_neg_cancel, stepIdx_zero]

/-- C52 (identity): on a cyclic domain with uniform density the rate of work of the compact subgrid tendencies is minus half the sum of stress times
deformation over all components. -/
theorem C52_energy_identity [CharZero K] (z : Fin n) (dx : Fin n → K) (P : Fin n → Nat) (hP : ∀ d, 1 ≤ P d) (r : K) (hr : r ≠ 0) (coeff : K)
    (v : Fin n → (Fin n → Int) → K) (hv : ∀ d, PeriodicN P (v d)) (tau : Fin n → Fin n → (Fin n → Int) → K) (ht : ∀ d e, PeriodicN P (tau d e))
    (hs : ∀ d e, tau d e = tau e d) :
    ∑ d, ∑ x ∈ period P, v d x * (r * stressRhs dx (fun _ => r) coeff tau d x) =
      - (coeff / 2) * ∑ d, ∑ e, ∑ x ∈ period P, tau d e x * deformCmpct z dx v (vipDiv z dx v fun _ => r) d e x := by
  have hdiv : ∀ y, vipDiv z dx v (fun _ => r) y = 0 := by intro y; unfold vipDiv; simp
  have hdiag : ∀ d x, deformCmpct z dx v (vipDiv z dx v fun _ => r) d d x = 2 * ((v d (stepIdx x d 1) - v d x) / dx d) := by
    intro d x; unfold deformCmpct deformDiag; simp only [if_true, hdiv]; split_ifs <;> ring
  -- diagonal terms
  have hD : ∀ d, ∑ x ∈ period P, v d x * ((tau d d x - tau d d (stepIdx x d (-1))) / dx d) =
      - (1 / 2) * ∑ x ∈ period P, tau d d x * deformCmpct z dx v (vipDiv z dx v fun _ => r) d d x := by
    intro d
    have m := sum_move hP (hv d) (ht d d) d 1
    have l : ∑ x ∈ period P, v d x * ((tau d d x - tau d d (stepIdx x d (-1))) / dx d) =
        (∑ x ∈ period P, v d x * tau d d x - ∑ x ∈ period P, v d x * tau d d (stepIdx x d (-1))) / dx d := by
      rw [← Finset.sum_sub_distrib, Finset.sum_div]
      refine Finset.sum_congr rfl fun x _ => ?_
      ring
    have q : ∑ x ∈ period P, tau d d x * deformCmpct z dx v (vipDiv z dx v fun _ => r) d d x =
        2 * ((∑ x ∈ period P, v d (stepIdx x d 1) * tau d d x - ∑ x ∈ period P, v d x * tau d d x) / dx d) := by
      rw [← Finset.sum_sub_distrib, Finset.sum_div, Finset.mul_sum]
      refine Finset.sum_congr rfl fun x _ => ?_
      rw [hdiag]; ring
    rw [l, q, m]; ring
  -- off-diagonal terms
  have hO : ∀ d e, ∑ x ∈ period P, v d x * (1 / 2 * (tau d e x - tau d e (stepIdx x e (-1)) + tau d e (stepIdx x d (-1)) - tau d e (stepIdx (stepIdx x d (-1)) e (-1))) / dx e) =
      - ∑ x ∈ period P, tau d e x * halfOff dx v d e x := by
    intro d e
    have m1 := sum_move hP (hv d) (ht d e) e 1
    have m2 := sum_move hP (hv d) (ht d e) d 1
    have m3 := sum_move hP (hv d) ((ht d e).shift d (-1)) e 1
    have m4 := sum_move hP ((hv d).shift e 1) (ht d e) d 1
    have l : ∑ x ∈ period P, v d x * (1 / 2 * (tau d e x - tau d e (stepIdx x e (-1)) + tau d e (stepIdx x d (-1)) - tau d e (stepIdx (stepIdx x d (-1)) e (-1))) / dx e) =
        1 / 2 * (∑ x ∈ period P, v d x * tau d e x - ∑ x ∈ period P, v d x * tau d e (stepIdx x e (-1)) + ∑ x ∈ period P, v d x * tau d e (stepIdx x d (-1))
          - ∑ x ∈ period P, v d x * tau d e (stepIdx (stepIdx x e (-1)) d (-1))) / dx e := by
      rw [← Finset.sum_sub_distrib, ← Finset.sum_add_distrib, ← Finset.sum_sub_distrib, Finset.mul_sum, Finset.sum_div]
      refine Finset.sum_congr rfl fun x _ => ?_
      rw [stepIdx_comm x e d]; ring
    have q : ∑ x ∈ period P, tau d e x * halfOff dx v d e x =
        1 / 2 * (∑ x ∈ period P, v d (stepIdx x e 1) * tau d e x - ∑ x ∈ period P, v d x * tau d e x
          + ∑ x ∈ period P, v d (stepIdx (stepIdx x d 1) e 1) * tau d e x - ∑ x ∈ period P, v d (stepIdx x d 1) * tau d e x) / dx e := by
      rw [← Finset.sum_sub_distrib, ← Finset.sum_add_distrib, ← Finset.sum_sub_distrib, Finset.mul_sum, Finset.sum_div]
      refine Finset.sum_congr rfl fun x _ => ?_
      unfold halfOff; ring
    rw [l, q, m1, m2, m3, m4]; ring
  -- off-diagonal sums, symmetrised
  have hS : ∑ d, ∑ e, (if e = d then 0 else ∑ x ∈ period P, tau d e x * halfOff dx v d e x) =
      1 / 2 * ∑ d, ∑ e, (if e = d then 0 else ∑ x ∈ period P, tau d e x * deformOff dx v d e x) := by
    have sw : ∑ d, ∑ e, (if e = d then 0 else ∑ x ∈ period P, tau d e x * halfOff dx v e d x) =
        ∑ d, ∑ e, (if e = d then 0 else ∑ x ∈ period P, tau d e x * halfOff dx v d e x) := by
      rw [Finset.sum_comm]
      refine Finset.sum_congr rfl fun d _ => Finset.sum_congr rfl fun e _ => ?_
      by_cases h : e = d
      · simp [h]
      · rw [if_neg h, if_neg (Ne.symm h), hs e d]
    have ex : ∑ d, ∑ e, (if e = d then 0 else ∑ x ∈ period P, tau d e x * deformOff dx v d e x) =
        ∑ d, ∑ e, (if e = d then 0 else ∑ x ∈ period P, tau d e x * halfOff dx v d e x) + ∑ d, ∑ e, (if e = d then 0 else ∑ x ∈ period P, tau d e x * halfOff dx v e d x) := by
      rw [← Finset.sum_add_distrib]
      refine Finset.sum_congr rfl fun d _ => ?_
      rw [← Finset.sum_add_distrib]
      refine Finset.sum_congr rfl fun e _ => ?_
      split_ifs
      · simp
      · rw [← Finset.sum_add_distrib]
        refine Finset.sum_congr rfl fun x _ => ?_
        rw [deformOff_eq]; ring
    rw [ex, sw]; ring
  -- put together
  have hL : ∀ d, ∑ x ∈ period P, v d x * (r * stressRhs dx (fun _ => r) coeff tau d x) =
      coeff * (∑ x ∈ period P, v d x * ((tau d d x - tau d d (stepIdx x d (-1))) / dx d) - ∑ e, if e = d then 0 else ∑ x ∈ period P, tau d e x * halfOff dx v d e x) := by
    intro d
    have e2 : ∑ e, (if e = d then 0 else ∑ x ∈ period P, tau d e x * halfOff dx v d e x) =
        - ∑ x ∈ period P, v d x * ∑ e, if e = d then 0 else 1 / 2 * (tau d e x - tau d e (stepIdx x e (-1)) + tau d e (stepIdx x d (-1)) - tau d e (stepIdx (stepIdx x d (-1)) e (-1))) / dx e := by
      simp_rw [Finset.mul_sum]
      rw [Finset.sum_comm, ← Finset.sum_neg_distrib]
      refine Finset.sum_congr rfl fun e _ => ?_
      by_cases h : e = d
      · simp [h]
      · simp only [h, if_false]
        rw [hO]; ring
    rw [e2, sub_neg_eq_add, ← Finset.sum_add_distrib, Finset.mul_sum]
    refine Finset.sum_congr rfl fun x _ => ?_
    unfold stressRhs
    field_simp
  have hR : ∀ d, ∑ e, ∑ x ∈ period P, tau d e x * deformCmpct z dx v (vipDiv z dx v fun _ => r) d e x =
      ∑ x ∈ period P, tau d d x * deformCmpct z dx v (vipDiv z dx v fun _ => r) d d x + ∑ e, if e = d then 0 else ∑ x ∈ period P, tau d e x * deformOff dx v d e x := by
    intro d
    have : ∀ e, ∑ x ∈ period P, tau d e x * deformCmpct z dx v (vipDiv z dx v fun _ => r) d e x =
        (if e = d then ∑ x ∈ period P, tau d d x * deformCmpct z dx v (vipDiv z dx v fun _ => r) d d x else 0) +
          if e = d then 0 else ∑ x ∈ period P, tau d e x * deformOff dx v d e x := by
      intro e
      by_cases h : e = d
      · subst h; simp
      · rw [if_neg h, if_neg h, zero_add]
        refine Finset.sum_congr rfl fun x _ => ?_
        unfold deformCmpct
        rw [if_neg (Ne.symm h)]
    rw [Finset.sum_congr rfl fun e _ => this e, Finset.sum_add_distrib, Finset.sum_ite_eq' Finset.univ d]
    simp
  rw [Finset.sum_congr rfl fun d _ => hL d, Finset.sum_congr rfl fun d _ => hR d, ← Finset.mul_sum, Finset.sum_sub_distrib, Finset.sum_add_distrib, hS,
    Finset.sum_congr rfl fun d _ => hD d, ← Finset.mul_sum]
  ring
example := C52_energy_identity (K := ℚ) (n := 2) 1 (fun _ => 1/2) (fun _ => 3) (by decide) 2 (by norm_num) 5 (fun d => wave3 d) (fun d => wave3_periodic _) (fun d e => wave3 (d + e))
  (fun d e => wave3_periodic _) (fun d e => by rw [show d + e = e + d by revert d e; decide])

/-- C52: on a cyclic domain with uniform density the compact subgrid model never does positive work on the flow, for any velocities and any non-negative
eddy-viscosity field. -/
theorem C52_dissipative [LinearOrder K] [IsStrictOrderedRing K] (z : Fin n) (dx : Fin n → K) (P : Fin n → Nat) (hP : ∀ d, 1 ≤ P d) (r : K) (hr : 0 < r) (coeff : K) (hc : 0 ≤ coeff)
    (v : Fin n → (Fin n → Int) → K) (hv : ∀ d, PeriodicN P (v d)) (km : (Fin n → Int) → K) (hkm : PeriodicN P km) (hk : ∀ x, 0 ≤ km x) :
    ∑ d, ∑ x ∈ period P, v d x * (r * stressRhs dx (fun _ => r) coeff (multKm 1 km (fun _ => r) (deformCmpct z dx v (vipDiv z dx v fun _ => r))) d x) ≤ 0 := by
  have hdp := deformCmpct_periodic z dx P v _ hv (vipDiv_periodic z dx P v (fun _ => r) hv fun _ _ => rfl)
  have hsym : ∀ (f : (Fin n → Int) → K) d e, stgrAvg f d e = stgrAvg f e d := by
    intro f d e; funext x; unfold stgrAvg
    by_cases h : d = e
    · subst h; rfl
    · rw [if_neg h, if_neg (Ne.symm h), stepIdx_comm x d e]; ring
  have hnn : ∀ (f : (Fin n → Int) → K), (∀ x, 0 ≤ f x) → ∀ d e x, 0 ≤ stgrAvg f d e x := by
    intro f hf d e x; unfold stgrAvg
    split_ifs
    · exact mul_nonneg (by norm_num) (add_nonneg (hf _) (hf _))
    · exact mul_nonneg (by norm_num) (add_nonneg (add_nonneg (add_nonneg (hf _) (hf _)) (hf _)) (hf _))
  have hds : ∀ d e, deformCmpct z dx v (vipDiv z dx v fun _ => r) d e = deformCmpct z dx v (vipDiv z dx v fun _ => r) e d := by
    intro d e; unfold deformCmpct
    by_cases h : d = e
    · subst h; rfl
    · rw [if_neg h, if_neg (Ne.symm h)]; funext x; exact deformOff_symm dx v d e x
  rw [C52_energy_identity z dx P hP r (ne_of_gt hr) coeff v hv _ ?_ ?_, neg_mul, neg_nonpos]
  · refine mul_nonneg (by linarith) (Finset.sum_nonneg fun d _ => Finset.sum_nonneg fun e _ => Finset.sum_nonneg fun x _ => ?_)
    have : multKm 1 km (fun _ => r) (deformCmpct z dx v (vipDiv z dx v fun _ => r)) d e x * deformCmpct z dx v (vipDiv z dx v fun _ => r) d e x =
        (1 * stgrAvg km d e x * stgrAvg (fun _ => r) d e x) * (deformCmpct z dx v (vipDiv z dx v fun _ => r) d e x * deformCmpct z dx v (vipDiv z dx v fun _ => r) d e x) := by
      unfold multKm; ring
    rw [this]
    exact mul_nonneg (mul_nonneg (mul_nonneg zero_le_one (hnn km hk d e x)) (hnn _ (fun _ => le_of_lt hr) d e x)) (mul_self_nonneg _)
  · intro a b
    unfold multKm
    exact PeriodicN.map2 (fun a b => a * b) (hdp a b)
      (PeriodicN.map2 (fun a b => 1 * a * b) (stgrAvg_periodic P km hkm a b) (stgrAvg_periodic P _ (fun _ _ => rfl) a b))
  · intro d e
    funext x
    unfold multKm
    rw [hds d e, hsym km d e, hsym (fun _ => r) d e]
example := C52_dissipative (K := ℚ) (n := 2) 1 (fun _ => 1/2) (fun _ => 3) (by decide) 2 (by norm_num) 5 (by norm_num) (fun d => wave3 d) (fun d => wave3_periodic _) (wave3 0) (wave3_periodic _)
  (fun x => by unfold wave3; split_ifs <;> norm_num)

/-! ## C53: the eddy viscosity of the Smagorinsky scheme -/

/-- the eddy viscosity of the code is quadratic in the deformation -/
theorem smgKm_quadratic [LinearOrder K] [IsStrictOrderedRing K] (c : K) (dx : Fin n → K) (tau : Fin n → Fin n → (Fin n → Int) → K) (lam : K) (x : Fin n → Int) :
    smgKm c dx (fun d e y => lam * tau d e y) x = lam ^ 2 * smgKm c dx tau x := by
  have hm : ∀ a b : K, max ((lam * a) ^ 2) ((lam * b) ^ 2) = lam ^ 2 * max (a ^ 2) (b ^ 2) := by
    intro a b; rw [mul_pow, mul_pow, mul_max_of_nonneg _ _ (sq_nonneg lam)]
  have hmm : ∀ a b e f : K, max (max ((lam * a) ^ 2) ((lam * b) ^ 2)) (max ((lam * e) ^ 2) ((lam * f) ^ 2)) = lam ^ 2 * max (max (a ^ 2) (b ^ 2)) (max (e ^ 2) (f ^ 2)) := by
    intro a b e f; rw [hm a b, hm e f]; exact (mul_max_of_nonneg _ _ (sq_nonneg lam)).symm
  unfold smgKm tdefSqCmpct
  simp only [hmm]
  simp only [hm]
  have s1 : ∑ d, ((lam * tau d d x) ^ 2 + (lam * tau d d (stepIdx x d (-1))) ^ 2) = lam ^ 2 * ∑ d, (tau d d x ^ 2 + tau d d (stepIdx x d (-1)) ^ 2) := by
    rw [Finset.mul_sum]; refine Finset.sum_congr rfl fun d _ => ?_; ring
  have s2 : (∑ d, ∑ e, if d < e then (lam * tau d e x) ^ 2 + (lam * tau d e (stepIdx x d (-1))) ^ 2 + (lam * tau d e (stepIdx x e (-1))) ^ 2 + (lam * tau d e (stepIdx (stepIdx x d (-1)) e (-1))) ^ 2 else 0)
      = lam ^ 2 * ∑ d, ∑ e, if d < e then tau d e x ^ 2 + tau d e (stepIdx x d (-1)) ^ 2 + tau d e (stepIdx x e (-1)) ^ 2 + tau d e (stepIdx (stepIdx x d (-1)) e (-1)) ^ 2 else 0 := by
    simp_rw [Finset.mul_sum]
    refine Finset.sum_congr rfl fun d _ => Finset.sum_congr rfl fun e _ => ?_
    split_ifs <;> ring
  have s3 : ∑ d, lam ^ 2 * max (tau d d x ^ 2) (tau d d (stepIdx x d (-1)) ^ 2) = lam ^ 2 * ∑ d, max (tau d d x ^ 2) (tau d d (stepIdx x d (-1)) ^ 2) := by
    rw [Finset.mul_sum]
  have s4 : (∑ d, ∑ e, if d < e then 2 * (lam ^ 2 * max (max (tau d e x ^ 2) (tau d e (stepIdx x d (-1)) ^ 2)) (max (tau d e (stepIdx x e (-1)) ^ 2) (tau d e (stepIdx (stepIdx x d (-1)) e (-1)) ^ 2))) else 0)
      = lam ^ 2 * ∑ d, ∑ e, if d < e then 2 * max (max (tau d e x ^ 2) (tau d e (stepIdx x d (-1)) ^ 2)) (max (tau d e (stepIdx x e (-1)) ^ 2) (tau d e (stepIdx (stepIdx x d (-1)) e (-1)) ^ 2)) else 0 := by
    simp_rw [Finset.mul_sum]
    refine Finset.sum_congr rfl fun d _ => Finset.sum_congr rfl fun e _ => ?_
    split_ifs <;> ring
  rw [s1, s2, s3, s4]
  ring

/-- C53 is false of the plain Smagorinsky scheme: the eddy viscosity should be the squared mixing length times the magnitude of the deformation, hence proportional
to the velocities; the code omits the square root (present in the Boussinesq variant, boussinesq_sgs_common.hpp:79-84), so it is not: multiplying all velocities by
`lam` (equivalently, changing the unit of time) multiplies it by `lam` squared wherever it does not vanish. -/
theorem C53_smg_viscosity_fails [LinearOrder K] [IsStrictOrderedRing K] (c : K) (dx : Fin n → K) (tau : Fin n → Fin n → (Fin n → Int) → K) (lam : K) (x : Fin n → Int)
    (h0 : lam ≠ 0) (h1 : lam ≠ 1) (hk : smgKm c dx tau x ≠ 0) : smgKm c dx (fun d e y => lam * tau d e y) x ≠ lam * smgKm c dx tau x := by
  rw [smgKm_quadratic]
  intro h
  have : lam * smgKm c dx tau x * (lam - 1) = 0 := by linear_combination h
  rcases mul_eq_zero.1 this with h | h
  · rcases mul_eq_zero.1 h with h | h
    · exact h0 h
    · exact hk h
  · exact h1 (by linear_combination h)

example : smgKm (n := 2) (1 : ℚ) (fun _ => 1) (fun _ _ _ => 1) (fun _ => 0) ≠ 0 := by decide +kernel

/-- C42: for purely vertical flow that carries the same mass flux `m` through every level, the velocity divergence inferred from the density profile is exactly the
velocity difference between the levels over their distance. -/
theorem C42_vip_div_exact (z : Fin n) (dx : Fin n → K) (v : Fin n → (Fin n → Int) → K) (rho : (Fin n → Int) → K) (x : Fin n → Int) (m : K)
    (hs : rho (stepIdx x z 1) + rho x ≠ 0) (m0 : rho x * v z x = m) (m1 : rho (stepIdx x z 1) * v z (stepIdx x z 1) = m) :
    vipDiv z dx v rho x = (v z (stepIdx x z 1) - v z x) / dx z := by
  have e : -(v z (stepIdx x z 1) + v z x) * (rho (stepIdx x z 1) - rho x) = (v z (stepIdx x z 1) - v z x) * (rho (stepIdx x z 1) + rho x) := by
    linear_combination (2 : K) * m0 - 2 * m1
  unfold vipDiv
  rw [e, mul_comm (dx z), ← div_div, mul_div_assoc, div_self hs, mul_one]

/-- C42: a flow that expands at the same rate `s` in every direction, whose divergence `n s` the density profile accounts for, has no deformation (hence no stress):
only the departure from uniform expansion is damped. -/
theorem C42_isotropic_expansion [CharZero K] (z : Fin n) (dx : Fin n → K) (hdx : ∀ d, dx d ≠ 0) (s : K) (v : Fin n → (Fin n → Int) → K)
    (hv : ∀ d x, v d x = s * dx d * (x d : K)) (div : (Fin n → Int) → K) (hdiv : ∀ x, div x = n * s) (d e : Fin n) (x : Fin n → Int) :
    deformCmpct z dx v div d e x = 0 := by
  have hn : (n : K) ≠ 0 := by
    have : 0 < n := d.pos
    exact_mod_cast this.ne'
  have h2 : (2 : K) ≠ 0 := two_ne_zero
  have h4 : (4 : K) ≠ 0 := by exact_mod_cast (show (4 : Nat) ≠ 0 by decide)
  have hd := hdx d
  have hs : ∀ (x : Fin n → Int) (d : Fin n) (k : Int), stepIdx x d k d = x d + k := fun x d k => by simp [stepIdx]
  have ho : ∀ (x : Fin n → Int) {d e : Fin n} (h : e ≠ d) (k : Int), stepIdx x d k e = x e := fun x d e h k => by simp [stepIdx, h]
  unfold deformCmpct
  split_ifs with h
  · unfold deformDiag
    simp only [hv, hdiv, hs]
    split_ifs
    · push_cast; field_simp; ring
    · push_cast; field_simp; ring
  · unfold deformOff
    have h' : e ≠ d := fun q => h q.symm
    simp only [hv, hs, ho _ h, ho _ h']
    ring

/-- mass flux 6 through two levels of density 3 and 2 -/
example : vipDiv (n := 1) 0 (fun _ => (1 : ℚ)) (fun _ x => if x 0 = 0 then 2 else 3) (fun x => if x 0 = 0 then 3 else 2) (fun _ => 0) = 1 := by decide +kernel

/-- C53: in a uniform deformation the squared total deformation on the staggered grid is the one of the definition, whatever the number of dimensions. -/
theorem C53_uniform_deformation [LinearOrder K] [IsStrictOrderedRing K] (t : Fin n → Fin n → K) (x : Fin n → Int) :
    tdefSqCmpct (fun d e _ => t d e) x = tdefSq (fun d e _ => t d e) x := by
  unfold tdefSqCmpct tdefSq
  simp only [max_self]
  have a1 : ∑ d, (t d d ^ 2 + t d d ^ 2) = 4 * ∑ d, t d d ^ 2 / 2 := by
    rw [Finset.mul_sum]; exact Finset.sum_congr rfl fun d _ => by ring
  have a2 : ∑ d, t d d ^ 2 = 2 * ∑ d, t d d ^ 2 / 2 := by
    rw [Finset.mul_sum]; exact Finset.sum_congr rfl fun d _ => by ring
  have a3 : (∑ d, ∑ e, if d < e then t d e ^ 2 + t d e ^ 2 + t d e ^ 2 + t d e ^ 2 else 0) = 4 * ∑ d, ∑ e, if d < e then t d e ^ 2 else 0 := by
    simp_rw [Finset.mul_sum]
    refine Finset.sum_congr rfl fun d _ => Finset.sum_congr rfl fun e _ => ?_
    split_ifs <;> ring
  have a4 : (∑ d, ∑ e, if d < e then 2 * t d e ^ 2 else 0) = 2 * ∑ d, ∑ e, if d < e then t d e ^ 2 else 0 := by
    simp_rw [Finset.mul_sum]
    refine Finset.sum_congr rfl fun d _ => Finset.sum_congr rfl fun e _ => ?_
    split_ifs <;> ring
  rw [a1, a2, a3, a4]; ring

/-- C53: the eddy viscosity in a uniform deformation on an isotropic grid of spacing `h` in 3-D: the square of `smg_c h` times the squared deformation (Smagorinsky's
formula has the deformation itself, see `C53_smg_viscosity_fails`). -/
theorem C53_mixing_length_3d [LinearOrder K] [IsStrictOrderedRing K] (c h : K) (t : Fin 3 → Fin 3 → K) (x : Fin 3 → Int) :
    smgKm c (fun _ => h) (fun d e _ => t d e) x = (c * h) ^ 2 * tdefSq (fun d e _ => t d e) x := by
  unfold smgKm
  rw [C53_uniform_deformation]
  simp only [Finset.sum_const, Finset.card_univ, Fintype.card_fin, nsmul_eq_mul]
  push_cast; ring

/-- C53 fails: in 2-D the mixing length is divided by three as well: on an isotropic grid it is two thirds of the spacing. -/
theorem C53_mixing_length_2d_fails [LinearOrder K] [IsStrictOrderedRing K] (c h : K) (t : Fin 2 → Fin 2 → K) (x : Fin 2 → Int) :
    smgKm c (fun _ => h) (fun d e _ => t d e) x = (c * (2 / 3 * h)) ^ 2 * tdefSq (fun d e _ => t d e) x := by
  unfold smgKm
  rw [C53_uniform_deformation]
  simp only [Finset.sum_const, Finset.card_univ, Fintype.card_fin, nsmul_eq_mul]
  push_cast; ring

end Mpdata
