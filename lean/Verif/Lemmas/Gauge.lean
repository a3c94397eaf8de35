import Verif.Lemmas.ConstN
import Mathlib.Topology.Algebra.Order.Field
import Mathlib.Topology.Order.Basic
import Mathlib.Topology.Instances.Real.Lemmas
/-! # Antidiffusive velocities for a field on a large constant background
`Lim q L` says that `q a` vanishes like `L / a` when the background `a` grows. -/
set_option linter.unusedSectionVars false
namespace Mpdata
open Filter Topology

/-- `q a` behaves like `L / a` for large `a` -/
def Lim (q : ℝ → ℝ) (L : ℝ) : Prop := Tendsto (fun a => a * q a) atTop (𝓝 L)

theorem Lim.add {q r : ℝ → ℝ} {L M : ℝ} (h : Lim q L) (h' : Lim r M) : Lim (fun a => q a + r a) (L + M) := by
  unfold Lim; simpa only [mul_add] using Tendsto.add h h'
theorem Lim.sub {q r : ℝ → ℝ} {L M : ℝ} (h : Lim q L) (h' : Lim r M) : Lim (fun a => q a - r a) (L - M) := by
  unfold Lim; simpa only [mul_sub] using Tendsto.sub h h'
theorem Lim.cmul {q : ℝ → ℝ} {L : ℝ} (c : ℝ) (h : Lim q L) : Lim (fun a => c * q a) (c * L) := by
  unfold Lim; simpa only [mul_left_comm] using Tendsto.const_mul c h
theorem Lim.mulc {q : ℝ → ℝ} {L : ℝ} (c : ℝ) (h : Lim q L) : Lim (fun a => q a * c) (L * c) := by
  simpa only [mul_comm] using h.cmul c
theorem Lim.divc {q : ℝ → ℝ} {L : ℝ} (c : ℝ) (h : Lim q L) : Lim (fun a => q a / c) (L / c) := by
  simpa only [div_eq_mul_inv] using h.mulc c⁻¹
theorem lim_zero : Lim (fun _ => 0) 0 := by unfold Lim; simp
theorem Lim.congr' {q r : ℝ → ℝ} {L : ℝ} (h : Lim q L) (e : ∀ a, r a = q a) : Lim r L := by
  have : r = q := funext e
  rw [this]; exact h

/-- such a quantity tends to zero -/
theorem Lim.tendsto_zero {q : ℝ → ℝ} {L : ℝ} (h : Lim q L) : Tendsto q atTop (𝓝 0) := by
  have h1 : Tendsto (fun a : ℝ => a⁻¹ * (a * q a)) atTop (𝓝 (0 * L)) := tendsto_inv_atTop_zero.mul h
  rw [zero_mul] at h1
  refine h1.congr' ?_
  filter_upwards [eventually_gt_atTop (0 : ℝ)] with a ha
  rw [← mul_assoc, inv_mul_cancel₀ ha.ne', one_mul]

/-- a product of two such quantities vanishes faster -/
theorem Lim.absmul {q r : ℝ → ℝ} {L M : ℝ} (h : Lim q L) (h' : Lim r M) : Lim (fun a => |q a| / 2 * r a) 0 := by
  have h1 : Tendsto (fun a => |q a| / 2 * (a * r a)) atTop (𝓝 (|0| / 2 * M)) := ((h.tendsto_zero.abs).div_const 2).mul h'
  rw [abs_zero, zero_div, zero_mul] at h1
  unfold Lim
  refine h1.congr fun a => by ring

variable {X : Type} [TopologicalSpace X] {z : ℝ → X} {ψ : X}

theorem frac_lim (hz : Tendsto z atTop (𝓝 ψ)) (o : OptsT) (tiny : ℝ) (N D : X → ℝ) (hN : Continuous N) (hD : Continuous D) {n : ℝ} (hn : 0 < n) :
    Lim (fun a => frac o tiny (N (z a)) (D (z a) + n * a)) (N ψ / n) := by
  have tN : Tendsto (fun a => N (z a)) atTop (𝓝 (N ψ)) := (hN.tendsto ψ).comp hz
  have tD : Tendsto (fun a => D (z a)) atTop (𝓝 (D ψ)) := (hD.tendsto ψ).comp hz
  have key : ∀ t : ℝ, Tendsto (fun a => N (z a) / ((D (z a) + t) * a⁻¹ + n)) atTop (𝓝 (N ψ / n)) := by
    intro t
    have h1 : Tendsto (fun a : ℝ => (D (z a) + t) * a⁻¹ + n) atTop (𝓝 ((D ψ + t) * 0 + n)) :=
      ((tD.add_const t).mul tendsto_inv_atTop_zero).add_const n
    rw [mul_zero, zero_add] at h1
    exact tN.div h1 hn.ne'
  have big : Tendsto (fun a => D (z a) + n * a) atTop atTop := tD.add_atTop (tendsto_id.const_mul_atTop hn)
  unfold Lim frac
  by_cases hp : isset o oPfc = true
  · simp only [hp, if_true]
    refine (key 0).congr' ?_
    filter_upwards [eventually_gt_atTop (0 : ℝ), big.eventually_gt_atTop 0] with a ha hb
    rw [if_pos hb.ne', add_zero]
    have : D (z a) * a⁻¹ + n = (D (z a) + n * a) / a := by field_simp
    rw [this, div_div_eq_mul_div]; ring
  · simp only [hp, if_false, Bool.false_eq_true]
    refine (key tiny).congr' ?_
    filter_upwards [eventually_gt_atTop (0 : ℝ), big.eventually_gt_atTop (-tiny)] with a ha hb
    have : (D (z a) + tiny) * a⁻¹ + n = (D (z a) + n * a + tiny) / a := by field_simp; ring
    rw [this, div_div_eq_mul_div]; ring

theorem lim_frac (hz : Tendsto z atTop (𝓝 ψ)) (o : OptsT) (tiny : ℝ) (c n : ℝ) (hn : 0 < n) (N D : X → ℝ) (hN : Continuous N) (hD : Continuous D)
    {q : ℝ → ℝ} {L : ℝ} (hq : ∀ a, q a = c * frac o tiny (N (z a)) (D (z a) + n * a)) (hL : L = c * (N ψ / n)) : Lim q L := by
  rw [hL]; exact ((frac_lim hz o tiny N D hN hD hn).cmul c).congr' hq

/-- a point value on the background `a` tends, after the background is taken off, to the same limit with and without the absolute value -/
theorem near_vabs (o : OptsT) {y : ℝ → ℝ} {u : ℝ} (h : Tendsto (fun a => y a - a) atTop (𝓝 u)) : Tendsto (fun a => vabs o (y a) - a) atTop (𝓝 u) := by
  have big : Tendsto y atTop atTop := by
    have := h.add_atTop tendsto_id
    exact this.congr fun a => by simp
  refine h.congr' ?_
  filter_upwards [big.eventually_ge_atTop 0] with a ha
  unfold vabs; split
  · rw [abs_of_nonneg ha]
  · rfl

/-- upwind flux with a vanishing velocity on a large background -/
theorem flux_lim (o : OptsT) {v y w : ℝ → ℝ} {L u u' : ℝ} (hv : Lim v L) (hy : Tendsto (fun a => y a - a) atTop (𝓝 u)) (hw : Tendsto (fun a => w a - a) atTop (𝓝 u')) :
    Tendsto (fun a => donorF o (y a) (w a) (v a)) atTop (𝓝 L) := by
  have h0 := hv.tendsto_zero
  have hp : Tendsto (fun a => max 0 (v a)) atTop (𝓝 (max 0 0)) := tendsto_const_nhds.max h0
  have hn : Tendsto (fun a => min 0 (v a)) atTop (𝓝 (min 0 0)) := tendsto_const_nhds.min h0
  rw [max_self] at hp; rw [min_self] at hn
  have := ((hp.mul hy).add (hn.mul hw)).add hv
  rw [zero_mul, zero_mul, zero_add, zero_add] at this
  refine this.congr fun a => ?_
  unfold donorF
  rw [pospart_eq, negpart_eq]
  have e : max 0 (v a) + min 0 (v a) = v a := by rcases le_total 0 (v a) with h | h <;> simp [h]
  linear_combination a * (-e)
end Mpdata
