import Verif.Model.Boussinesq
import Mathlib.Tactic.FieldSimp
import Mathlib.Tactic.LinearCombination
import Mathlib.Algebra.BigOperators.Intervals
import Mathlib.Data.Int.Interval
/-! # C44: Boussinesq solvers -/
set_option linter.unusedSectionVars false
namespace Mpdata
namespace Bsq
variable {K : Type} [Field K]

/-- the force on the vertical velocity: buoyancy, absorber, pressure (`gradPhi` is the pressure gradient times half the time step) -/
def forceW (p : Par K) (gradPhi w tht : K) : K := p.g * tht / p.Tref - p.c * (w - p.r) - gradPhi / (1 / 2 * p.dt)

/-- the tendency of the temperature perturbation: advection of the environmental profile, heat flux, absorber -/
def forceTht (p : Par K) (w tht : K) : K := -w * p.dthtE + p.hflux - p.alpha * tht

section
variable [CharZero K] (p : Par K) (gradPhi : K) (s : St K) (hdt : p.dt ≠ 0) (hT : p.Tref ≠ 0) (ha : 1 + 1 / 2 * p.dt * p.alpha ≠ 0) (hD : divisor p ≠ 0)
include hdt hT ha hD

/-- C44: the velocity and temperature the step ends with satisfy the coupled implicit equations: each is its value after advection plus half the time step times
the force evaluated with the new velocity and the new temperature. -/
theorem C44_implicit_solves :
    (postStep p gradPhi s).w = s.w + p.dt / 2 * forceW p gradPhi (postStep p gradPhi s).w (postStep p gradPhi s).tht ∧
    (postStep p gradPhi s).tht = s.tht + p.dt / 2 * forceTht p (postStep p gradPhi s).w (postStep p gradPhi s).tht := by
  set s' := postStep p gradPhi s with hs'
  set A := 1 + 1 / 2 * p.dt * p.alpha with hA
  have ht : s'.tht * A = s.tht + p.dt / 2 * p.hflux - 1 / 2 * p.dt * s'.w * p.dthtE := by
    show (s.tht + p.dt / 2 * p.hflux - 1 / 2 * p.dt * s'.w * p.dthtE) / A * A = _
    rw [div_mul_cancel₀ _ ha]
  have hw : s'.w * divisor p = s.w + p.dt / 2 * (p.g * (s.tht + 1 / 2 * p.dt * p.hflux) / (p.Tref * A)) + 1 / 2 * p.dt * p.c * p.r - gradPhi := by
    show (s.w + p.dt / 2 * (p.g * (s.tht + 1 / 2 * p.dt * p.hflux) / (p.Tref * A)) + 1 / 2 * p.dt * p.c * p.r - gradPhi) / divisor p * divisor p = _
    rw [div_mul_cancel₀ _ hD]
  have h2 : (2 : K) ≠ 0 := two_ne_zero
  constructor
  · have hb : p.g * (s.tht + 1 / 2 * p.dt * p.hflux) / (p.Tref * A) = p.g * s'.tht / p.Tref + p.g / p.Tref * (1 / 2 * p.dt * s'.w * p.dthtE) / A := by
      field_simp
      linear_combination (-2 : K) * p.g * ht
    have hd : divisor p = 1 + 1 / 2 * p.dt * p.c + 1 / 4 * p.dt * p.dt * p.g / p.Tref * p.dthtE / A := rfl
    rw [hb, hd] at hw
    have hg : p.dt / 2 * (gradPhi / (1 / 2 * p.dt)) = gradPhi := by field_simp
    unfold forceW
    have e : p.dt / 2 * (p.g * s'.tht / p.Tref - p.c * (s'.w - p.r) - gradPhi / (1 / 2 * p.dt)) =
      p.dt / 2 * (p.g * s'.tht / p.Tref) - p.dt / 2 * (p.c * (s'.w - p.r)) - p.dt / 2 * (gradPhi / (1 / 2 * p.dt)) := by ring
    rw [e, hg]
    linear_combination hw
  · unfold forceTht
    rw [hA] at ht
    linear_combination ht

/-- C44: the arrays kept for the next step hold exactly the forces of the new state: the next step's first half adds half the time step times the same forces
(plus explicit forces `f`), so that over a step the scheme is trapezoidal. -/
theorem C44_next_half_step (f : K) :
    (anteStep p f (postStep p gradPhi s)).w = (postStep p gradPhi s).w + p.dt / 2 * (forceW p gradPhi (postStep p gradPhi s).w (postStep p gradPhi s).tht + f) ∧
    (anteStep p f (postStep p gradPhi s)).tht = (postStep p gradPhi s).tht + p.dt / 2 * forceTht p (postStep p gradPhi s).w (postStep p gradPhi s).tht := by
  have h := C44_implicit_solves p gradPhi s hdt hT ha hD
  have h2 : (2 : K) ≠ 0 := two_ne_zero
  set s' := postStep p gradPhi s with hs'
  constructor
  · have e1 : (anteStep p f s').w = s'.w + p.dt / 2 * s'.rhsW + 1 / 2 * p.dt * (s'.vipRhs + f) := rfl
    have e2 : s'.vipRhs = (-(s.w + p.dt / 2 * s'.rhsW) + s'.w) / (1 / 2 * p.dt) := rfl
    have e3 : 1 / 2 * p.dt * s'.vipRhs = -(s.w + p.dt / 2 * s'.rhsW) + s'.w := by
      rw [e2]; field_simp
    rw [e1]
    linear_combination e3 + h.1
  · have e1 : (anteStep p f s').tht = s'.tht + p.dt / 2 * s'.rhsTht := rfl
    have e2 : s'.rhsTht = p.hflux + (-s'.w * p.dthtE - p.alpha * s'.tht) := rfl
    rw [e1, e2]; unfold forceTht; ring

/-- C44: the implicit equations have no other solution: the update is the solution. -/
theorem C44_implicit_unique (w tht : K) (h1 : w = s.w + p.dt / 2 * forceW p gradPhi w tht) (h2 : tht = s.tht + p.dt / 2 * forceTht p w tht) :
    w = (postStep p gradPhi s).w ∧ tht = (postStep p gradPhi s).tht := by
  obtain ⟨h3, h4⟩ := C44_implicit_solves p gradPhi s hdt hT ha hD
  set s' := postStep p gradPhi s with hs'
  have h2' : (2 : K) ≠ 0 := two_ne_zero
  have dt4 : (tht - s'.tht) * (1 + 1 / 2 * p.dt * p.alpha) = - (1 / 2 * p.dt * p.dthtE) * (w - s'.w) := by
    unfold forceTht at h2 h4
    linear_combination h2 - h4
  have dw : (w - s'.w) * divisor p = 0 := by
    have e1 : (w - s'.w) * (1 + 1 / 2 * p.dt * p.c) = p.dt / 2 * (p.g / p.Tref) * (tht - s'.tht) := by
      unfold forceW at h1 h3
      linear_combination h1 - h3
    have e2 : tht - s'.tht = - (1 / 2 * p.dt * p.dthtE) * (w - s'.w) / (1 + 1 / 2 * p.dt * p.alpha) := by
      rw [eq_div_iff ha]; exact dt4
    rw [e2] at e1
    unfold divisor
    linear_combination e1
  have hw : w = s'.w := by
    rcases mul_eq_zero.1 dw with h | h
    · exact sub_eq_zero.1 h
    · exact absurd h hD
  refine ⟨hw, ?_⟩
  rw [hw, sub_self, mul_zero] at dt4
  rcases mul_eq_zero.1 dt4 with h | h
  · exact sub_eq_zero.1 h
  · exact absurd h ha
end

/-- C44: at the start of the run the arrays hold the buoyancy and the temperature tendency of the initial state. -/
theorem C44_initial_rhs (p : Par K) (s : St K) :
    (updateAt0 p s).rhsW = p.g * s.tht / p.Tref ∧ (updateAt0 p s).rhsTht = forceTht p s.w s.tht := by
  refine ⟨rfl, ?_⟩
  show -s.w * p.dthtE + p.hflux - p.alpha * s.tht = _
  rfl

/-- C44: stable stratification with non-negative damping always gives a non-zero divisor: the update is defined for every time step. -/
theorem C44_stable_divisor [LinearOrder K] [IsStrictOrderedRing K] (p : Par K) (hdt : 0 < p.dt) (hg : 0 ≤ p.g) (hT : 0 < p.Tref) (hs : 0 ≤ p.dthtE) (ha : 0 ≤ p.alpha) (hc : 0 ≤ p.c) :
    1 + 1 / 2 * p.dt * p.alpha ≠ 0 ∧ divisor p ≠ 0 := by
  have h1 : 0 < 1 + 1 / 2 * p.dt * p.alpha := by positivity
  refine ⟨ne_of_gt h1, ne_of_gt ?_⟩
  unfold divisor
  positivity

/-- a concrete stably stratified point meets all hypotheses -/
example : (1 + 1 / 2 * (1 : ℚ) * (1 / 10) ≠ 0) ∧ divisor (⟨1, 10, 300, 1 / 100, 1 / 10, 0, 1 / 5, 1⟩ : Par ℚ) ≠ 0 := by
  constructor
  · norm_num
  · unfold divisor; norm_num

/-- a rising warm parcel: the hypotheses of the statements on the implicit update hold and the update changes both unknowns -/
example : (1 : ℚ) ≠ 0 ∧ (300 : ℚ) ≠ 0 ∧
    (postStep (⟨1, 10, 300, 1 / 100, 1 / 10, 0, 1 / 5, 1⟩ : Par ℚ) (1 / 7) ⟨1, 2, 0, 0, 0⟩).w ≠ 1 ∧
    (postStep (⟨1, 10, 300, 1 / 100, 1 / 10, 0, 1 / 5, 1⟩ : Par ℚ) (1 / 7) ⟨1, 2, 0, 0, 0⟩).tht ≠ 2 := by
  decide +kernel

/-- ... and the pair of equations holds of that update -/
example : let p : Par ℚ := ⟨1, 10, 300, 1 / 100, 1 / 10, 0, 1 / 5, 1⟩
    let s' := postStep p (1 / 7) ⟨1, 2, 0, 0, 0⟩
    s'.w = 1 + 1 / 2 * forceW p (1 / 7) s'.w s'.tht ∧ s'.tht = 2 + 1 / 2 * forceTht p s'.w s'.tht := by
  decide +kernel

/-- C44: explicit variant: the temperature after the step is the solution of its implicit absorber equation, and the buoyancy used is that of the new temperature. -/
theorem C44_explicit [CharZero K] (p : Par K) (te tht : K) (ha : 1 + 1 / 2 * p.dt * p.alpha ≠ 0) :
    (tht + p.dt / 2 * explRhsTht p te tht) = tht + p.dt / 2 * (p.hflux - p.alpha * ((tht + p.dt / 2 * explRhsTht p te tht) - te)) ∧
    buoyAt1 p te tht = p.g * ((tht + p.dt / 2 * explRhsTht p te tht) - te) / p.Tref ∧
    explRhsTht p te tht = explRhsTht0 p te (tht + p.dt / 2 * explRhsTht p te tht) := by
  have h2 : (2 : K) ≠ 0 := two_ne_zero
  have key : tht + p.dt / 2 * explRhsTht p te tht = (tht + 1 / 2 * p.dt * p.hflux + 1 / 2 * p.dt * p.alpha * te) / (1 + 1 / 2 * p.dt * p.alpha) := by
    unfold explRhsTht
    rw [eq_div_iff ha]
    have : (tht + 1 / 2 * p.dt * p.hflux + 1 / 2 * p.dt * p.alpha * te) / (1 + 1 / 2 * p.dt * p.alpha) * (1 + 1 / 2 * p.dt * p.alpha) =
      tht + 1 / 2 * p.dt * p.hflux + 1 / 2 * p.dt * p.alpha * te := div_mul_cancel₀ _ ha
    linear_combination (- (1 / 2) * p.dt * p.alpha) * this
  refine ⟨?_, ?_, ?_⟩
  · have h3 : explRhsTht p te tht = p.hflux - p.alpha * ((tht + p.dt / 2 * explRhsTht p te tht) - te) := by rw [key]; rfl
    exact congrArg (fun z => tht + p.dt / 2 * z) h3
  · rw [key]; rfl
  · rw [key]; rfl

/-- C44: the buoyancy filter leaves uniform and linear profiles unchanged. -/
theorem C44_filter_linear [CharZero K] (a b : K) (k : Int) : vfilter (fun j => a + b * ((j : Int) : K)) k = a + b * ((k : Int) : K) := by
  have h2 : (2 : K) ≠ 0 := two_ne_zero
  unfold vfilter
  push_cast; ring

/-- C44: ... and creates no new extrema. -/
theorem C44_filter_bounds [LinearOrder K] [IsStrictOrderedRing K] (b : Int → K) (k : Int) (lo hi : K) (h : ∀ j, lo ≤ b j ∧ b j ≤ hi) : lo ≤ vfilter b k ∧ vfilter b k ≤ hi := by
  have h1 := h (k + 1); have h2 := h k; have h3 := h (k - 1)
  unfold vfilter
  constructor <;> linarith

/-- a profile with an extremum meets the hypothesis and is changed by the filter -/
example : (∀ j : Int, (0 : ℚ) ≤ (if j = 3 then 1 else 0) ∧ (if j = 3 then 1 else 0) ≤ (1 : ℚ)) ∧ vfilter (fun j : Int => (if j = 3 then 1 else 0 : ℚ)) 3 ≠ 1 := by
  refine ⟨fun j => ?_, by decide +kernel⟩
  split_ifs <;> norm_num

end Bsq
end Mpdata
