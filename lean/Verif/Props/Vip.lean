import Verif.Model.Vip
import Mathlib.Tactic.LinearCombination
/-!
# C31–C33: advector extrapolation, velocity history, absorber
-/
set_option linter.unusedSectionVars false
namespace Mpdata
variable {K : Type} [Field K] [LinearOrder K]

section History

/-- changes of block 0 made by repeated extrapolation do not reach the history blocks when there are any -/
theorem calcGc_frame (c : VipCfg) (hc : c.varDt = true ∨ c.div3 = true) (v : K) (ts : List K) (s : VipSt K) :
    (vipCalcGc c v ts s).timestep = s.timestep ∧ (vipCalcGc c v ts s).ds0 = s.ds0 ∧ (vipCalcGc c v ts s).ds1 = s.ds1 ∧
    ∀ b, b ≠ 0 → (vipCalcGc c v ts s).stash b = s.stash b := by
  have h0 : ∀ t, stashBlk c t 0 = 0 := by
    intro t; rcases c with ⟨a, b⟩; cases a <;> cases b <;> simp [stashBlk]
  have hf : (!c.varDt && !c.div3) = false := by rcases hc with h | h <;> simp [h]
  induction ts generalizing s with
  | nil => exact ⟨rfl, rfl, rfl, fun _ _ => rfl⟩
  | cons d ts ih =>
    obtain ⟨i1, i2, i3, i4⟩ := ih { s with stash := extrp c s.timestep d s.ds0 v s.stash }
    refine ⟨i1, i2, i3, fun b hb => ?_⟩
    refine (i4 b hb).trans ?_
    simp only [extrp, h0, Stash.set, hf, Bool.false_eq_true, if_false, hb]

theorem calcGc_time (c : VipCfg) (v : K) (ts : List K) (s : VipSt K) :
    (vipCalcGc c v ts s).timestep = s.timestep ∧ (vipCalcGc c v ts s).ds0 = s.ds0 ∧ (vipCalcGc c v ts s).ds1 = s.ds1 := by
  induction ts generalizing s with
  | nil => exact ⟨rfl, rfl, rfl⟩
  | cons d ts ih => exact ih { s with stash := extrp c s.timestep d s.ds0 v s.stash }

variable (c : VipCfg) (v : Nat → K) (tries : Nat → List K) (dt junk : Nat → K) (mem : Stash K)

theorem vipRun_timestep (k : Nat) : (vipRun c v tries dt junk mem k).timestep = k := by
  induction k with
  | zero => rfl
  | succ k ih =>
    simp only [vipRun, vipStep, vipCalcNdt]
    split_ifs <;> simp only [(calcGc_time c _ _ _).1, ih]

theorem vipRun_ds0 (k : Nat) : (vipRun c v tries dt junk mem (k + 1)).ds0 = dt k := rfl

theorem vipRun_ds1 (hc : c.div3 = true) (k : Nat) : (vipRun c v tries dt junk mem (k + 2)).ds1 = dt k := by
  show (vipStep c _ _ _ _ (vipRun c v tries dt junk mem (k + 1))).ds1 = _
  simp only [vipStep, vipCalcNdt, hc, if_true, (calcGc_time c _ _ _).2.1, vipRun_ds0]

/-- C32: for every storage layout, every number of steps, every sequence of time steps and of trial time steps: the stored velocity labelled
`t-1` at the beginning of a step is the velocity at the beginning of the previous step. -/
theorem C32_stash_previous (k : Nat) :
    (vipRun c v tries dt junk mem (k + 1)).stash (stashBlk c (k + 1) 1) = v k := by
  show (vipStep c _ _ _ _ (vipRun c v tries dt junk mem k)).stash _ = _
  have ht := vipRun_timestep c v tries dt junk mem k
  generalize vipRun c v tries dt junk mem k = s at ht
  have hb : stashBlk c (k + 1) 1 = stashBlk c k (if c.div3 then 2 else 1) := by
    rcases c with ⟨a, b⟩
    cases a <;> cases b <;> simp [stashBlk] <;> rcases Nat.mod_two_eq_zero_or_one k with h | h <;> simp [h, Nat.add_mod]
  simp only [vipStep]
  rw [hb]
  have : (vipCalcNdt c (junk k) (vipCalcGc c (v k) (tries k) s)).timestep = s.timestep := by
    unfold vipCalcNdt; split_ifs <;> exact (calcGc_time c _ _ _).1
  rw [this, ht]
  simp only [fillStash, Stash.set, if_true]

/-- C32: with third-order options the stored velocity labelled `t-2` is the one at the beginning of the second previous step. -/
theorem C32_stash_second_previous (hc : c.div3 = true) (k : Nat) :
    (vipRun c v tries dt junk mem (k + 2)).stash (stashBlk c (k + 2) 2) = v k := by
  have h1 := C32_stash_previous c v tries dt junk mem k
  show (vipStep c _ _ _ _ (vipRun c v tries dt junk mem (k + 1))).stash _ = _
  have ht := vipRun_timestep c v tries dt junk mem (k + 1)
  generalize vipRun c v tries dt junk mem (k + 1) = s at ht h1
  obtain ⟨f1, -, -, f4⟩ := calcGc_frame c (Or.inr hc) (v (k + 1)) (tries (k + 1)) s
  have e1 : stashBlk c (k + 2) 2 = stashBlk c (k + 1) 1 := by
    rcases c with ⟨a, b⟩
    cases a <;> cases b <;> simp_all [stashBlk] <;> rcases Nat.mod_two_eq_zero_or_one k with h | h <;> simp [h, Nat.add_mod]
  have e2 : stashBlk c (k + 1) 1 ≠ stashBlk c (k + 1) 2 := by
    rcases c with ⟨a, b⟩
    cases a <;> cases b <;> simp_all [stashBlk] <;> rcases Nat.mod_two_eq_zero_or_one k with h | h <;> simp [h, Nat.add_mod]
  have e3 : stashBlk c (k + 1) 1 ≠ 0 := by
    rcases c with ⟨a, b⟩
    cases a <;> cases b <;> simp_all [stashBlk] <;> rcases Nat.mod_two_eq_zero_or_one k with h | h <;> simp [h, Nat.add_mod]
  simp only [vipStep, vipCalcNdt, hc, if_true, fillStash, Stash.set, f1, ht, e1]
  rw [if_neg e2, if_neg e3, f4 _ e3, h1]

/-- C32: within a step, however many trial time steps are extrapolated for, the stored velocities of previous steps stay as they were
(so that the next trial, and the time derivatives, use them again). -/
theorem C32_trials_keep_history (hc : c.varDt = true ∨ c.div3 = true) (k : Nat) (ts : List K) :
    (vipCalcGc c (v (k + 1)) ts (vipRun c v tries dt junk mem (k + 1))).stash (stashBlk c (k + 1) 1) = v k := by
  have e3 : stashBlk c (k + 1) 1 ≠ 0 := by
    rcases c with ⟨a, b⟩
    cases a <;> cases b <;> simp_all [stashBlk] <;> rcases Nat.mod_two_eq_zero_or_one k with h | h <;> simp [h, Nat.add_mod]
  rw [(calcGc_frame c hc _ _ _).2.2.2 _ e3, C32_stash_previous]

theorem extrp_blk0 (s : VipSt K) (d w p : K) (hp : s.stash (stashBlk c s.timestep 1) = p) :
    (extrp c s.timestep d s.ds0 w s.stash) 0 = (1 + extrpBeta d s.ds0) * w - extrpBeta d s.ds0 * p := by
  rcases c with ⟨a, b⟩
  cases a <;> cases b <;> simp_all [extrp, stashBlk, Stash.set]
  all_goals ring

/-- C31: the velocity from which the advector of a step is built: in the first step the initial velocity, in every later step
`(1+b) v^n - b v^(n-1)` with `b = dt^n / (2 dt^(n-1))`, whatever trial time steps were made before the final one
(with constant `dt` and second-order options there is exactly one). -/
theorem C31_extrapolated [IsStrictOrderedRing K] (hdt : ∀ k, 0 < dt k) (ts : List K) (hts : c.varDt = true ∨ c.div3 = true ∨ ts = []) (d : K) (k : Nat) :
    (vipCalcGc c (v 0) (ts ++ [d]) (vipRun c v tries dt junk mem 0)).stash 0 = v 0 ∧
    (vipCalcGc c (v (k + 1)) (ts ++ [d]) (vipRun c v tries dt junk mem (k + 1))).stash 0
      = (1 + d / (2 * dt k)) * v (k + 1) - d / (2 * dt k) * v k := by
  have key : ∀ (s : VipSt K) (w p : K), s.stash (stashBlk c s.timestep 1) = p →
      (vipCalcGc c w (ts ++ [d]) s).stash 0 = (1 + extrpBeta d s.ds0) * w - extrpBeta d s.ds0 * p := by
    intro s w p hp
    have happ : vipCalcGc c w (ts ++ [d]) s = vipCalcGc c w [d] (vipCalcGc c w ts s) := by
      unfold vipCalcGc; rw [List.foldl_append]
    rw [happ]
    have hs : (vipCalcGc c w ts s).timestep = s.timestep ∧ (vipCalcGc c w ts s).ds0 = s.ds0 ∧
        (vipCalcGc c w ts s).stash (stashBlk c s.timestep 1) = p := by
      refine ⟨(calcGc_time c _ _ _).1, (calcGc_time c _ _ _).2.1, ?_⟩
      have hne : ∀ t, (c.varDt = true ∨ c.div3 = true) → stashBlk c t 1 ≠ 0 := by
        intro t h
        rcases c with ⟨a, b⟩
        cases a <;> cases b <;> simp_all [stashBlk] <;> rcases Nat.mod_two_eq_zero_or_one t with h | h <;> simp [h]
      rcases hts with h | h | h
      · rw [(calcGc_frame c (Or.inl h) _ _ _).2.2.2 _ (hne _ (Or.inl h)), hp]
      · rw [(calcGc_frame c (Or.inr h) _ _ _).2.2.2 _ (hne _ (Or.inr h)), hp]
      · subst h; exact hp
    generalize vipCalcGc c w ts s = s' at hs
    obtain ⟨h1, h2, h3⟩ := hs
    have := extrp_blk0 c s' d w p (by rw [h1]; exact h3)
    rw [h2] at this
    rw [← this, ← h2]; rfl
  constructor
  · have h0 : (vipRun c v tries dt junk mem 0).stash (stashBlk c (vipRun c v tries dt junk mem 0).timestep 1) = 0 := by
      rcases c with ⟨a, b⟩
      cases a <;> cases b <;> simp [vipRun, vipAnteLoop, stashBlk, Stash.set]
    rw [key _ _ _ h0]
    have : (vipRun c v tries dt junk mem 0).ds0 = 0 := rfl
    rw [this]
    simp [extrpBeta]
  · have h0 := C32_stash_previous c v tries dt junk mem k
    have ht := vipRun_timestep c v tries dt junk mem (k + 1)
    rw [key _ _ (v k) (by rw [ht]; exact h0), vipRun_ds0]
    simp [extrpBeta, hdt k]

/-- C31: the extrapolation is exact for velocities linear in time: if the velocity at the beginning of every step is `a + b t`, where `t` accumulates
the steps taken, the velocity used for the advector of step `k >= 1` with time step `d` is `a + b (t + d/2)`. -/
theorem C31_exact_for_linear [IsStrictOrderedRing K] (hdt : ∀ k, 0 < dt k) (ts : List K) (hts : c.varDt = true ∨ c.div3 = true ∨ ts = []) (d : K) (k : Nat)
    (t : Nat → K) (ht : ∀ k, t (k + 1) = t k + dt k) (a b : K) (hv : ∀ k, v k = a + b * t k) :
    (vipCalcGc c (v (k + 1)) (ts ++ [d]) (vipRun c v tries dt junk mem (k + 1))).stash 0 = a + b * (t (k + 1) + d / 2) := by
  rw [(C31_extrapolated c v tries dt junk mem hdt ts hts d k).2, hv, hv, ht]
  have := (hdt k).ne'
  field_simp
  ring

/-- C31 (partial: for advected velocities, `vip_den == -1`; with a density variable it is false, `C31_fails_derivative_with_density`): with third-order options the time derivative handed to the advection scheme is exact (`dt` times the slope) for velocities linear in
time, and the second derivative is exact (`dt^2` times it) for velocities quadratic in time, for any sequence of time steps. -/
theorem C31_time_derivatives_exact_partial [IsStrictOrderedRing K] (hc : c.div3 = true) (hdt : ∀ k, 0 < dt k) (d : K) (k : Nat)
    (t : Nat → K) (ht : ∀ k, t (k + 1) = t k + dt k) (a b q : K) :
    ((∀ k, v k = a + b * t k) →
      ndtVel c (k + 1) d (vipRun c v tries dt junk mem (k + 1)).ds0 (v (k + 1)) (vipRun c v tries dt junk mem (k + 1)).stash = some (d * b)) ∧
    ((∀ k, v k = a + b * t k + q * t k ^ 2) →
      ndttVel c (k + 2) d (vipRun c v tries dt junk mem (k + 2)).ds0 (vipRun c v tries dt junk mem (k + 2)).ds1 (v (k + 2))
        (vipRun c v tries dt junk mem (k + 2)).stash = some (d * d * (2 * q))) := by
  constructor
  · intro hv
    have h := hdt k
    rw [vipRun_ds0]
    unfold ndtVel
    rw [if_pos h, C32_stash_previous, hv, hv, ht]
    have := h.ne'
    congr 1; field_simp; ring
  · intro hv
    have h := hdt k
    have h' := hdt (k + 1)
    rw [vipRun_ds0, vipRun_ds1 c v tries dt junk mem hc]
    unfold ndttVel
    rw [if_pos ⟨h', h⟩, C32_stash_previous, C32_stash_second_previous c v tries dt junk mem hc, hv, hv, hv, ht, ht]
    have h1 := h.ne'
    have h2 := h'.ne'
    have h3 : dt (k + 1) + dt k ≠ 0 := (add_pos h' h).ne'
    congr 1; field_simp; ring

/-- the hypotheses are met by a varying step size and several trials per step -/
example : (vipCalcGc ⟨true, false⟩ (1 + 2 * (3 : ℚ)) ([5, 7] ++ [4]) (vipRun ⟨true, false⟩ (fun k => 1 + 2 * (k * (k + 1) / 2 : ℚ))
    (fun _ => [1, 2]) (fun k => k + 1) (fun _ => 99) (fun _ => -1) 2)).stash 0 = 1 + 2 * (3 + 4 / 2) := by decide +kernel
example : ∀ k : Nat, ((k + 1 : Nat) * ((k + 1 : Nat) + 1) / 2 : ℚ) = k * (k + 1) / 2 + (k + 1) := by intro k; push_cast; ring

/-- C31, a case the user may not expect: with the dry-cell threshold (`eps != 0`) a cell that has just become dry is given the velocity `-b v^(n-1)`, not zero. -/
theorem C31_drying_cell_velocity_reversed : ∃ (eps m1 d1 m0 d0 : ℚ), eps > 0 ∧ d0 > eps ∧ ¬ d1 > eps ∧ velOf (some d0) eps m0 > 0 ∧
    (vipCalcGc ⟨false, false⟩ (velOf (some d1) eps m1) [1]
      (vipRun ⟨false, false⟩ (fun _ => velOf (some d0) eps m0) (fun _ => [1]) (fun _ => 1) (fun _ => 0) (fun _ => 0) 1)).stash 0 < 0 :=
  ⟨1 / 10, 0, 0, 1, 1, by decide +kernel⟩

end History

/-- C31: the advector at a face is the mean of the neighbouring velocities times `dt/dx` (weighted with the G-factor), hence exact for a
velocity that varies linearly in space. -/
theorem C31_interpolation_exact (h2 : (2 : K) ≠ 0) (dt dx a b x : K) (hx : dx ≠ 0) :
    intrpFace dt dx 1 1 (a + b * x) (a + b * (x + dx)) = (a + b * (x + dx / 2)) * (dt / dx) := by
  unfold intrpFace; field_simp; ring

/-- C31: with a density factor the face value is exact wherever the momentum density, factor times velocity, is linear between the two points; in particular a uniform
mass flux `m` gives everywhere the same advector. -/
theorem C31_interpolation_mass_flux (h2 : (2 : K) ≠ 0) (dt dx g0 g1 u0 u1 a b x : K) (hx : dx ≠ 0) (e0 : g0 * u0 = a + b * x) (e1 : g1 * u1 = a + b * (x + dx)) :
    intrpFace dt dx g0 g1 u0 u1 = (a + b * (x + dx / 2)) * (dt / dx) := by
  unfold intrpFace; rw [e0, e1]; field_simp; ring

/-- C31: the velocity taken from the state: the momentum itself if there is no density variable, otherwise the quotient, and rest in cells whose density does not
exceed a positive threshold. -/
theorem C31_velocity_of_state (eps m d : K) :
    velOf none eps m = m ∧ (d ≠ 0 → (eps = 0 ∨ eps < d) → velOf (some d) eps m * d = m) ∧ (0 < eps → d ≤ eps → velOf (some d) eps m = 0) := by
  refine ⟨rfl, fun h0 h => ?_, fun h0 h => ?_⟩
  · simp only [velOf]
    split_ifs with h1 h3
    · exact div_mul_cancel₀ m h0
    · exact div_mul_cancel₀ m h0
    · exact absurd h (by rintro (h | h); exacts [h1 h, h3 h])
  · simp only [velOf]
    rw [if_neg h0.ne', if_neg (not_lt.2 h)]

/-- C33: the implicit absorber returns a convex combination of the unrelaxed velocity and the reference velocity, for every non-negative coefficient
and time step; a point with zero coefficient keeps its velocity. -/
theorem C33_implicit_is_convex [IsStrictOrderedRing K] (dt c r v : K) (hdt : 0 < dt) (hc : 0 ≤ c) :
    (∃ w : K, 0 < w ∧ w ≤ 1 ∧ (vabFnlz dt c r v).1 = w * v + (1 - w) * r) ∧ (c = 0 → (vabFnlz dt c r v).1 = v) := by
  have hp : 0 < 1 + 1 / 2 * dt * c := by positivity
  refine ⟨⟨1 / (1 + 1 / 2 * dt * c), by positivity, ?_, ?_⟩, ?_⟩
  · rw [div_le_one hp]; have : 0 ≤ 1 / 2 * dt * c := by positivity
    linarith
  · simp only [vabFnlz]; have := hp.ne'; field_simp; ring
  · rintro rfl; simp [vabFnlz]

/-- C33: hence no overshoot: the relaxed velocity lies between the unrelaxed and the reference velocity. -/
theorem C33_no_overshoot [IsStrictOrderedRing K] (dt c r v : K) (hdt : 0 < dt) (hc : 0 ≤ c) :
    min v r ≤ (vabFnlz dt c r v).1 ∧ (vabFnlz dt c r v).1 ≤ max v r := by
  obtain ⟨⟨w, h0, h1, h⟩, -⟩ := C33_implicit_is_convex dt c r v hdt hc
  rw [h]
  have a1 := min_le_left v r
  have a2 := min_le_right v r
  have b1 := le_max_left v r
  have b2 := le_max_right v r
  have h2 : 0 ≤ 1 - w := by linarith
  constructor
  · have := mul_le_mul_of_nonneg_left a1 h0.le
    have := mul_le_mul_of_nonneg_left a2 h2
    linarith
  · have := mul_le_mul_of_nonneg_left b1 h0.le
    have := mul_le_mul_of_nonneg_left b2 h2
    linarith

/-- C33: the forcing stored for the next half step is minus the coefficient times the departure of the *new* velocity from the reference, and half a step
of it is exactly the change made. -/
theorem C33_stored_forcing [IsStrictOrderedRing K] (dt c r v : K) (hdt : 0 < dt) (hc : 0 ≤ c) :
    (vabFnlz dt c r v).2 = -(c * ((vabFnlz dt c r v).1 - r)) ∧ (vabFnlz dt c r v).1 = v + 1 / 2 * dt * (vabFnlz dt c r v).2 := by
  have hp : 1 + 1 / 2 * dt * c ≠ 0 := by positivity
  have hd := hdt.ne'
  simp only [vabFnlz]
  constructor
  · have : 2 + dt * c ≠ 0 := by intro h; apply hp; linear_combination h / 2
    field_simp; ring
  · field_simp; ring

/-- C33: over a whole run (forcing initialised from the initial velocity, any number of steps, transport leaving a velocity unchanged) the
departure from the reference never grows, for every non-negative coefficient and time step: the absorber is unconditionally stable. -/
theorem C33_run_stable [IsStrictOrderedRing K] (dt c r v : K) (hdt : 0 < dt) (hc : 0 ≤ c) (n : Nat) :
    let s := (vabStep dt c r id)^[n] (v, vabInit c r v)
    s.2 = -(c * (s.1 - r)) ∧ |s.1 - r| ≤ |v - r| := by
  intro s
  induction n with
  | zero => exact ⟨rfl, le_rfl⟩
  | succ n ih =>
    simp only [Function.iterate_succ_apply', s] at ih ⊢
    generalize (vabStep dt c r id)^[n] (v, vabInit c r v) = u at ih
    obtain ⟨h1, h2⟩ := ih
    refine ⟨(C33_stored_forcing dt c r _ hdt hc).1, le_trans ?_ h2⟩
    have hp : 0 < 1 + 1 / 2 * dt * c := by positivity
    have : (vabStep dt c r id u).1 - r = (1 - 1 / 2 * dt * c) / (1 + 1 / 2 * dt * c) * (u.1 - r) := by
      simp only [vabStep, vabApply, vabFnlz, h1, id]
      have := hp.ne'
      field_simp; ring
    rw [this, abs_mul, abs_div, abs_of_pos hp]
    have hq : 0 ≤ 1 / 2 * dt * c := by positivity
    have : |1 - 1 / 2 * dt * c| / (1 + 1 / 2 * dt * c) ≤ 1 := by
      rw [div_le_one hp, abs_le]; constructor <;> linarith
    calc _ ≤ 1 * |u.1 - r| := mul_le_mul_of_nonneg_right this (abs_nonneg _)
      _ = _ := one_mul _

example : (vabFnlz (2 : ℚ) 3 1 5).1 = 2 := by norm_num [vabFnlz]
example : ((vabStep (2 : ℚ) 3 1 id)^[2] (5, vabInit 3 1 5)).1 = 2 := by
  norm_num [vabStep, vabApply, vabFnlz, vabInit, Function.iterate_succ]

/-- C33: the explicit absorber changes the velocity by `-dt c (v - r)` in a step: a convex combination exactly when `dt c <= 1`. -/
theorem C33_explicit_step [IsStrictOrderedRing K] (dt c r v : K) :
    vabExplStep dt c r id (v, 0) = ((1 - dt * c) * v + dt * c * r, 0) := by
  simp only [vabExplStep, vabExpl, vabApply, id]
  congr 1
  have : (2 : K) ≠ 0 := two_ne_zero
  field_simp; ring

/-- C33, contrast: the explicit absorber overshoots and blows up for large `dt c`. -/
theorem C33_explicit_unstable : ∃ dt c r v : ℚ, 0 < dt ∧ 0 < c ∧ |(vabExplStep dt c r id (v, 0)).1 - r| > |v - r| :=
  ⟨1, 3, 0, 1, by norm_num, by norm_num, by norm_num [vabExplStep, vabExpl, vabApply]⟩

end Mpdata
