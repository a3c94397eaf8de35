import Verif.Model.ShallowWater
import Verif.Props.Nabla
/-! # C43: shallow water -/
set_option linter.unusedSectionVars false
namespace Mpdata
variable {K : Type} [Field K] {n : Nat}

/-- a lake at rest: no momentum, uniform depth -/
def AtRest (n : Nat) (H : K) (psi : Nat → (Fin n → Int) → K) : Prop := (∀ e, e < n → ∀ x, psi e x = 0) ∧ ∀ x, psi n x = H

/-- right-hand-side arrays all zero for the equations that have one -/
def RhsZero (n norhs : Nat) (rhs : Nat → (Fin n → Int) → K) : Prop := ∀ e, e < n + 1 → isset norhs (bit e) = false → ∀ x, rhs e x = 0

theorem sw_update (g : K) (dx : Fin n → K) (norhs : Nat) (adv) (dt : K) (b : Bool) (H : K) (s : RhsSt K (Fin n → Int)) (h : AtRest n H s.psi) :
    RhsZero n norhs (updateRhs (swCfg g dx norhs adv) dt b s).rhs := by
  intro e he hn x
  show swForce g dx dt b s.psi (fun e x => if e < n + 1 ∧ ¬ isset norhs (bit e) then 0 else s.rhs e x) e x = 0
  unfold swForce
  have hg : ∀ d x, gradC d (dx d) (s.psi n) x = 0 := by
    intro d x; unfold gradC; rw [h.2, h.2]; simp
  split_ifs with h1
  · rw [hg]; simp [hn, he]
  · simp [hn, he]

theorem sw_apply (g : K) (dx : Fin n → K) (norhs : Nat) (adv) (dt : K) (s : RhsSt K (Fin n → Int)) (h : RhsZero n norhs s.rhs) :
    (applyRhs (swCfg g dx norhs adv) dt s).psi = s.psi := by
  funext e x
  show (if e < n + 1 ∧ ¬ isset norhs (bit e) = true then _ else _) = _
  split_ifs with h1
  · rw [h e h1.1 (by simpa using h1.2)]; simp
  · rfl

/-- C43: a lake at rest stays exactly at rest, for every right-hand-side scheme, time step, number of steps and every advection scheme that leaves a uniform
state with zero velocity alone (C18 shows it for MPDATA). -/
theorem C43_lake_at_rest (g : K) (dx : Fin n → K) (norhs : Nat) (adv : (Nat → (Fin n → Int) → K) → (Nat → (Fin n → Int) → K)) (H : K)
    (hadv : ∀ psi, AtRest n H psi → adv psi = psi) (sch : Scheme) (dt : K) (s : RhsSt K (Fin n → Int)) (h : AtRest n H s.psi) (steps : Nat) :
    (rhsRun (swCfg g dx norhs adv) sch dt steps s).psi = s.psi := by
  have inv : ∀ k, ((rhsStep (swCfg g dx norhs adv) sch dt)^[k] (rhsAnteLoop (swCfg g dx norhs adv) sch dt s)).psi = s.psi ∧
      (sch = .trapez → RhsZero n norhs ((rhsStep (swCfg g dx norhs adv) sch dt)^[k] (rhsAnteLoop (swCfg g dx norhs adv) sch dt s)).rhs) := by
    intro k
    induction k with
    | zero =>
      cases sch
      · exact ⟨rfl, fun h => by cases h⟩
      · exact ⟨rfl, fun h => by cases h⟩
      · exact ⟨rfl, fun _ => sw_update g dx norhs adv _ _ H s h⟩
    | succ k ih =>
      rw [Function.iterate_succ_apply']
      generalize (rhsStep (swCfg g dx norhs adv) sch dt)^[k] (rhsAnteLoop (swCfg g dx norhs adv) sch dt s) = t at ih
      obtain ⟨hp, hr⟩ := ih
      have ht : AtRest n H t.psi := by rw [hp]; exact h
      cases sch
      · refine ⟨?_, fun h => by cases h⟩
        have hz := sw_update g dx norhs adv dt false H t ht
        show (applyRhs (swCfg g dx norhs adv) dt { (updateRhs (swCfg g dx norhs adv) dt false t) with psi := adv t.psi }).psi = s.psi
        rw [sw_apply _ _ _ _ _ ({ (updateRhs (swCfg g dx norhs adv) dt false t) with psi := adv t.psi }) hz]
        show adv t.psi = s.psi
        rw [hadv _ ht, hp]
      · refine ⟨?_, fun h => by cases h⟩
        have hz := sw_update g dx norhs adv dt false H t ht
        show adv (applyRhs (swCfg g dx norhs adv) dt (updateRhs (swCfg g dx norhs adv) dt false t)).psi = s.psi
        rw [sw_apply _ _ _ _ _ _ hz]
        show adv t.psi = s.psi
        rw [hadv _ ht, hp]
      · have ha : (applyRhs (swCfg g dx norhs adv) (dt / 2) t).psi = t.psi := sw_apply _ _ _ _ _ _ (hr rfl)
        have hu : AtRest n H (adv (applyRhs (swCfg g dx norhs adv) (dt / 2) t).psi) := by rw [ha, hadv _ ht]; exact ht
        have hz := sw_update g dx norhs adv (dt / 2) true H { (applyRhs (swCfg g dx norhs adv) (dt / 2) t) with psi := adv (applyRhs (swCfg g dx norhs adv) (dt / 2) t).psi } hu
        refine ⟨?_, fun _ => hz⟩
        show (applyRhs (swCfg g dx norhs adv) (dt / 2) (updateRhs (swCfg g dx norhs adv) (dt / 2) true
          { (applyRhs (swCfg g dx norhs adv) (dt / 2) t) with psi := adv (applyRhs (swCfg g dx norhs adv) (dt / 2) t).psi })).psi = s.psi
        rw [sw_apply _ _ _ _ _ _ hz]
        show adv (applyRhs (swCfg g dx norhs adv) (dt / 2) t).psi = s.psi
        rw [ha, hadv _ ht, hp]
  exact (inv steps).1

/-- C43: right-hand sides never change the depth (with any scheme): the depth after a step is that left by advection, provided the depth's right-hand-side array
is zero at the start of the step, as it is at the start of every run and after every step. -/
theorem C43_depth_unforced (g : K) (dx : Fin n → K) (norhs : Nat) (adv : (Nat → (Fin n → Int) → K) → (Nat → (Fin n → Int) → K)) (sch : Scheme) (dt : K)
    (s : RhsSt K (Fin n → Int)) (h : isset norhs (bit n) = false → sch = .trapez → ∀ x, s.rhs n x = 0) :
    (rhsAnteStep (swCfg g dx norhs adv) sch dt s).psi n = s.psi n ∧
    (∀ psi', (rhsPostStep (swCfg g dx norhs adv) sch dt { rhsAnteStep (swCfg g dx norhs adv) sch dt s with psi := psi' }).psi n = psi' n) ∧
    (isset norhs (bit n) = false → ∀ x, sch = .trapez → (rhsStep (swCfg g dx norhs adv) sch dt s).rhs n x = 0) ∧
    (isset norhs (bit n) = false → ∀ x, sch = .trapez → (rhsAnteLoop (swCfg g dx norhs adv) sch dt s).rhs n x = 0) := by
  have hu : ∀ dt b (t : RhsSt K (Fin n → Int)), isset norhs (bit n) = false → ∀ x, (updateRhs (swCfg g dx norhs adv) dt b t).rhs n x = 0 := by
    intro dt b t hn x
    show swForce g dx dt b t.psi (fun e x => if e < n + 1 ∧ ¬ isset norhs (bit e) then 0 else t.rhs e x) n x = 0
    unfold swForce
    rw [dif_neg (lt_irrefl n)]
    simp [hn]
  have ha : ∀ dt (t : RhsSt K (Fin n → Int)), (isset norhs (bit n) = false → ∀ x, t.rhs n x = 0) → (applyRhs (swCfg g dx norhs adv) dt t).psi n = t.psi n := by
    intro dt t ht
    funext x
    show (if n < n + 1 ∧ ¬ isset norhs (bit n) = true then _ else _) = _
    split_ifs with h1
    · rw [ht (by simpa using h1.2)]; simp
    · rfl
  cases sch
  · exact ⟨rfl, fun psi' => ha dt { rhsAnteStep (swCfg g dx norhs adv) .eulerA dt s with psi := psi' } (fun hn x => hu dt false s hn x), fun _ _ hh => absurd hh (by decide), fun _ _ hh => absurd hh (by decide)⟩
  · exact ⟨ha dt _ (fun hn x => hu dt false s hn x), fun psi' => rfl, fun _ _ hh => absurd hh (by decide), fun _ _ hh => absurd hh (by decide)⟩
  · exact ⟨ha _ s (fun hn x => h hn rfl x), fun psi' => ha _ _ (fun hn x => hu _ _ _ hn x), fun hn x _ => hu (dt / 2) true { rhsAnteStep (swCfg g dx norhs adv) .trapez dt s with psi := adv (rhsAnteStep (swCfg g dx norhs adv) .trapez dt s).psi } hn x, fun hn x _ => hu (dt / 2) false s hn x⟩

/-- C43: on a cyclic domain the forcing conserves every component of total momentum, for every depth field. -/
theorem C43_momentum_conserved (g : K) (dx : Fin n → K) (P : Fin n → Nat) (hP : ∀ d, 1 ≤ P d) (dt : K) (b : Bool) (psi rhs : Nat → (Fin n → Int) → K)
    (hh : PeriodicN P (psi n)) (d : Fin n) :
    ∑ x ∈ period P, (swForce g dx dt b psi rhs d x - rhs d x) = 0 := by
  have e : ∀ x, swForce g dx dt b psi rhs d x - rhs d x = - (g / dx d / 2) * (psi n x * psi n (stepIdx x d 1) - psi n x * psi n (stepIdx x d (-1))) := by
    intro x; unfold swForce gradC; rw [dif_pos d.2]; ring
  rw [Finset.sum_congr rfl fun x _ => e x, ← Finset.mul_sum, Finset.sum_sub_distrib]
  have := sum_shift hP (f := fun x => psi n x * psi n (stepIdx x d (-1))) (PeriodicN.map2 (· * ·) hh (hh.shift d (-1))) d 1
  rw [← this]
  have : ∑ x ∈ period P, psi n x * psi n (stepIdx x d 1) = ∑ x ∈ period P, psi n (stepIdx x d 1) * psi n (stepIdx (stepIdx x d 1) d (-1)) := by
    refine Finset.sum_congr rfl fun x _ => ?_
    rw [stepIdx_add]; simp [stepIdx_zero, mul_comm]
  rw [this, sub_self, mul_zero]

/-- a lake of depth 3 meets the hypotheses of `C43_lake_at_rest`, with the identity as advection -/
example : AtRest (n := 2) (3 : ℚ) (fun e _ => if e = 2 then 3 else 0) := by
  refine ⟨fun e he x => ?_, fun x => rfl⟩
  show (if e = 2 then (3 : ℚ) else 0) = 0
  rw [if_neg (by omega)]

/-- C43: the force on the momentum in direction `d` is minus the difference across the cell of a face flux, the hydrostatic pressure `g h h' / 2` with the depths on both
sides of the face, over the cell width. -/
theorem C43_pressure_flux (g : K) (dx : Fin n → K) (dt : K) (b : Bool) (psi rhs : Nat → (Fin n → Int) → K) (d : Fin n) (x : Fin n → Int) :
    swForce g dx dt b psi rhs d x - rhs d x
      = - (g * (psi n x * psi n (stepIdx x d 1)) / 2 - g * (psi n (stepIdx x d (-1)) * psi n x) / 2) / dx d := by
  unfold swForce gradC; rw [dif_pos d.2]; ring

/-- C43: on a plane surface the force is the weight of the column times the slope, directed downhill. -/
theorem C43_slope [CharZero K] (g : K) (dx : Fin n → K) (hdx : ∀ d, dx d ≠ 0) (dt : K) (b : Bool) (psi rhs : Nat → (Fin n → Int) → K) (d : Fin n) (x : Fin n → Int) (H : K) (sl : Fin n → K)
    (hh : ∀ y, psi n y = H + ∑ e, sl e * (dx e * (y e : K))) :
    swForce g dx dt b psi rhs d x = rhs d x - g * psi n x * sl d := by
  have e : ∀ k : Int, psi n (stepIdx x d k) = psi n x + sl d * (dx d * k) := by
    intro k
    rw [hh, hh, add_assoc]
    congr 1
    rw [← Finset.add_sum_erase _ _ (Finset.mem_univ d), ← Finset.add_sum_erase _ (fun e => sl e * (dx e * (x e : K))) (Finset.mem_univ d)]
    rw [Finset.sum_congr rfl fun q hq => by rw [show stepIdx x d k q = x q by simp [stepIdx, Finset.ne_of_mem_erase hq]], show stepIdx x d k d = x d + k by simp [stepIdx]]
    push_cast; ring
  have h2 : (2 : K) ≠ 0 := two_ne_zero
  have hd := hdx d
  unfold swForce gradC; rw [dif_pos d.2]
  show rhs d x - g * psi n x * ((psi n (stepIdx x d 1) - psi n (stepIdx x d (-1))) / dx d / 2) = _
  rw [e, e]
  push_cast
  field_simp
  ring

end Mpdata
