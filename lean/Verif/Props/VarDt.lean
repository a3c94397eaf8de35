import Verif.Model.VarDt
import Verif.Lemmas.Donor
import Verif.Lemmas.Run1
import Mathlib.Algebra.Order.Archimedean.Basic
import Mathlib.Algebra.BigOperators.Group.Finset.Basic
/-! # C06 (adaptive time stepping), C35 (divergence check), C07 (scaling hints) -/
set_option linter.unusedSectionVars false
namespace Mpdata
variable {K : Type} [Field K] [LinearOrder K] [IsStrictOrderedRing K]

/-! ## maxima -/

theorem foldl_max_le {I : Type} (f : I → K) (cs : List I) (a b : K) :
    cs.foldl (fun m x => max m (f x)) a ≤ b ↔ a ≤ b ∧ ∀ c ∈ cs, f c ≤ b := by
  induction cs generalizing a with
  | nil => simp
  | cons c cs ih => simp only [List.foldl_cons, ih, max_le_iff, List.mem_cons, forall_eq_or_imp, and_assoc]

theorem maxOver_le {I : Type} (cells : List I) (h : cells ≠ []) (f : I → K) (b : K) :
    maxOver cells f ≤ b ↔ ∀ c ∈ cells, f c ≤ b := by
  cases cells with
  | nil => exact absurd rfl h
  | cons c cs => simp only [maxOver, foldl_max_le, List.mem_cons, forall_eq_or_imp]

theorem maxOver_mem {I : Type} (cells : List I) (h : cells ≠ []) (f : I → K) : ∃ c ∈ cells, maxOver cells f = f c := by
  by_contra hc
  push Not at hc
  have hlt : ∀ c ∈ cells, f c < maxOver cells f := fun c hm =>
    lt_of_le_of_ne ((maxOver_le cells h f _).1 le_rfl c hm) (fun e => hc c hm e.symm)
  obtain ⟨c0, hc0⟩ := List.exists_mem_of_ne_nil cells h
  have : ∃ b, (∀ c ∈ cells, f c ≤ b) ∧ b < maxOver cells f := by
    clear hc
    generalize maxOver cells f = M at *
    clear h hc0
    induction cells with
    | nil => exact ⟨M - 1, by simp, by linarith⟩
    | cons c cs ih =>
      obtain ⟨b, hb, hM⟩ := ih (fun c hm => hlt c (List.mem_cons_of_mem _ hm))
      refine ⟨max b (f c), ?_, max_lt hM (hlt c List.mem_cons_self)⟩
      intro x hx
      rcases List.mem_cons.1 hx with rfl | hx
      · exact le_max_right _ _
      · exact (hb x hx).trans (le_max_left _ _)
  obtain ⟨b, hb, hM⟩ := this
  exact absurd ((maxOver_le cells h f b).2 hb) (not_le.2 hM)

theorem maxOver_smul {I : Type} (cells : List I) (f : I → K) (r : K) (hr : 0 ≤ r) :
    maxOver cells (fun c => f c * r) = maxOver cells f * r := by
  cases cells with
  | nil => simp [maxOver]
  | cons c cs =>
    simp only [maxOver]
    have : ∀ a : K, cs.foldl (fun m x => max m (f x * r)) (a * r) = cs.foldl (fun m x => max m (f x)) a * r := by
      induction cs with
      | nil => intro a; rfl
      | cons c cs ih => intro a; simp only [List.foldl_cons, ← max_mul_of_nonneg _ _ hr]; exact ih _
    exact this _

theorem maxOver_congr {I : Type} (cells : List I) (f g : I → K) (h : ∀ c ∈ cells, f c = g c) : maxOver cells f = maxOver cells g := by
  cases cells with
  | nil => rfl
  | cons c cs =>
    simp only [maxOver]
    rw [h c List.mem_cons_self]
    have : ∀ a : K, cs.foldl (fun m x => max m (f x)) a = cs.foldl (fun m x => max m (g x)) a := by
      have h' : ∀ c ∈ cs, f c = g c := fun x hx => h x (List.mem_cons_of_mem _ hx)
      clear h
      induction cs with
      | nil => intro a; rfl
      | cons d ds ih =>
        intro a
        simp only [List.foldl_cons]
        rw [h' d List.mem_cons_self]
        exact ih (fun x hx => h' x (List.mem_cons_of_mem _ hx)) _
    exact this _

/-! ## C06: steady advector -/

/-- C06 (steady advector, 1-D, cyclic): if the Courant number is positive, the start-up hook chooses `dt` and rescales the
advector such that the maximum Courant number measured afterwards is exactly `max_courant`, and every face `f` holds the old
(halo-filled) value times `dt_new/dt_old`. -/
theorem C06_steady_courant_exact_1d (r : Rng) (halo : Int) (h0 : 1 ≤ halo) (hh : halo ≤ r.last - r.first) (cells : List Int)
    (hcells : ∀ i ∈ cells, r.first ≤ i ∧ i ≤ r.last)
    (mc dt : K) (hmc : 0 < mc) (hdt : 0 < dt) (GC : Int → K)
    (hpos : 0 < courant1 cells (cycFillV r halo GC)) :
    let res := anteLoopVarDt1 r cells (cycFillV r halo) mc dt GC
    courant1 cells res.2 = mc ∧ 0 < res.1 ∧
      ∀ i, r.first - halo ≤ i → i ≤ r.last + halo - 1 → res.2 i = cycFillV r halo GC i * (res.1 / dt) := by
  have hgt : courant1 cells (cycFillV r halo GC) > 0 := hpos
  simp only [anteLoopVarDt1, if_pos hgt]
  generalize hc : courant1 cells (cycFillV r halo GC) = cfl at *
  have hr : dt * (mc / cfl) / dt = mc / cfl := by field_simp
  have hval : ∀ i, r.first - halo ≤ i → i ≤ r.last + halo - 1 →
      cycFillV r halo (scaleGc1 r (dt * (mc / cfl) / dt) (cycFillV r halo GC)) i
        = cycFillV r halo GC i * (dt * (mc / cfl) / dt) := by
    intro i h1 h2
    generalize dt * (mc / cfl) / dt = q
    simp only [cycFillV, scaleGc1, asg_ite, Rng.extH, Rng.Mem]
    split_ifs <;> first | omega | rfl
  refine ⟨?_, by positivity, hval⟩
  have : courant1 cells (cycFillV r halo (scaleGc1 r (dt * (mc / cfl) / dt) (cycFillV r halo GC)))
      = courant1 cells (cycFillV r halo GC) * (mc / cfl) := by
    unfold courant1
    rw [← maxOver_smul _ _ _ (by positivity)]
    apply maxOver_congr
    intro i hi
    obtain ⟨a, b⟩ := hcells i hi
    rw [hval i (by omega) (by omega), hval (i - 1) (by omega) (by omega), hr, ← add_mul, abs_mul,
      abs_of_pos (div_pos hmc hpos)]
    ring
  rw [this, hc]
  field_simp
/-- hypotheses met: five points, halo 2, Courant number 1/2, `max_courant = 1/4`, `dt = 3` -/
example := C06_steady_courant_exact_1d (K := ℚ) ⟨0, 4⟩ 2 (by decide) (by decide) [0, 1, 2, 3, 4] (by decide) (1/4) 3 (by norm_num) (by norm_num) (fun _ => 1/2) (by decide +kernel)

/-- the measured Courant number is an upper bound for every cell of the subdomain, and is attained -/
theorem C06_courant_is_max_2d (o : OptsT) (G : Int → Int → K) (cells : List (Int × Int)) (hne : cells ≠ []) (GC0 GC1 : Int → Int → K) :
    (∀ c ∈ cells, 1 / 2 * (|GC0 c.1 c.2 + GC0 (c.1 - 1) c.2| + |GC1 c.1 c.2 + GC1 c.1 (c.2 - 1)|) / gFac2 o 0 G c.1 c.2
        ≤ courant2 o G cells GC0 GC1) ∧
    ∃ c ∈ cells, courant2 o G cells GC0 GC1
        = 1 / 2 * (|GC0 c.1 c.2 + GC0 (c.1 - 1) c.2| + |GC1 c.1 c.2 + GC1 c.1 (c.2 - 1)|) / gFac2 o 0 G c.1 c.2 :=
  ⟨(maxOver_le cells hne _ (courant2 o G cells GC0 GC1)).1 le_rfl, maxOver_mem cells hne _⟩
example := C06_courant_is_max_2d (K := ℚ) 0 (fun _ _ => 1) [(0, 0), (1, 2)] (by simp) (fun i j => i - j) (fun i j => i * j)

/-- In 1-D the measured "Courant number" ignores the G factor and averages the two faces of a cell: it can be zero although
all velocities are not, and then no adaptation takes place. -/
theorem C06_courant1_blind_to_opposing_faces :
    courant1 [0, 1] (fun i : Int => if i % 2 = 0 then (5 : ℚ) else -5) = 0 := by decide +kernel

/-! ## C06: the adaptation loop for a recomputed advector -/

/-- C06: whenever the adaptation loop exits, the Courant number of the advector for the chosen time step does not exceed `max_courant`. -/
theorem C06_adapt_exit_within_limit (cfl : K → K) (mc d c d' : K) (h : Adapt cfl mc d c d') : cfl d' ≤ mc := by
  induction h with
  | exit d c h => exact not_lt.1 h
  | again d c d' _ _ ih => exact ih
/-- hypotheses met: velocity 2, `max_courant = 1/2`, first guess `dt = 1` -/
example : Adapt (fun x : ℚ => x * 2) (1/2) 1 2 (1 * ((1/2) / 2)) := .exit 1 2 (by norm_num)

/-- C06: if the advector is proportional to the time step (velocity independent of it), the loop exits after one pass with exactly `max_courant`. -/
theorem C06_adapt_homogeneous (cfl : K → K) (v mc d : K) (hv : 0 < v) (hd : 0 < d) (hcfl : ∀ x, cfl x = x * v) :
    Adapt cfl mc d (cfl d) (d * (mc / cfl d)) ∧ cfl (d * (mc / cfl d)) = mc := by
  have e : cfl (d * (mc / cfl d)) = mc := by rw [hcfl, hcfl]; field_simp
  exact ⟨.exit d (cfl d) (by rw [e]; exact lt_irrefl mc), e⟩
example := C06_adapt_homogeneous (K := ℚ) (fun x => x * 2) 2 (1/2) 1 (by norm_num) (by norm_num) (fun _ => rfl)

/-- C06: if the velocity scale `cfl(x)/x` does not decrease with the time step, the loop exits after at most two passes. -/
theorem C06_adapt_terminates_accelerating (cfl u : K → K) (mc d : K) (hmc : 0 < mc) (hd : 0 < d)
    (hcfl : ∀ x, cfl x = x * u x) (hu : ∀ x, 0 < u x) (hmono : ∀ x y, x ≤ y → u x ≤ u y) :
    ∃ d', Adapt cfl mc d (cfl d) d' ∧ 0 < d' := by
  have key : ∀ x, 0 < x → x * (mc / cfl x) = mc / u x := by
    intro x hx; rw [hcfl]; have := hu x; field_simp
  have shrink : ∀ x, 0 < x → mc < cfl x → ¬ (cfl (x * (mc / cfl x)) > mc) := by
    intro x hx h
    rw [key x hx, hcfl]
    rw [hcfl] at h
    have h1 : mc / u x ≤ x := by rw [div_le_iff₀ (hu x)]; exact h.le
    have := hmono _ _ h1
    have h2 := mul_le_mul_of_nonneg_left this (div_pos hmc (hu x)).le
    rw [div_mul_cancel₀ _ (hu x).ne'] at h2
    exact not_lt.2 h2
  have hpos : ∀ x, 0 < x → 0 < x * (mc / cfl x) := by
    intro x hx; rw [key x hx]; exact div_pos hmc (hu x)
  by_cases h1 : cfl (d * (mc / cfl d)) > mc
  · exact ⟨_, .again d (cfl d) _ h1 (.exit _ _ (shrink _ (hpos d hd) h1)), hpos _ (hpos d hd)⟩
  · exact ⟨_, .exit d (cfl d) h1, hpos d hd⟩
/-- hypotheses met: a velocity scale that jumps from 1 to 2 -/
example := C06_adapt_terminates_accelerating (K := ℚ) (fun x => x * (if x < 1 then 1 else 2)) (fun x => if x < 1 then 1 else 2) (1/2) 3 (by norm_num) (by norm_num) (fun _ => rfl)
  (fun x => by split_ifs <;> norm_num) (fun x y h => by split_ifs <;> first | (exfalso; linarith) | norm_num)

/-- C06 is not total: with a decelerating flow the loop need not terminate. Here the velocity is extrapolated in time from
3 (current) and 5 (one time unit ago), `v(d) = (1 + d/2)·3 - (d/2)·5 = 3 - d`, so `cfl d = d (3 - d)`; with `max_courant = 2`
and the loop entered with `d` strictly between 1 and 2 it never exits (in exact arithmetic). -/
theorem C06_adapt_may_not_terminate :
    ∃ (cfl : ℚ → ℚ) (mc d : ℚ), 0 < mc ∧ 0 < d ∧ (∀ x, cfl x = x * ((1 + x / 2) * 3 - x / 2 * 5)) ∧
      mc < cfl d ∧ ∀ d', ¬ Adapt cfl mc d (cfl d) d' := by
  refine ⟨fun x => x * ((1 + x / 2) * 3 - x / 2 * 5), 2, 3 / 2, by norm_num, by norm_num, fun x => rfl, by norm_num, ?_⟩
  have e : ∀ x : ℚ, x * ((1 + x / 2) * 3 - x / 2 * 5) = x * (3 - x) := fun x => by ring
  simp only [e]
  have next : ∀ d : ℚ, 1 < d → d < 2 → d * (2 / (d * (3 - d))) = 2 / (3 - d) := by
    intro d h1 h2; have : (3 - d) ≠ 0 := by linarith
    field_simp
  have bnd : ∀ d : ℚ, 1 < d → d < 2 → 1 < 2 / (3 - d) ∧ 2 / (3 - d) < 2 := by
    intro d h1 h2
    have : 0 < 3 - d := by linarith
    rw [lt_div_iff₀ this, div_lt_iff₀ this]; constructor <;> linarith
  have big : ∀ d : ℚ, 1 < d → d < 2 → d * (3 - d) > 2 := by intro d h1 h2; nlinarith
  have main : ∀ d c d' : ℚ, Adapt (fun x => x * (3 - x)) 2 d c d' → c = d * (3 - d) → 1 < d → d < 2 → False := by
    intro d c d' h
    induction h with
    | exit d c h =>
      intro hc h1 h2
      subst hc
      rw [next d h1 h2] at h
      exact h (big _ (bnd d h1 h2).1 (bnd d h1 h2).2)
    | again d c d' h hA ih =>
      intro hc h1 h2
      subst hc
      refine ih rfl ?_ ?_
      · rw [next d h1 h2]; exact (bnd d h1 h2).1
      · rw [next d h1 h2]; exact (bnd d h1 h2).2
  intro d' h
  exact main _ _ d' h rfl (by norm_num) (by norm_num)

/-! ## C06: the time loop -/

/-- simulated time after `k` further steps -/
def timeAfter (dt : Nat → K) (t0 : K) (s0 : Nat) (k : Nat) : K := t0 + ∑ j ∈ Finset.range k, dt (s0 + j)

theorem timeAfter_succ (dt : Nat → K) (t0 : K) (s0 k : Nat) : timeAfter dt t0 s0 (k + 1) = timeAfter dt t0 s0 k + dt (s0 + k) := by
  unfold timeAfter; rw [Finset.sum_range_succ]; ring

theorem timeAfter_mono (dt : Nat → K) (hdt : ∀ k, 0 < dt k) (t0 : K) (s0 : Nat) {j k : Nat} (h : j ≤ k) :
    timeAfter dt t0 s0 j ≤ timeAfter dt t0 s0 k := by
  induction k, h using Nat.le_induction with
  | base => exact le_rfl
  | succ k _ ih => rw [timeAfter_succ]; linarith [hdt (s0 + k)]

/-- running phase: before the target is reached the loop just accumulates -/
theorem vLoop_before (dt : Nat → K) (nt t0 : K) (s0 : Nat) (ord : Int) (k : Nat)
    (h : ∀ j, j ≤ k → timeAfter dt t0 s0 j < nt) (f : Nat) :
    vLoop dt nt (f + k) ⟨t0, s0, ord⟩ = vLoop dt nt f ⟨timeAfter dt t0 s0 k, s0 + k, ord⟩ := by
  induction k generalizing f with
  | zero => simp [timeAfter]
  | succ k ih =>
    have e : f + (k + 1) = (f + 1) + k := by ring
    rw [e, ih (fun j hj => h j (by omega))]
    have h1 := h k (by omega)
    have h2 := h (k + 1) (by omega)
    rw [vLoop, if_pos (.inl h1), vBody]
    simp only [← timeAfter_succ]
    rw [if_neg (not_le.2 h2)]
    rfl

/-- draining phase: after the target is reached each step uses up one additional step -/
theorem vLoop_after (dt : Nat → K) (hdt : ∀ k, 0 < dt k) (nt t : K) (s : Nat) (a : Nat) (h : nt ≤ t) (f : Nat) (hf : a ≤ f) :
    vLoop dt nt f ⟨t, s, a⟩ = some ⟨timeAfter dt t s a, s + a, 0⟩ := by
  induction a generalizing t s f with
  | zero =>
    have : ¬ (t < nt ∨ ((0 : Nat) : Int) > 0) := by push Not; exact ⟨h, by simp⟩
    cases f <;> (rw [vLoop, if_neg this]; simp [timeAfter])
  | succ a ih =>
    obtain ⟨f, rfl⟩ : ∃ f', f = f' + 1 := ⟨f - 1, by omega⟩
    have hc : t < nt ∨ ((a + 1 : Nat) : Int) > 0 := .inr (by positivity)
    rw [vLoop, if_pos hc, vBody]
    have h' : nt ≤ t + dt s := by linarith [hdt s]
    simp only [if_pos h']
    have e : ((a + 1 : Nat) : Int) - 1 = (a : Int) := by push_cast; ring
    rw [e, ih _ _ h' f (by omega)]
    congr 1
    have : timeAfter dt (t + dt s) (s + 1) a = timeAfter dt t s (a + 1) := by
      unfold timeAfter
      rw [Finset.sum_range_succ']
      have : ∀ j ∈ Finset.range a, dt (s + 1 + j) = dt (s + (j + 1)) := fun j _ => by congr 1; ring
      rw [Finset.sum_congr rfl this]; simp; ring
    rw [this]
    congr 1
    ring

/-- C06 (time loop): with positive steps and `m ≥ 1` the first step count at which the simulated time reaches the old time plus `nt`,
`advance(nt)` performs exactly `m + (ord - 1)` steps, `ord ≥ 1` being the order of the output interpolation: it returns only after
the requested time has been reached and after the extra steps. -/
theorem C06_time_loop_steps (dt : Nat → K) (hdt : ∀ k, 0 < dt k) (ord : Nat) (ho : 1 ≤ ord) (nt time : K) (steps m : Nat) (hm : 1 ≤ m)
    (hbefore : ∀ j, j < m → timeAfter dt time steps j < nt + time) (hat : nt + time ≤ timeAfter dt time steps m)
    (fuel : Nat) (hf : m + ord ≤ fuel) :
    solveVar dt ord fuel nt time steps = some ⟨timeAfter dt time steps (m + (ord - 1)), steps + (m + (ord - 1)), 0⟩ := by
  unfold solveVar
  obtain ⟨f, rfl⟩ : ∃ f, fuel = (f + 1) + (m - 1) := ⟨fuel - m, by omega⟩
  rw [vLoop_before dt _ _ _ _ (m - 1) (fun j hj => hbefore j (by omega))]
  have h1 := hbefore (m - 1) (by omega)
  rw [vLoop, if_pos (.inl h1), vBody]
  have e1 : timeAfter dt time steps (m - 1) + dt (steps + (m - 1)) = timeAfter dt time steps m := by
    rw [← timeAfter_succ]; congr 1; omega
  simp only [e1, ge_iff_le, if_pos hat]
  have e2 : ((ord : Nat) : Int) - 1 = ((ord - 1 : Nat) : Int) := by omega
  rw [e2, vLoop_after dt hdt _ _ _ (ord - 1) hat f (by omega)]
  have e3 : steps + (m - 1) + 1 = steps + m := by omega
  rw [e3]
  congr 1
  have : timeAfter dt (timeAfter dt time steps m) (steps + m) (ord - 1) = timeAfter dt time steps (m + (ord - 1)) := by
    unfold timeAfter
    rw [Finset.sum_range_add, add_assoc]
    congr 2
    exact Finset.sum_congr rfl (fun j _ => by congr 1; ring)
  rw [this]
  congr 1
  ring

/-- C06: for steps bounded below the loop does terminate, with the requested time reached; with first-order output (`ord = 1`) it is not
exceeded by more than the last step. -/
theorem C06_time_loop_terminates [Archimedean K] (dt : Nat → K) (δ : K) (hδ : 0 < δ) (hdt : ∀ k, δ ≤ dt k) (ord : Nat) (ho : 1 ≤ ord)
    (nt time : K) (hnt : 0 < nt) (steps : Nat) :
    ∃ fuel s, solveVar dt ord fuel nt time steps = some s ∧ nt + time ≤ s.time ∧ steps < s.steps ∧
      (ord = 1 → s.time < nt + time + dt (s.steps - 1)) := by
  have hp : ∀ k, 0 < dt k := fun k => hδ.trans_le (hdt k)
  have hex : ∃ m, nt + time ≤ timeAfter dt time steps m := by
    obtain ⟨m, hm⟩ := Archimedean.arch nt hδ
    refine ⟨m, ?_⟩
    unfold timeAfter
    have : m • δ ≤ ∑ j ∈ Finset.range m, dt (steps + j) := by
      have := Finset.card_nsmul_le_sum (Finset.range m) (fun j => dt (steps + j)) δ (fun j _ => hdt _)
      rwa [Finset.card_range] at this
    linarith
  classical
  let m := Nat.find hex
  have hat : nt + time ≤ timeAfter dt time steps m := Nat.find_spec hex
  have hbef : ∀ j, j < m → timeAfter dt time steps j < nt + time := fun j hj => not_le.1 (Nat.find_min hex hj)
  have hm : 1 ≤ m := by
    by_contra h
    have h0 : m = 0 := by omega
    rw [h0] at hat
    simp only [timeAfter, Finset.range_zero, Finset.sum_empty, add_zero] at hat
    linarith
  refine ⟨m + ord, _, C06_time_loop_steps dt hp ord ho nt time steps m hm hbef hat _ le_rfl, ?_, ?_, ?_⟩
  · exact hat.trans (timeAfter_mono dt hp _ _ (by omega))
  · simp only; omega
  · intro h1
    subst h1
    simp only [Nat.sub_self, add_zero]
    have := hbef (m - 1) (by omega)
    have e1 : timeAfter dt time steps m = timeAfter dt time steps (m - 1) + dt (steps + (m - 1)) := by
      rw [← timeAfter_succ]; congr 1; omega
    rw [e1, show steps + m - 1 = steps + (m - 1) by omega]
    linarith

example : ∃ (dt : Nat → ℚ), (∀ k, 0 < dt k) ∧ (∀ j, j < 3 → timeAfter dt 0 0 j < 1 + 0) ∧ 1 + 0 ≤ timeAfter dt 0 0 3 := by
  refine ⟨fun _ => 2/5, fun _ => by norm_num, fun j hj => ?_, ?_⟩
  · have : j = 0 ∨ j = 1 ∨ j = 2 := by omega
    rcases this with rfl | rfl | rfl <;> norm_num [timeAfter, Finset.sum_range_succ]
  · norm_num [timeAfter, Finset.sum_range_succ]

/-- C06: `advance(0)` with variable steps still performs `ord` steps, because the additional-steps counter starts anew in every call. -/
theorem C06_advance_zero_steps (dt : Nat → K) (hdt : ∀ k, 0 < dt k) (ord : Nat) (time : K) (steps fuel : Nat) (hf : ord ≤ fuel) :
    solveVar dt ord fuel 0 time steps = some ⟨timeAfter dt time steps ord, steps + ord, 0⟩ := by
  unfold solveVar
  rw [zero_add]
  exact vLoop_after dt hdt _ _ _ ord le_rfl fuel hf
example := C06_advance_zero_steps (K := ℚ) (fun _ => 1/2) (fun _ => by norm_num) 2 0 0 5 (by norm_num)

/-! ## C35: divergence check -/

/-- C35, 2-D: without the dfl option a run starts only if in every cell of the grid the sum of face differences, divided by G, is
within the tolerance; and it does start whenever that holds. -/
theorem C35_divergence_check_2d (o : OptsT) (hd : isset o oDfl = false) (G : Int → Int → K) (cells : List (Int × Int)) (hne : cells ≠ [])
    (GC0 GC1 : Int → Int → K) (eps : K) :
    divCheck o (maxDiv2 o G cells GC0 GC1) eps = true ↔
      ∀ c ∈ cells, |(GC0 c.1 c.2 - GC0 (c.1 - 1) c.2) + (GC1 c.1 c.2 - GC1 c.1 (c.2 - 1))| / gFac2 o 0 G c.1 c.2 ≤ eps := by
  rw [← maxOver_le cells hne]
  simp only [divCheck, hd, Bool.false_or, Bool.not_eq_true', decide_eq_false_iff_not, not_lt, gt_iff_lt]
  rfl
example := C35_divergence_check_2d (K := ℚ) oNug (by decide) (fun _ _ => 2) [(0, 0), (1, 2)] (by simp) (fun i j => i - j) (fun i j => i * j) (1/100)

/-- C35, 3-D -/
theorem C35_divergence_check_3d (o : OptsT) (hd : isset o oDfl = false) (G : Int → Int → Int → K) (cells : List (Int × Int × Int))
    (hne : cells ≠ []) (GC0 GC1 GC2 : Int → Int → Int → K) (eps : K) :
    divCheck o (maxDiv3 o G cells GC0 GC1 GC2) eps = true ↔
      ∀ c ∈ cells, |(GC0 c.1 c.2.1 c.2.2 - GC0 (c.1 - 1) c.2.1 c.2.2)
        + (GC1 c.1 c.2.1 c.2.2 - GC1 c.1 (c.2.1 - 1) c.2.2)
        + (GC2 c.1 c.2.1 c.2.2 - GC2 c.1 c.2.1 (c.2.2 - 1))| / gFac3 o 0 G c.1 c.2.1 c.2.2 ≤ eps := by
  rw [← maxOver_le cells hne]
  simp only [divCheck, hd, Bool.false_or, Bool.not_eq_true', decide_eq_false_iff_not, not_lt, gt_iff_lt]
  rfl
example := C35_divergence_check_3d (K := ℚ) oNug (by decide) (fun _ _ _ => 2) [(0, 0, 0), (1, 2, 3)] (by simp) (fun i j _ => i - j) (fun i j _ => i * j) (fun _ _ k => k) (1/100)

/-- C35: with the dfl option the check is skipped -/
theorem C35_dfl_skips (o : OptsT) (hd : isset o oDfl = true) (d eps : K) : divCheck o d eps = true := by
  simp [divCheck, hd]
example := C35_dfl_skips (K := ℚ) (oDfl ||| oNug) (by decide) 7 (1/100)

/-- C35 + C10: an accepted advector with tolerance 0 and positive G is exactly non-divergent, as the no-new-extrema property requires -/
theorem C35_zero_tolerance_exact (o : OptsT) (hd : isset o oDfl = false) (G : Int → Int → K) (cells : List (Int × Int)) (hne : cells ≠ [])
    (GC0 GC1 : Int → Int → K) (hG : ∀ c ∈ cells, 0 < gFac2 o 0 G c.1 c.2)
    (h : divCheck o (maxDiv2 o G cells GC0 GC1) 0 = true) :
    ∀ c ∈ cells, (GC0 c.1 c.2 - GC0 (c.1 - 1) c.2) + (GC1 c.1 c.2 - GC1 c.1 (c.2 - 1)) = 0 := by
  intro c hc
  have := (C35_divergence_check_2d o hd G cells hne GC0 GC1 0).1 h c hc
  rw [div_le_iff₀ (hG c hc), zero_mul] at this
  exact abs_nonpos_iff.1 this

example : divCheck (K := ℚ) 0 (maxDiv2 0 (fun _ _ => 1) [(0, 0), (1, 0)] (fun i _ => if i = 0 then 1/4 else 1/8)
    (fun _ j => if j = 0 then -1/8 else 0)) (1/10) = false := by decide +kernel

/-! ## C07: scaling hints -/

/-- C07: the scaling applied before advection is undone exactly by the one applied after it -/
theorem C07_scale_roundtrip (e : Int) (x : K) : scaleBy (-e) (scaleBy e x) = x := by
  unfold scaleBy
  have h2 : ∀ n : Nat, (2 : K) ^ n ≠ 0 := fun n => pow_ne_zero _ two_ne_zero
  rcases lt_trichotomy e 0 with h | h | h
  · have a1 : ¬ e = 0 := by omega
    have a2 : ¬ e > 0 := by omega
    have a3 : ¬ -e = 0 := by omega
    have a4 : -e > 0 := by omega
    simp only [a1, a2, a3, a4, if_true, if_false]
    rw [mul_div_assoc, div_self (h2 _), mul_one]
  · subst h; simp
  · have a1 : ¬ e = 0 := by omega
    have a3 : ¬ -e = 0 := by omega
    have a4 : ¬ -e > 0 := by omega
    simp only [a1, h, a3, a4, if_true, if_false, neg_neg]
    rw [div_mul_cancel₀ _ (h2 _)]

/-- scaling is multiplication by a positive power of two -/
theorem scaleBy_eq_mul (e : Int) : ∃ c : K, 0 < c ∧ ∀ x, scaleBy e x = c * x := by
  unfold scaleBy
  by_cases h0 : e = 0
  · exact ⟨1, one_pos, fun x => by simp [h0]⟩
  · by_cases h1 : e > 0
    · exact ⟨1 / 2 ^ e.toNat, by positivity, fun x => by simp only [h0, h1, if_true, if_false]; ring⟩
    · exact ⟨2 ^ (-e).toNat, by positivity, fun x => by simp only [h0, h1, if_false]; ring⟩

/-- C07: for any advection operator that commutes with multiplication by positive constants, advecting the scaled field
and scaling back gives what an unscaled run gives, for every exponent of either sign. -/
theorem C07_homogeneous_unaffected {I : Type} (e : Int) (A : (I → K) → (I → K))
    (hA : ∀ c : K, 0 < c → ∀ f, A (fun i => c * f i) = fun i => c * A f i) (f : I → K) :
    (fun i => scaleBy (-e) (A (fun i => scaleBy e (f i)) i)) = A f := by
  obtain ⟨c, hc, h⟩ := scaleBy_eq_mul (K := K) e
  funext i
  have : (fun i => scaleBy e (f i)) = fun i => c * f i := funext fun i => h _
  rw [this, hA c hc]
  show scaleBy (-e) (c * A f i) = A f i
  rw [← h]
  exact C07_scale_roundtrip e _
/-- hypotheses met: a nonlinear operation that is homogeneous of degree one -/
example := C07_homogeneous_unaffected (K := ℚ) (I := Int) 5 (fun f i => max (f i) (f (i + 1))) (fun c hc f => by funext i; rw [mul_max_of_nonneg _ _ hc.le]) (fun i => i)

end Mpdata
