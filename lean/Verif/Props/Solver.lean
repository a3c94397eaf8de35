import Verif.Lemmas.Solver
/-! # C02 (time levels), C03 (composition of advance), C04 (equation order), C05 (panic) -/
namespace Mpdata

/-! ## Specification: a time step on plain fields, no buffers and no time-level indices -/

/-- hooks see and modify the fields of the existing equations -/
def specHook {X} (nEqns : Nat) (h : (Nat → X) → (Nat → X)) (f : Nat → X) : Nat → X :=
  fun e => if e < nEqns then h f e else f e

/-- one step on fields: ante-step hook; advect equations not in `delayed`; ante-delayed hook; advect
those in `delayed`; post-step hook -/
def specStep {X} (c : Cfg X) (ts : Nat) (f : Nat → X) : Nat → X :=
  let f := specHook c.nEqns (c.hookAnteStep ts) f
  let f := fun e => if e < c.nEqns ∧ isset c.delayed (bit e) = false then advect c ts e (f e) else f e
  let f := specHook c.nEqns (c.hookAnteDelayed ts) f
  let f := fun e => if e < c.nEqns ∧ isset c.delayed (bit e) = true then advect c ts e (f e) else f e
  specHook c.nEqns (c.hookPostStep (ts + 1)) f

/-- `k` steps on fields starting at step number `ts` -/
def specRun {X} (c : Cfg X) : (k ts : Nat) → (Nat → X) → (Nat → X)
  | 0, _, f => f
  | k + 1, ts, f => specRun c k (ts + 1) (specStep c ts f)

/-- the memory represents the fields `f` at step `ts`, and all time-level counters agree -/
def Represents {X} (c : Cfg X) (s : St X) (ts : Nat) (f : Nat → X) : Prop :=
  s.timestep = ts ∧ (∀ e, s.state e = f e) ∧ (∀ e, e < c.nEqns → slot (s.n e) = slot s.memN)

theorem oneStep_represents {X} (c : Cfg X) (hn : 1 ≤ c.nEqns) (hit : 1 ≤ c.nIters) (hd : DelayedOk c)
    (s : St X) (ts : Nat) (f : Nat → X) (hr : Represents c s ts f) :
    Represents c (oneStep c s) (ts + 1) (specStep c ts f) := by
  obtain ⟨hts, hst, hsl⟩ := hr
  obtain ⟨e0, he0, hlast⟩ := isLast_cases c hd hn
  unfold oneStep stepEvents
  have e2 : ∀ e : Nat, (if (!isset c.delayed (bit e)) = true then none else some (Ev.body e)) =
      (if (fun e => !isset c.delayed (bit e)) e = true then none else some (Ev.body e)) := fun _ => rfl
  rw [filterMap_body, funext e2, filterMap_body]
  simp only [List.foldl_append, List.foldl_cons, List.foldl_nil, Bool.not_not]
  -- ante-step hook
  obtain ⟨a1, a2, a3, a4⟩ := applyHook_spec c (c.hookAnteStep s.timestep) s
  have hd1 : doEvent c s .anteStep = applyHook c (c.hookAnteStep s.timestep) s := rfl
  rw [hd1]
  generalize applyHook c (c.hookAnteStep s.timestep) s = s1 at *
  -- non-delayed
  generalize hl1 : (List.range c.nEqns).filter (fun e => !isset c.delayed (bit e)) = l1
  generalize hl2 : (List.range c.nEqns).filter (fun e => isset c.delayed (bit e)) = l2
  have nd1 : l1.Nodup := by rw [← hl1]; exact List.nodup_range.filter _
  have nd2 : l2.Nodup := by rw [← hl2]; exact List.nodup_range.filter _
  have mem1 : ∀ e, e ∈ l1 ↔ (e < c.nEqns ∧ isset c.delayed (bit e) = false) := by
    intro e; rw [← hl1]; simp
  have mem2 : ∀ e, e ∈ l2 ↔ (e < c.nEqns ∧ isset c.delayed (bit e) = true) := by
    intro e; rw [← hl2]; simp
  obtain ⟨b1, b2, b3, b4, b5, b6⟩ := fold_bodies c hit l1 nd1 s1
  generalize (l1.map Ev.body).foldl (doEvent c) s1 = s2 at *
  obtain ⟨c1, c2, c3, c4⟩ := applyHook_spec c (c.hookAnteDelayed s2.timestep) s2
  have hd2 : doEvent c s2 .anteDelayed = applyHook c (c.hookAnteDelayed s2.timestep) s2 := rfl
  rw [hd2]
  generalize applyHook c (c.hookAnteDelayed s2.timestep) s2 = s3 at *
  obtain ⟨d1, d2, d3, d4, d5, d6⟩ := fold_bodies c hit l2 nd2 s3
  generalize (l2.map Ev.body).foldl (doEvent c) s3 = s4 at *
  obtain ⟨g1, g2, g3, g4⟩ := applyHook_spec c (c.hookPostStep (s4.timestep + 1)) { s4 with timestep := s4.timestep + 1 }
  have hd3 : doEvent c s4 .postStep =
    applyHook c (c.hookPostStep (s4.timestep + 1)) { s4 with timestep := s4.timestep + 1 } := rfl
  rw [hd3]
  generalize applyHook c (c.hookPostStep (s4.timestep + 1)) { s4 with timestep := s4.timestep + 1 } = s5 at *
  have t4 : s4.timestep = ts := by rw [d1, c1, b1, a1, hts]
  have t3 : s3.timestep = ts := by rw [c1, b1, a1, hts]
  have t2 : s2.timestep = ts := by rw [b1, a1, hts]
  have t1 : s1.timestep = ts := by rw [a1, hts]
  have hsf : (fun e => s.state e) = f := funext hst
  refine ⟨by rw [g1, t4], ?_, ?_⟩
  · -- fields
    have q1 : ∀ e, s1.state e = specHook c.nEqns (c.hookAnteStep ts) f e := by
      intro e; rw [a4 e, hsf, hts, hst]; rfl
    have q2 : ∀ e, s2.state e = (fun e => if e < c.nEqns ∧ isset c.delayed (bit e) = false then
        advect c ts e (specHook c.nEqns (c.hookAnteStep ts) f e)
        else specHook c.nEqns (c.hookAnteStep ts) f e) e := by
      intro e; rw [b2 e, q1, t1]; simp only [mem1]
    have q3 := c4
    rw [funext q2, t2] at q3
    intro e
    have q4 : ∀ e, s4.state e = _ := fun e => by rw [d2 e, q3 e, t3]
    have q5 := g4 e
    have : (fun e => St.state { s4 with timestep := s4.timestep + 1 } e) = fun e => s4.state e := rfl
    rw [this, funext q4, t4] at q5
    rw [q5]
    unfold specStep
    simp only [specHook]
    split
    · congr 1
      funext e'
      simp only [mem2]
    · rename_i he
      have h1 : ¬ (e < c.nEqns ∧ isset c.delayed (bit e) = true) := fun h => he h.1
      have h2 : ¬ (e < c.nEqns ∧ isset c.delayed (bit e) = false) := fun h => he h.1
      have : ∀ t, St.state { s4 with timestep := t } e = s4.state e := fun _ => rfl
      rw [this, q4 e]
      simp [he, mem2, specHook]
  · -- time levels
    have hm : s5.memN % 2 = (s.memN + nPasses c ts) % 2 := by
      rw [g3]
      show s4.memN % 2 = _
      by_cases h : isset c.delayed (bit e0) = true
      · rw [d6 e0 ((mem2 e0).2 ⟨he0, h⟩) (fun e he => hlast e ((mem2 e).1 he).1), c3, t3]
        have hb := b5 (fun e he => by
          by_contra hcon
          have := (hlast e ((mem1 e).1 he).1).1 (by simpa using hcon)
          rw [this] at he
          have := ((mem1 e0).1 he).2
          rw [h] at this
          exact absurd this (by simp))
        rw [a3] at hb
        omega
      · have h' : isset c.delayed (bit e0) = false := by simpa using h
        rw [d5, c3]
        · rw [b6 e0 ((mem1 e0).2 ⟨he0, h'⟩) (fun e he => hlast e ((mem1 e).1 he).1), a3, t1]
        · intro e he
          by_contra hcon
          have := (hlast e ((mem2 e).1 he).1).1 (by simpa using hcon)
          rw [this] at he
          have := ((mem2 e0).1 he).2
          rw [h'] at this
          exact absurd this (by simp)
    intro e he
    have hsle := hsl e he
    rw [slot_eq_iff] at hsle ⊢
    rw [hm]
    have hne : s5.n e % 2 = (s.n e + nPasses c ts) % 2 := by
      rw [g2]
      show s4.n e % 2 = _
      by_cases h : isset c.delayed (bit e) = true
      · have hb := d3 e
        rw [if_pos ((mem2 e).2 ⟨he, h⟩), t3, c2] at hb
        rw [hb, (b4 e (by rw [mem1]; simp [h])).1, a2]
      · have h' : isset c.delayed (bit e) = false := by simpa using h
        have hb := b3 e
        rw [if_pos ((mem1 e).2 ⟨he, h'⟩), t1, a2] at hb
        rw [(d4 e (by rw [mem2]; simp [h'])).1, c2, hb]
    rw [hne]
    omega

/-- C02: after any number of steps from the initial state, for every equation at once,
`advectee(e)` — the buffer selected by the global time level — is the field that the steps computed for `e`.
Ranges over all numbers of equations, delayed masks naming existing equations, iteration counts ≥ 1,
filter frequencies, kernels and hooks. -/
theorem C02_advectee_is_newest {X} (c : Cfg X) (hn : 1 ≤ c.nEqns) (hit : 1 ≤ c.nIters) (hd : DelayedOk c)
    (init : Nat → Nat → X) (k e : Nat) (he : e < c.nEqns) :
    ((oneStep c)^[k] (initSt init)).advectee e = specRun c k 0 (fun e => init e 0) e := by
  have key : ∀ k ts s f, Represents c s ts f →
      Represents c ((oneStep c)^[k] s) (ts + k) (specRun c k ts f) := by
    intro k
    induction k with
    | zero => intro ts s f h; exact h
    | succ k ih =>
      intro ts s f h
      have := ih (ts + 1) (oneStep c s) (specStep c ts f) (oneStep_represents c hn hit hd s ts f h)
      rw [Function.iterate_succ_apply]
      rw [show ts + (k + 1) = ts + 1 + k by omega]
      exact this
  have h0 : Represents c (initSt init) 0 (fun e => init e 0) := by
    refine ⟨rfl, fun e => ?_, fun e _ => rfl⟩
    show init e (slot 0) = init e 0
    congr 1
  obtain ⟨_, h1, h2⟩ := key k 0 _ _ h0
  rw [← h1 e]
  unfold St.advectee St.state
  rw [h2 e he]

/-- C02: within a pass the buffer read and the buffer written are never the same,
for any value of the time-level counter. -/
theorem C02_read_write_distinct (n : Int) : slot n ≠ slot (n + 1) ∧ slot n < 2 ∧ slot (n + 1) < 2 := by
  refine ⟨fun h => slot_succ_ne n h.symm, ?_, ?_⟩
  · exact Nat.mod_lt _ (by decide)
  · exact Nat.mod_lt _ (by decide)

/-- a concrete two-equation configuration: fields are numbers, equation 1 delayed, passes multiply / add -/
def demoCfg (nEqns : Nat) (delayed : OptsT) (nIters : Nat) : Cfg Int :=
  { nEqns := nEqns, delayed := delayed, nIters := nIters, filterFreq := 0, hintScale := fun _ => 0
    scale := fun _ x => x, xchng := fun x => x
    pass0 := fun _ e x => 2 * x + e, pass := fun _ _ it x p => x + it + 3 * p
    hookAnteStep := fun _ f => f, hookAnteDelayed := fun _ f => f, hookPostStep := fun _ f => f }

-- hypotheses are met by a non-trivial configuration
example : 1 ≤ (demoCfg 2 0b10 3).nEqns ∧ 1 ≤ (demoCfg 2 0b10 3).nIters ∧ DelayedOk (demoCfg 2 0b10 3) := by
  refine ⟨by decide, by decide, fun k hk => ?_⟩
  show k < 2
  by_contra h
  have : isset 0b10 (bit k) = true := hk
  rw [isset_bit] at this
  have := Nat.ge_two_pow_of_testBit this
  have : 2 ^ 2 ≤ 2 ^ k := Nat.pow_le_pow_right (by decide) (by omega)
  omega

/-- C02 is false when `delayed_step` names a non-existing equation (nothing in the code rejects
that): no equation is then "last", the global time level is never advanced, and the user reads a stale field. -/
theorem C02_fails_for_mask_beyond_equations :
    ((oneStep (demoCfg 1 0b10 1))^[1] (initSt (fun _ k => if k = 0 then 5 else 0))).advectee 0 = 5 ∧
    specRun (demoCfg 1 0b10 1) 1 0 (fun _ => 5) 0 = 10 := by decide

/-! ## C03, C05 -/

/-- C03: a fixed-dt run split into two `advance` calls equals a single one, for any step function
that increments the step counter, any start hook, any behaviour of the panic flag at step boundaries, provided
the first call performs at least one step. -/
theorem C03_advance_composes {S : Type} (ts : S → Nat) (anteLoop step : S → S)
    (hstep : ∀ s, ts (step s) = ts s + 1) (hante : ∀ s, ts (anteLoop s) = ts s)
    (panic : Nat → Bool) (a b : Nat) (s : S) (h : ts s ≠ 0 ∨ (1 ≤ a ∧ panic 0 = false)) :
    solveFixed ts anteLoop step panic b (solveFixed ts anteLoop step panic a s)
      = solveFixed ts anteLoop step panic (a + b) s := by
  have mono : ∀ k s, ts s ≤ ts (solveLoop ts step panic k s) := by
    intro k
    induction k with
    | zero => intro s; exact Nat.le_refl _
    | succ k ih =>
      intro s
      simp only [solveLoop]
      split
      · exact Nat.le_refl _
      · have := ih (step s); rw [hstep] at this; omega
  have eqL : ∀ nt s, solveFixed ts anteLoop step panic nt s
      = solveLoop ts step panic nt (if ts s = 0 then anteLoop s else s) := by
    intro nt s
    unfold solveFixed
    have : ts (if ts s = 0 then anteLoop s else s) = ts s := by split <;> simp [hante]
    simp only [this]
    congr 1
    omega
  rw [eqL, eqL, eqL]
  have hne : ts (solveLoop ts step panic a (if ts s = 0 then anteLoop s else s)) ≠ 0 := by
    rcases h with h | ⟨h, hp0⟩
    · rw [if_neg h]
      have := mono a s; omega
    · by_cases hz : ts s = 0
      · rw [if_pos hz]
        obtain ⟨a', rfl⟩ : ∃ a', a = a' + 1 := ⟨a - 1, by omega⟩
        simp only [solveLoop, hante, hz, hp0]
        have := mono a' (step (anteLoop s))
        rw [hstep] at this
        simp; omega
      · rw [if_neg hz]
        have := mono a s; omega
  rw [if_neg hne]
  exact solveLoop_add ts step panic a b _

/-- C03: without panic, `advance(n)` performs exactly `n` steps (after the start hook if it is the first call). -/
theorem C03_exact_step_count {S : Type} (ts : S → Nat) (anteLoop step : S → S)
    (hstep : ∀ s, ts (step s) = ts s + 1) (hante : ∀ s, ts (anteLoop s) = ts s) (n : Nat) (s : S) :
    solveFixed ts anteLoop step (fun _ => false) n s = step^[n] (if ts s = 0 then anteLoop s else s) ∧
    ts (solveFixed ts anteLoop step (fun _ => false) n s) = ts s + n := by
  have h1 : solveFixed ts anteLoop step (fun _ => false) n s = step^[n] (if ts s = 0 then anteLoop s else s) := by
    unfold solveFixed
    have : ts (if ts s = 0 then anteLoop s else s) = ts s := by split <;> simp [hante]
    simp only [this]
    rw [solveLoop_nopanic]
    congr 1; omega
  refine ⟨h1, ?_⟩
  rw [h1, iterate_ts ts step hstep]
  split <;> simp [hante]

/-- the start hook runs once over a sequence of `advance` calls if the first call has at least one step:
instance counting hook invocations (state = (step counter, hook invocations)). -/
theorem C03_start_hook_once (ns : List Nat) (n : Nat) (hn : 1 ≤ n) :
    ((n :: ns).foldl (fun s k => solveFixed (S := Nat × Nat) Prod.fst (fun s => (s.1, s.2 + 1))
      (fun s => (s.1 + 1, s.2)) (fun _ => false) k s) (0, 0)).2 = 1 := by
  have it : ∀ (k : Nat) (x : Nat × Nat), ((fun s : Nat × Nat => (s.1 + 1, s.2))^[k] x) = (x.1 + k, x.2) := by
    intro k
    induction k with
    | zero => intro x; rfl
    | succ k ih => intro x; rw [Function.iterate_succ_apply, ih]; ext <;> simp; omega
  have step1 : ∀ k (s : Nat × Nat), solveFixed (S := Nat × Nat) Prod.fst (fun s => (s.1, s.2 + 1))
      (fun s => (s.1 + 1, s.2)) (fun _ => false) k s
      = (s.1 + k, if s.1 = 0 then s.2 + 1 else s.2) := by
    intro k s
    rw [(C03_exact_step_count Prod.fst _ _ (by simp) (by simp) k s).1, it]
    split <;> simp_all
  rw [List.foldl_cons, step1]
  have : ∀ (l : List Nat) (s : Nat × Nat), s.1 ≠ 0 → (l.foldl (fun s k => solveFixed (S := Nat × Nat) Prod.fst
      (fun s => (s.1, s.2 + 1)) (fun s => (s.1 + 1, s.2)) (fun _ => false) k s) s).2 = s.2 := by
    intro l
    induction l with
    | nil => intro s _; rfl
    | cons k l ih =>
      intro s hs
      rw [List.foldl_cons, step1, ih _ (by simp; omega)]
      simp [hs]
  rw [this _ _ (by simp; omega)]
  simp

/-- C03 fails for `advance(0)` first: the start hook runs again at the next call. -/
theorem C03_start_hook_repeats_after_advance_zero :
    ([0, 3].foldl (fun s k => solveFixed (S := Nat × Nat) Prod.fst (fun s => (s.1, s.2 + 1))
      (fun s => (s.1 + 1, s.2)) (fun _ => false) k s) (0, 0)).2 = 2 := by decide

/-- the counter hypotheses are satisfied by the modelled solver step itself -/
theorem oneStep_timestep {X} (c : Cfg X) (hit : 1 ≤ c.nIters) (s : St X) :
    (oneStep c s).timestep = s.timestep + 1 := by
  unfold oneStep stepEvents
  have e2 : ∀ e : Nat, (if (!isset c.delayed (bit e)) = true then none else some (Ev.body e)) =
      (if (fun e => !isset c.delayed (bit e)) e = true then none else some (Ev.body e)) := fun _ => rfl
  rw [filterMap_body, funext e2, filterMap_body]
  simp only [List.foldl_append, List.foldl_cons, List.foldl_nil]
  have h1 := fun s => (fold_bodies c hit _ (List.nodup_range.filter (fun e => !isset c.delayed (bit e)) (l := List.range c.nEqns)) s).1
  have h2 := fun s => (fold_bodies c hit _ (List.nodup_range.filter (fun e => !!isset c.delayed (bit e)) (l := List.range c.nEqns)) s).1
  simp only [doEvent, applyHook] at *
  simp only [h1, h2]

/-- C05: whatever the moment at which the panic flag is raised, the state after `advance(nt)` is the
state after a whole number `k ≤ nt` of steps; if `k < nt` the flag was up at the boundary after step `k`,
and no step was started at a boundary where the flag was up. -/
theorem C05_panic_stops_at_step_boundary {S : Type} (ts : S → Nat) (anteLoop step : S → S)
    (hstep : ∀ s, ts (step s) = ts s + 1) (hante : ∀ s, ts (anteLoop s) = ts s)
    (panic : Nat → Bool) (nt : Nat) (s : S) :
    ∃ k, k ≤ nt ∧
      solveFixed ts anteLoop step panic nt s = step^[k] (if ts s = 0 then anteLoop s else s) ∧
      (∀ j, j < k → panic (ts s + j) = false) ∧ (k < nt → panic (ts s + k) = true) := by
  have eqL : solveFixed ts anteLoop step panic nt s
      = solveLoop ts step panic nt (if ts s = 0 then anteLoop s else s) := by
    unfold solveFixed
    have : ts (if ts s = 0 then anteLoop s else s) = ts s := by split <;> simp [hante]
    simp only [this]
    congr 1; omega
  have hts : ts (if ts s = 0 then anteLoop s else s) = ts s := by split <;> simp [hante]
  suffices key : ∀ nt s1, ∃ k, k ≤ nt ∧ solveLoop ts step panic nt s1 = step^[k] s1 ∧
      (∀ j, j < k → panic (ts s1 + j) = false) ∧ (k < nt → panic (ts s1 + k) = true) by
    rw [eqL]
    have := key nt (if ts s = 0 then anteLoop s else s)
    rw [hts] at this
    exact this
  clear hts eqL nt s
  intro nt s1
  induction nt generalizing s1 with
  | zero => exact ⟨0, by simp [solveLoop]⟩
  | succ m ih =>
    cases hp : panic (ts s1) with
    | true => exact ⟨0, by simp [solveLoop, hp]⟩
    | false =>
      obtain ⟨k, h1, h2, h3, h4⟩ := ih (step s1)
      refine ⟨k + 1, by omega, ?_, ?_, ?_⟩
      · simp [solveLoop, hp, h2, Function.iterate_succ]
      · intro j hj
        cases j with
        | zero => simpa using hp
        | succ j =>
          have := h3 j (by omega)
          rw [hstep] at this
          rw [← this]; congr 1; omega
      · intro hk
        have := h4 (by omega)
        rw [hstep] at this
        rw [← this]; congr 1; omega

example : solveFixed (S := Nat) id id (· + 1) (fun t => decide (3 ≤ t)) 10 0 = 3 := by decide

/-! ## C04 -/

/-- C04: every equation is advected exactly once per step. -/
theorem C04_each_equation_once (nEqns : Nat) (delayed : OptsT) (e : Nat) :
    (stepEvents nEqns delayed).count (.body e) = if e < nEqns then 1 else 0 := by
  unfold stepEvents
  have e2 : ∀ e : Nat, (if (!isset delayed (bit e)) = true then none else some (Ev.body e)) =
      (if (fun e => !isset delayed (bit e)) e = true then none else some (Ev.body e)) := fun _ => rfl
  rw [filterMap_body, funext e2, filterMap_body]
  have inj : Function.Injective Ev.body := fun a b h => by injection h
  simp only [List.count_append, Bool.not_not]
  rw [List.count_map_of_injective _ _ inj, List.count_map_of_injective _ _ inj]
  have hc : ∀ p : Nat → Bool, List.count e (List.filter p (List.range nEqns)) = if p e ∧ e < nEqns then 1 else 0 := by
    intro p
    by_cases hp : p e = true
    · rw [List.count_filter hp]
      by_cases he : e < nEqns
      · simp [hp, he, List.count_eq_one_of_mem List.nodup_range]
      · simp [hp, he, List.count_eq_zero_of_not_mem]
    · rw [List.count_eq_zero_of_not_mem]
      · simp [hp]
      · simp [hp]
  rw [hc, hc]
  cases h : isset delayed (bit e) <;> by_cases he : e < nEqns <;> simp [h, he]

/-- C04: order of events. The trace is: ante-step hook; the non-delayed equations in strictly increasing
order; the ante-delayed-step hook; the delayed equations in strictly increasing order; the post-step hook. -/
theorem C04_order (nEqns : Nat) (delayed : OptsT) :
    ∃ early late : List Nat,
      stepEvents nEqns delayed
        = .anteStep :: early.map .body ++ .anteDelayed :: late.map .body ++ [.postStep] ∧
      (∀ e, e ∈ early ↔ e < nEqns ∧ isset delayed (bit e) = false) ∧
      (∀ e, e ∈ late ↔ e < nEqns ∧ isset delayed (bit e) = true) ∧
      early.Pairwise (· < ·) ∧ late.Pairwise (· < ·) := by
  refine ⟨(List.range nEqns).filter (fun e => !isset delayed (bit e)),
    (List.range nEqns).filter (fun e => !!isset delayed (bit e)), ?_, ?_, ?_, ?_, ?_⟩
  · unfold stepEvents
    have e2 : ∀ e : Nat, (if (!isset delayed (bit e)) = true then none else some (Ev.body e)) =
      (if (fun e => !isset delayed (bit e)) e = true then none else some (Ev.body e)) := fun _ => rfl
    rw [filterMap_body, funext e2, filterMap_body]
    simp
  · intro e; simp
  · intro e; simp
  · exact List.Pairwise.filter _ List.pairwise_lt_range
  · exact List.Pairwise.filter _ List.pairwise_lt_range

example : stepEvents 3 0b010 =
    [.anteStep, .body 0, .body 2, .anteDelayed, .body 1, .postStep] := by decide

end Mpdata
