import Verif.Lemmas.Barrier
/-! # C25: the thread barrier -/
namespace Mpdata.Barrier

/-- C25 (no thread runs ahead), partial: as long as no thread has called `wait()` more than 2^32 times,
in every schedule (any thread count, any interleaving, spurious wake-ups included) a
thread that has returned from its k-th `wait()` finds that every thread has entered its k-th `wait()`.
Missing: runs with more than 2^32 barrier episodes, where it is false — `C25_fails_after_2_pow_32`. -/
theorem C25_no_run_ahead_partial (n : Nat) (hn : n < 2 ^ 64) (sched : List (Op n)) (s : State n)
    (hrun : run (init n n) sched = some s) (hb : ∀ t, (s.th t).entered ≤ 2 ^ 32) (t u : Fin n) (k : Nat)
    (hk : k ≤ (s.th t).left) : k ≤ (s.th u).entered := by
  have hI := inv_run (inv_init n hn) hrun hb
  have h1 := hI.shape t
  have h2 := hI.shape u
  rcases h1 with ⟨p, h1, _⟩ | ⟨b, h1⟩ | ⟨_, h1⟩ <;> rcases h2 with ⟨p', h2, _⟩ | ⟨b', h2⟩ | ⟨_, h2⟩ <;>
    (rw [h1] at hk; rw [h2]; simp at hk ⊢; omega)

/-- C25 (no deadlock), partial as above: whenever all threads are inside `wait()`, some thread is awake
and its next test of the loop condition lets it leave. -/
theorem C25_no_deadlock_partial (n : Nat) (hn : n < 2 ^ 64) (h0 : 0 < n) (sched : List (Op n)) (s : State n)
    (hrun : run (init n n) sched = some s) (hb : ∀ t, (s.th t).entered ≤ 2 ^ 32)
    (hall : ∀ t, (s.th t).pc ≠ .out) :
    ∃ t s', step s (.check t) = some s' ∧ (s'.th t).pc = .out ∧ (s'.th t).left = (s.th t).left + 1 := by
  have hI := inv_run (inv_init n hn) hrun hb
  have hc := hI.cpos h0
  have hcnt := hI.cnt
  have : ∃ t, ¬ cur s t := by
    by_contra hcon
    push Not at hcon
    have : (Finset.univ.filter (cur s)) = Finset.univ := by
      ext u; simp [hcon u]
    rw [this] at hcnt
    simp at hcnt
    omega
  obtain ⟨t, ht⟩ := this
  rcases hI.shape t with ⟨p, h1, h2⟩ | ⟨b, h1⟩ | ⟨hg, h1⟩
  · exact absurd (by rw [h1, h2]) (hall t)
  · exact absurd (by unfold cur; rw [h1]) ht
  · refine ⟨t, { s with th := setThr s.th t { s.th t with pc := .out, left := (s.th t).left + 1 } }, ?_, ?_, ?_⟩
    · have : ¬ (s.generation - 1 = s.generation) := by omega
      simp [step, h1, this]
    · simp [setThr]
    · simp [setThr]

/-- C25 (release), partial as above: once every thread has entered its k-th `wait()`, a thread still inside its
k-th `wait()` can leave by its own next step, i.e. no wake-up is lost. -/
theorem C25_release_partial (n : Nat) (hn : n < 2 ^ 64) (sched : List (Op n)) (s : State n)
    (hrun : run (init n n) sched = some s) (hb : ∀ t, (s.th t).entered ≤ 2 ^ 32) (k : Nat)
    (hk : ∀ u, k ≤ (s.th u).entered) (t : Fin n) (ht : (s.th t).left + 1 = k) :
    ∃ s', step s (.check t) = some s' ∧ (s'.th t).pc = .out ∧ (s'.th t).left = k := by
  have hI := inv_run (inv_init n hn) hrun hb
  have hc := hI.cpos (Fin.pos t)
  have hcnt := hI.cnt
  rcases hI.shape t with ⟨p, h1, h2⟩ | ⟨b, h1⟩ | ⟨hg, h1⟩
  · exfalso; have := hk t; rw [h1] at ht this; simp at ht this; omega
  · exfalso
    rw [h1] at ht; simp at ht
    have : (Finset.univ.filter (cur s)) = Finset.univ := by
      ext u
      simp only [Finset.mem_filter, Finset.mem_univ, true_and, iff_true]
      have hu := hk u
      rcases hI.shape u with ⟨p, g1, g2⟩ | ⟨b, g1⟩ | ⟨hg, g1⟩ <;> (simp only [cur, g1] at hu ⊢) <;> omega
    rw [this] at hcnt
    simp at hcnt; omega
  · refine ⟨{ s with th := setThr s.th t { s.th t with pc := .out, left := (s.th t).left + 1 } }, ?_, ?_, ?_⟩
    · have : ¬ (s.generation - 1 = s.generation) := by omega
      simp [step, h1, this]
    · simp [setThr]
    · simp [setThr, ht]

-- non-vacuity: two threads, one complete episode with a spurious wake-up
example : ∃ s, run (init 2 2) [.enter 0, .spurious 0, .check 0, .enter 1, .check 0] = some s ∧
    (∀ t, (s.th t).entered ≤ 2 ^ 32) ∧ (s.th 0).left = 1 := by
  refine ⟨_, rfl, ?_, ?_⟩
  · decide
  · decide

/-! ## Where the code breaks the property -/

/-- the state after `g` complete episodes of two threads -/
def afterRounds (g : Nat) : State 2 :=
  { generation := g, count := 2, threshold := 2, th := fun _ => ⟨.out, g, g⟩ }

theorem step_wait_first (g : Nat) (hg : g % 2 ^ 32 = g) :
    step (afterRounds g) (.enter 0) = some (State.mk g 1 2
      (setThr (fun _ => ⟨.out, g, g⟩) 0 ⟨.wait g false, g + 1, g⟩)) := by
  have h2 : (2 + (2 ^ 64 - 1)) % 2 ^ 64 = 1 := by norm_num
  simp only [step, afterRounds, hg, h2]
  simp

theorem step_last (g : Nat) (hg : (g + 1) % 2 ^ 64 = g + 1) :
    step (State.mk g 1 2 (setThr (fun _ => ⟨.out, g, g⟩) (0 : Fin 2) ⟨.wait g false, g + 1, g⟩)) (.enter 1)
    = some (State.mk (g + 1) 2 2 (setThr (fun _ => ⟨.out, g + 1, g + 1⟩) 0 ⟨.wait g true, g + 1, g⟩)) := by
  have h2 : (1 + (2 ^ 64 - 1)) % 2 ^ 64 = 0 := by norm_num
  have e : ((setThr (fun _ => ⟨.out, g, g⟩) (0 : Fin 2) ⟨.wait g false, g + 1, g⟩) 1 : Thr) = ⟨.out, g, g⟩ := by
    simp [setThr]
  simp only [step, e, h2, hg, if_true]
  congr 2
  funext u
  match u with
  | 0 => simp [setThr, notifyAll]
  | 1 => simp [setThr, notifyAll]

theorem step_leave (g : Nat) :
    step (State.mk (g + 1) 2 2 (setThr (fun _ => ⟨.out, g + 1, g + 1⟩) (0 : Fin 2) ⟨.wait g true, g + 1, g⟩)) (.check 0)
    = some (afterRounds (g + 1)) := by
  have e : ((setThr (fun _ => ⟨.out, g + 1, g + 1⟩) (0 : Fin 2) ⟨.wait g true, g + 1, g⟩) 0 : Thr)
      = ⟨.wait g true, g + 1, g⟩ := by simp [setThr]
  have ne : ¬ (g = g + 1) := by omega
  simp only [step, e, ne, if_false, afterRounds]
  congr 2
  funext u
  match u with
  | 0 => simp [setThr]
  | 1 => simp [setThr]

theorem round_reaches (g : Nat) (hg : g < 2 ^ 32) :
    run (afterRounds g) [.enter 0, .enter 1, .check 0] = some (afterRounds (g + 1)) := by
  have e1 : g % 2 ^ 32 = g := Nat.mod_eq_of_lt hg
  have e2 : (g + 1) % 2 ^ 64 = g + 1 := Nat.mod_eq_of_lt (by omega)
  simp only [run, step_wait_first g e1, step_last g e2, step_leave g]

theorem rounds_reachable (M g : Nat) (hM : M ≤ 2 ^ 32) (hg : g ≤ M) :
    ∃ sched, run (init 2 2) sched = some (afterRounds g) := by
  induction g with
  | zero => exact ⟨[], rfl⟩
  | succ g ih =>
    obtain ⟨sc, hsc⟩ := ih (by omega)
    refine ⟨sc ++ [.enter 0, .enter 1, .check 0], ?_⟩
    rw [run_append, hsc, Option.bind_some]
    exact round_reaches g (by omega)

theorem step_pass (g : Nat) (hg : g % 2 ^ 32 ≠ g) :
    step (afterRounds g) (.enter 0) = some (State.mk g 1 2
      (setThr (fun _ => ⟨.out, g, g⟩) 0 ⟨.out, g + 1, g + 1⟩)) := by
  have h2 : (2 + (2 ^ 64 - 1)) % 2 ^ 64 = 1 := by norm_num
  simp only [step, afterRounds, h2, if_neg hg]
  simp

/-- C25 is false of the code for long runs: because the local copy of the generation is a 32-bit
`unsigned int` while the counter is a `size_t`, after 2^32 episodes a thread passes the barrier without
waiting: thread 0 returns from its (2^32+1)-th `wait()` while thread 1 has entered only 2^32 times. -/
theorem C25_fails_after_2_pow_32 :
    ∃ (sched : List (Op 2)) (s : State 2), run (init 2 2) sched = some s ∧
      (s.th 0).left = 2 ^ 32 + 1 ∧ (s.th 1).entered = 2 ^ 32 := by
  have key : ∀ M : Nat, M ≤ 2 ^ 32 → M % 2 ^ 32 ≠ M →
      ∃ (sched : List (Op 2)) (s : State 2), run (init 2 2) sched = some s ∧
      (s.th 0).left = M + 1 ∧ (s.th 1).entered = M := by
    intro M hM hne
    obtain ⟨sc, hsc⟩ := rounds_reachable M M hM (Nat.le_refl M)
    refine ⟨sc ++ [.enter 0], State.mk M 1 2 (setThr (fun _ => ⟨.out, M, M⟩) 0 ⟨.out, M + 1, M + 1⟩), ?_, ?_, ?_⟩
    · rw [run_append, hsc, Option.bind_some]
      simp only [run, step_pass M hne]
    · simp [setThr]
    · simp [setThr]
  exact key _ (Nat.le_refl _) (by norm_num)

/-- C25: in 1-D and 2-D the barrier threshold equals the number of launched threads ... -/
theorem C25_threshold_matches (nDims : Nat) (h : nDims < 3) (gridSize : Nat → Nat) (hw : Nat) :
    (threadSetup nDims gridSize hw).1 = (threadSetup nDims gridSize hw).2 := by
  simp [threadSetup, h]

/-- ... but in 3-D it is taken from the other dimension: on a 4 x 2 x 1 grid with 4 hardware threads,
2 threads are launched with a barrier for 4, and both fall asleep forever (no transition lets any of them leave
ever: all asleep, none outside). -/
theorem C25_3d_threshold_mismatch_deadlock :
    threadSetup 3 (fun d => if d = 0 then 4 else if d = 1 then 2 else 1) 4 = (2, 4) ∧
    ∃ (sched : List (Op 2)) (s : State 2), run (init 2 4) sched = some s ∧
      (∀ t, (s.th t).pc = .wait 0 false) ∧ s.generation = 0 := by
  refine ⟨by decide, [.enter 0, .enter 1], _, rfl, ?_, rfl⟩
  decide

/-- stuck for good: from the state reached above no schedule lets a thread leave. -/
theorem C25_3d_deadlock_permanent (sched : List (Op 2)) (s s' : State 2)
    (hs : ∀ t, ∃ b, (s.th t).pc = .wait s.generation b) (h : run s sched = some s') :
    ∀ t, ∃ b, (s'.th t).pc = .wait s'.generation b := by
  induction sched generalizing s with
  | nil => simp [run] at h; rwa [← h]
  | cons op ops ih =>
    simp only [run] at h
    split at h
    · cases h
    · rename_i s1 h1
      refine ih s1 ?_ h
      cases op with
      | enter t => obtain ⟨b, hb⟩ := hs t; simp [step, hb] at h1
      | spurious t =>
        obtain ⟨b, hb⟩ := hs t
        cases b
        · simp [step, hb] at h1; subst h1
          intro u; by_cases hu : u = t
          · exact ⟨true, by simp [setThr, hu]⟩
          · obtain ⟨b, hb⟩ := hs u; exact ⟨b, by simp [setThr, hu, hb]⟩
        · simp [step, hb] at h1
      | check t =>
        obtain ⟨b, hb⟩ := hs t
        cases b
        · simp [step, hb] at h1
        · simp [step, hb] at h1; subst h1
          intro u; by_cases hu : u = t
          · exact ⟨false, by simp [setThr, hu]⟩
          · obtain ⟨b, hb⟩ := hs u; exact ⟨b, by simp [setThr, hu, hb]⟩

end Mpdata.Barrier
