import Verif.Lemmas.MpiThreads
/-! # C68: halo exchange between processes by several threads

`mult = true`: the thread for the left and the thread for the right neighbour communicate at the same time (MPI_THREAD_MULTIPLE); `mult = false`: one after the other
(also a process with one thread).  All theorems hold for both. -/
set_option linter.unusedSectionVars false
namespace Mpdata
namespace Mpi
variable {A W : Type} [DecidableEq A]

theorem mem_at_barrier (c : Par) (g : CallProg c.P A W) (m : Fin c.P → A → Int → W) (s : StT c.P A W) (hi : InvT c g m s) (p : Fin c.P)
    (hc : ∀ d, s.cnt p d = s.base p) : s.mem p = lock c g.seq m (s.base p) p := by
  funext a x
  by_cases hz : ∃ d, (c.recvRng (g.kind a) p d).Mem x
  · obtain ⟨d, hd⟩ := hz
    rw [(hi.mem p).1 d a x hd, hc d, pre_base]
  · exact (hi.mem p).2 a x fun d hd => hz ⟨d, hd⟩

/-- a process past its last call is at a barrier -/
theorem cnt_at_end (c : Par) (g : CallProg c.P A W) (m : Fin c.P → A → Int → W) (s : StT c.P A W) (hi : InvT c g m s) (p : Fin c.P) (h : s.base p = g.rounds) (d : Dir) :
    s.cnt p d = s.base p := by have := hi.le p d; omega

/-- C68: in every execution, when a process has passed the barrier after its `k`-th exchange its arrays hold what they hold in every execution in which each process
does the same exchanges with a single thread, one after the other. -/
theorem C68_same_as_one_thread (c : Par) (hP : 2 ≤ c.P) (hh : 1 ≤ c.halo) (hw : c.Wide) (g : CallProg c.P A W) (mult : Bool) (m : Fin c.P → A → Int → W)
    (n : Nat) (s : StT c.P A W) (hs : StepsT c g mult n (StT.init c m) s) (t : St c.P A W) (ht : Steps c g.seq (St.init c m) t) (p : Fin c.P)
    (hb : ∀ d, s.cnt p d = s.base p) (hk : t.cnt p = 2 * s.base p) : s.mem p = t.mem p := by
  rw [mem_at_barrier c g m s (invT_reach c g m hP hw hh mult n s hs) p hb, (inv_wide c hP hh hw g.seq m t ht).mem p, hk]
  unfold memAt
  rw [if_neg (by omega)]
  congr 1; omega

/-- C68: the arrays of a process depend only on how far its two threads have got, not on the schedule of the threads, the progress of other processes, the timing of
messages, or whether threads communicate at the same time. -/
theorem C68_schedule_independent (c : Par) (hP : 2 ≤ c.P) (hh : 1 ≤ c.halo) (hw : c.Wide) (g : CallProg c.P A W) (mult mult' : Bool) (m : Fin c.P → A → Int → W)
    (n n' : Nat) (s t : StT c.P A W) (hs : StepsT c g mult n (StT.init c m) s) (ht : StepsT c g mult' n' (StT.init c m) t) (p : Fin c.P)
    (hb : s.base p = t.base p) (hc : ∀ d, s.cnt p d = t.cnt p d) : s.mem p = t.mem p := by
  have h1 := (invT_reach c g m hP hw hh mult n s hs).mem p
  have h2 := (invT_reach c g m hP hw hh mult' n' t ht).mem p
  funext a x
  by_cases hz : ∃ d, (c.recvRng (g.kind a) p d).Mem x
  · obtain ⟨d, hd⟩ := hz
    rw [h1.1 d a x hd, h2.1 d a x hd, hb, hc]
  · have hz' : ∀ d, ¬ (c.recvRng (g.kind a) p d).Mem x := fun d hd => hz ⟨d, hd⟩
    rw [h1.2 a x hz', h2.2 a x hz', hb]

/-- a call exchanging the arrays `arr 0, …, arr (n - 1)`, with nothing computed afterwards -/
def oneCall (P : Nat) (n : Nat) (arr : Nat → A) (kind : A → Bool) : CallProg P A W := ⟨n, arr, kind, fun k => k + 1 == n, fun _ _ m => m⟩

/-- C68: after a call that exchanges several arrays, every process holds in all of them, on its points and in its halos, exactly the values of the serial cyclic
run, scalar and face fields alike; other arrays are as before. -/
theorem C68_call_fills_halos (c : Par) (hP : 2 ≤ c.P) (hh : 1 ≤ c.halo) (hw : c.Wide) (n : Nat) (arr : Nat → A) (kind : A → Bool) (mult : Bool)
    (hinj : ∀ i j, i < n → j < n → arr i = arr j → i = j) (m : Fin c.P → A → Int → W) (G : A → Int → W)
    (hm : ∀ k, k < n → ∀ (p : Fin c.P) x, c.owns (kind (arr k)) p x → m p (arr k) x = G (arr k) x)
    (l : Nat) (s : StT c.P A W) (hs : StepsT c (oneCall c.P n arr kind) mult l (StT.init c m) s) (p : Fin c.P) (hp : s.base p = n) :
    (∀ k, k < n → ∀ x, c.withHalo (kind (arr k)) p x → s.mem p (arr k) x = serialHalo (kind (arr k)) c.N (G (arr k)) x) ∧
      (∀ a, (∀ k, k < n → a ≠ arr k) → s.mem p a = m p a) := by
  have hi := invT_reach c _ m hP hw hh mult l s hs
  rw [mem_at_barrier c _ m s hi p (cnt_at_end c _ m s hi p hp), hp]
  have key : ∀ k, k ≤ n → ∀ p : Fin c.P,
      (∀ j, j < n → (j < k → ∀ x, c.withHalo (kind (arr j)) p x → lock c (oneCall (W := W) c.P n arr kind).seq m k p (arr j) x = serialHalo (kind (arr j)) c.N (G (arr j)) x) ∧
        (k ≤ j → lock c (oneCall (W := W) c.P n arr kind).seq m k p (arr j) = m p (arr j))) ∧
      (∀ a, (∀ k, k < n → a ≠ arr k) → lock c (oneCall (W := W) c.P n arr kind).seq m k p a = m p a) := by
    intro k
    induction k with
    | zero => exact fun _ p => ⟨fun j _ => ⟨fun h => absurd h (Nat.not_lt_zero _), fun _ => rfl⟩, fun a _ => rfl⟩
    | succ k ih =>
      intro hk p
      have e : lock c (oneCall (W := W) c.P n arr kind).seq m (k + 1) p = fill2 c (kind (arr k)) (arr k) (lock c (oneCall (W := W) c.P n arr kind).seq m k) p := by
        show (if (k + 1 == n) = true then _ else _) = _
        split_ifs <;> rfl
      rw [e]
      refine ⟨fun j hj => ⟨fun hjk x hx => ?_, fun hjk => ?_⟩, fun a ha => ?_⟩
      · by_cases hjk' : j = k
        · subst hjk'
          refine fill2_serial c hP hh hw _ _ _ _ (fun q y hy => ?_) p x hx
          rw [((ih (by omega) q).1 j hj).2 (le_refl _)]
          exact hm j hj q y hy
        · rw [fill2_other _ _ _ _ _ _ (fun h => hjk' (hinj j k hj (by omega) h))]
          exact ((ih (by omega) p).1 j hj).1 (by omega) x hx
      · rw [fill2_other _ _ _ _ _ _ (fun h => by have := hinj j k hj (by omega) h; omega)]
        exact ((ih (by omega) p).1 j hj).2 (by omega)
      · rw [fill2_other _ _ _ _ _ _ (ha k (by omega))]
        exact (ih (by omega) p).2 a ha
  have h := key n (le_refl _) p
  exact ⟨fun k hk => (h.1 k hk).1 hk, h.2⟩

/-- C68: whole runs.  If what each process computes after each call is, on its part, what the serial program computes on the whole, given correct own values and correct
halos of the arrays exchanged (`valid`), then after each call every process holds the values of the serial run.  (`F k` is the serial computation after the call that
ends with exchange `k`; within a call nothing is computed and the arrays exchanged become valid.) -/
theorem C68_run_equals_serial (c : Par) (hP : 2 ≤ c.P) (hh : 1 ≤ c.halo) (hw : c.Wide) (g : CallProg c.P A W) (mult : Bool) (valid : Nat → A → Bool)
    (F : Nat → (A → Int → W) → (A → Int → W)) (G : A → Int → W) (m : Fin c.P → A → Int → W)
    (h0 : ∀ p, LocalAgree c g.kind (valid 0) p (m p) G)
    (hv : ∀ k, k < g.rounds → g.last k = false → valid (k + 1) = fun a => valid k a || decide (a = g.arr k))
    (hF : ∀ k p mm GG, k < g.rounds → g.last k = true → LocalAgree c g.kind (fun a => valid k a || decide (a = g.arr k)) p mm GG →
      LocalAgree c g.kind (valid (k + 1)) p (g.comp p k mm) (F k GG))
    (n : Nat) (s : StT c.P A W) (hs : StepsT c g mult n (StT.init c m) s) (p : Fin c.P) (hb : ∀ d, s.cnt p d = s.base p) :
    LocalAgree c g.kind (valid (s.base p)) p (s.mem p)
      (serialRun c.N g.arr (fun k => g.kind (g.arr k)) (fun k GG => if g.last k then F k GG else GG) G (s.base p)) := by
  have hi := invT_reach c g m hP hw hh mult n s hs
  rw [mem_at_barrier c g m s hi p hb]
  refine lock_serial c hP hh hw g.seq g.kind valid (fun _ => rfl) (fun k GG => if g.last k then F k GG else GG) G m h0 ?_ (s.base p) ?_ p
  · intro k q mm GG hk hl
    show LocalAgree c g.kind (valid (k + 1)) q (if g.last k = true then g.comp q k mm else mm) (if g.last k = true then F k GG else GG)
    by_cases h : g.last k = true
    · rw [if_pos h, if_pos h]; exact hF k q mm GG hk h hl
    · rw [if_neg h, if_neg h, hv k hk (by simpa using h)]; exact hl
  · have := hi.le p .left
    show s.base p ≤ g.rounds
    omega

/-- C68: no deadlock.  In every reachable state in which some process has not finished its last call, some thread of some process can go on, with threads
communicating at the same time or one after the other, for every number of processes. -/
theorem C68_no_deadlock (c : Par) (hP : 2 ≤ c.P) (hh : 1 ≤ c.halo) (hw : c.Wide) (g : CallProg c.P A W) (mult : Bool)
    (hend : ∀ k, k + 1 = g.rounds → g.last k = true) (m : Fin c.P → A → Int → W) (n : Nat) (s : StT c.P A W) (hs : StepsT c g mult n (StT.init c m) s)
    (hn : ∃ p, s.base p < g.rounds) : ∃ t, StepT c g mult s t := by
  obtain ⟨t, ht⟩ := progressT c g m hP s (invT_reach c g m hP hw hh mult n s hs) hend hn
  exact ⟨t, ht.mono c g mult s t⟩

/-- C68: every execution is finite. -/
theorem C68_terminates (c : Par) (hP : 2 ≤ c.P) (hh : 1 ≤ c.halo) (hw : c.Wide) (g : CallProg c.P A W) (mult : Bool) (m : Fin c.P → A → Int → W) (n : Nat)
    (s : StT c.P A W) (hs : StepsT c g mult n (StT.init c m) s) : n ≤ 5 * g.rounds * c.P := by
  have hi := invT_reach c g m hP hw hh mult n s hs
  have hg : ∀ (n : Nat) (s0 s : StT c.P A W), StepsT c g mult n s0 s → (∑ p, workP c s0 p) + n ≤ ∑ p, workP c s p := by
    intro n s0 s h
    induction h with
    | refl => exact le_refl _
    | tail n s u w _ h ih => have := workT_step c g mult _ _ h; omega
  have hn := hg n _ _ hs
  have hb : (∑ p, workP c s p) ≤ ∑ _p : Fin c.P, 5 * g.rounds := by
    refine Finset.sum_le_sum fun p _ => ?_
    have hl := hi.le p .left
    have hr := hi.le p .rght
    have pl := hi.postd p .left
    have pr := hi.postd p .rght
    unfold workP
    cases h1 : s.posted p .left <;> cases h2 : s.posted p .rght <;> simp only [Bool.toNat_true, Bool.toNat_false] <;>
      (try have := (pl h1).1) <;> (try have := (pr h2).1) <;> omega
  rw [Finset.sum_const, Finset.card_univ, Fintype.card_fin, smul_eq_mul, Nat.mul_comm c.P] at hb
  omega

/-- C68: an execution that cannot go on has completed all calls on all processes, and no message is left over. -/
theorem C68_completes (c : Par) (hP : 2 ≤ c.P) (hh : 1 ≤ c.halo) (hw : c.Wide) (g : CallProg c.P A W) (mult : Bool)
    (hend : ∀ k, k + 1 = g.rounds → g.last k = true) (m : Fin c.P → A → Int → W) (n : Nat) (s : StT c.P A W) (hs : StepsT c g mult n (StT.init c m) s)
    (hstop : ∀ t, ¬ StepT c g mult s t) : (∀ p, s.base p = g.rounds) ∧ (∀ p d, s.cnt p d = g.rounds) ∧ (∀ p d, s.chan p d = []) := by
  have hi := invT_reach c g m hP hw hh mult n s hs
  have h1 : ∀ p, s.base p = g.rounds := by
    intro p
    have := hi.le p .left
    by_contra hne
    obtain ⟨t, ht⟩ := C68_no_deadlock c hP hh hw g mult hend m n s hs ⟨p, by omega⟩
    exact hstop t ht
  have h2 : ∀ p d, s.cnt p d = g.rounds := fun p d => by rw [cnt_at_end c g m s hi p (h1 p) d, h1 p]
  refine ⟨h1, h2, fun p d => ?_⟩
  rw [hi.chan p d, msgs_empty]
  rw [h2]
  unfold sentT
  rw [h2]
  cases hp : s.posted p d
  · simp
  · have := (hi.postd p d hp).1
    have := h2 p d
    omega

/-- C68: from the initial state all calls can be completed (so the theorems above are not vacuous). -/
theorem C68_can_complete (c : Par) (hP : 2 ≤ c.P) (hh : 1 ≤ c.halo) (hw : c.Wide) (g : CallProg c.P A W) (mult : Bool)
    (hend : ∀ k, k + 1 = g.rounds → g.last k = true) (m : Fin c.P → A → Int → W) :
    ∃ n s, StepsT c g mult n (StT.init c m) s ∧ ∀ p, s.base p = g.rounds := by
  by_contra hno
  have hlong : ∀ n, ∃ s, StepsT c g mult n (StT.init c m) s := by
    intro n
    induction n with
    | zero => exact ⟨_, StepsT.refl _⟩
    | succ n ih =>
      obtain ⟨s, hs⟩ := ih
      have hi := invT_reach c g m hP hw hh mult n s hs
      have : ∃ p, s.base p < g.rounds := by
        by_contra hall
        refine hno ⟨n, s, hs, fun p => ?_⟩
        have h1 := hi.le p .left
        by_contra hne
        exact hall ⟨p, by omega⟩
      obtain ⟨t, ht⟩ := C68_no_deadlock c hP hh hw g mult hend m n s hs this
      exact ⟨t, StepsT.tail _ _ _ _ hs ht⟩
  obtain ⟨s, hs⟩ := hlong (5 * g.rounds * c.P + 1)
  have := C68_terminates c hP hh hw g mult m _ s hs
  omega

/-! ## Extent of the messages -/

/-- C68: whatever the numbers of threads of two processes, the message one sends and the message the other expects cover the same y-range: that of the whole process,
extended as the caller asked. -/
theorem C68_messages_cover_whole_range (ny T T' t t' : Nat) (a : Across) : msgRngY ny T t a = a.rng ⟨0, (ny : Int) - 1⟩ ∧ msgRngY ny T t a = msgRngY ny T' t' a := by
  have h : ∀ T t, msgRngY ny T t a = a.rng ⟨0, (ny : Int) - 1⟩ := by
    intro T t
    unfold msgRngY extendIdx
    cases a <;> simp only [Across.rng, Rng.ext, Rng.extH] <;> congr 1 <;> ring
  exact ⟨h T t, by rw [h, h]⟩

/-- number of x-indices of a message -/
theorem message_width (c : Par) (v : Bool) (p : Fin c.P) (d : Dir) : (c.sendRng v p d).length ≤ c.halo ∧ (c.recvRng v p d).length ≤ c.halo := by
  cases v <;> cases d <;> simp only [Par.sendRng, Par.recvRng, Rng.shift, Rng.length, Rng.extH, Rng.ext] <;> constructor <;> (try split_ifs) <;> (try simp only []) <;> omega

/-- C68: for halos of up to three points no message overruns the buffers, whichever array is exchanged and however far the exchange reaches across. -/
theorem C68_buffers_suffice (c : Par) (hh : c.halo ≤ 3) (hh' : 1 ≤ c.halo) (v : Bool) (p : Fin c.P) (d : Dir) (ny nz T t : Nat) (a b : Across) (ha : a.used c.halo) (hb : b.used c.halo) :
    msgSize (c.sendRng v p d) (msgRngY ny T t a) (b.rng ⟨0, (nz : Int) - 1⟩) ≤ bufSize c.halo ny nz ∧
      msgSize (c.recvRng v p d) (msgRngY ny T t a) (b.rng ⟨0, (nz : Int) - 1⟩) ≤ bufSize c.halo ny nz := by
  have hlen : ∀ (k : Across) (M : Nat), k.used c.halo → (k.rng ⟨0, (M : Int) - 1⟩).length.toNat ≤ M + 6 := by
    intro k M hk
    cases k <;> simp only [Across.used, Across.rng, Rng.ext, Rng.extH, Rng.length] at hk ⊢ <;> omega
  obtain ⟨w1, w2⟩ := message_width c v p d
  rw [(C68_messages_cover_whole_range ny T T t t a).1]
  have h1 := hlen a ny ha
  have h2 := hlen b nz hb
  unfold msgSize bufSize
  rw [Nat.mul_assoc, Nat.mul_assoc]
  exact ⟨Nat.mul_le_mul (by omega) (Nat.mul_le_mul h1 h2), Nat.mul_le_mul (by omega) (Nat.mul_le_mul h1 h2)⟩

/-- C68: with a wider halo (the template parameter `minhalo`) the exchange of an advected field overruns them, on every grid. -/
theorem C68_buffers_wide_halo_fails (c : Par) (hh : 4 ≤ c.halo) (p : Fin c.P) (d : Dir) (ny nz T t : Nat) :
    bufSize c.halo ny nz < msgSize (c.sendRng false p d) (msgRngY ny T t (.ext c.halo)) ((Across.ext c.halo).rng ⟨0, (nz : Int) - 1⟩) := by
  rw [(C68_messages_cover_whole_range ny T T t t _).1]
  have hlen : ∀ M : Nat, M + 8 ≤ ((Across.ext c.halo).rng ⟨0, (M : Int) - 1⟩).length.toNat := by
    intro M
    simp only [Across.rng, Rng.ext, Rng.length]
    omega
  have hx : (c.sendRng false p d).length.toNat = c.halo := by
    cases d <;> simp only [Par.sendRng, Rng.shift, Rng.length] <;> omega
  unfold bufSize msgSize
  rw [hx, Nat.mul_assoc]
  refine Nat.mul_lt_mul_of_pos_left (Nat.lt_of_lt_of_le ?_ (Nat.mul_le_mul (hlen ny) (hlen nz))) (by omega)
  nlinarith

/-- C68: the buffers of every thread are freed once. -/
theorem C68_buffers_freed_once (t T : Nat) : frees t T = 1 := by
  unfold frees
  by_cases h : t = 0 ∨ t = T - 1
  · rw [if_pos h, if_neg (by tauto)]
  · rw [if_neg h, if_pos (by tauto)]

/-- the hypotheses of C68 hold e.g. for 11 points on 3 processes, halo 2, and a call that exchanges a scalar and a face field -/
example : (⟨11, 3, 2⟩ : Par).Wide ∧ (1 ≤ 2 ∧ 2 ≤ 3) ∧ (∀ k, k + 1 = (oneCall (W := Int) 3 2 id (fun a => a == 1)).rounds → (oneCall (W := Int) 3 2 id (fun a => a == 1)).last k = true) ∧
    (∀ i j, i < 2 → j < 2 → (id i : Nat) = id j → i = j) ∧ (Across.ext 2).used 2 ∧ (Across.ext1 1).used 2 ∧ Across.m.used 2 := by
  refine ⟨?_, by omega, ?_, fun i j _ _ h => h, ?_, ?_, trivial⟩
  · unfold Par.Wide; decide
  · intro k h
    have : k + 1 = 2 := h
    show (k + 1 == 2) = true
    simp [this]
  · show 2 ≤ max 2 1
    omega
  · show 1 + 1 ≤ 2
    omega

/-- the exchanges really begin: the initial state can go on, in both modes -/
example (mult : Bool) : ∃ n s, StepsT ⟨11, 3, 2⟩ (oneCall 3 2 id (fun a => a == 1)) mult n (StT.init ⟨11, 3, 2⟩ (fun _ (_ : Nat) x => x)) s ∧ ∀ p, s.base p = 2 := by
  refine C68_can_complete ⟨11, 3, 2⟩ (by decide) (by decide) ?_ _ mult ?_ _
  · unfold Par.Wide; decide
  · intro k h
    have : k + 1 = 2 := h
    show (k + 1 == 2) = true
    simp [this]


instance (c : Par) (v : Bool) (p : Nat) (x : Int) : Decidable (c.owns v p x) := by unfold Par.owns; infer_instance
instance (c : Par) (v : Bool) (p : Nat) (x : Int) : Decidable (c.withHalo v p x) := by unfold Par.withHalo; infer_instance
/-- the halo theorem at work with threads: a scalar and a face field exchanged in one call, 11 points over 3 processes with halo 2 -/
example (mult : Bool) : ∃ n s, StepsT ⟨11, 3, 2⟩ (oneCall 3 2 id (fun a => a == 1)) mult n (StT.init ⟨11, 3, 2⟩ (fun p (a : Nat) x => if (⟨11, 3, 2⟩ : Par).owns (a == 1) p x then x * x + a else -1)) s ∧
    s.mem 0 0 (-2) = 64 ∧ s.mem 0 1 (-2) = 65 ∧ s.mem 2 0 12 = 4 ∧ s.mem 2 1 11 = 2 ∧ s.mem 1 1 7 = 50 := by
  have hw : (⟨11, 3, 2⟩ : Par).Wide := by unfold Par.Wide; decide
  obtain ⟨n, s, hs, hb⟩ := C68_can_complete ⟨11, 3, 2⟩ (by decide) (by decide) hw (oneCall 3 2 id (fun a => a == 1)) mult (fun k h => by
    have : k + 1 = 2 := h
    show (k + 1 == 2) = true
    simp [this]) (fun p (a : Nat) x => if (⟨11, 3, 2⟩ : Par).owns (a == 1) p x then x * x + a else -1)
  have key := fun p => (C68_call_fills_halos ⟨11, 3, 2⟩ (by decide) (by decide) hw 2 id (fun a => a == 1) mult (fun _ _ _ _ h => h) _ (fun a x => x * x + a) (fun k _ p x h => if_pos h) n s hs p (hb p)).1
  exact ⟨n, s, hs, (key 0 0 (by decide) (-2) (by decide)).trans (by decide), (key 0 1 (by decide) (-2) (by decide)).trans (by decide), (key 2 0 (by decide) 12 (by decide)).trans (by decide),
    (key 2 1 (by decide) 11 (by decide)).trans (by decide), (key 1 1 (by decide) 7 (by decide)).trans (by decide)⟩

end Mpi
end Mpdata
