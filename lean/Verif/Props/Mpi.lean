import Verif.Lemmas.MpiInv
import Verif.Spec.Mpi
import Verif.Model.Donor
import Verif.Model.Advop1
import Mathlib.Algebra.BigOperators.Fin
/-! # C28 (MPI halo exchange) and C29 (no deadlock, gathering) -/
set_option linter.unusedSectionVars false
namespace Mpdata
namespace Mpi
variable {A W : Type} [DecidableEq A]

/-! ## C28: messages are matched -/

/-- C28: the neighbour of a process's neighbour, in the opposite direction, is the process itself (so the tag and the rank a receiver waits for
are the ones the sender uses), and the range sent is the range received, shifted by one period exactly where the exchange closes the ring. -/
theorem C28_messages_matched (c : Par) (hP : 2 ≤ c.P) (v : Bool) (p : Fin c.P) (d : Dir) :
    c.peerF (c.peerF p d) d.opp = p ∧
    (∀ m : Int → W, (payload (c.sendRng v (c.peerF p d) d.opp) m).length = ((c.recvRng v p d).last - (c.recvRng v p d).first + 1).toNat) ∧
    ((c.sendRng v (c.peerF p d) d.opp).first = (c.recvRng v p d).first + (if c.isCyclic p d then (match d with | .left => (c.N : Int) - 1 | .rght => -((c.N : Int) - 1)) else 0)) := by
  have h : c.sendRng v (c.peerF p d) d.opp = _ := c.matched hP v p d
  refine ⟨c.peer_peer p d, fun m => ?_, ?_⟩
  · rw [payload_length, h]; simp only [Rng.shift]; congr 1; ring
  · rw [h]; rfl

/-! ## C28: one exchange call -/

/-- indices a process computes itself: its points, or the faces at the left of its points (the face left of point 0 does not exist) -/
def Par.owns (c : Par) (v : Bool) (p : Nat) (x : Int) : Prop :=
  if v then (c.rng p).first - 1 ≤ x ∧ x ≤ (c.rng p).last - 1 ∧ 0 ≤ x else (c.rng p).Mem x

/-- own indices and halo -/
def Par.withHalo (c : Par) (v : Bool) (p : Nat) (x : Int) : Prop :=
  (c.rng p).first - c.halo ≤ x ∧ x ≤ (c.rng p).last + c.halo - (if v then 1 else 0)

/-- serial value -/
def serialHalo {W : Type} (v : Bool) (N : Nat) (g : Int → W) (x : Int) : W := if v then periodicV N g x else periodicS N g x

theorem send_owned (c : Par) (hP : 2 ≤ c.P) (hh : 1 ≤ c.halo) (hw : c.Wide) (v : Bool) (p : Fin c.P) (d : Dir) (x : Int) (h : (c.sendRng v p d).Mem x) :
    c.owns v p x := by
  obtain ⟨w1, w2⟩ := hw p
  have hb := c.rng_bounds p
  simp only [Rng.length] at w1 w2
  have hp := p.2
  have h1 : (1 : Int) ≤ c.halo := by omega
  have hz : p.1 ≠ 0 → 1 ≤ (c.rng p).first := by
    intro h0
    have e : p.1 - 1 + 1 = p.1 := by omega
    have hn := c.rng_next (p.1 - 1)
    rw [e] at hn
    obtain ⟨v1, _⟩ := hw ⟨p.1 - 1, by omega⟩
    have hb' := c.rng_bounds ⟨p.1 - 1, by omega⟩
    simp only [Rng.length] at v1
    simp only at hb'
    omega
  cases d <;> cases v <;> simp only [Par.sendRng, Par.owns, Par.isCyclic, Rng.shift, Rng.Mem, Rng.extH, Rng.ext, beq_iff_eq, Bool.false_eq_true, if_true, if_false] at h ⊢ <;>
    split_ifs at h <;> (try simp only [] at h) <;> omega

theorem fill1_at (c : Par) (hP : 2 ≤ c.P) (v : Bool) (a : A) (X : Fin c.P → A → Int → W) (p : Fin c.P) (d : Dir) (m : A → Int → W) (x : Int) :
    fill1 c v a X p d m a x = if (c.recvRng v p d).Mem x then X (c.peerF p d) a (x + c.wrap p d) else m a x := by
  unfold fill1
  rw [upd_same]
  have h : c.sendRng v (c.peerF p d) d.opp = _ := c.matched hP v p d
  rw [h, unpack_payload]; rfl

theorem mem_recv_left (c : Par) (v : Bool) (p : Fin c.P) (x : Int) :
    (c.recvRng v p .left).Mem x ↔ (c.rng p).first - c.halo ≤ x ∧ x ≤ (c.rng p).first - 1 ∧ (v = true → p.1 = 0 ∨ x ≤ (c.rng p).first - 2) := by
  cases v
  · simp [Par.recvRng, Rng.Mem]
  · simp only [Par.recvRng, Par.isCyclic, Rng.Mem, beq_iff_eq, Rng.extH, Rng.ext]
    split_ifs with h0 h1 <;> simp only [h0, true_or, false_or, forall_const, and_true] <;> (try (have : (c.halo : Int) = 1 := by omega)) <;> omega

theorem mem_recv_rght (c : Par) (v : Bool) (p : Fin c.P) (x : Int) :
    (c.recvRng v p .rght).Mem x ↔ (c.rng p).last + (if v then 0 else 1) ≤ x ∧ x ≤ (c.rng p).last + c.halo - (if v then 1 else 0) := by
  cases v <;> simp [Par.recvRng, Rng.Mem]

/-- positions of the slabs -/
theorem rng_facts (c : Par) (hh : 1 ≤ c.halo) (hw : c.Wide) (p : Fin c.P) :
    (p.1 = 0 → (c.rng p).first = 0) ∧ (p.1 ≠ 0 → (c.halo : Int) ≤ (c.rng p).first) ∧ (p.1 = c.P - 1 → (c.rng p).last = c.N - 1) ∧
    (p.1 ≠ c.P - 1 → (c.rng p).last + c.halo ≤ c.N - 1) ∧ (c.halo : Int) ≤ (c.rng p).last - (c.rng p).first + 1 ∧ 0 ≤ (c.rng p).first ∧ (c.rng p).last ≤ c.N - 1 := by
  have hp := p.2
  have hb := c.rng_bounds p
  refine ⟨fun h => ?_, fun h => ?_, fun h => ?_, fun h => ?_, (hw p).1, hb.1, hb.2⟩
  · rw [h]; exact c.rng_zero
  · have e : p.1 - 1 + 1 = p.1 := by omega
    have hn := c.rng_next (p.1 - 1)
    rw [e] at hn
    obtain ⟨v1, _⟩ := hw ⟨p.1 - 1, by omega⟩
    have hb' := c.rng_bounds ⟨p.1 - 1, by omega⟩
    simp only [Rng.length] at v1
    simp only at hb'
    omega
  · rw [h]; exact c.rng_end (by omega)
  · have hn := c.rng_next p.1
    obtain ⟨v1, _⟩ := hw ⟨p.1 + 1, by omega⟩
    have hb' := c.rng_bounds ⟨p.1 + 1, by omega⟩
    simp only [Rng.length] at v1
    simp only at hb'
    omega

theorem serial_recv (c : Par) (hP : 2 ≤ c.P) (hh : 1 ≤ c.halo) (hw : c.Wide) (v : Bool) (p : Fin c.P) (d : Dir) (g : Int → W) (x : Int)
    (h : (c.recvRng v p d).Mem x) : c.owns v (c.peerF p d) (x + c.wrap p d) ∧ serialHalo v c.N g x = g (x + c.wrap p d) := by
  have hm : c.sendRng v (c.peerF p d) d.opp = _ := c.matched hP v p d
  have ho : c.owns v (c.peerF p d) (x + c.wrap p d) := by
    refine send_owned c hP hh hw v _ d.opp _ ?_
    rw [hm]
    simp only [Rng.shift, Rng.Mem] at h ⊢
    omega
  refine ⟨ho, ?_⟩
  obtain ⟨f1, f2, f3, f4, f5, f6, f7⟩ := rng_facts c hh hw p
  have h1 : (1 : Int) ≤ c.halo := by omega
  clear hm ho
  cases d
  · rw [mem_recv_left] at h
    by_cases h0 : p.1 = 0
    · have e : c.wrap p .left = (c.N : Int) - 1 := by simp [Par.wrap, Par.isCyclic, h0]
      have := f1 h0
      rw [e]
      cases v <;> simp only [serialHalo, periodicS, periodicV, if_true, if_false, Bool.false_eq_true] <;> rw [if_pos (by omega)]
    · have e : c.wrap p .left = 0 := by simp [Par.wrap, Par.isCyclic, h0]
      have := f2 h0
      rw [e, add_zero]
      cases v <;> simp only [serialHalo, periodicS, periodicV, if_true, if_false, Bool.false_eq_true] <;> rw [if_neg (by omega), if_neg (by omega)]
  · rw [mem_recv_rght] at h
    by_cases h0 : p.1 = c.P - 1
    · have e : c.wrap p .rght = -((c.N : Int) - 1) := by simp [Par.wrap, Par.isCyclic, h0]
      have := f3 h0
      rw [e]
      cases v <;> simp only [serialHalo, periodicS, periodicV, if_true, if_false, Bool.false_eq_true] at h ⊢ <;>
        rw [if_neg (by omega), if_pos (by omega)] <;> congr 1
    · have e : c.wrap p .rght = 0 := by simp [Par.wrap, Par.isCyclic, h0]
      have := f4 h0
      rw [e, add_zero]
      cases v <;> simp only [serialHalo, periodicS, periodicV, if_true, if_false, Bool.false_eq_true] at h ⊢ <;> rw [if_neg (by omega), if_neg (by omega)]

theorem fill2_serial (c : Par) (hP : 2 ≤ c.P) (hh : 1 ≤ c.halo) (hw : c.Wide) (v : Bool) (a : A) (X : Fin c.P → A → Int → W) (g : Int → W)
    (hX : ∀ (p : Fin c.P) x, c.owns v p x → X p a x = g x) (p : Fin c.P) (x : Int) (hx : c.withHalo v p x) : fill2 c v a X p a x = serialHalo v c.N g x := by
  unfold fill2
  rw [fill1_at c hP]
  split_ifs with h1
  · obtain ⟨ho, hs⟩ := serial_recv c hP hh hw v p _ g x h1
    rw [hX _ _ ho, hs]
  · rw [fill1_at c hP]
    split_ifs with h0
    · obtain ⟨ho, hs⟩ := serial_recv c hP hh hw v p _ g x h0
      rw [hX _ _ ho, hs]
    · have hl : ¬ (c.recvRng v p .left).Mem x := by
        rcases Nat.mod_two_eq_zero_or_one p.1 with h | h
        · simpa [dirOf, h] using h1
        · simpa [dirOf, h] using h0
      have hr : ¬ (c.recvRng v p .rght).Mem x := by
        rcases Nat.mod_two_eq_zero_or_one p.1 with h | h
        · simpa [dirOf, h] using h0
        · simpa [dirOf, h] using h1
      rw [mem_recv_left] at hl
      rw [mem_recv_rght] at hr
      obtain ⟨f1, f2, f3, f4, f5, f6, f7⟩ := rng_facts c hh hw p
      have h1 : (1 : Int) ≤ c.halo := by omega
      unfold Par.withHalo at hx
      have ho : c.owns v p x ∧ serialHalo v c.N g x = g x := by
        cases v
        · simp only [Bool.false_eq_true, if_false, false_implies, and_true] at hx hr hl
          have hm : (c.rng p).Mem x := by unfold Rng.Mem; omega
          refine ⟨hm, ?_⟩
          simp only [serialHalo, periodicS, if_false, Bool.false_eq_true]
          unfold Rng.Mem at hm
          rw [if_neg (show ¬ x < 0 by omega), if_neg (show ¬ (c.N : Int) - 1 < x by omega)]
        · simp only [if_true, forall_const] at hx hr hl
          have hm : (c.rng p).first - 1 ≤ x ∧ x ≤ (c.rng p).last - 1 ∧ 0 ≤ x := by omega
          refine ⟨by simp only [Par.owns, if_true]; exact hm, ?_⟩
          simp only [serialHalo, periodicV, if_true]
          rw [if_neg (show ¬ x < 0 by omega), if_neg (show ¬ (c.N : Int) - 2 < x by omega)]
      rw [hX p x ho.1, ho.2]

/-- a single exchange call -/
def once (P : Nat) (a : A) (v : Bool) : Prog P A W := ⟨1, fun _ => a, fun _ => v, fun _ _ m => m⟩

/-- C28: in every execution, whatever the order and the delays of the messages, a process that has completed the exchange of a scalar array holds on
its points and in its halo exactly the values of the serial cyclic run. -/
theorem C28_scalar_halo (c : Par) (hP : 2 ≤ c.P) (hh : 1 ≤ c.halo) (hw : c.Wide) (a : A) (m : Fin c.P → A → Int → W) (g : Int → W)
    (hm : ∀ (p : Fin c.P) x, (c.rng p).first ≤ x → x ≤ (c.rng p).last → m p a x = g x)
    (s : St c.P A W) (hs : Steps c (once c.P a false) (St.init c m) s) (p : Fin c.P) (hp : s.cnt p = 2) (x : Int)
    (h1 : (c.rng p).first - c.halo ≤ x) (h2 : x ≤ (c.rng p).last + c.halo) : s.mem p a x = periodicS c.N g x := by
  have hi := inv_wide c hP hh hw _ m s hs
  rw [hi.mem p, hp]
  show fill2 c false a m p a x = _
  rw [fill2_serial c hP hh hw false a m g (fun p x hx => hm p x hx.1 hx.2) p x ⟨h1, by simpa using h2⟩]
  rfl

/-- C28: the same for a face field (advector). Before the exchange every process needs to know the faces at the left of its points only. -/
theorem C28_vector_halo (c : Par) (hP : 2 ≤ c.P) (hh : 1 ≤ c.halo) (hw : c.Wide) (a : A) (m : Fin c.P → A → Int → W) (g : Int → W)
    (hm : ∀ (p : Fin c.P) x, (c.rng p).first - 1 ≤ x → x ≤ (c.rng p).last - 1 → 0 ≤ x → m p a x = g x)
    (s : St c.P A W) (hs : Steps c (once c.P a true) (St.init c m) s) (p : Fin c.P) (hp : s.cnt p = 2) (x : Int)
    (h1 : (c.rng p).first - c.halo ≤ x) (h2 : x ≤ (c.rng p).last + c.halo - 1) : s.mem p a x = periodicV c.N g x := by
  have hi := inv_wide c hP hh hw _ m s hs
  rw [hi.mem p, hp]
  show fill2 c true a m p a x = _
  rw [fill2_serial c hP hh hw true a m g (fun p x hx => hm p x hx.1 hx.2.1 hx.2.2) p x ⟨h1, by simpa using h2⟩]
  rfl

/-- C28: the exchange leaves all other arrays and all points outside the halo untouched. -/
theorem C28_frame (c : Par) (hP : 2 ≤ c.P) (hh : 1 ≤ c.halo) (hw : c.Wide) (a : A) (v : Bool) (m : Fin c.P → A → Int → W)
    (s : St c.P A W) (hs : Steps c (once c.P a v) (St.init c m) s) (p : Fin c.P) (b : A) (x : Int)
    (hx : b ≠ a ∨ (c.rng p).Mem x ∧ v = false ∨ x < (c.rng p).first - c.halo ∨ (c.rng p).last + c.halo < x) : s.mem p b x = m p b x := by
  have hi := inv_wide c hP hh hw _ m s hs
  rw [hi.mem p]
  have hk := (hi.fin p).1
  have hr : b = a → ∀ d, ¬ (c.recvRng v p d).Mem x := by
    intro hb d
    have hp := p.2
    have h1 : (1 : Int) ≤ c.halo := by omega
    have hx' : (c.rng p).Mem x ∧ v = false ∨ x < (c.rng p).first - c.halo ∨ (c.rng p).last + c.halo < x := by
      rcases hx with h | h
      · exact absurd hb h
      · exact h
    unfold Rng.Mem at hx'
    obtain ⟨_, _, _, _, f5, _, _⟩ := rng_facts c hh hw p
    cases d
    · rw [mem_recv_left]; omega
    · rw [mem_recv_rght]
      cases v
      · simp only [if_false, Bool.false_eq_true]; omega
      · rcases hx' with ⟨_, h⟩ | h
        · exact absurd h (by simp)
        · simp only [if_true]; omega
  have h1 : ∀ d mm, fill1 c v a m p d mm b x = mm b x := by
    intro d mm
    by_cases hb : b = a
    · subst hb
      rw [fill1_at c hP, if_neg (hr rfl d)]
    · unfold fill1; rw [upd_ne _ _ _ _ hb]
  have hk' : s.cnt p ≤ 2 := hk
  have : s.cnt p = 0 ∨ s.cnt p = 1 ∨ s.cnt p = 2 := by omega
  rcases this with h | h | h <;> rw [h]
  · rfl
  · show fill1 c v a m p _ _ b x = _
    rw [h1]
    rfl
  · show fill2 c v a m p b x = _
    unfold fill2
    rw [h1, h1]

/-! ## C28: whole runs -/

/-- C28: in a run of any number of exchanges of any arrays with arbitrary local computations in between, the arrays of a process depend only on how far it
has got, not on the timing of the messages or on the progress of the others. -/
theorem C28_timing_independent (c : Par) (hP : 2 ≤ c.P) (hh : 1 ≤ c.halo) (hw : c.Wide) (g : Prog c.P A W) (m : Fin c.P → A → Int → W)
    (s t : St c.P A W) (hs : Steps c g (St.init c m) s) (ht : Steps c g (St.init c m) t) (p : Fin c.P) (h : s.cnt p = t.cnt p) : s.mem p = t.mem p := by
  rw [(inv_wide c hP hh hw g m s hs).mem p, (inv_wide c hP hh hw g m t ht).mem p, h]

/-- serial run of the same program on one global array: before each computation the halo of the array is filled periodically -/
def serialRun (N : Nat) (arr : Nat → A) (vec : Nat → Bool) (F : Nat → (A → Int → W) → (A → Int → W)) (G : A → Int → W) : Nat → A → Int → W
  | 0 => G
  | r + 1 => F r (let H := serialRun N arr vec F G r; fun a x => if a = arr r then serialHalo (vec r) N (H a) x else H a x)

/-- local arrays agree with the global ones on own indices, and in the halo of those arrays for which `valid` says so -/
def LocalAgree (c : Par) (kind valid : A → Bool) (p : Fin c.P) (m G : A → Int → W) : Prop :=
  ∀ a x, (c.owns (kind a) p x ∨ valid a = true ∧ c.withHalo (kind a) p x) → m a x = G a x

theorem lock_serial (c : Par) (hP : 2 ≤ c.P) (hh : 1 ≤ c.halo) (hw : c.Wide) (g : Prog c.P A W) (kind : A → Bool) (valid : Nat → A → Bool)
    (hk : ∀ r, g.vec r = kind (g.arr r)) (F : Nat → (A → Int → W) → (A → Int → W)) (G : A → Int → W) (m : Fin c.P → A → Int → W)
    (h0 : ∀ p, LocalAgree c kind (valid 0) p (m p) G)
    (hF : ∀ r p mm GG, r < g.rounds → LocalAgree c kind (fun a => valid r a || decide (a = g.arr r)) p mm GG →
      LocalAgree c kind (valid (r + 1)) p (g.comp p r mm) (F r GG)) :
    ∀ r, r ≤ g.rounds → ∀ p, LocalAgree c kind (valid r) p (lock c g m r p) (serialRun c.N g.arr g.vec F G r) := by
  intro r
  induction r with
  | zero => exact fun _ p => h0 p
  | succ r ih =>
    intro hr p
    have ihr := ih (by omega)
    refine hF r p _ _ (by omega) fun a x hx => ?_
    by_cases ha : a = g.arr r
    · subst ha
      rw [if_pos rfl]
      by_cases hx' : c.withHalo (kind (g.arr r)) p x
      · refine fill2_serial c hP hh hw _ _ _ _ (fun q y hy => ihr q (g.arr r) y (Or.inl ?_)) p x ?_
        · rw [← hk]; exact hy
        · rw [hk]; exact hx'
      · exfalso
        rcases hx with h | h
        · apply hx'
          obtain ⟨_, _, _, _, f5, _, _⟩ := rng_facts c hh hw p
          unfold Par.owns Rng.Mem at h
          unfold Par.withHalo
          have h1 : (1 : Int) ≤ c.halo := by omega
          cases hkk : kind (g.arr r) <;> simp only [hkk, if_true, if_false, Bool.false_eq_true] at h ⊢ <;> omega
        · exact hx' h.2
    · rw [if_neg ha]
      have : fill2 c (g.vec r) (g.arr r) (lock c g m r) p a x = lock c g m r p a x := by
        unfold fill2 fill1
        rw [upd_ne _ _ _ _ ha, upd_ne _ _ _ _ ha]
      rw [this]
      refine ihr p a x ?_
      simpa [ha] using hx

/-- C28: if the local computation of each process does on its part what the serial program does on the whole, given correct own values and correct halos of
the arrays exchanged so far (`valid`), then a distributed run gives on every process the values of the serial run. -/
theorem C28_run_equals_serial (c : Par) (hP : 2 ≤ c.P) (hh : 1 ≤ c.halo) (hw : c.Wide) (g : Prog c.P A W) (kind : A → Bool) (valid : Nat → A → Bool)
    (hk : ∀ r, g.vec r = kind (g.arr r)) (F : Nat → (A → Int → W) → (A → Int → W)) (G : A → Int → W) (m : Fin c.P → A → Int → W)
    (h0 : ∀ p, LocalAgree c kind (valid 0) p (m p) G)
    (hF : ∀ r p mm GG, r < g.rounds → LocalAgree c kind (fun a => valid r a || decide (a = g.arr r)) p mm GG →
      LocalAgree c kind (valid (r + 1)) p (g.comp p r mm) (F r GG))
    (s : St c.P A W) (hs : Steps c g (St.init c m) s) (p : Fin c.P) (r : Nat) (hr : s.cnt p = 2 * r) :
    LocalAgree c kind (valid r) p (s.mem p) (serialRun c.N g.arr g.vec F G r) := by
  have hi := inv_wide c hP hh hw g m s hs
  have key := lock_serial c hP hh hw g kind valid hk F G m h0 hF
  have hrr : r ≤ g.rounds := by have := (hi.fin p).1; omega
  rw [hi.mem p, hr]
  have e : memAt c g m p (2 * r) = lock c g m r p := by
    unfold memAt
    rw [if_neg (by omega)]
    congr 1; omega
  rw [e]
  exact key r hrr p

/-! ## C29: no deadlock -/

/-- C29: in every reachable state in which some process has exchanges left, some process can make a step. -/
theorem C29_no_deadlock (c : Par) (hP : 2 ≤ c.P) (g : Prog c.P A W) (m : Fin c.P → A → Int → W) (s : St c.P A W)
    (hs : Steps c g (St.init c m) s) (hn : ∃ p, s.cnt p < 2 * g.rounds) : ∃ t, Step c g s t := by
  obtain ⟨p, hp, h⟩ := progress c hP g.forget _ s.forget (inv_forget c hP g m s hs) hn
  rcases h with h | ⟨h1, _, h2⟩
  · exact ⟨_, Step.post s p hp h⟩
  · by_cases hr : (c.recvRng (g.vec (s.cnt p / 2)) p (dirOf p (s.cnt p))).first ≤ (c.recvRng (g.vec (s.cnt p / 2)) p (dirOf p (s.cnt p))).last
    · obtain ⟨msg, rest, hc⟩ := h2 hr
      have hc' : (s.chan (c.peerF p (dirOf p (s.cnt p))) (dirOf p (s.cnt p)).opp).map (fun l => l.map fun _ => ()) = msg :: rest := hc
      match hl : s.chan (c.peerF p (dirOf p (s.cnt p))) (dirOf p (s.cnt p)).opp with
      | [] => rw [hl] at hc'; simp at hc'
      | msg' :: rest' => exact ⟨_, Step.recv s p msg' rest' h1 hr hl⟩
    · exact ⟨_, Step.skip s p h1 hr⟩

/-- C29: even if a transfer completes only once both sides have started it (unbuffered sends), some process can go on: there is one that has not started its
next exchange, or one whose exchange has been started by its partner too. -/
theorem C29_no_deadlock_synchronous (c : Par) (hP : 2 ≤ c.P) (g : Prog c.P A W) (m : Fin c.P → A → Int → W) (s : St c.P A W)
    (hs : Steps c g (St.init c m) s) (hn : ∃ p, s.cnt p < 2 * g.rounds) :
    ∃ p, s.cnt p < 2 * g.rounds ∧ (s.posted p = false ∨ (s.posted p = true ∧
      -- the partner has completed, or is at and has posted, its exchange number `k` of the same call in the opposite direction
      ∃ k, k / 2 = s.cnt p / 2 ∧ dirOf (c.peerF p (dirOf p (s.cnt p))) k = (dirOf p (s.cnt p)).opp ∧
        (k < s.cnt (c.peerF p (dirOf p (s.cnt p))) ∨ k = s.cnt (c.peerF p (dirOf p (s.cnt p))) ∧ s.posted (c.peerF p (dirOf p (s.cnt p))) = true))) := by
  obtain ⟨p, hp, h⟩ := progress c hP g.forget _ s.forget (inv_forget c hP g m s hs) hn
  refine ⟨p, hp, ?_⟩
  rcases h with h | ⟨h1, h2, _⟩
  · exact Or.inl h
  · refine Or.inr ⟨h1, ?_⟩
    have h2' : s.cnt p / 2 < sent s (c.peerF p (dirOf p (s.cnt p))) (dirOf p (s.cnt p)).opp := h2
    generalize c.peerF p (dirOf p (s.cnt p)) = q at h2' ⊢
    generalize (dirOf p (s.cnt p)).opp = d at h2' ⊢
    unfold sent at h2'
    have hl := pos_le q d
    refine ⟨2 * (s.cnt p / 2) + pos q d, by omega, (dirOf_iff _ _ _).2 (by omega), ?_⟩
    by_cases hq : s.posted q = true
    · rw [hq] at h2'; simp only [if_true] at h2'
      have : 2 * (s.cnt p / 2) + pos q d < s.cnt q ∨ 2 * (s.cnt p / 2) + pos q d = s.cnt q := by omega
      rcases this with h | h
      · exact Or.inl h
      · exact Or.inr ⟨h, hq⟩
    · rw [if_neg hq] at h2'
      exact Or.inl (by omega)

/-- executions of a given length -/
inductive StepsN (c : Par) (g : Prog c.P A W) : Nat → St c.P A W → St c.P A W → Prop
  | zero (s) : StepsN c g 0 s s
  | succ (n s u w) : StepsN c g n s u → Step c g u w → StepsN c g (n + 1) s w

theorem StepsN.steps {c : Par} {g : Prog c.P A W} {n : Nat} {s t : St c.P A W} (h : StepsN c g n s t) : Steps c g s t := by
  induction h with
  | zero => exact Steps.refl _
  | succ n _ u w _ h ih => exact Steps.tail _ _ _ ih h

theorem sum_upd {P : Nat} (f : Fin P → Nat) (p : Fin P) (v : Nat) : Finset.univ.sum (upd f p v) + f p = Finset.univ.sum f + v := by
  have h1 := Finset.add_sum_erase Finset.univ (upd f p v) (Finset.mem_univ p)
  have h2 := Finset.add_sum_erase Finset.univ f (Finset.mem_univ p)
  have h3 : ∑ q ∈ Finset.univ.erase p, upd f p v q = ∑ q ∈ Finset.univ.erase p, f q :=
    Finset.sum_congr rfl fun q hq => upd_ne _ _ _ _ (Finset.ne_of_mem_erase hq)
  rw [upd_same] at h1
  show (∑ x, upd f p v x) + f p = (∑ x, f x) + v
  omega

/-- number of actions done so far -/
def work {P : Nat} (s : St P A W) : Nat := ∑ p, (2 * s.cnt p + if s.posted p then 1 else 0)

theorem work_step (c : Par) (g : Prog c.P A W) (s t : St c.P A W) (h : Step c g s t) : work t = work s + 1 := by
  have fin : ∀ (s : St c.P A W) (p : Fin c.P) (mm : A → Int → W), s.posted p = true → work (s.finish c g p mm) = work s + 1 := by
    intro s p mm hp
    have e : (fun q => 2 * (s.finish c g p mm).cnt q + if (s.finish c g p mm).posted q then 1 else 0) =
        upd (fun q => 2 * s.cnt q + if s.posted q then 1 else 0) p (2 * (s.cnt p + 1)) := by
      funext q
      by_cases h : q = p
      · subst h
        show 2 * upd _ q _ q + (if upd _ q _ q = true then 1 else 0) = _
        rw [upd_same, upd_same, upd_same]; simp
      · show 2 * upd _ p _ q + (if upd _ p _ q = true then 1 else 0) = _
        rw [upd_ne _ _ _ _ h, upd_ne _ _ _ _ h, upd_ne _ _ _ _ h]
    have hs := sum_upd (fun q => 2 * s.cnt q + if s.posted q then 1 else 0) p (2 * (s.cnt p + 1))
    unfold work
    rw [e]
    have hfp : (2 * s.cnt p + if s.posted p = true then 1 else 0) = 2 * s.cnt p + 1 := by simp [hp]
    rw [hfp] at hs
    omega
  cases h with
  | post p hk hp =>
    have e : (fun q => 2 * (s.post c g p).cnt q + if (s.post c g p).posted q then 1 else 0) =
        upd (fun q => 2 * s.cnt q + if s.posted q then 1 else 0) p (2 * s.cnt p + 1) := by
      funext q
      by_cases h : q = p
      · subst h
        show 2 * s.cnt q + (if upd _ q _ q = true then 1 else 0) = _
        rw [upd_same, upd_same]; simp
      · show 2 * s.cnt q + (if upd _ p _ q = true then 1 else 0) = _
        rw [upd_ne _ _ _ _ h, upd_ne _ _ _ _ h]
    have hs := sum_upd (fun q => 2 * s.cnt q + if s.posted q then 1 else 0) p (2 * s.cnt p + 1)
    unfold work
    rw [e]
    have hfp : (2 * s.cnt p + if s.posted p = true then 1 else 0) = 2 * s.cnt p := by simp [hp]
    rw [hfp] at hs
    omega
  | recv p msg rest hp hr hc => exact fin (s.setChan _ _ _) p _ hp
  | skip p hp hr => exact fin s p _ hp

/-- C29: every execution is finite: no more than four actions per process and call. -/
theorem C29_terminates (c : Par) (hP : 2 ≤ c.P) (g : Prog c.P A W) (m : Fin c.P → A → Int → W) (n : Nat) (s : St c.P A W)
    (hs : StepsN c g n (St.init c m) s) : n ≤ 4 * g.rounds * c.P := by
  have hi := inv_forget c hP g m s hs.steps
  have hw : ∀ (n : Nat) (s0 s : St c.P A W), StepsN c g n s0 s → work s = work s0 + n := by
    intro n s0 s h
    induction h with
    | zero => rfl
    | succ n _ u w hp h ih => rw [work_step c g _ _ h, ih]; ring
  have h0 : work (St.init c m) = 0 := by simp [work, St.init]
  have hn := hw n _ _ hs
  rw [h0] at hn
  have hb : work s ≤ ∑ _p : Fin c.P, 4 * g.rounds := by
    refine Finset.sum_le_sum fun p _ => ?_
    have h1 : s.cnt p ≤ 2 * g.rounds := (hi.fin p).1
    have h2 : s.posted p = true → s.cnt p < 2 * g.rounds := (hi.fin p).2
    split_ifs with h
    · have := h2 h; omega
    · omega
  rw [Finset.sum_const, Finset.card_univ, Fintype.card_fin, smul_eq_mul] at hb
  rw [Nat.mul_comm c.P] at hb
  omega

/-- C29: an execution that cannot be continued has completed all exchanges on all processes, with no message left over. -/
theorem C29_completes (c : Par) (hP : 2 ≤ c.P) (g : Prog c.P A W) (m : Fin c.P → A → Int → W) (s : St c.P A W)
    (hs : Steps c g (St.init c m) s) (hstop : ∀ t, ¬ Step c g s t) :
    (∀ p, s.cnt p = 2 * g.rounds) ∧ (∀ p d, s.chan p d = []) := by
  have hi := inv_forget c hP g m s hs
  have h1 : ∀ p, s.cnt p = 2 * g.rounds := by
    intro p
    have h1 : s.cnt p ≤ 2 * g.rounds := (hi.fin p).1
    by_contra hne
    obtain ⟨t, ht⟩ := C29_no_deadlock c hP g m s hs ⟨p, by omega⟩
    exact hstop t ht
  refine ⟨h1, fun p d => ?_⟩
  have hc : (s.chan p d).map (fun l => l.map fun _ => ()) = _ := hi.chan p d
  rw [msgs_empty] at hc
  · simpa using hc
  · have hpost : s.posted p = false := by
      by_contra h
      have h2 : s.posted p = true → s.cnt p < 2 * g.rounds := (hi.fin p).2
      have := h2 (by simpa using h)
      have := h1 p
      omega
    have e1 : sent s.forget p d = (s.cnt p + (if s.posted p then 1 else 0) + 1 - pos p d) / 2 := rfl
    have e2 : recvd s.forget (c.peerF p d) d.opp = (s.cnt (c.peerF p d) + 1 - pos (c.peerF p d) d.opp) / 2 := rfl
    rw [e1, e2, h1, h1, hpost]
    have := pos_le p d
    have := pos_le (c.peerF p d) d.opp
    simp only [Bool.false_eq_true, if_false]
    omega

/-! ## C29: gathering -/

theorem gatherSize_eq (N P M p : Nat) : gatherSize N P M p = (slabMin N (p + 1) P - slabMin N p P).toNat * M := by
  unfold gatherSize
  congr 2
  simp [slab, Rng.length, slabMax]; ring

theorem slabMin_nn (N P p : Nat) : 0 ≤ slabMin N p P := by
  rw [slabMin_eq_ediv (by omega) (by omega)]
  positivity

theorem gatherSum (N P M : Nat) (hP : 0 < P) (p : Nat) : ((List.range p).map (gatherSize N P M)).sum = (slabMin N p P).toNat * M := by
  induction p with
  | zero => simp [slabMin_zero]
  | succ p ih =>
    rw [List.range_succ, List.map_append, List.sum_append, ih, List.map_singleton, List.sum_singleton, gatherSize_eq, ← Nat.add_mul]
    congr 1
    have h := slabMin_mono (span := N) (size := P) (by omega) (by omega) (r := p) (r' := p + 1) (by omega) (by omega)
    have h0 := slabMin_nn N P p
    push_cast at h ⊢
    omega

theorem gatherDispl_eq (N P M : Nat) (hP : 0 < P) (p : Nat) : gatherDispl N P M p = (slabMin N p P).toNat * M := by
  unfold gatherDispl
  rw [List.range_succ, List.map_append, List.sum_append, gatherSum N P M hP]
  simp

/-- C29: gathering. For every number of processes and every local data, element `(x, y)` of the gathered array is the one held by the process whose slab
contains `x`. (`M` elements per x: 1 in 1-D, `ny` or `ny*nz` otherwise.) -/
theorem C29_gather_from_owner {V : Type} (N P M : Nat) (hP : 0 < P) (loc : Nat → Int → Nat → V) (out0 : Nat → V) (x y : Nat) (hy : y < M)
    (p : Nat) (hp : p < P) (ho : (slab ⟨0, (N : Int) - 1⟩ p P).Mem x) : globalArray N P M loc out0 x y = loc p x y := by
  have hM : 0 < M := by omega
  have hmem : ∀ q : Nat, q < P → ((gatherDispl N P M q ≤ x * M + y ∧ x * M + y < gatherDispl N P M q + gatherSize N P M q) ↔
      (slab ⟨0, (N : Int) - 1⟩ q P).Mem x) := by
    intro q hq
    rw [gatherDispl_eq N P M hP, gatherSize_eq, ← Nat.add_mul]
    have h := slabMin_mono (span := N) (size := P) (by omega) (by omega) (r := q) (r' := q + 1) (by omega) (by omega)
    have h0 := slabMin_nn N P q
    have e : (slabMin N q P).toNat + (slabMin N (q + 1) P - slabMin N q P).toNat = (slabMin N (q + 1) P).toNat := by omega
    rw [e]
    have d1 : (slabMin N q P).toNat * M ≤ x * M + y ↔ (slabMin N q P).toNat ≤ x := by
      constructor
      · intro h; by_contra hc
        have : (x + 1) * M ≤ (slabMin N q P).toNat * M := Nat.mul_le_mul_right _ (by omega)
        rw [Nat.add_mul] at this; omega
      · intro h
        have : (slabMin N q P).toNat * M ≤ x * M := Nat.mul_le_mul_right _ h
        omega
    have d2 : x * M + y < (slabMin N (q + 1) P).toNat * M ↔ x < (slabMin N (q + 1) P).toNat := by
      constructor
      · intro h; by_contra hc
        have : (slabMin N (q + 1) P).toNat * M ≤ x * M := Nat.mul_le_mul_right _ (by omega)
        omega
      · intro h
        have : (x + 1) * M ≤ (slabMin N (q + 1) P).toNat * M := Nat.mul_le_mul_right _ h
        rw [Nat.add_mul] at this; omega
    rw [d1, d2]
    simp only [slab, Rng.Mem, Rng.length, slabMax]
    have e2 : (N : Int) - 1 - 0 + 1 = N := by ring
    rw [e2]
    omega
  have huniq : ∀ q : Nat, q < P → q ≠ p → ¬ (slab ⟨0, (N : Int) - 1⟩ q P).Mem x := by
    intro q hq hne hqx
    simp only [slab, Rng.Mem, Rng.length, slabMax] at hqx ho
    have e2 : (N : Int) - 1 - 0 + 1 = N := by ring
    rw [e2] at hqx ho
    rcases Nat.lt_or_gt_of_ne hne with h | h
    · have := slabMin_mono (span := N) (size := P) (by omega) (by omega) (r := q + 1) (r' := p) (by omega) (by omega)
      omega
    · have := slabMin_mono (span := N) (size := P) (by omega) (by omega) (r := p + 1) (r' := q) (by omega) (by omega)
      omega
  have hval : gatherIn N P M (loc p) p (x * M + y - gatherDispl N P M p) = loc p x y := by
    unfold gatherIn
    rw [gatherDispl_eq N P M hP]
    have h0 := slabMin_nn N P p
    have hx2 := ho
    simp only [slab, Rng.Mem, Rng.length, slabMax] at hx2
    have e2 : (N : Int) - 1 - 0 + 1 = N := by ring
    rw [e2] at hx2
    have e3 : x * M + y - (slabMin N p P).toNat * M = (x - (slabMin N p P).toNat) * M + y := by
      rw [Nat.sub_mul]
      have : (slabMin N p P).toNat * M ≤ x * M := Nat.mul_le_mul_right _ (by omega)
      omega
    rw [e3]
    have e4 : ((x - (slabMin N p P).toNat) * M + y) / M = x - (slabMin N p P).toNat := by
      rw [Nat.add_comm, Nat.add_mul_div_right _ _ hM, Nat.div_eq_of_lt hy]; omega
    have e5 : ((x - (slabMin N p P).toNat) * M + y) % M = y := by
      rw [Nat.add_comm, Nat.add_mul_mod_self_right, Nat.mod_eq_of_lt hy]
    rw [e4, e5]
    congr 1
    simp only [slab, Rng.length, e2]
    omega
  unfold globalArray gatherv
  have fold : ∀ n, n ≤ P → (List.range n).foldl (fun out q => fun k =>
      if gatherDispl N P M q ≤ k ∧ k < gatherDispl N P M q + gatherSize N P M q then gatherIn N P M (loc q) q (k - gatherDispl N P M q) else out k) out0
        (x * M + y) = if p < n then loc p x y else out0 (x * M + y) := by
    intro n hn
    induction n with
    | zero => rfl
    | succ n ih =>
      rw [List.range_succ, List.foldl_append, List.foldl_cons, List.foldl_nil]
      show (if _ then _ else _) = _
      by_cases hq : n = p
      · subst hq
        rw [if_pos ((hmem n (by omega)).2 ho), hval, if_pos (by omega)]
      · rw [if_neg (fun h => huniq n (by omega) hq ((hmem n (by omega)).1 h)), ih (by omega)]
        split_ifs <;> first | rfl | omega
  rw [fold P (le_refl _), if_pos hp]

/-- C29: every point has an owner, so the gathered array is completely defined by the local ones. -/
theorem C29_gather_total {V : Type} (N P M : Nat) (hP : 0 < P) (loc : Nat → Int → Nat → V) (x y : Nat) (hx : x < N) (hy : y < M) :
    ∃ p < P, (slab ⟨0, (N : Int) - 1⟩ p P).Mem x ∧ ∀ out0, globalArray N P M loc out0 x y = loc p x y := by
  obtain ⟨t, ht⟩ := Threads.slabOf_cover N P hP (x : Int) (by omega) (by omega)
  exact ⟨t.1, t.2, ht, fun out0 => C29_gather_from_owner N P M hP loc out0 x y hy t.1 t.2 ht⟩

/-- C29: setting the global field and gathering it gives back the field that was set. -/
theorem C29_set_then_gather {V : Type} (N P M : Nat) (hP : 0 < P) (arr : Int → Nat → V) (own : Nat → Int → Nat → V) (out0 : Nat → V) (x y : Nat) (hx : x < N) (hy : y < M) :
    globalArray N P M (fun p => globalSet N P p arr (own p)) out0 x y = arr x y := by
  obtain ⟨p, hp, ho, h⟩ := C29_gather_total N P M hP (fun p => globalSet N P p arr (own p)) x y hx hy
  rw [h out0]
  unfold globalSet
  rw [if_pos ho]

/-! ## C28: a distributed upstream run equals the serial one -/
section donor
variable {K : Type} [Field K] [LinearOrder K]

/-- the arrays of an advection run: the advected field (`false`) and the Courant number at faces (`true`) -/
abbrev Arr := Bool

/-- one upstream step on the points `lo .. hi` (mpdata_osc_1d.hpp:58-80, first iteration) -/
def donorLocal (o : OptsT) (G : Int → K) (lo hi : Int) (m : Arr → Int → K) : Arr → Int → K
  | false => fun x => if lo ≤ x ∧ x ≤ hi then donorStep1 o (m false) (makeFlux1 o (m false) (m true)) G x else m false x
  | true => m true

/-- the program run by each process: exchange the advector once, then before each of `n` steps exchange the field
(solver_common.hpp:270-358) -/
def donorProg (c : Par) (o : OptsT) (G : Int → K) (n : Nat) : Prog c.P Arr K :=
  ⟨n + 1, fun r => r == 0, fun r => r == 0, fun p r m => if r = 0 then m else donorLocal o G (c.rng p).first (c.rng p).last m⟩

/-- the serial run: `n` upstream steps on a cyclic domain of points `0 .. N-1` -/
def donorSerial (N : Nat) (o : OptsT) (G gc psi : Int → K) : Nat → Int → K
  | 0 => psi
  | n + 1 => fun x =>
    let f := periodicS N (donorSerial N o G gc psi n)
    if 0 ≤ x ∧ x ≤ (N : Int) - 1 then donorStep1 o f (makeFlux1 o f (periodicV N gc)) G x else f x

/-- C28: an upstream advection run distributed over any number of processes gives, on the points of each process, the result of the serial run,
for every schedule of the processes and every delay of the messages. -/
theorem C28_donor_run (c : Par) (hP : 2 ≤ c.P) (hh : 1 ≤ c.halo) (hw : c.Wide) (o : OptsT) (G gc psi : Int → K) (n : Nat)
    (m : Fin c.P → Arr → Int → K)
    (hpsi : ∀ (p : Fin c.P) x, (c.rng p).first ≤ x → x ≤ (c.rng p).last → m p false x = psi x)
    (hgc : ∀ (p : Fin c.P) x, (c.rng p).first - 1 ≤ x → x ≤ (c.rng p).last - 1 → 0 ≤ x → m p true x = gc x)
    (s : St c.P Arr K) (hs : Steps c (donorProg c o G n) (St.init c m) s) (p : Fin c.P) (k : Nat) (hk : s.cnt p = 2 * (k + 1))
    (x : Int) (h1 : (c.rng p).first ≤ x) (h2 : x ≤ (c.rng p).last) : s.mem p false x = donorSerial c.N o G gc psi k x := by
  have hrun := C28_run_equals_serial c hP hh hw (donorProg c o G n) id (fun r a => a && decide (1 ≤ r)) (fun r => rfl)
    (fun r mm => if r = 0 then mm else donorLocal o G 0 ((c.N : Int) - 1) mm) (fun a => if a then gc else psi) m ?_ ?_ s hs p (k + 1) hk
  · rw [hrun false x (Or.inl ⟨h1, h2⟩)]
    clear hrun hs hk hpsi hgc
    have hb := c.rng_bounds p
    have key : ∀ k, serialRun c.N (donorProg c o G n).arr (donorProg c o G n).vec (fun r mm => if r = 0 then mm else donorLocal o G 0 ((c.N : Int) - 1) mm)
        (fun a => if a then gc else psi) (k + 1) true = periodicV c.N gc ∧
        serialRun c.N (donorProg c o G n).arr (donorProg c o G n).vec (fun r mm => if r = 0 then mm else donorLocal o G 0 ((c.N : Int) - 1) mm)
        (fun a => if a then gc else psi) (k + 1) false = donorSerial c.N o G gc psi k := by
      intro k
      induction k with
      | zero =>
        constructor
        · funext x; simp [serialRun, donorProg, serialHalo]
        · funext x; simp [serialRun, donorProg, donorSerial]
      | succ k ih =>
        have e : ∀ H : Arr → Int → K, H true = periodicV c.N gc → H false = donorSerial c.N o G gc psi k → ∀ a x,
            (if a = (donorProg c o G n).arr (k + 1) then serialHalo ((donorProg c o G n).vec (k + 1)) c.N (H a) x else H a x) =
              if a then periodicV c.N gc x else periodicS c.N (donorSerial c.N o G gc psi k) x := by
          intro H i1 i2 a x
          cases a
          · simp [donorProg, serialHalo, i2]
          · simp [donorProg, i1]
        rw [serialRun]
        simp only [e _ ih.1 ih.2]
        constructor
        · simp [donorLocal]
        · funext x
          simp [donorLocal, donorSerial]
    rw [(key k).2]
  · rintro p a x (hx | hx)
    · cases a
      · exact hpsi p x hx.1 hx.2
      · exact hgc p x hx.1 hx.2.1 hx.2.2
    · simp at hx
  · intro r p mm GG _ hag a x hx
    have h1' : (1 : Int) ≤ c.halo := by omega
    by_cases hr : r = 0
    · subst hr
      show mm a x = GG a x
      refine hag a x ?_
      rcases hx with hx | hx
      · exact Or.inl hx
      · refine Or.inr ⟨?_, hx.2⟩
        have : a = true := by simpa using hx.1
        subst this; rfl
    · show (if r = 0 then mm else _ : Arr → Int → K) a x = (if r = 0 then GG else _ : Arr → Int → K) a x
      rw [if_neg hr, if_neg hr]
      cases a
      · rcases hx with hx | hx
        · have hb := c.rng_bounds p
          have hx' : (c.rng p).first ≤ x ∧ x ≤ (c.rng p).last := hx
          show (if _ then _ else _) = (if _ then _ else _)
          rw [if_pos hx', if_pos (by omega)]
          have hp : ∀ y, x - 1 ≤ y → y ≤ x + 1 → mm false y = GG false y := by
            intro y h1 h2
            refine hag false y (Or.inr ⟨?_, ?_⟩)
            · simp [donorProg, hr]
            · unfold Par.withHalo; simp; omega
          have hg : ∀ y, x - 1 ≤ y → y ≤ x → mm true y = GG true y := by
            intro y h1 h2
            refine hag true y (Or.inr ⟨?_, ?_⟩)
            · simp; omega
            · unfold Par.withHalo; simp; omega
          unfold donorStep1 makeFlux1
          rw [hp x (by omega) (by omega), hp (x + 1) (by omega) (by omega), hp (x - 1) (by omega) (by omega), hg x (by omega) (by omega), hg (x - 1) (by omega) (by omega),
            hp (x - 1 + 1) (by omega) (by omega)]
        · simp at hx
      · refine hag true x ?_
        rcases hx with hx | hx
        · exact Or.inl hx
        · refine Or.inr ⟨?_, hx.2⟩
          simp; omega
end donor

/-! ## Executions exist; narrow processes -/

/-- a particular scheduler: let process `p` do what it can -/
def act (c : Par) (g : Prog c.P A W) (s : St c.P A W) (p : Fin c.P) : St c.P A W :=
  if s.posted p = true then
    if (c.recvRng (g.vec (s.cnt p / 2)) p (dirOf p (s.cnt p))).first ≤ (c.recvRng (g.vec (s.cnt p / 2)) p (dirOf p (s.cnt p))).last then
      match s.chan (c.peerF p (dirOf p (s.cnt p))) (dirOf p (s.cnt p)).opp with
      | [] => s
      | msg :: rest => St.finish c g (s.setChan (c.peerF p (dirOf p (s.cnt p))) (dirOf p (s.cnt p)).opp rest) p
        (upd (s.mem p) (g.arr (s.cnt p / 2)) (unpack (c.recvRng (g.vec (s.cnt p / 2)) p (dirOf p (s.cnt p))) msg (s.mem p (g.arr (s.cnt p / 2)))))
    else s.finish c g p (s.mem p)
  else if s.cnt p < 2 * g.rounds then s.post c g p else s

theorem act_steps (c : Par) (g : Prog c.P A W) (s0 s : St c.P A W) (p : Fin c.P) (h : Steps c g s0 s) : Steps c g s0 (act c g s p) := by
  unfold act
  split_ifs with h1 h2 h3
  · split
    · exact h
    · exact Steps.tail _ _ _ h (Step.recv s p _ _ h1 h2 (by assumption))
  · exact Steps.tail _ _ _ h (Step.skip s p h1 h2)
  · exact Steps.tail _ _ _ h (Step.post s p h3 (by simpa using h1))
  · exact h

theorem acts_steps (c : Par) (g : Prog c.P A W) (s0 : St c.P A W) (l : List (Fin c.P)) : ∀ s, Steps c g s0 s → Steps c g s0 (l.foldl (act c g) s) := by
  induction l with
  | nil => exact fun s h => h
  | cons p l ih => exact fun s h => ih _ (act_steps c g s0 s p h)

/-- C28, C29: from every reachable state the run can be completed; in particular complete executions exist and the theorems above are not vacuous. -/
theorem C29_can_complete (c : Par) (hP : 2 ≤ c.P) (g : Prog c.P A W) (m : Fin c.P → A → Int → W) :
    ∃ s, Steps c g (St.init c m) s ∧ ∀ p, s.cnt p = 2 * g.rounds := by
  have key : ∀ k n s, StepsN c g n (St.init c m) s → 4 * g.rounds * c.P - n ≤ k → ∃ t, Steps c g (St.init c m) t ∧ ∀ p, t.cnt p = 2 * g.rounds := by
    intro k
    induction k with
    | zero =>
      intro n s h hk
      refine ⟨s, h.steps, (C29_completes c hP g m s h.steps fun t ht => ?_).1⟩
      have := C29_terminates c hP g m _ _ (StepsN.succ _ _ _ _ h ht)
      omega
    | succ k ih =>
      intro n s h hk
      by_cases hn : ∃ t, Step c g s t
      · obtain ⟨t, ht⟩ := hn
        exact ih (n + 1) t (StepsN.succ _ _ _ _ h ht) (by omega)
      · exact ⟨s, h.steps, (C29_completes c hP g m s h.steps fun t ht => hn ⟨t, ht⟩).1⟩
  exact key _ 0 _ (StepsN.zero _) (le_refl _)

/-- a division meeting the width condition: 8 points over 3 processes with halo 1 (slabs of 2, 3, 3 points) -/
example : (⟨8, 3, 1⟩ : Par).Wide := by unfold Par.Wide; decide
/-- and 13 points over 4 processes with halo 2 -/
example : (⟨13, 4, 2⟩ : Par).Wide := by unfold Par.Wide; decide
/-- the halo theorem at work: some run of one exchange over three processes completes, and every completed run leaves the periodic image of the field in all halos -/
example : ∃ s : St 3 Unit Int, Steps ⟨8, 3, 1⟩ (once 3 () false) (St.init ⟨8, 3, 1⟩ (fun p _ x => if ((⟨8, 3, 1⟩ : Par).rng p).Mem x then x * x else -1)) s ∧
    s.mem 0 () (-1) = 36 ∧ s.mem 1 () 2 = 4 ∧ s.mem 2 () 8 = 1 := by
  have hP : 2 ≤ (⟨8, 3, 1⟩ : Par).P := by decide
  have hw : (⟨8, 3, 1⟩ : Par).Wide := by unfold Par.Wide; decide
  obtain ⟨s, hs, hc⟩ := C29_can_complete ⟨8, 3, 1⟩ hP (once 3 () false) (fun p (_ : Unit) x => if ((⟨8, 3, 1⟩ : Par).rng p).Mem x then x * x else -1)
  have key := C28_scalar_halo ⟨8, 3, 1⟩ hP (by decide) hw () _ (fun x => x * x) (fun p x h1 h2 => if_pos ⟨h1, h2⟩) s hs
  exact ⟨s, hs, (key 0 (hc 0) (-1) (by decide) (by decide)).trans (by decide), (key 1 (hc 1) 2 (by decide) (by decide)).trans (by decide),
    (key 2 (hc 2) 8 (by decide) (by decide)).trans (by decide)⟩

/-- C28 does not hold under the weaker condition that every process is at least as wide as the halo: with three processes of one point each and halo 1, the
last process starts with the exchange that closes the ring and sends from its left halo, which is filled only by its second exchange. Here the field is
`10, 20, 10`; process 0 should get 20 at index -1, but receives the old contents of the sender's halo. -/
theorem C28_fails_narrow : ∃ (c : Par) (m : Fin c.P → Unit → Int → Int) (g : Int → Int) (s : St c.P Unit Int) (p : Fin c.P) (x : Int),
    2 ≤ c.P ∧ 1 ≤ c.halo ∧ (∀ p : Fin c.P, (c.halo : Int) ≤ (c.rng p).length) ∧
    (∀ (p : Fin c.P) x, (c.rng p).first ≤ x → x ≤ (c.rng p).last → m p () x = g x) ∧
    Steps c (once c.P () false) (St.init c m) s ∧ s.cnt p = 2 ∧ (c.rng p).first - c.halo ≤ x ∧ x ≤ (c.rng p).last + c.halo ∧
    s.mem p () x ≠ periodicS c.N g x := by
  let c : Par := ⟨3, 3, 1⟩
  let g : Int → Int := fun x => if x = 1 then 20 else 10
  let m : Fin c.P → Unit → Int → Int := fun p _ x => if (c.rng p).Mem x then g x else 99
  refine ⟨c, m, g, ([0, 1, 2, 0, 1, 2, 0, 1, 2, 0, 1, 2, 0, 1, 2] : List (Fin c.P)).foldl (act c (once c.P () false)) (St.init c m), (0 : Fin 3), -1,
    by decide, by decide, by decide, fun p x h1 h2 => if_pos ⟨h1, h2⟩, acts_steps _ _ _ _ _ (Steps.refl _), ?_, by decide, by decide, ?_⟩
  · decide +kernel
  · decide +kernel

end Mpi
end Mpdata
