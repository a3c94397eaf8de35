import Verif.Model.MpiThreads
import Verif.Props.Mpi
/-! # Exchanges by several threads: invariant of all executions -/
set_option linter.unusedSectionVars false
namespace Mpdata
namespace Mpi
variable {A W : Type} [DecidableEq A]

theorem dir_ne {d e : Dir} (h : e ≠ d) : e = d.opp := by cases d <;> cases e <;> simp_all [Dir.opp]

/-- what a process sends is not what it receives -/
theorem Par.send_recv_far (c : Par) (hw : c.Wide) (hh : 1 ≤ c.halo) (v : Bool) (p : Fin c.P) (d e : Dir) (x : Int) (h1 : (c.sendRng v p d).Mem x)
    (h2 : (c.recvRng v p e).Mem x) : False := by
  by_cases he : e = d
  · subst he
    have hh' : (1 : Int) ≤ c.halo := by omega
    cases e <;> cases v <;> simp only [Par.sendRng, Par.recvRng, Par.isCyclic, Rng.shift, Rng.Mem, Rng.extH, Rng.ext, beq_iff_eq] at h1 h2 <;>
      split_ifs at h1 h2 <;> (try simp only [] at h1 h2) <;> omega
  · rw [dir_ne he] at h2
    exact c.send_recv_disjoint hw hh v p d x h1 h2

/-- the two halos are apart -/
theorem Par.recv_apart (c : Par) (hw : c.Wide) (hh : 1 ≤ c.halo) (v : Bool) (p : Fin c.P) (d : Dir) (x : Int) (h1 : (c.recvRng v p d).Mem x)
    (h2 : (c.recvRng v p d.opp).Mem x) : False := by
  obtain ⟨w1, -⟩ := hw p
  simp only [Rng.length] at w1
  have hh' : (1 : Int) ≤ c.halo := by omega
  cases d <;> cases v <;> simp only [Par.recvRng, Par.isCyclic, Dir.opp, Rng.Mem, Rng.extH, Rng.ext, beq_iff_eq] at h1 h2 <;>
    (try split_ifs at h1) <;> (try split_ifs at h2) <;> (try simp only [] at h1) <;> (try simp only [] at h2) <;> omega

theorem fill2_other (c : Par) (v : Bool) (a : A) (X : Fin c.P → A → Int → W) (p : Fin c.P) (b : A) (h : b ≠ a) : fill2 c v a X p b = X p b := by
  unfold fill2 fill1
  rw [upd_ne _ _ _ _ h, upd_ne _ _ _ _ h]

theorem dir_cases (p : Nat) (d : Dir) : d = dirOf p 1 ∨ d = dirOf p 0 := by
  rcases Nat.mod_two_eq_zero_or_one p with h | h <;> cases d <;> simp [dirOf, h]

theorem fill2_zone (c : Par) (hP : 2 ≤ c.P) (hw : c.Wide) (hh : 1 ≤ c.halo) (v : Bool) (a : A) (X : Fin c.P → A → Int → W) (p : Fin c.P) (d : Dir) (x : Int)
    (h : (c.recvRng v p d).Mem x) : fill2 c v a X p a x = X (c.peerF p d) a (x + c.wrap p d) := by
  unfold fill2
  rcases dir_cases p d with e | e
  · rw [fill1_at c hP, if_pos (by rw [← e]; exact h), ← e]
  · have hn : ¬ (c.recvRng v p (dirOf p 1)).Mem x := by
      rw [dirOf_one, ← e]
      exact fun h' => c.recv_apart hw hh v p d x h h'
    rw [fill1_at c hP, if_neg hn, fill1_at c hP, if_pos (by rw [← e]; exact h), ← e]

theorem fill2_none (c : Par) (hP : 2 ≤ c.P) (v : Bool) (a : A) (X : Fin c.P → A → Int → W) (p : Fin c.P) (x : Int)
    (h : ∀ d, ¬ (c.recvRng v p d).Mem x) : fill2 c v a X p a x = X p a x := by
  unfold fill2
  rw [fill1_at c hP, if_neg (h _), fill1_at c hP, if_neg (h _)]

section
variable (c : Par) (g : CallProg c.P A W) (m : Fin c.P → A → Int → W)

/-- memories of the one-thread run before exchange `k` -/
abbrev lockT (k : Nat) : Fin c.P → A → Int → W := lock c g.seq m k

/-- memories after the exchanges `b, …, k - 1` of a call, before the computation that follows the call -/
def pre (b k : Nat) (p : Fin c.P) : A → Int → W :=
  if k = b then lockT c g m b p else fill2 c (g.kind (g.arr (k - 1))) (g.arr (k - 1)) (lockT c g m (k - 1)) p

theorem pre_base (b : Nat) (p : Fin c.P) : pre c g m b b p = lockT c g m b p := by simp [pre]

theorem pre_succ (b k : Nat) (h : b ≤ k) (p : Fin c.P) : pre c g m b (k + 1) p = fill2 c (g.kind (g.arr k)) (g.arr k) (lockT c g m k) p := by
  unfold pre; rw [if_neg (by omega)]; rfl

theorem pre_eq (b k : Nat) (h : b ≤ k) (hl : k = b ∨ g.last (k - 1) = false) (p : Fin c.P) : pre c g m b k p = lockT c g m k p := by
  rcases hl with hl | hl
  · subst hl; exact pre_base c g m k p
  · rcases Nat.eq_or_lt_of_le h with e | e
    · subst e; exact pre_base c g m b p
    · obtain ⟨j, rfl⟩ : ∃ j, k = j + 1 := ⟨k - 1, by omega⟩
      rw [pre_succ c g m b j (by omega)]
      have hl' : g.last j = false := hl
      show _ = (if g.last j = true then _ else _)
      rw [if_neg (by simp [hl'])]
      rfl

/-- points outside the halos do not change during a call -/
theorem pre_out (hP : 2 ≤ c.P) (b k : Nat) (h : b ≤ k) (hl : ∀ j, b ≤ j → j + 1 < k → g.last j = false) (p : Fin c.P) (a : A) (x : Int)
    (hx : ∀ d, ¬ (c.recvRng (g.kind a) p d).Mem x) : pre c g m b k p a x = lockT c g m b p a x := by
  induction k with
  | zero => have : b = 0 := by omega
            subst this; rw [pre_base]
  | succ k ih =>
    rcases Nat.eq_or_lt_of_le h with e | e
    · subst e; rw [pre_base]
    · have ih' := ih (by omega) (fun j h1 h2 => hl j h1 (by omega))
      rw [pre_succ c g m b k (by omega)]
      have hk : pre c g m b k p = lockT c g m k p := by
        refine pre_eq c g m b k (by omega) ?_ p
        by_cases hb : k = b
        · exact Or.inl hb
        · exact Or.inr (hl (k - 1) (by omega) (by omega))
      rw [← ih', hk]
      by_cases ha : a = g.arr k
      · subst ha
        exact fill2_none c hP _ _ _ p x hx
      · rw [fill2_other _ _ _ _ _ _ ha]

/-- contents of the arrays of process `p` when its threads have completed `kd left` and `kd rght` exchanges and the call began with exchange `b` -/
def MemOK (p : Fin c.P) (b : Nat) (kd : Dir → Nat) (mm : A → Int → W) : Prop :=
  (∀ d a x, (c.recvRng (g.kind a) p d).Mem x → mm a x = pre c g m b (kd d) p a x) ∧
  (∀ a x, (∀ d, ¬ (c.recvRng (g.kind a) p d).Mem x) → mm a x = lockT c g m b p a x)

theorem MemOK.recv {p : Fin c.P} {b : Nat} {kd : Dir → Nat} {mm : A → Int → W} (hP : 2 ≤ c.P) (hw : c.Wide) (hh : 1 ≤ c.halo) (h : MemOK c g m p b kd mm) (d : Dir)
    (hb : b ≤ kd d) (hl : kd d = b ∨ g.last (kd d - 1) = false) :
    MemOK c g m p b (upd kd d (kd d + 1)) (fill1 c (g.kind (g.arr (kd d))) (g.arr (kd d)) (lockT c g m (kd d)) p d mm) := by
  have hsame : ∀ a x, ¬ (c.recvRng (g.kind a) p d).Mem x → fill1 c (g.kind (g.arr (kd d))) (g.arr (kd d)) (lockT c g m (kd d)) p d mm a x = mm a x := by
    intro a x hx
    by_cases ha : a = g.arr (kd d)
    · subst ha; rw [fill1_at c hP, if_neg hx]
    · unfold fill1; rw [upd_ne _ _ _ _ ha]
  refine ⟨fun e a x hx => ?_, fun a x hx => by rw [hsame a x (hx d)]; exact h.2 a x hx⟩
  by_cases he : e = d
  · subst he
    rw [upd_same, pre_succ c g m b _ hb]
    by_cases ha : a = g.arr (kd e)
    · subst ha
      rw [fill1_at c hP, if_pos hx, fill2_zone c hP hw hh _ _ _ p e x hx]
    · rw [fill2_other _ _ _ _ _ _ ha, ← pre_eq c g m b _ hb hl p, ← h.1 e a x hx]
      unfold fill1; rw [upd_ne _ _ _ _ ha]
  · rw [upd_ne _ _ _ _ he, hsame a x, h.1 e a x hx]
    intro hx'
    rw [dir_ne he] at hx
    exact c.recv_apart hw hh _ p d x hx' hx

/-- exchanges posted -/
def sentT {P : Nat} (s : StT P A W) (p : Fin P) (d : Dir) : Nat := s.cnt p d + (if s.posted p d then 1 else 0)

/-- invariant of every reachable state -/
structure InvT (s : StT c.P A W) : Prop where
  mem : ∀ p, MemOK c g m p (s.base p) (s.cnt p) (s.mem p)
  chan : ∀ p d, s.chan p d = msgs c g.seq m p d (s.cnt (c.peerF p d) d.opp) (sentT s p d)
  ord : ∀ p d r, r < s.cnt (c.peerF p d) d.opp → (g.snd c r p d).first ≤ (g.snd c r p d).last → r < sentT s p d
  le : ∀ p d, s.base p ≤ s.cnt p d ∧ s.cnt p d ≤ g.rounds
  postd : ∀ p d, s.posted p d = true → s.cnt p d < g.rounds ∧ (s.cnt p d = s.base p ∨ g.last (s.cnt p d - 1) = false)
  inside : ∀ p d j, s.base p ≤ j → j + 1 < s.cnt p d → g.last j = false
  start : ∀ p, s.base p = 0 ∨ g.last (s.base p - 1) = true

theorem invT_init : InvT c g m (StT.init c m) := by
  refine ⟨fun p => ⟨fun d a x _ => ?_, fun a x _ => rfl⟩, fun p d => ?_, fun p d r hr => ?_, fun p d => ⟨Nat.le_refl _, Nat.zero_le _⟩, fun p d h => ?_, fun p d j _ hj => ?_, fun p => Or.inl rfl⟩
  · show _ = pre c g m 0 0 p a x
    rw [pre_base]; rfl
  · rw [msgs_empty _ _ _ _ _ _ _ (by simp [sentT, StT.init])]; rfl
  · simp [StT.init] at hr
  · simp [StT.init] at h
  · simp [StT.init] at hj

theorem upd2_same {P : Nat} {β : Type} (f : Fin P → Dir → β) (p : Fin P) (d : Dir) (b : β) : upd2 f p d b p d = b := by simp [upd2, upd_same]
theorem upd2_ne {P : Nat} {β : Type} (f : Fin P → Dir → β) (p : Fin P) (d : Dir) (b : β) (q : Fin P) (e : Dir) (h : ¬ (q = p ∧ e = d)) : upd2 f p d b q e = f q e := by
  unfold upd2
  by_cases hq : q = p
  · subst hq
    rw [upd_same, upd_ne]
    exact fun he => h ⟨rfl, he⟩
  · rw [upd_ne _ _ _ _ hq]

/-- what is posted is the message of the one-thread run -/
theorem payload_now (hP : 2 ≤ c.P) (hw : c.Wide) (hh : 1 ≤ c.halo) (s : StT c.P A W) (hi : InvT c g m s) (p : Fin c.P) (d : Dir)
    (hl : s.cnt p d = s.base p ∨ g.last (s.cnt p d - 1) = false) :
    payload (g.snd c (s.cnt p d) p d) (s.mem p (g.arr (s.cnt p d))) = payload (g.snd c (s.cnt p d) p d) (lockT c g m (s.cnt p d) p (g.arr (s.cnt p d))) := by
  refine payload_congr _ _ _ fun x hx => ?_
  have hn : ∀ e, ¬ (c.recvRng (g.kind (g.arr (s.cnt p d))) p e).Mem x := fun e he => c.send_recv_far hw hh _ p d e x hx he
  rw [(hi.mem p).2 _ x hn, ← pre_eq c g m (s.base p) (s.cnt p d) (hi.le p d).1 hl p, pre_out c g m hP _ _ (hi.le p d).1 (hi.inside p d) p _ x hn]

/-- bookkeeping of the completion of an exchange -/
theorem invT_finish (hP : 2 ≤ c.P) (hw : c.Wide) (hh : 1 ≤ c.halo) (s : StT c.P A W) (hi : InvT c g m s) (p : Fin c.P) (d : Dir) (mm : A → Int → W)
    (ch : Fin c.P → Dir → List (List W)) (hp : s.posted p d = true)
    (hm : mm = fill1 c (g.kind (g.arr (s.cnt p d))) (g.arr (s.cnt p d)) (lockT c g m (s.cnt p d)) p d (s.mem p))
    (hc : ∀ q e, ch q e = msgs c g.seq m q e (upd2 s.cnt p d (s.cnt p d + 1) (c.peerF q e) e.opp) (sentT s q e))
    (ho : (g.snd c (s.cnt p d) (c.peerF p d) d.opp).first ≤ (g.snd c (s.cnt p d) (c.peerF p d) d.opp).last → s.cnt p d < sentT s (c.peerF p d) d.opp) :
    InvT c g m (s.finish c p d mm ch) := by
  have hpd := hi.postd p d hp
  have hsent : ∀ q e, sentT (s.finish c p d mm ch) q e = sentT s q e := by
    intro q e
    unfold sentT StT.finish
    by_cases h : q = p ∧ e = d
    · obtain ⟨rfl, rfl⟩ := h
      simp [upd2_same, hp]
    · simp only [upd2_ne _ _ _ _ _ _ h]
  refine ⟨fun q => ?_, fun q e => ?_, fun q e r hr hne => ?_, fun q e => ?_, fun q e hq => ?_, fun q e j hj hj' => ?_, fun q => hi.start q⟩
  · by_cases hq : q = p
    · subst hq
      show MemOK c g m q (s.base q) (upd s.cnt q (upd (s.cnt q) d (s.cnt q d + 1)) q) (upd s.mem q mm q)
      rw [upd_same, upd_same, hm]
      exact (hi.mem q).recv c g m hP hw hh d (hi.le q d).1 hpd.2
    · show MemOK c g m q (s.base q) (upd s.cnt p _ q) (upd s.mem p mm q)
      rw [upd_ne _ _ _ _ hq, upd_ne _ _ _ _ hq]
      exact hi.mem q
  · rw [hsent]; exact hc q e
  · rw [hsent]
    have hr' : r < upd2 s.cnt p d (s.cnt p d + 1) (c.peerF q e) e.opp := hr
    by_cases h : c.peerF q e = p ∧ e.opp = d
    · obtain ⟨h1, h2⟩ := h
      have e1 : c.peerF p d = q := by rw [← h1, ← h2]; exact c.peer_peer q e
      have e2 : d.opp = e := by rw [← h2, opp_opp]
      rw [h1, h2, upd2_same] at hr'
      rw [e1, e2] at ho
      by_cases hrk : r = s.cnt p d
      · rw [hrk] at hne ⊢; exact ho hne
      · refine hi.ord q e r ?_ hne
        rw [h1, h2]; omega
    · rw [upd2_ne _ _ _ _ _ _ h] at hr'
      exact hi.ord q e r hr' hne
  · show s.base q ≤ upd2 s.cnt p d _ q e ∧ upd2 s.cnt p d _ q e ≤ _
    by_cases h : q = p ∧ e = d
    · obtain ⟨rfl, rfl⟩ := h
      rw [upd2_same]
      have := hi.le q e
      omega
    · rw [upd2_ne _ _ _ _ _ _ h]; exact hi.le q e
  · have hq' : upd2 s.posted p d false q e = true := hq
    by_cases h : q = p ∧ e = d
    · obtain ⟨rfl, rfl⟩ := h
      rw [upd2_same] at hq'; simp at hq'
    · rw [upd2_ne _ _ _ _ _ _ h] at hq'
      show upd2 s.cnt p d _ q e < _ ∧ (upd2 s.cnt p d _ q e = s.base q ∨ g.last (upd2 s.cnt p d _ q e - 1) = false)
      rw [upd2_ne _ _ _ _ _ _ h]
      exact hi.postd q e hq'
  · have hj'' : j + 1 < upd2 s.cnt p d (s.cnt p d + 1) q e := hj'
    by_cases h : q = p ∧ e = d
    · obtain ⟨rfl, rfl⟩ := h
      rw [upd2_same] at hj''
      by_cases hjk : j + 1 < s.cnt q e
      · exact hi.inside q e j hj hjk
      · have hj3 : s.base q ≤ j := hj
        rcases hpd.2 with h | h
        · omega
        · have : s.cnt q e - 1 = j := by omega
          rw [← this]; exact h
    · rw [upd2_ne _ _ _ _ _ _ h] at hj''
      exact hi.inside q e j hj hj''

theorem invT_step (hP : 2 ≤ c.P) (hw : c.Wide) (hh : 1 ≤ c.halo) (mult : Bool) (s t : StT c.P A W) (hi : InvT c g m s) (hs : StepT c g mult s t) : InvT c g m t := by
  cases hs with
  | post p d h =>
    obtain ⟨h1, h2, h3, -⟩ := h
    have hsent : ∀ q e, sentT (s.post c g p d) q e = if q = p ∧ e = d then s.cnt p d + 1 else sentT s q e := by
      intro q e
      unfold sentT StT.post
      by_cases h : q = p ∧ e = d
      · obtain ⟨rfl, rfl⟩ := h
        simp [upd2_same]
      · simp only [upd2_ne _ _ _ _ _ _ h, if_neg h]
    have hs0 : sentT s p d = s.cnt p d := by simp [sentT, h2]
    refine ⟨hi.mem, fun q e => ?_, fun q e r hr hne => ?_, hi.le, fun q e hq => ?_, hi.inside, hi.start⟩
    · rw [hsent]
      show (if _ then _ else _ : Fin c.P → Dir → List (List W)) q e = msgs c g.seq m q e (s.cnt (c.peerF q e) e.opp) _
      by_cases h : q = p ∧ e = d
      · obtain ⟨rfl, rfl⟩ := h
        have hlo : (g.snd c (s.cnt q e) q e).first ≤ (g.snd c (s.cnt q e) q e).last → s.cnt (c.peerF q e) e.opp ≤ s.cnt q e := by
          intro hne
          by_contra hlt
          have := hi.ord q e (s.cnt q e) (by omega) hne
          omega
        rw [if_pos (⟨rfl, rfl⟩ : q = q ∧ e = e), msgs_snoc]
        have hch := hi.chan q e
        rw [hs0] at hch
        rw [← hch]
        by_cases hne : (g.snd c (s.cnt q e) q e).first ≤ (g.snd c (s.cnt q e) q e).last
        · rw [if_pos hne, if_pos (hlo hne), upd2_same, payload_now c g m hP hw hh s hi q e h3]
          have hne' : (c.sendRng (g.seq.vec (s.cnt q e)) q e).first ≤ (c.sendRng (g.seq.vec (s.cnt q e)) q e).last := hne
          rw [if_pos hne']
          rfl
        · have hne' : ¬ (c.sendRng (g.seq.vec (s.cnt q e)) q e).first ≤ (c.sendRng (g.seq.vec (s.cnt q e)) q e).last := hne
          rw [if_neg hne, if_neg hne']
          simp
      · rw [if_neg h]
        split_ifs
        · rw [upd2_ne _ _ _ _ _ _ h]; exact hi.chan q e
        · exact hi.chan q e
    · rw [hsent]
      have := hi.ord q e r hr hne
      by_cases h : q = p ∧ e = d
      · obtain ⟨rfl, rfl⟩ := h
        rw [if_pos ⟨rfl, rfl⟩]; omega
      · rw [if_neg h]; exact this
    · by_cases h : q = p ∧ e = d
      · obtain ⟨rfl, rfl⟩ := h
        exact ⟨h1, h3⟩
      · have hq' : upd2 s.posted p d true q e = true := hq
        rw [upd2_ne _ _ _ _ _ _ h] at hq'
        exact hi.postd q e hq'
  | recv p d msg rest hp hr hc =>
    have hpeer : c.peerF (c.peerF p d) d.opp = p := c.peer_peer p d
    have hch := hi.chan (c.peerF p d) d.opp
    rw [hpeer, opp_opp] at hch
    have hlt : s.cnt p d < sentT s (c.peerF p d) d.opp := by
      by_contra hn
      rw [msgs_empty _ _ _ _ _ _ _ (by omega), hc] at hch
      simp at hch
    have hne : (c.sendRng (g.seq.vec (s.cnt p d)) (c.peerF p d) d.opp).first ≤ (c.sendRng (g.seq.vec (s.cnt p d)) (c.peerF p d) d.opp).last :=
      (recv_nonempty c hP _ p d).2 hr
    rw [msgs_cons _ _ _ _ _ _ _ hlt, if_pos hne, hc] at hch
    simp only [List.singleton_append, List.cons.injEq] at hch
    obtain ⟨hmsg, hrest⟩ := hch
    refine invT_finish c g m hP hw hh s hi p d _ _ hp ?_ (fun q e => ?_) (fun _ => hlt)
    · rw [hmsg]; rfl
    · by_cases h : q = c.peerF p d ∧ e = d.opp
      · obtain ⟨rfl, rfl⟩ := h
        rw [upd2_same, hrest, hpeer, opp_opp, upd2_same]
      · rw [upd2_ne _ _ _ _ _ _ h, upd2_ne]
        · exact hi.chan q e
        · rintro ⟨h1, h2⟩
          refine h ⟨?_, ?_⟩
          · rw [← h1, ← h2]; exact (c.peer_peer q e).symm
          · rw [← h2, opp_opp]
  | skip p d hp hr =>
    have hpeer : c.peerF (c.peerF p d) d.opp = p := c.peer_peer p d
    have hne : ¬ (c.sendRng (g.seq.vec (s.cnt p d)) (c.peerF p d) d.opp).first ≤ (c.sendRng (g.seq.vec (s.cnt p d)) (c.peerF p d) d.opp).last :=
      fun h => hr ((recv_nonempty c hP _ p d).1 h)
    refine invT_finish c g m hP hw hh s hi p d _ _ hp ?_ (fun q e => ?_) (fun h => absurd h hne)
    · rw [fill1_skip _ _ _ _ _ _ _ hr]
    · by_cases h : q = c.peerF p d ∧ e = d.opp
      · obtain ⟨rfl, rfl⟩ := h
        rw [hpeer, opp_opp, upd2_same]
        have hch := hi.chan (c.peerF p d) d.opp
        rw [hpeer, opp_opp] at hch
        rw [hch]
        by_cases hlt : s.cnt p d < sentT s (c.peerF p d) d.opp
        · rw [msgs_cons _ _ _ _ _ _ _ hlt, if_neg hne]; rfl
        · rw [msgs_empty _ _ _ _ _ _ _ (by omega), msgs_empty _ _ _ _ _ _ _ (by omega)]
      · rw [upd2_ne]
        · exact hi.chan q e
        · rintro ⟨h1, h2⟩
          refine h ⟨?_, ?_⟩
          · rw [← h1, ← h2]; exact (c.peer_peer q e).symm
          · rw [← h2, opp_opp]
  | sync p hl hr =>
    obtain ⟨l1, l2⟩ := hl
    obtain ⟨r1, r2⟩ := hr
    have heq : s.cnt p .rght = s.cnt p .left := by
      by_contra hne
      rcases Nat.lt_or_gt_of_ne hne with h | h
      · have := hi.inside p .left (s.cnt p .rght - 1) (by omega) (by omega)
        rw [this] at r2; simp at r2
      · have := hi.inside p .rght (s.cnt p .left - 1) (by omega) (by omega)
        rw [this] at l2; simp at l2
    have hcnt : ∀ d, s.cnt p d = s.cnt p .left := by intro d; cases d; exacts [rfl, heq]
    obtain ⟨k, hk⟩ : ∃ k, s.cnt p .left = k + 1 := ⟨s.cnt p .left - 1, by omega⟩
    have hbk : s.base p ≤ k := by omega
    have hmem : s.mem p = fill2 c (g.kind (g.arr k)) (g.arr k) (lockT c g m k) p := by
      rw [← pre_succ c g m (s.base p) k hbk p]
      funext a x
      by_cases hz : ∃ d, (c.recvRng (g.kind a) p d).Mem x
      · obtain ⟨d, hd⟩ := hz
        rw [(hi.mem p).1 d a x hd, hcnt d, hk]
      · have hz' : ∀ d, ¬ (c.recvRng (g.kind a) p d).Mem x := fun d hd => hz ⟨d, hd⟩
        rw [(hi.mem p).2 a x hz', pre_out c g m hP (s.base p) (k + 1) (by omega) (fun j h1 h2 => hi.inside p .left j h1 (by omega)) p a x hz']
    have hlast : g.last k = true := by rw [hk] at l2; exact l2
    refine ⟨fun q => ?_, hi.chan, hi.ord, fun q e => ?_, fun q e hq => ?_, fun q e j hj hj' => ?_, fun q => ?_⟩
    · by_cases hq : q = p
      · subst hq
        show MemOK c g m q (upd s.base q (s.cnt q .left) q) (s.cnt q) (upd s.mem q (g.comp q (s.cnt q .left - 1) (s.mem q)) q)
        rw [upd_same, upd_same, hk]
        have hL : g.comp q (k + 1 - 1) (s.mem q) = lockT c g m (k + 1) q := by
          rw [hmem]
          show _ = (if g.last k = true then _ else _)
          rw [if_pos hlast]
          rfl
        rw [hL]
        refine ⟨fun d a x _ => ?_, fun a x _ => rfl⟩
        rw [hcnt d, hk, pre_base]
      · show MemOK c g m q (upd s.base p _ q) (s.cnt q) (upd s.mem p _ q)
        rw [upd_ne _ _ _ _ hq, upd_ne _ _ _ _ hq]
        exact hi.mem q
    · show upd s.base p _ q ≤ _ ∧ _
      by_cases hq : q = p
      · subst hq
        rw [upd_same]
        exact ⟨Nat.le_of_eq (hcnt e).symm, (hi.le q e).2⟩
      · rw [upd_ne _ _ _ _ hq]; exact hi.le q e
    · have h := hi.postd q e hq
      by_cases hqp : q = p
      · subst hqp
        refine ⟨h.1, Or.inl ?_⟩
        show s.cnt q e = upd s.base q _ q
        rw [upd_same, hcnt e]
      · show _ ∧ (s.cnt q e = upd s.base p _ q ∨ _)
        rw [upd_ne _ _ _ _ hqp]; exact h
    · have hj2 : upd s.base p (s.cnt p .left) q ≤ j := hj
      by_cases hq : q = p
      · subst hq
        rw [upd_same] at hj2
        have h3 : j + 1 < s.cnt q e := hj'
        rw [hcnt e] at h3
        omega
      · rw [upd_ne _ _ _ _ hq] at hj2
        exact hi.inside q e j hj2 hj'
    · show upd s.base p _ q = 0 ∨ g.last (upd s.base p _ q - 1) = true
      by_cases hq : q = p
      · subst hq
        rw [upd_same]; exact Or.inr l2
      · rw [upd_ne _ _ _ _ hq]; exact hi.start q

theorem invT_reach (hP : 2 ≤ c.P) (hw : c.Wide) (hh : 1 ≤ c.halo) (mult : Bool) (n : Nat) (t : StT c.P A W) (h : StepsT c g mult n (StT.init c m) t) : InvT c g m t := by
  generalize hs : StT.init c m = s at h
  induction h with
  | refl => rw [← hs]; exact invT_init c g m
  | tail n s u w _ hst ih => exact invT_step c g m hP hw hh mult _ _ (ih hs) hst


/-! ## Progress and termination -/

theorem StepT.mono (mult : Bool) (s t : StT c.P A W) (h : StepT c g false s t) : StepT c g mult s t := by
  cases h with
  | post p d h =>
    refine StepT.post s p d ⟨h.1, h.2.1, h.2.2.1, ?_⟩
    rcases h.2.2.2 with h | h
    · simp at h
    · exact Or.inr h
  | recv p d msg rest hp hr hc => exact StepT.recv s p d msg rest hp hr hc
  | skip p d hp hr => exact StepT.skip s p d hp hr
  | sync p hl hr => exact StepT.sync s p hl hr

open Classical in
/-- the direction a process is at, were it to do one after the other -/
noncomputable def active (s : StT c.P A W) (p : Fin c.P) : Dir := if s.callDone g p (dirOf p 0) then dirOf p 1 else dirOf p 0

/-- order of the exchanges of all processes -/
noncomputable def rankT (s : StT c.P A W) (p : Fin c.P) : Nat :=
  (3 * s.base p + tau c (link c p (active c g s p))) * (g.rounds + 1) + s.cnt p (active c g s p)

theorem progressT (hP : 2 ≤ c.P) (s : StT c.P A W) (hi : InvT c g m s) (hend : ∀ k, k + 1 = g.rounds → g.last k = true)
    (hn : ∃ p, s.base p < g.rounds) : ∃ t, StepT c g false s t := by
  classical
  by_cases hsy : ∃ p, s.callDone g p .left ∧ s.callDone g p .rght
  · obtain ⟨p, h1, h2⟩ := hsy
    exact ⟨_, StepT.sync s p h1 h2⟩
  have hact : ∀ p, ¬ s.callDone g p (active c g s p) := by
    intro p h
    unfold active at h
    split_ifs at h with h0
    · refine hsy ⟨p, ?_⟩
      rcases Nat.mod_two_eq_zero_or_one p.1 with hp | hp
      · simp [dirOf, hp] at h h0; exact ⟨h, h0⟩
      · simp [dirOf, hp] at h h0; exact ⟨h0, h⟩
    · exact h0 h
  have hopen : ∀ p d, ¬ s.callDone g p d → s.cnt p d = s.base p ∨ g.last (s.cnt p d - 1) = false := by
    intro p d h
    by_cases hb : s.base p < s.cnt p d
    · right
      by_contra hl
      exact h ⟨hb, by simpa using hl⟩
    · left
      have := (hi.le p d).1
      omega
  -- an unfinished thread is ahead of every call boundary before it
  have hbound : ∀ p d, ¬ s.callDone g p d → ∀ j, s.base p ≤ j → j + 1 ≤ s.cnt p d → g.last j = false := by
    intro p d h j h1 h2
    rcases Nat.lt_or_ge (j + 1) (s.cnt p d) with h3 | h3
    · exact hi.inside p d j h1 h3
    · have e : s.cnt p d - 1 = j := by omega
      rcases hopen p d h with h4 | h4
      · omega
      · rw [e] at h4; exact h4
  have hpost : ∀ p, s.base p < g.rounds → s.posted p (active c g s p) = false → ∃ t, StepT c g false s t := by
    intro p hb hp
    refine ⟨_, StepT.post s p (active c g s p) ⟨?_, hp, hopen p _ (hact p), Or.inr ?_⟩⟩
    · have h1 := (hi.le p (active c g s p)).2
      rcases Nat.lt_or_ge (s.cnt p (active c g s p)) g.rounds with h | h
      · exact h
      · exfalso
        have := hbound p _ (hact p) (g.rounds - 1) (by omega) (by omega)
        rw [hend (g.rounds - 1) (by omega)] at this
        simp at this
    · unfold active
      split_ifs with h0
      · exact Or.inr h0
      · exact Or.inl rfl
  obtain ⟨p0, hp0⟩ := hn
  obtain ⟨p, hpm, hmin⟩ := Finset.exists_min_image (Finset.univ.filter fun q : Fin c.P => s.base q < g.rounds) (rankT c g s) ⟨p0, by simp [hp0]⟩
  simp only [Finset.mem_filter, Finset.mem_univ, true_and] at hpm hmin
  by_cases hpo : s.posted p (active c g s p) = true
  swap
  · exact hpost p hpm (by simpa using hpo)
  set d := active c g s p with hd
  set q := c.peerF p d with hq
  have hpeer : c.peerF q d.opp = p := c.peer_peer p d
  by_cases hsent : s.cnt p d < sentT s q d.opp
  · by_cases hr : (g.rcv c (s.cnt p d) p d).first ≤ (g.rcv c (s.cnt p d) p d).last
    · have hch := hi.chan q d.opp
      have hne : (c.sendRng (g.seq.vec (s.cnt p d)) q d.opp).first ≤ (c.sendRng (g.seq.vec (s.cnt p d)) q d.opp).last := (recv_nonempty c hP _ p d).2 hr
      rw [hpeer, opp_opp, msgs_cons _ _ _ _ _ _ _ hsent, if_pos hne] at hch
      exact ⟨_, StepT.recv s p d _ _ hpo hr hch⟩
    · exact ⟨_, StepT.skip s p d hpo hr⟩
  · have hle : s.cnt q d.opp ≤ s.cnt p d := by unfold sentT at hsent; omega
    have hqb : s.base q ≤ s.base p := by
      by_contra hlt
      have h1 := (hi.le q d.opp).1
      have := hbound p d (hact p) (s.base q - 1) (by omega) (by omega)
      rcases hi.start q with h | h
      · omega
      · rw [h] at this; simp at this
    have hlv := hmin q (by omega)
    have hlink : link c q d.opp = link c p d := link_peer c p d
    unfold rankT at hlv
    rw [← hd] at hlv
    have ht1 := tau_le c (link c q (active c g s q))
    have ht2 := tau_le c (link c p d)
    have hc1 := (hi.le q (active c g s q)).2
    have hlev : 3 * s.base p + tau c (link c p d) ≤ 3 * s.base q + tau c (link c q (active c g s q)) := by
      by_contra hlt
      have := Nat.mul_le_mul_right (g.rounds + 1) (show 3 * s.base q + tau c (link c q (active c g s q)) + 1 ≤ 3 * s.base p + tau c (link c p d) by omega)
      rw [Nat.add_mul _ 1] at this
      omega
    have hqe : s.base q = s.base p := by omega
    by_cases hf : active c g s q = d.opp
    · rw [hf, hlink, hqe] at hlv
      have hcq : s.cnt q d.opp = s.cnt p d := by omega
      refine hpost q (by omega) ?_
      rw [hf]
      by_contra hpq
      have : s.posted q d.opp = true := by simpa using hpq
      unfold sentT at hsent
      rw [this] at hsent
      simp at hsent
      omega
    · exfalso
      unfold active at hf hlev
      split_ifs at hf hlev with h0
      · have e : d.opp = dirOf q 0 := by
          rcases dir_cases q d.opp with h | h
          · exact absurd h.symm hf
          · exact h
        rw [← e] at h0
        have := hbound p d (hact p) (s.cnt q d.opp - 1) (by have := h0.1; omega) (by have := h0.1; omega)
        rw [h0.2] at this; simp at this
      · have e : d.opp = dirOf q 1 := by
          rcases dir_cases q d.opp with h | h
          · exact h
          · exact absurd h.symm hf
        have := tau_incr c hP q
        rw [← e, hlink] at this
        omega

/-- number of actions done so far by a process (a barrier counts as many as the exchanges since the last one) -/
def workP (s : StT c.P A W) (p : Fin c.P) : Nat :=
  s.base p + (2 * s.cnt p .left + (s.posted p .left).toNat) + (2 * s.cnt p .rght + (s.posted p .rght).toNat)

theorem workP_upd2 (s : StT c.P A W) (p : Fin c.P) (d : Dir) (cn : Nat) (po : Bool) (mem : Fin c.P → A → Int → W) (ch : Fin c.P → Dir → List (List W)) (q : Fin c.P) :
    workP c (⟨mem, s.base, upd2 s.cnt p d cn, upd2 s.posted p d po, ch⟩ : StT c.P A W) q + (if q = p then 2 * s.cnt p d + (s.posted p d).toNat else 0) =
      workP c s q + (if q = p then 2 * cn + po.toNat else 0) := by
  by_cases hq : q = p
  · subst hq
    rw [if_pos rfl, if_pos rfl]
    cases d
    · simp only [workP]
      rw [upd2_same, upd2_same, upd2_ne _ _ _ _ _ _ (by simp), upd2_ne _ _ _ _ _ _ (by simp)]
      omega
    · simp only [workP]
      rw [upd2_same, upd2_same, upd2_ne _ _ _ _ _ _ (by simp), upd2_ne _ _ _ _ _ _ (by simp)]
      omega
  · rw [if_neg hq, if_neg hq]
    simp only [workP]
    rw [upd2_ne _ _ _ _ _ _ (by simp [hq]), upd2_ne _ _ _ _ _ _ (by simp [hq]), upd2_ne _ _ _ _ _ _ (by simp [hq]), upd2_ne _ _ _ _ _ _ (by simp [hq])]

theorem workT_step (mult : Bool) (s t : StT c.P A W) (h : StepT c g mult s t) : (∑ p, workP c s p) + 1 ≤ ∑ p, workP c t p := by
  have key : ∀ p, (∀ q, q ≠ p → workP c t q = workP c s q) → workP c s p + 1 ≤ workP c t p → (∑ p, workP c s p) + 1 ≤ ∑ p, workP c t p := by
    intro p h1 h2
    have e : (fun q => workP c t q) = upd (fun q => workP c s q) p (workP c t p) := by
      funext q
      by_cases hq : q = p
      · subst hq; rw [upd_same]
      · rw [upd_ne _ _ _ _ hq, h1 q hq]
    have := sum_upd (fun q => workP c s q) p (workP c t p)
    rw [← e] at this
    have this' : (∑ q, workP c t q) + workP c s p = (∑ q, workP c s q) + workP c t p := this
    omega
  have fin : ∀ p d mm ch, s.posted p d = true → t = s.finish c p d mm ch → (∑ p, workP c s p) + 1 ≤ ∑ p, workP c t p := by
    intro p d mm ch hp ht
    subst ht
    have hw := workP_upd2 c s p d (s.cnt p d + 1) false (upd s.mem p mm) ch
    refine key p (fun q hq => ?_) ?_
    · have := hw q
      rw [if_neg hq, if_neg hq] at this
      exact this
    · have := hw p
      rw [if_pos rfl, if_pos rfl, hp] at this
      simp only [Bool.toNat_true, Bool.toNat_false] at this
      have this' : workP c (s.finish c p d mm ch) p + (2 * s.cnt p d + 1) = workP c s p + (2 * (s.cnt p d + 1) + 0) := this
      omega
  cases h with
  | post p d h =>
    have e : ∀ ch, (⟨s.mem, s.base, s.cnt, upd2 s.posted p d true, ch⟩ : StT c.P A W) = ⟨s.mem, s.base, upd2 s.cnt p d (s.cnt p d), upd2 s.posted p d true, ch⟩ := by
      intro ch
      congr 1
      funext q e
      by_cases h : q = p ∧ e = d
      · obtain ⟨rfl, rfl⟩ := h; rw [upd2_same]
      · rw [upd2_ne _ _ _ _ _ _ h]
    have hw := fun ch => workP_upd2 c s p d (s.cnt p d) true s.mem ch
    refine key p (fun q hq => ?_) ?_
    · have := hw (s.post c g p d).chan q
      rw [if_neg hq, if_neg hq, ← e] at this
      exact this
    · have := hw (s.post c g p d).chan p
      rw [if_pos rfl, if_pos rfl, h.2.1, ← e] at this
      simp only [Bool.toNat_true, Bool.toNat_false] at this
      have this' : workP c (s.post c g p d) p + (2 * s.cnt p d + 0) = workP c s p + (2 * s.cnt p d + 1) := this
      omega
  | recv p d msg rest hp hr hc => exact fin p d _ _ hp rfl
  | skip p d hp hr => exact fin p d _ _ hp rfl
  | sync p hl hr =>
    refine key p (fun q hq => ?_) ?_
    · show upd s.base p _ q + _ + _ = s.base q + _ + _
      rw [upd_ne _ _ _ _ hq]; rfl
    · show s.base p + _ + _ + 1 ≤ upd s.base p _ p + _ + _
      rw [upd_same]
      have := hl.1
      show _ ≤ s.cnt p .left + (2 * s.cnt p .left + (s.posted p .left).toNat) + (2 * s.cnt p .rght + (s.posted p .rght).toNat)
      omega

end
end Mpi
end Mpdata
