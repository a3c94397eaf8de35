import Verif.Lemmas.Mpi
import Mathlib.Data.Finset.Max
import Mathlib.Data.Fintype.Basic
/-! # What the asynchronous exchange computes: invariant of all executions -/
set_option linter.unusedSectionVars false
namespace Mpdata
namespace Mpi
open Threads (irange mem_irange)
variable {A W : Type} [DecidableEq A]

/-- array contents of process `p` after receiving from direction `d` in a call made when the memories of all processes are `X` -/
def fill1 (c : Par) (v : Bool) (a : A) (X : Fin c.P → A → Int → W) (p : Fin c.P) (d : Dir) (m : A → Int → W) : A → Int → W :=
  upd m a (unpack (c.recvRng v p d) (payload (c.sendRng v (c.peerF p d) d.opp) (X (c.peerF p d) a)) (m a))

/-- array contents after both exchanges of a call -/
def fill2 (c : Par) (v : Bool) (a : A) (X : Fin c.P → A → Int → W) (p : Fin c.P) : A → Int → W :=
  fill1 c v a X p (dirOf p 1) (fill1 c v a X p (dirOf p 0) (X p))

/-- lockstep execution: memories before call `r` -/
def lock (c : Par) (g : Prog c.P A W) (m : Fin c.P → A → Int → W) : Nat → Fin c.P → A → Int → W
  | 0 => m
  | r + 1 => fun p => g.comp p r (fill2 c (g.vec r) (g.arr r) (lock c g m r) p)

/-- position of an exchange in direction `d` within a call of process `p` -/
def pos (p : Nat) (d : Dir) : Nat := if dirOf p 0 = d then 0 else 1

/-- calls for which `p` has completed the exchange in direction `d` -/
def recvd {P : Nat} (s : St P A W) (p : Fin P) (d : Dir) : Nat := (s.cnt p + 1 - pos p d) / 2
/-- calls for which `p` has posted the exchange in direction `d` -/
def sent {P : Nat} (s : St P A W) (p : Fin P) (d : Dir) : Nat := (s.cnt p + (if s.posted p then 1 else 0) + 1 - pos p d) / 2

/-- messages of calls `[lo, hi)` from `p` in direction `d` -/
def msgs (c : Par) (g : Prog c.P A W) (m : Fin c.P → A → Int → W) (p : Fin c.P) (d : Dir) (lo hi : Nat) : List (List W) :=
  ((List.range hi).filter (fun r => lo ≤ r)).flatMap fun r =>
    if (c.sendRng (g.vec r) p d).first ≤ (c.sendRng (g.vec r) p d).last then [payload (c.sendRng (g.vec r) p d) (lock c g m r p (g.arr r))] else []

/-- memory of a process that has completed `k` exchanges -/
def memAt (c : Par) (g : Prog c.P A W) (m : Fin c.P → A → Int → W) (p : Fin c.P) (k : Nat) : A → Int → W :=
  if k % 2 = 1 then fill1 c (g.vec (k / 2)) (g.arr (k / 2)) (lock c g m (k / 2)) p (dirOf p 0) (lock c g m (k / 2) p) else lock c g m (k / 2) p

/-- invariant of every reachable state -/
structure Inv (c : Par) (g : Prog c.P A W) (m : Fin c.P → A → Int → W) (s : St c.P A W) : Prop where
  mem : ∀ p, s.mem p = memAt c g m p (s.cnt p)
  chan : ∀ p d, s.chan p d = msgs c g m p d (recvd s (c.peerF p d) d.opp) (sent s p d)
  ord : ∀ p d r, r < recvd s (c.peerF p d) d.opp → (c.sendRng (g.vec r) p d).first ≤ (c.sendRng (g.vec r) p d).last → r < sent s p d
  fin : ∀ p, s.cnt p ≤ 2 * g.rounds ∧ (s.posted p = true → s.cnt p < 2 * g.rounds)

theorem dirOf_pos (p k : Nat) : pos p (dirOf p k) = k % 2 := by
  unfold pos dirOf
  rcases Nat.mod_two_eq_zero_or_one p with h | h <;> rcases Nat.mod_two_eq_zero_or_one k with h' | h' <;> simp [h, h']

theorem dirOf_iff (p k : Nat) (d : Dir) : dirOf p k = d ↔ pos p d = k % 2 := by
  unfold pos dirOf
  rcases Nat.mod_two_eq_zero_or_one p with h | h <;> rcases Nat.mod_two_eq_zero_or_one k with h' | h' <;> cases d <;> simp [h, h']

theorem pos_le (p : Nat) (d : Dir) : pos p d ≤ 1 := by unfold pos; split_ifs <;> omega

theorem dirOf_mod (p k : Nat) : dirOf p (k % 2) = dirOf p k := by unfold dirOf; rw [Nat.mod_mod]

theorem dirOf_one (p : Nat) : dirOf p 1 = (dirOf p 0).opp := by
  unfold dirOf
  rcases Nat.mod_two_eq_zero_or_one p with h | h <;> simp [h, Dir.opp]

theorem opp_opp (d : Dir) : d.opp.opp = d := by cases d <;> rfl

theorem recv_nonempty (c : Par) (hP : 2 ≤ c.P) (v : Bool) (p : Fin c.P) (d : Dir) :
    ((c.sendRng v (c.peerF p d) d.opp).first ≤ (c.sendRng v (c.peerF p d) d.opp).last) ↔ ((c.recvRng v p d).first ≤ (c.recvRng v p d).last) := by
  have h := c.matched hP v p d
  show (c.sendRng v (c.peer p d) d.opp).first ≤ (c.sendRng v (c.peer p d) d.opp).last ↔ _
  rw [h]; simp [Rng.shift]

theorem upd_same {α β : Type} [DecidableEq α] (f : α → β) (a : α) (b : β) : upd f a b a = b := by simp [upd]
theorem upd_ne {α β : Type} [DecidableEq α] (f : α → β) (a x : α) (b : β) (h : x ≠ a) : upd f a b x = f x := by simp [upd, h]

/-- the message posted is the one of the lockstep memory -/
theorem payload_memAt (c : Par) (hw : c.Wide) (hh : 1 ≤ c.halo) (g : Prog c.P A W) (m : Fin c.P → A → Int → W) (p : Fin c.P) (k : Nat) :
    payload (c.sendRng (g.vec (k / 2)) p (dirOf p k)) (memAt c g m p k (g.arr (k / 2))) =
      payload (c.sendRng (g.vec (k / 2)) p (dirOf p k)) (lock c g m (k / 2) p (g.arr (k / 2))) := by
  unfold memAt
  split_ifs with hk
  · refine payload_congr _ _ _ fun x hx => ?_
    unfold fill1
    rw [upd_same]
    unfold unpack
    rw [if_neg]
    intro hx'
    have e : dirOf p 0 = (dirOf p k).opp := by
      rw [← dirOf_mod p k, hk, dirOf_one, opp_opp]
    rw [e] at hx'
    exact c.send_recv_disjoint hw hh _ p _ x hx hx'
  · rfl

theorem msgs_snoc (c : Par) (g : Prog c.P A W) (m : Fin c.P → A → Int → W) (p : Fin c.P) (d : Dir) (lo hi : Nat) :
    msgs c g m p d lo (hi + 1) = msgs c g m p d lo hi ++ (if lo ≤ hi then
      (if (c.sendRng (g.vec hi) p d).first ≤ (c.sendRng (g.vec hi) p d).last then [payload (c.sendRng (g.vec hi) p d) (lock c g m hi p (g.arr hi))] else []) else []) := by
  unfold msgs
  rw [List.range_succ, List.filter_append, List.flatMap_append]
  congr 1
  by_cases h : lo ≤ hi <;> simp [h]

theorem msgs_empty (c : Par) (g : Prog c.P A W) (m : Fin c.P → A → Int → W) (p : Fin c.P) (d : Dir) (lo hi : Nat) (h : hi ≤ lo) :
    msgs c g m p d lo hi = [] := by
  unfold msgs
  rw [List.flatMap_eq_nil_iff]
  intro r hr
  simp only [List.mem_filter, List.mem_range, decide_eq_true_eq] at hr
  omega

theorem msgs_cons (c : Par) (g : Prog c.P A W) (m : Fin c.P → A → Int → W) (p : Fin c.P) (d : Dir) (lo hi : Nat) (h : lo < hi) :
    msgs c g m p d lo hi = (if (c.sendRng (g.vec lo) p d).first ≤ (c.sendRng (g.vec lo) p d).last then
      [payload (c.sendRng (g.vec lo) p d) (lock c g m lo p (g.arr lo))] else []) ++ msgs c g m p d (lo + 1) hi := by
  induction hi with
  | zero => omega
  | succ hi ih =>
    rcases Nat.lt_or_ge lo hi with h' | h'
    · rw [msgs_snoc, msgs_snoc, ih h', if_pos (show lo ≤ hi by omega), if_pos (show lo + 1 ≤ hi by omega), List.append_assoc]
    · have : hi = lo := by omega
      subst this
      rw [msgs_snoc, if_pos (le_refl _), msgs_empty c g m p d hi hi (le_refl _), msgs_empty c g m p d (hi + 1) (hi + 1) (le_refl _)]
      simp

theorem inv_init (c : Par) (g : Prog c.P A W) (m : Fin c.P → A → Int → W) : Inv c g m (St.init c m) := by
  refine ⟨fun p => by simp [St.init, memAt, lock], fun p d => ?_, fun p d r hr => ?_, fun p => by simp [St.init]⟩
  · rw [msgs_empty]
    · rfl
    · have : sent (St.init c m) p d = 0 := by
        simp only [sent, St.init]; simp
      omega
  · have : recvd (St.init c m) (c.peerF p d) d.opp = 0 := by simp only [recvd, St.init]; omega
    omega

/-- completion of an exchange of `p`: the bookkeeping common to `recv` and `skip` -/
theorem memAt_succ (c : Par) (g : Prog c.P A W) (m : Fin c.P → A → Int → W) (p : Fin c.P) (k : Nat) (mm : A → Int → W)
    (h : mm = fill1 c (g.vec (k / 2)) (g.arr (k / 2)) (lock c g m (k / 2)) p (dirOf p k) (memAt c g m p k)) :
    (if k % 2 = 1 then g.comp p (k / 2) mm else mm) = memAt c g m p (k + 1) := by
  subst h
  by_cases hk : k % 2 = 1
  · have e1 : (k + 1) % 2 ≠ 1 := by omega
    have e2 : (k + 1) / 2 = k / 2 + 1 := by omega
    rw [if_pos hk]
    unfold memAt
    rw [if_pos hk, if_neg e1, e2]
    have e3 : dirOf p k = dirOf p 1 := by rw [← dirOf_mod, hk]
    rw [e3]
    rfl
  · have e1 : (k + 1) % 2 = 1 := by omega
    have e2 : (k + 1) / 2 = k / 2 := by omega
    rw [if_neg hk]
    unfold memAt
    rw [if_neg hk, if_pos e1, e2]
    have e3 : dirOf p k = dirOf p 0 := by rw [← dirOf_mod]; congr 1; omega
    rw [e3]

theorem fill1_skip (c : Par) (v : Bool) (a : A) (X : Fin c.P → A → Int → W) (p : Fin c.P) (d : Dir) (m : A → Int → W)
    (h : ¬ (c.recvRng v p d).first ≤ (c.recvRng v p d).last) : fill1 c v a X p d m = m := by
  unfold fill1
  rw [unpack_empty _ _ _ h]
  funext b
  unfold upd
  split_ifs with hb
  · rw [hb]
  · rfl

theorem sent_finish {c : Par} {g : Prog c.P A W} (s : St c.P A W) (p : Fin c.P) (mm : A → Int → W) (hp : s.posted p = true) (q : Fin c.P) (d : Dir) :
    sent (s.finish c g p mm) q d = sent s q d := by
  unfold sent St.finish
  by_cases h : q = p
  · subst h; simp [upd_same, hp]
  · simp [upd_ne, h]

theorem recvd_finish {c : Par} {g : Prog c.P A W} (s : St c.P A W) (p : Fin c.P) (mm : A → Int → W) (q : Fin c.P) (d : Dir) :
    recvd (s.finish c g p mm) q d = if q = p ∧ d = dirOf p (s.cnt p) then s.cnt p / 2 + 1 else recvd s q d := by
  unfold recvd St.finish
  by_cases h : q = p
  · subst h
    simp only [upd_same, true_and]
    have hl := pos_le q d
    split_ifs with hd
    · rw [hd, dirOf_pos]; omega
    · have : pos q d ≠ s.cnt q % 2 := fun h => hd ((dirOf_iff _ _ _).2 h).symm
      omega
  · simp [upd_ne, h]

theorem recvd_now {P : Nat} (s : St P A W) (p : Fin P) : recvd s p (dirOf p (s.cnt p)) = s.cnt p / 2 := by
  unfold recvd; rw [dirOf_pos]; omega

/-- what is posted is the message of the lockstep memory -/
def Clean (c : Par) (g : Prog c.P A W) (m : Fin c.P → A → Int → W) : Prop := ∀ (p : Fin c.P) (k : Nat),
  payload (c.sendRng (g.vec (k / 2)) p (dirOf p k)) (memAt c g m p k (g.arr (k / 2))) =
    payload (c.sendRng (g.vec (k / 2)) p (dirOf p k)) (lock c g m (k / 2) p (g.arr (k / 2)))

theorem inv_step (c : Par) (hP : 2 ≤ c.P) (g : Prog c.P A W) (m : Fin c.P → A → Int → W) (hcl : Clean c g m) (s t : St c.P A W)
    (hi : Inv c g m s) (hs : Step c g s t) : Inv c g m t := by
  cases hs with
  | post p hk hp =>
    have hse : ∀ q d, sent (s.post c g p) q d = if q = p ∧ d = dirOf p (s.cnt p) then s.cnt p / 2 + 1 else sent s q d := by
      intro q d
      unfold sent St.post
      by_cases h : q = p
      · subst h
        simp only [upd_same, true_and, hp, if_true, Bool.false_eq_true, if_false]
        have hl := pos_le q d
        split_ifs with hd
        · rw [hd, dirOf_pos]; omega
        · have : pos q d ≠ s.cnt q % 2 := fun h => hd ((dirOf_iff _ _ _).2 h).symm
          omega
      · simp [upd_ne, h]
    have hnow : sent s p (dirOf p (s.cnt p)) = s.cnt p / 2 := by
      unfold sent; rw [dirOf_pos, hp]; simp; omega
    have hre : ∀ q d, recvd (s.post c g p) q d = recvd s q d := fun q d => rfl
    refine ⟨fun q => hi.mem q, fun q d => ?_, fun q d r hr hn => ?_, fun q => ⟨(hi.fin q).1, fun hq => ?_⟩⟩
    · rw [hse, hre]
      by_cases h : q = p ∧ d = dirOf p (s.cnt p)
      · obtain ⟨rfl, rfl⟩ := h
        rw [if_pos ⟨rfl, rfl⟩, msgs_snoc]
        have hc := hi.chan q (dirOf q (s.cnt q))
        rw [hnow] at hc
        rw [← hc]
        show (if _ then _ else _ : Fin c.P → Dir → List (List W)) q (dirOf q (s.cnt q)) = _
        by_cases hn : (c.sendRng (g.vec (s.cnt q / 2)) q (dirOf q (s.cnt q))).first ≤ (c.sendRng (g.vec (s.cnt q / 2)) q (dirOf q (s.cnt q))).last
        · rw [if_pos hn, if_pos hn, upd_same, upd_same, if_pos]
          · rw [hi.mem q, hcl]
          · by_contra hlt
            have := hi.ord q (dirOf q (s.cnt q)) (s.cnt q / 2) (by omega) hn
            omega
        · rw [if_neg hn, if_neg hn]; simp
      · rw [if_neg h, ← hi.chan q d]
        show (if _ then _ else _ : Fin c.P → Dir → List (List W)) q d = _
        split_ifs with hn
        · by_cases hq : q = p
          · subst hq
            rw [upd_same, upd_ne]
            exact fun hd => h ⟨rfl, hd⟩
          · rw [upd_ne _ _ _ _ hq]
        · rfl
    · rw [hre] at hr
      have := hi.ord q d r hr hn
      rw [hse]
      split_ifs with h
      · obtain ⟨rfl, rfl⟩ := h; omega
      · exact this
    · by_cases h : q = p
      · subst h; exact hk
      · have : (s.post c g p).posted q = s.posted q := upd_ne _ _ _ _ h
        rw [this] at hq
        exact (hi.fin q).2 hq
  | recv p msg rest hp hr hc =>
    set d0 := dirOf p (s.cnt p) with hd0
    set q0 := c.peerF p d0 with hq0
    have hpeer : c.peerF q0 d0.opp = p := c.peer_peer p d0
    have hn : (c.sendRng (g.vec (s.cnt p / 2)) q0 d0.opp).first ≤ (c.sendRng (g.vec (s.cnt p / 2)) q0 d0.opp).last :=
      (recv_nonempty c hP _ p d0).2 hr
    have hchan := hi.chan q0 d0.opp
    rw [hpeer, opp_opp, show recvd s p d0 = s.cnt p / 2 from recvd_now s p, hc] at hchan
    have hlt : s.cnt p / 2 < sent s q0 d0.opp := by
      by_contra hge
      rw [msgs_empty _ _ _ _ _ _ _ (by omega)] at hchan
      exact absurd hchan (by simp)
    rw [msgs_cons _ _ _ _ _ _ _ hlt, if_pos hn] at hchan
    simp only [List.singleton_append, List.cons.injEq] at hchan
    obtain ⟨hmsg, hrest⟩ := hchan
    set s' := s.setChan q0 d0.opp rest with hs'
    have hp' : s'.posted p = true := hp
    have hse := fun q d => sent_finish (g := g) s' p (upd (s.mem p) (g.arr (s.cnt p / 2)) (unpack (c.recvRng (g.vec (s.cnt p / 2)) p d0) msg (s.mem p (g.arr (s.cnt p / 2))))) hp' q d
    have hre := fun q d => recvd_finish (g := g) s' p (upd (s.mem p) (g.arr (s.cnt p / 2)) (unpack (c.recvRng (g.vec (s.cnt p / 2)) p d0) msg (s.mem p (g.arr (s.cnt p / 2))))) q d
    have key : ∀ q d, c.peerF q d = p ∧ d.opp = d0 ↔ q = q0 ∧ d = d0.opp := by
      intro q d
      constructor
      · rintro ⟨h1, h2⟩
        have hd : d = d0.opp := by rw [← h2, opp_opp]
        refine ⟨?_, hd⟩
        rw [hq0, ← h1, ← h2]
        exact (c.peer_peer q d).symm
      · rintro ⟨rfl, rfl⟩
        exact ⟨hpeer, opp_opp _⟩
    refine ⟨fun q => ?_, fun q d => ?_, fun q d r hr' hn' => ?_, fun q => ?_⟩
    · by_cases h : q = p
      · subst h
        show upd _ q _ q = memAt c g m q (upd _ q _ q)
        rw [upd_same, upd_same]
        refine memAt_succ c g m q (s.cnt q) _ ?_
        unfold fill1
        rw [hmsg, hi.mem q]
      · show upd _ p _ q = memAt c g m q (upd _ p _ q)
        rw [upd_ne _ _ _ _ h, upd_ne _ _ _ _ h]
        exact hi.mem q
    · rw [hse, hre]
      show upd s.chan q0 (upd (s.chan q0) d0.opp rest) q d = _
      by_cases h : q = q0 ∧ d = d0.opp
      · rw [if_pos (show c.peerF q d = p ∧ d.opp = dirOf p (s'.cnt p) from (key q d).2 h)]
        obtain ⟨rfl, rfl⟩ := h
        rw [upd_same, upd_same, hrest]
        rfl
      · have h' : ¬ (c.peerF q d = p ∧ d.opp = dirOf p (s'.cnt p)) := fun hh => h ((key q d).1 hh)
        rw [if_neg h']
        show _ = msgs c g m q d (recvd s (c.peerF q d) d.opp) (sent s q d)
        rw [← hi.chan q d]
        by_cases hq : q = q0
        · subst hq
          rw [upd_same, upd_ne]
          exact fun hd => h ⟨rfl, hd⟩
        · rw [upd_ne _ _ _ _ hq]
    · rw [hse]
      rw [hre] at hr'
      by_cases h : c.peerF q d = p ∧ d.opp = dirOf p (s'.cnt p)
      · rw [if_pos h] at hr'
        obtain ⟨rfl, rfl⟩ := (key q d).1 h
        have : r < s.cnt p / 2 + 1 := hr'
        have h2 : s.cnt p / 2 < sent s' q0 d0.opp := hlt
        omega
      · rw [if_neg h] at hr'
        exact hi.ord q d r hr' hn'
    · have hf := (hi.fin p).2 hp
      by_cases h : q = p
      · subst h
        show upd _ q _ q ≤ _ ∧ (upd _ q _ q = true → _)
        rw [upd_same, upd_same]
        exact ⟨hf, fun h => absurd h (by simp)⟩
      · show upd _ p _ q ≤ _ ∧ (upd _ p _ q = true → upd _ p _ q < _)
        rw [upd_ne _ _ _ _ h, upd_ne _ _ _ _ h]
        exact hi.fin q
  | skip p hp hr =>
    have hse := fun q d => sent_finish (g := g) s p (s.mem p) hp q d
    have hre := fun q d => recvd_finish (g := g) s p (s.mem p) q d
    have hem : ∀ q d, c.peerF q d = p ∧ d.opp = dirOf p (s.cnt p) → ¬ (c.sendRng (g.vec (s.cnt p / 2)) q d).first ≤ (c.sendRng (g.vec (s.cnt p / 2)) q d).last := by
      rintro q d ⟨h1, h2⟩ h3
      apply hr
      rw [← recv_nonempty c hP, ← h2, opp_opp]
      have := c.peer_peer q d
      rw [h1] at this
      rw [this]; exact h3
    refine ⟨fun q => ?_, fun q d => ?_, fun q d r hr' hn' => ?_, fun q => ?_⟩
    · by_cases h : q = p
      · subst h
        show upd _ q _ q = memAt c g m q (upd _ q _ q)
        rw [upd_same, upd_same]
        refine memAt_succ c g m q (s.cnt q) _ ?_
        rw [fill1_skip _ _ _ _ _ _ _ hr, hi.mem q]
      · show upd _ p _ q = memAt c g m q (upd _ p _ q)
        rw [upd_ne _ _ _ _ h, upd_ne _ _ _ _ h]
        exact hi.mem q
    · rw [hse, hre]
      show s.chan q d = _
      rw [hi.chan q d]
      split_ifs with h
      · have e : recvd s (c.peerF q d) d.opp = s.cnt p / 2 := by rw [h.2, h.1, recvd_now]
        rw [e]
        rcases Nat.lt_or_ge (s.cnt p / 2) (sent s q d) with hl | hl
        · rw [msgs_cons _ _ _ _ _ _ _ hl, if_neg (hem q d h)]; rfl
        · rw [msgs_empty _ _ _ _ _ _ _ hl, msgs_empty _ _ _ _ _ _ _ (by omega)]
      · rfl
    · rw [hse]
      rw [hre] at hr'
      by_cases h : c.peerF q d = p ∧ d.opp = dirOf p (s.cnt p)
      · rw [if_pos h] at hr'
        rcases Nat.lt_or_ge r (s.cnt p / 2) with hl | hl
        · refine hi.ord q d r ?_ hn'
          rw [h.2, h.1, recvd_now]; exact hl
        · have : r = s.cnt p / 2 := by omega
          subst this
          exact absurd hn' (hem q d h)
      · rw [if_neg h] at hr'
        exact hi.ord q d r hr' hn'
    · have hf := (hi.fin p).2 hp
      by_cases h : q = p
      · subst h
        show upd _ q _ q ≤ _ ∧ (upd _ q _ q = true → _)
        rw [upd_same, upd_same]
        exact ⟨hf, fun h => absurd h (by simp)⟩
      · show upd _ p _ q ≤ _ ∧ (upd _ p _ q = true → upd _ p _ q < _)
        rw [upd_ne _ _ _ _ h, upd_ne _ _ _ _ h]
        exact hi.fin q

theorem inv_reach (c : Par) (hP : 2 ≤ c.P) (g : Prog c.P A W) (m : Fin c.P → A → Int → W) (hcl : Clean c g m) (t : St c.P A W)
    (h : Steps c g (St.init c m) t) : Inv c g m t := by
  generalize hs : St.init c m = s at h
  induction h with
  | refl => rw [← hs]; exact inv_init c g m
  | tail u w _ hstep ih => exact inv_step c hP g m hcl _ _ ih hstep

theorem inv_wide (c : Par) (hP : 2 ≤ c.P) (hh : 1 ≤ c.halo) (hw : c.Wide) (g : Prog c.P A W) (m : Fin c.P → A → Int → W) (t : St c.P A W)
    (h : Steps c g (St.init c m) t) : Inv c g m t := inv_reach c hP g m (fun p k => payload_memAt c hw hh g m p k) t h

/-! ## Forgetting the values: communication does not depend on them -/

/-- state without values -/
def St.forget {P : Nat} (s : St P A W) : St P A Unit := ⟨fun _ _ _ => (), s.cnt, s.posted, fun p d => (s.chan p d).map (fun l => l.map fun _ => ())⟩
/-- program without values -/
def Prog.forget {P : Nat} (g : Prog P A W) : Prog P A Unit := ⟨g.rounds, g.arr, g.vec, fun _ _ m => m⟩

theorem payload_forget (r : Rng) (m : Int → W) (m' : Int → Unit) : (payload r m).map (fun _ => ()) = payload r m' := by
  unfold payload; rw [List.map_map]; rfl

theorem forget_upd_chan {P : Nat} (f : Fin P → Dir → List (List W)) (p : Fin P) (d : Dir) (l : List (List W)) :
    (fun q e => (upd f p (upd (f p) d l) q e).map (fun l => l.map fun _ => ())) =
      upd (fun q e => (f q e).map (fun l => l.map fun _ => ())) p (upd (fun e => (f p e).map (fun l => l.map fun _ => ())) d (l.map (fun l => l.map fun _ => ()))) := by
  funext q e
  by_cases h : q = p
  · subst h
    rw [upd_same, upd_same]
    by_cases h' : e = d
    · subst h'; rw [upd_same, upd_same]
    · rw [upd_ne _ _ _ _ h', upd_ne _ _ _ _ h']
  · rw [upd_ne _ _ _ _ h, upd_ne _ _ _ _ h]

theorem St.ext' {P : Nat} (s t : St P A W) (h1 : s.mem = t.mem) (h2 : s.cnt = t.cnt) (h3 : s.posted = t.posted) (h4 : s.chan = t.chan) : s = t := by
  cases s; cases t; simp_all

theorem step_forget (c : Par) (g : Prog c.P A W) (s t : St c.P A W) (h : Step c g s t) : Step c g.forget s.forget t.forget := by
  cases h with
  | post p hk hp =>
    have e : (s.post c g p).forget = s.forget.post c g.forget p := by
      refine St.ext' _ _ rfl rfl rfl ?_
      unfold St.post St.forget
      dsimp only
      by_cases hn : (c.sendRng (g.vec (s.cnt p / 2)) p (dirOf p (s.cnt p))).first ≤ (c.sendRng (g.vec (s.cnt p / 2)) p (dirOf p (s.cnt p))).last
      · simp only [if_pos hn]
        refine Eq.trans ?_ (if_pos hn).symm
        rw [forget_upd_chan, List.map_append, List.map_cons, List.map_nil, payload_forget _ _ (fun _ => ())]
        rfl
      · simp only [if_neg hn]
        exact (if_neg hn).symm
    rw [e]
    exact Step.post _ _ hk hp
  | recv p msg rest hp hr hc =>
    have hstep := Step.recv (c := c) (g := g.forget) s.forget p (msg.map fun _ => ()) (rest.map (fun l => l.map fun _ => ())) hp hr (by
      show (s.chan _ _).map _ = _
      rw [show s.chan (c.peerF p (dirOf p (s.forget.cnt p))) (dirOf p (s.forget.cnt p)).opp = msg :: rest from hc]; rfl)
    convert hstep using 1
    refine St.ext' _ _ rfl rfl rfl ?_
    exact forget_upd_chan _ _ _ _
  | skip p hp hr =>
    have hstep := Step.skip (c := c) (g := g.forget) s.forget p hp hr
    have e : (s.finish c g p (s.mem p)).forget = s.forget.finish c g.forget p (s.forget.mem p) := St.ext' _ _ rfl rfl rfl rfl
    rw [e]; exact hstep

theorem steps_forget (c : Par) (g : Prog c.P A W) (s t : St c.P A W) (h : Steps c g s t) : Steps c g.forget s.forget t.forget := by
  induction h with
  | refl => exact Steps.refl _
  | tail u w _ h ih => exact Steps.tail _ _ _ ih (step_forget c g _ _ h)

theorem inv_forget (c : Par) (hP : 2 ≤ c.P) (g : Prog c.P A W) (m : Fin c.P → A → Int → W) (t : St c.P A W)
    (h : Steps c g (St.init c m) t) : Inv c g.forget (fun _ _ _ => ()) t.forget := by
  refine inv_reach c hP g.forget _ (fun p k => ?_) _ (steps_forget c g _ _ h)
  exact payload_congr _ _ _ fun _ _ => rfl

/-! ## Progress -/

/-- index of the link used by process `p` in direction `d`: link `e` joins processes `e` and `e + 1` -/
def link (c : Par) (p : Nat) (d : Dir) : Nat := match d with | .rght => p | .left => c.peer p .left
/-- rank of a link in a global order of the exchanges of one call -/
def tau (c : Par) (e : Nat) : Nat := if e = c.P - 1 ∧ c.P % 2 = 1 then 1 else if e % 2 = 0 then 0 else 2

theorem tau_le (c : Par) (e : Nat) : tau c e ≤ 2 := by unfold tau; split_ifs <;> omega

theorem link_peer (c : Par) (p : Fin c.P) (d : Dir) : link c (c.peerF p d) d.opp = link c p d := by
  cases d
  · rfl
  · show c.peer (c.peer p .rght) .left = p.1
    have := c.peer_peer p .rght
    exact congrArg Fin.val this

/-- each process does its two exchanges in increasing rank -/
theorem tau_incr (c : Par) (hP : 2 ≤ c.P) (p : Fin c.P) : tau c (link c p (dirOf p 0)) < tau c (link c p (dirOf p 1)) := by
  have hp := p.2
  have hl := c.peer_left p
  rcases Nat.mod_two_eq_zero_or_one p.1 with h | h
  · have e0 : dirOf p 0 = .rght := by simp [dirOf, h]
    have e1 : dirOf p 1 = .left := by simp [dirOf, h]
    rw [e0, e1]
    simp only [link, hl]
    unfold tau
    split_ifs <;> omega
  · have e0 : dirOf p 0 = .left := by simp [dirOf, h]
    have e1 : dirOf p 1 = .rght := by simp [dirOf, h]
    rw [e0, e1]
    simp only [link, hl]
    unfold tau
    split_ifs <;> omega

/-- progress measure: the exchange a process is at -/
def lvl {P : Nat} (c : Par) (s : St P A W) (p : Fin P) : Nat := 3 * (s.cnt p / 2) + tau c (link c p (dirOf p (s.cnt p)))

/-- some process can go on: it can post, or its posted exchange has been posted at the other end too (and its message has arrived) -/
theorem progress (c : Par) (hP : 2 ≤ c.P) (g : Prog c.P A W) (m : Fin c.P → A → Int → W) (s : St c.P A W) (hi : Inv c g m s)
    (hn : ∃ p, s.cnt p < 2 * g.rounds) :
    ∃ p, s.cnt p < 2 * g.rounds ∧ (s.posted p = false ∨ (s.posted p = true ∧
      s.cnt p / 2 < sent s (c.peerF p (dirOf p (s.cnt p))) (dirOf p (s.cnt p)).opp ∧
      ((c.recvRng (g.vec (s.cnt p / 2)) p (dirOf p (s.cnt p))).first ≤ (c.recvRng (g.vec (s.cnt p / 2)) p (dirOf p (s.cnt p))).last →
        ∃ msg rest, s.chan (c.peerF p (dirOf p (s.cnt p))) (dirOf p (s.cnt p)).opp = msg :: rest))) := by
  obtain ⟨p0, hp0⟩ := hn
  obtain ⟨p, hpm, hmin⟩ := Finset.exists_min_image (Finset.univ.filter fun q : Fin c.P => s.cnt q < 2 * g.rounds) (lvl c s)
    ⟨p0, by simp [hp0]⟩
  simp only [Finset.mem_filter, Finset.mem_univ, true_and] at hpm hmin
  by_cases hpost : s.posted p = true
  swap
  · exact ⟨p, hpm, Or.inl (by simpa using hpost)⟩
  set d := dirOf p (s.cnt p) with hd
  set q := c.peerF p d with hq
  have hpeer : c.peerF q d.opp = p := c.peer_peer p d
  by_cases hsent : s.cnt p / 2 < sent s q d.opp
  · refine ⟨p, hpm, Or.inr ⟨hpost, hsent, fun hr => ?_⟩⟩
    have hc := hi.chan q d.opp
    rw [hpeer, opp_opp, show recvd s p d = s.cnt p / 2 from recvd_now s p, msgs_cons _ _ _ _ _ _ _ hsent,
      if_pos ((recv_nonempty c hP _ p d).2 hr)] at hc
    exact ⟨_, _, hc⟩
  · have hsent' : (s.cnt q + (if s.posted q then 1 else 0) + 1 - pos q d.opp) / 2 ≤ s.cnt p / 2 := by
      have : sent s q d.opp ≤ s.cnt p / 2 := by omega
      exact this
    have hpl := pos_le q d.opp
    have hq1 : s.cnt q < 2 * g.rounds := by omega
    have hlv := hmin q hq1
    unfold lvl at hlv
    have ht1 := tau_le c (link c q (dirOf q (s.cnt q)))
    have hlink : link c q d.opp = link c p d := link_peer c p d
    have hround : s.cnt q / 2 = s.cnt p / 2 := by omega
    rcases Nat.lt_or_ge (s.cnt q % 2) (pos q d.opp) with hlt | hge
    · have h0 : s.cnt q % 2 = 0 := by omega
      have h1 : pos q d.opp = 1 := by omega
      have e0 : dirOf q (s.cnt q) = dirOf q 0 := by rw [← dirOf_mod, h0]
      have e1 : d.opp = dirOf q 1 := ((dirOf_iff q 1 d.opp).2 (by rw [h1])).symm
      have := tau_incr c hP q
      rw [← e0, ← e1, hlink] at this
      rw [← hd] at hlv
      omega
    · refine ⟨q, hq1, Or.inl ?_⟩
      by_contra hpq
      have : s.posted q = true := by simpa using hpq
      rw [this] at hsent'
      simp only [if_true] at hsent'
      omega

end Mpi
end Mpdata
