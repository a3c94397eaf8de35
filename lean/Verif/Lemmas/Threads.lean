import Verif.Model.Threads
import Mathlib.Algebra.BigOperators.Group.Finset.Basic
import Mathlib.Algebra.Order.BigOperators.Group.Finset
import Mathlib.Data.Fintype.Card
import Mathlib.Algebra.BigOperators.Group.Finset.Piecewise
/-! # Race-free phases are deterministic -/
set_option linter.unusedSectionVars false
namespace Mpdata
namespace Threads
open Classical
variable {ι L V : Type} [DecidableEq ι] [DecidableEq L]

/-- sufficient conditions for a phase to be deterministic, in terms of the memory before (`m0`) and the value `ms` that each written location is to have:
every read of a thread's action at a given position is of a location already written by the same thread, or of one no other thread writes;
and with such reads at their proper values the action computes the value for its location. -/
structure Safe (prog : ι → List (Act L V)) (m0 ms : L → V) : Prop where
  ok : ∀ t, ∀ a ∈ prog t, a.Ok
  reads : ∀ t done a rest, prog t = done ++ a :: rest → ∀ l, a.rd l →
    (∃ b ∈ done, b.wr = l) ∨ (∀ t', t' ≠ t → ∀ b ∈ prog t', b.wr ≠ l)
  val : ∀ t done a rest, prog t = done ++ a :: rest →
    a.f (fun l => if ∃ b ∈ done, b.wr = l then ms l else m0 l) = ms a.wr

/-- invariant: each thread has executed a prefix; memory holds final values exactly at the locations written so far; pending values are right -/
def Inv (prog : ι → List (Act L V)) (m0 ms : L → V) (s : PSt ι L V) : Prop :=
  ∃ dn : ι → List (Act L V), (∀ t, prog t = dn t ++ s.rem t) ∧
    (∀ l, s.mem l = if ∃ t, ∃ b ∈ dn t, b.wr = l then ms l else m0 l) ∧
    (∀ t v, s.reg t = some v → ∃ a as, s.rem t = a :: as ∧ v = ms a.wr)

theorem inv_step {prog : ι → List (Act L V)} {m0 ms : L → V} (h : Safe prog m0 ms) {s u : PSt ι L V}
    (hi : Inv prog m0 ms s) (hs : Step s u) : Inv prog m0 ms u := by
  obtain ⟨dn, hd, hm, hr⟩ := hi
  cases hs with
  | load t a as hrem hreg =>
    refine ⟨dn, hd, hm, ?_⟩
    intro t' v hv
    by_cases ht : t' = t
    · subst ht
      simp only [upd, if_true, Option.some.injEq] at hv
      refine ⟨a, as, hrem, ?_⟩
      rw [← hv]
      have hp : prog t' = dn t' ++ a :: as := by rw [hd t', hrem]
      rw [← h.val t' (dn t') a as hp]
      refine h.ok t' a (by rw [hp]; simp) _ _ ?_
      intro l hl
      show s.mem l = _
      rw [hm l]
      by_cases h1 : ∃ b ∈ dn t', b.wr = l
      · rw [if_pos ⟨t', h1⟩, if_pos h1]
      · rw [if_neg h1, if_neg]
        rintro ⟨t'', b, hb, hbl⟩
        rcases h.reads t' (dn t') a as hp l hl with h2 | h2
        · exact h1 h2
        · by_cases htt : t'' = t'
          · subst htt; exact h1 ⟨b, hb, hbl⟩
          · exact h2 t'' htt b (by rw [hd t'']; exact List.mem_append_left _ hb) hbl
    · simp only [upd, if_neg ht] at hv
      exact hr t' v hv
  | store t a as v hrem hreg =>
    refine ⟨upd dn t (dn t ++ [a]), ?_, ?_, ?_⟩
    · intro t'
      by_cases ht : t' = t
      · subst ht; simp only [upd, if_true]; rw [hd t', hrem]; simp
      · simp only [upd, if_neg ht]; exact hd t'
    · intro l
      obtain ⟨a', as', hrem', hv⟩ := hr t v hreg
      rw [hrem] at hrem'
      obtain ⟨rfl, rfl⟩ := List.cons.inj hrem'
      show (if l = a.wr then v else s.mem l) = _
      by_cases hl : l = a.wr
      · subst hl
        rw [if_pos rfl, if_pos ⟨t, a, by simp [upd], rfl⟩, hv]
      · rw [if_neg hl, hm l]
        have : (∃ t', ∃ b ∈ dn t', b.wr = l) ↔ (∃ t', ∃ b ∈ upd dn t (dn t ++ [a]) t', b.wr = l) := by
          simp only [upd]
          constructor
          · rintro ⟨t', b, hb, hbl⟩
            refine ⟨t', b, ?_, hbl⟩
            split_ifs with ht
            · subst ht; exact List.mem_append_left _ hb
            · exact hb
          · rintro ⟨t', b, hb, hbl⟩
            split_ifs at hb with ht
            · rcases List.mem_append.1 hb with hb | hb
              · exact ⟨t, b, hb, hbl⟩
              · rw [List.mem_singleton] at hb; subst hb; exact absurd hbl.symm hl
            · exact ⟨t', b, hb, hbl⟩
        by_cases hx : ∃ t', ∃ b ∈ dn t', b.wr = l
        · rw [if_pos hx, if_pos (this.1 hx)]
        · rw [if_neg hx, if_neg (fun h => hx (this.2 h))]
    · intro t' v' hv'
      by_cases ht : t' = t
      · subst ht; simp [upd] at hv'
      · simp only [upd, if_neg ht] at hv' ⊢
        exact hr t' v' hv'

/-- a race-free phase ends, whatever the interleaving, with the final values at all written locations and the old ones elsewhere -/
theorem phase_result {prog : ι → List (Act L V)} {m0 ms m' : L → V} (h : Safe prog m0 ms) (he : PhaseExec prog m0 m') (l : L) :
    m' l = if ∃ t, ∃ b ∈ prog t, b.wr = l then ms l else m0 l := by
  obtain ⟨w, hs, hfin, rfl⟩ := he
  have hinv : Inv prog m0 ms w := by
    have h0 : Inv prog m0 ms ⟨m0, prog, fun _ => none⟩ :=
      ⟨fun _ => [], fun t => rfl, fun l => by simp, fun t v hv => by simp at hv⟩
    generalize (⟨m0, prog, fun _ => none⟩ : PSt ι L V) = s0 at hs h0
    clear hfin
    induction hs with
    | refl => exact h0
    | tail _ _ hs' hst ih => exact inv_step h ih hst
  obtain ⟨dn, hd, hm, -⟩ := hinv
  rw [hm l]
  have : ∀ t, dn t = prog t := fun t => by rw [hd t, hfin t, List.append_nil]
  simp only [this]

/-! ## Array statements -/

/-- serial meaning of an array statement: all its elements are assigned from the memory before it -/
noncomputable def serial1 (s : Stmt ι L V) (m : L → V) : L → V := fun l => if ∃ t, l ∈ s.dom t then s.f m l else m l

/-- serial meaning of a sequence of statements -/
noncomputable def serial (ss : List (Stmt ι L V)) (m : L → V) : L → V := ss.foldl (fun m s => serial1 s m) m

/-- `l` is assigned by some thread in some statement of the list -/
def WrittenBy (ss : List (Stmt ι L V)) (t : ι) (l : L) : Prop := ∃ s ∈ ss, l ∈ s.dom t

/-- race freedom of a phase, stated on its statements: `pre` are the statements before `s` in the phase -/
structure StmtsSafe (ss : List (Stmt ι L V)) : Prop where
  /-- the value of an element depends only on the locations declared as read for it -/
  ok : ∀ s ∈ ss, ∀ (m m' : L → V) l, (∀ l', s.rd l l' → m l' = m' l') → s.f m l = s.f m' l
  nodup : ∀ s ∈ ss, ∀ t, (s.dom t).Nodup
  /-- no location is assigned by two statements of the phase -/
  single : ∀ pre s post, ss = pre ++ s :: post → ∀ t t' l, l ∈ s.dom t → ¬ WrittenBy pre t' l ∧ ¬ WrittenBy post t' l
  /-- reads: of what the same thread assigned in an earlier statement, or of what no other thread assigns in this phase
  (and, within the statement, only of the element itself) -/
  reads : ∀ pre s post, ss = pre ++ s :: post → ∀ t l, l ∈ s.dom t → ∀ l', s.rd l l' →
    WrittenBy pre t l' ∨ ((∀ t', t' ≠ t → ¬ WrittenBy ss t' l') ∧ (l' ∈ s.dom t → l' = l))

theorem serial_append (a b : List (Stmt ι L V)) (m : L → V) : serial (a ++ b) m = serial b (serial a m) := by
  unfold serial; rw [List.foldl_append]

theorem serial_not_written (ss : List (Stmt ι L V)) (m : L → V) (l : L) (h : ∀ t, ¬ WrittenBy ss t l) : serial ss m l = m l := by
  induction ss generalizing m with
  | nil => rfl
  | cons s ss ih =>
    show serial ss (serial1 s m) l = m l
    rw [ih _ (fun t ⟨s', hs', hl⟩ => h t ⟨s', List.mem_cons_of_mem _ hs', hl⟩)]
    unfold serial1
    rw [if_neg]
    rintro ⟨t, ht⟩
    exact h t ⟨s, List.mem_cons_self, ht⟩

/-- locating an action of a thread's program within the statements -/
theorem prog_split (ss : List (Stmt ι L V)) (t : ι) (done : List (Act L V)) (a : Act L V) (rest : List (Act L V))
    (h : progOf ss t = done ++ a :: rest) :
    ∃ pre s post l d1 d2, ss = pre ++ s :: post ∧ s.dom t = d1 ++ l :: d2 ∧ a = s.act l ∧ done = progOf pre t ++ d1.map s.act := by
  induction ss generalizing done with
  | nil => simp [progOf] at h
  | cons s ss ih =>
    have hc : progOf (s :: ss) t = (s.dom t).map s.act ++ progOf ss t := by simp [progOf]
    rw [hc] at h
    rcases List.append_eq_append_iff.1 h with ⟨c, hc1, hc2⟩ | ⟨c, hc1, hc2⟩
    · obtain ⟨pre, s', post, l, d1, d2, e1, e2, e3, e4⟩ := ih c hc2
      refine ⟨s :: pre, s', post, l, d1, d2, by rw [e1]; rfl, e2, e3, ?_⟩
      rw [hc1, e4]; simp [progOf]
    · rcases c with _ | ⟨x, xs⟩
      · simp only [List.nil_append] at hc2
        obtain ⟨pre, s', post, l, d1, d2, e1, e2, e3, e4⟩ := ih [] (by rw [← hc2]; rfl)
        refine ⟨s :: pre, s', post, l, d1, d2, by rw [e1]; rfl, e2, e3, ?_⟩
        rw [List.append_nil] at hc1
        rw [← hc1]
        have : progOf (s :: pre) t = (s.dom t).map s.act ++ progOf pre t := by simp [progOf]
        rw [this, List.append_assoc, ← e4, List.append_nil]
      · rw [List.cons_append] at hc2
        obtain ⟨rfl, rfl⟩ := List.cons.inj hc2
        obtain ⟨d1, d2', h1, h2, h3⟩ := List.map_eq_append_iff.1 hc1
        obtain ⟨l, d2, h4, h5, h6⟩ := List.map_eq_cons_iff.1 h3
        refine ⟨[], s, ss, l, d1, d2, rfl, by rw [h1, h4], h5.symm, ?_⟩
        simp [progOf, h2]

theorem mem_progOf (ss : List (Stmt ι L V)) (t : ι) (l : L) : (∃ b ∈ progOf ss t, b.wr = l) ↔ WrittenBy ss t l := by
  constructor
  · rintro ⟨b, hb, rfl⟩
    obtain ⟨s, hs, hb⟩ := List.mem_flatMap.1 hb
    obtain ⟨l, hl, rfl⟩ := List.mem_map.1 hb
    exact ⟨s, hs, hl⟩
  · rintro ⟨s, hs, hl⟩
    exact ⟨s.act l, List.mem_flatMap.2 ⟨s, hs, List.mem_map.2 ⟨l, hl, rfl⟩⟩, rfl⟩

/-- **Determinism**: a race-free phase executed by any threads in any interleaving has the effect of executing its statements serially. -/
theorem phase_serial {ss : List (Stmt ι L V)} (h : StmtsSafe ss) {m m' : L → V} (he : PhaseExec (progOf ss) m m') :
    m' = serial ss m := by
  have hsafe : Safe (progOf ss) m (serial ss m) := by
    refine ⟨?_, ?_, ?_⟩
    · intro t a ha
      obtain ⟨s, hs, hb⟩ := List.mem_flatMap.1 ha
      obtain ⟨l, hl, rfl⟩ := List.mem_map.1 hb
      exact fun m m' hm => h.ok s hs m m' l hm
    · intro t done a rest hp l hl
      obtain ⟨pre, s, post, l0, d1, d2, e1, e2, rfl, e4⟩ := prog_split ss t done a rest hp
      rcases h.reads pre s post e1 t l0 (by rw [e2]; simp) l hl with h1 | ⟨h1, -⟩
      · left
        obtain ⟨b, hb, hbl⟩ := (mem_progOf pre t l).2 h1
        exact ⟨b, by rw [e4]; exact List.mem_append_left _ hb, hbl⟩
      · right
        intro t' ht' b hb hbl
        exact h1 t' ht' ((mem_progOf ss t' l).1 ⟨b, hb, hbl⟩)
    · intro t done a rest hp
      obtain ⟨pre, s, post, l0, d1, d2, e1, e2, rfl, e4⟩ := prog_split ss t done a rest hp
      have hl0 : l0 ∈ s.dom t := by rw [e2]; simp
      have hs : s ∈ ss := by rw [e1]; simp
      -- final value of `l0`
      have hfin : serial ss m l0 = s.f (serial pre m) l0 := by
        rw [e1, serial_append]
        show serial post (serial1 s (serial pre m)) l0 = _
        rw [serial_not_written post _ _ (fun t' => (h.single pre s post e1 t t' l0 hl0).2)]
        unfold serial1; rw [if_pos ⟨t, hl0⟩]
      show s.f _ l0 = serial ss m l0
      rw [hfin]
      refine h.ok s hs _ _ l0 ?_
      intro l' hl'
      have hdone : (∃ b ∈ done, b.wr = l') ↔ (WrittenBy pre t l' ∨ l' ∈ d1) := by
        rw [e4]
        constructor
        · rintro ⟨b, hb, hbl⟩
          rcases List.mem_append.1 hb with hb | hb
          · exact Or.inl ((mem_progOf pre t l').1 ⟨b, hb, hbl⟩)
          · obtain ⟨x, hx, rfl⟩ := List.mem_map.1 hb
            right; rw [← hbl]; exact hx
        · rintro (h1 | h1)
          · obtain ⟨b, hb, hbl⟩ := (mem_progOf pre t l').2 h1
            exact ⟨b, List.mem_append_left _ hb, hbl⟩
          · exact ⟨s.act l', List.mem_append_right _ (List.mem_map.2 ⟨l', h1, rfl⟩), rfl⟩
      show (if ∃ b ∈ done, b.wr = l' then serial ss m l' else m l') = serial pre m l'
      by_cases hpre : WrittenBy pre t l'
      · rw [if_pos (hdone.2 (Or.inl hpre))]
        -- not written later
        obtain ⟨s1, hs1, hl1⟩ := hpre
        obtain ⟨p1, p2, rfl⟩ := List.append_of_mem hs1
        have e1' : ss = p1 ++ s1 :: (p2 ++ s :: post) := by rw [e1]; simp
        rw [e1, serial_append, serial_not_written (s :: post) _ _]
        intro t' ⟨s2, hs2, hl2⟩
        exact (h.single p1 s1 _ e1' t t' l' hl1).2 ⟨s2, List.mem_append_right _ hs2, hl2⟩
      · rcases h.reads pre s post e1 t l0 hl0 l' hl' with h1 | ⟨h1, h2⟩
        · exact absurd h1 hpre
        · have hnd : l' ∉ d1 := by
            intro hx
            have hmem : l' ∈ s.dom t := by rw [e2]; exact List.mem_append_left _ hx
            have := h2 hmem
            subst this
            have hn := h.nodup s hs t
            rw [e2] at hn
            exact (List.nodup_append.1 hn).2.2 l' hx l' (by simp) rfl
          rw [if_neg (by rw [hdone]; tauto)]
          symm
          apply serial_not_written
          intro t' ht'
          by_cases htt : t' = t
          · subst htt; exact hpre ht'
          · refine h1 t' htt ?_
            obtain ⟨s2, hs2, hl2⟩ := ht'
            exact ⟨s2, by rw [e1]; exact List.mem_append_left _ hs2, hl2⟩
  funext l
  rw [phase_result hsafe he l]
  split_ifs with h1
  · rfl
  · symm
    apply serial_not_written
    intro t ht
    exact h1 ⟨t, (mem_progOf ss t l).2 ht⟩

/-- serial meaning of a sequence of phases -/
noncomputable def serialPhases (ps : List (List (Stmt ι L V))) (m : L → V) : L → V := ps.foldl (fun m ss => serial ss m) m

theorem phases_serial {ps : List (List (Stmt ι L V))} (h : ∀ ss ∈ ps, StmtsSafe ss) {m m' : L → V} (he : PhasesExec ps m m') :
    m' = serialPhases ps m := by
  induction he with
  | nil m => rfl
  | cons ss rest m m' m'' h1 h2 ih =>
    have := phase_serial (h ss List.mem_cons_self) h1
    subst this
    exact ih (fun ss' hs => h ss' (List.mem_cons_of_mem _ hs))

/-- a phase can always be executed to its end (threads one after the other), so the theorems above do not hold vacuously -/
theorem phase_exec_exists [Fintype ι] (prog : ι → List (Act L V)) (m : L → V) : ∃ m', PhaseExec prog m m' := by
  -- one thread at a time, by induction on the total number of remaining actions
  suffices h : ∀ n, ∀ s : PSt ι L V, (∀ t, s.reg t = none) → (∑ t, (s.rem t).length) = n → ∃ w, Steps s w ∧ ∀ t, w.rem t = [] by
    obtain ⟨w, h1, h2⟩ := h _ ⟨m, prog, fun _ => none⟩ (fun _ => rfl) rfl
    exact ⟨w.mem, w, h1, h2, rfl⟩
  have trans : ∀ a b c : PSt ι L V, Steps a b → Steps b c → Steps a c := by
    intro a b c h1 h2
    induction h2 with
    | refl => exact h1
    | tail _ _ _ hst ih => exact Steps.tail _ _ _ ih hst
  intro n
  induction n with
  | zero =>
    intro s _ hn
    refine ⟨s, Steps.refl s, fun t => ?_⟩
    have := (Finset.sum_eq_zero_iff.1 hn) t (Finset.mem_univ t)
    exact List.length_eq_zero_iff.1 this
  | succ n ih =>
    intro s hreg hn
    obtain ⟨t, ht⟩ : ∃ t, s.rem t ≠ [] := by
      by_contra hc
      push Not at hc
      simp [hc] at hn
    obtain ⟨a, as, hras⟩ := List.exists_cons_of_ne_nil ht
    let s1 : PSt ι L V := { s with reg := upd s.reg t (some (a.f s.mem)) }
    let s2 : PSt ι L V := { mem := upd s1.mem a.wr (a.f s.mem), rem := upd s1.rem t as, reg := upd s1.reg t none }
    have st1 : Step s s1 := Step.load s t a as hras (hreg t)
    have st2 : Step s1 s2 := Step.store s1 t a as _ hras (by simp [s1, upd])
    have hr2 : ∀ t', s2.reg t' = none := by
      intro t'; by_cases h : t' = t
      · simp [s2, upd, h]
      · simp [s2, s1, upd, h, hreg t']
    have hsum : (∑ t', (s2.rem t').length) = n := by
      have e1 : ∀ t', (s.rem t').length = (s2.rem t').length + (if t' = t then 1 else 0) := by
        intro t'; by_cases h : t' = t
        · subst h; simp [s2, upd, hras]
        · simp [s2, s1, upd, h]
      have : (∑ t', (s.rem t').length) = (∑ t', (s2.rem t').length) + 1 := by
        rw [Finset.sum_congr rfl (fun t' _ => e1 t'), Finset.sum_add_distrib]; simp
      omega
    obtain ⟨w, h1, h2⟩ := ih s2 hr2 hsum
    exact ⟨w, trans _ _ _ (Steps.tail _ _ _ (Steps.tail _ _ _ (Steps.refl s) st1) st2) h1, h2⟩

end Threads
end Mpdata
