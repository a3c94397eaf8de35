import Verif.Lemmas.ThreadsExcl
/-! # Phases with assignments that are overwritten, and programs that leave some locations undetermined

In three dimensions the halo filling in one direction reads halo points that other threads are writing; what it computes from them is overwritten by the same
thread later in the phase, or never used.  Here: such assignments can be erased, and results agree off a set of "junk" locations. -/
set_option linter.unusedSectionVars false
namespace Mpdata
namespace Threads
open Classical

section generic
variable {ι L V : Type} [DecidableEq ι] [DecidableEq L]

/-- thread `t` executes `P t` then `Q t`; `keep` tells which assignments of `P` are kept -/
structure Erasable (P Q : ι → List (Act L V)) (keep : L → Bool) : Prop where
  ok : ∀ t, ∀ a, (a ∈ P t ∧ keep a.wr = true) ∨ a ∈ Q t → a.Ok
  /-- kept assignments do not read what erased ones assign -/
  reads : ∀ t a, (a ∈ P t ∧ keep a.wr = true) ∨ a ∈ Q t → ∀ t' b, b ∈ P t' → keep b.wr = false → ¬ a.rd b.wr
  /-- what an erased assignment of a thread assigns, no other thread assigns -/
  owner : ∀ t a, a ∈ P t → keep a.wr = false → ∀ t' b, b ∈ Q t' → b.wr = a.wr → t' = t

variable {P Q : ι → List (Act L V)} {keep : L → Bool}

/-- the program without the erased assignments -/
def erased (P Q : ι → List (Act L V)) (keep : L → Bool) (t : ι) : List (Act L V) := (P t).filter (fun a => keep a.wr) ++ Q t

/-- the locations assigned by erased assignments -/
def Dead (P : ι → List (Act L V)) (keep : L → Bool) (l : L) : Prop := ∃ t a, a ∈ P t ∧ keep a.wr = false ∧ a.wr = l

/-- relation of a state of the full program and a state of the erased one -/
def ERel (P Q : ι → List (Act L V)) (keep : L → Bool) (s u : PSt ι L V) : Prop :=
  ∃ p q : ι → List (Act L V),
    (∀ t, s.rem t = p t ++ q t) ∧ (∀ t, u.rem t = (p t).filter (fun a => keep a.wr) ++ q t) ∧
    (∀ t, p t <:+ P t) ∧ (∀ t, q t <:+ Q t) ∧ (∀ t, p t ≠ [] → q t = Q t) ∧
    (∀ t a as, p t = a :: as → keep a.wr = false → u.reg t = none) ∧
    (∀ t, (∀ a as, p t = a :: as → keep a.wr = true) → u.reg t = s.reg t) ∧
    (∀ l, ¬ Dead P keep l → s.mem l = u.mem l) ∧
    (∀ l t, Dead P keep l → (∃ b ∈ Q t, b.wr = l) → (∃ b ∈ q t, b.wr = l) ∨ s.mem l = u.mem l)

theorem erel_step (h : Erasable P Q keep) {s s' u : PSt ι L V} (hr : ERel P Q keep s u) (hs : Step s s') :
    ∃ u', (u' = u ∨ Step u u') ∧ ERel P Q keep s' u' := by
  obtain ⟨p, q, e1, e2, e3, e4, e5, e6, e7, e8, e9⟩ := hr
  cases hs with
  | load t a as hrem hreg =>
    rw [e1 t] at hrem
    rcases hp : p t with _ | ⟨a0, ps⟩
    · -- in `Q`
      rw [hp, List.nil_append] at hrem
      have hku : u.reg t = none := by rw [e7 t (by rw [hp]; simp), hreg]
      have hrem' : u.rem t = a :: as := by rw [e2 t, hp]; simpa using hrem
      refine ⟨_, Or.inr (Step.load u t a as hrem' hku), p, q, e1, e2, e3, e4, e5, ?_, ?_, e8, e9⟩
      · intro t' a' as' h1 h2
        by_cases ht : t' = t
        · subst ht; rw [hp] at h1; cases h1
        · simp only [upd, if_neg ht]; exact e6 t' a' as' h1 h2
      · intro t' h1
        by_cases ht : t' = t
        · subst ht
          simp only [upd, if_true]
          congr 1
          have ha : a ∈ Q t' := (e4 t').subset (by rw [hrem]; simp)
          refine (h.ok t' a (Or.inr ha) _ _ ?_)
          intro l hl
          symm
          apply e8
          rintro ⟨t2, b, hb1, hb2, rfl⟩
          exact h.reads t' a (Or.inr ha) t2 b hb1 hb2 hl
        · simp only [upd, if_neg ht]; exact e7 t' h1
    · rw [hp, List.cons_append] at hrem
      obtain ⟨rfl, hrest⟩ := List.cons.inj hrem
      by_cases hk : keep a0.wr = true
      · have hku : u.reg t = none := by
          rw [e7 t (by intro a as h1; rw [hp] at h1; obtain ⟨rfl, _⟩ := List.cons.inj h1; exact hk), hreg]
        have hrem' : u.rem t = a0 :: (ps.filter (fun a => keep a.wr) ++ q t) := by
          rw [e2 t, hp, List.filter_cons_of_pos (by simpa using hk), List.cons_append]
        refine ⟨_, Or.inr (Step.load u t a0 _ hrem' hku), p, q, e1, e2, e3, e4, e5, ?_, ?_, e8, e9⟩
        · intro t' a' as' h1 h2
          by_cases ht : t' = t
          · subst ht; rw [hp] at h1; obtain ⟨rfl, _⟩ := List.cons.inj h1; rw [hk] at h2; cases h2
          · simp only [upd, if_neg ht]; exact e6 t' a' as' h1 h2
        · intro t' h1
          by_cases ht : t' = t
          · subst ht
            simp only [upd, if_true]
            congr 1
            have ha : a0 ∈ P t' := (e3 t').subset (by rw [hp]; simp)
            refine (h.ok t' a0 (Or.inl ⟨ha, hk⟩) _ _ ?_)
            intro l hl
            symm
            apply e8
            rintro ⟨t2, b, hb1, hb2, rfl⟩
            exact h.reads t' a0 (Or.inl ⟨ha, hk⟩) t2 b hb1 hb2 hl
          · simp only [upd, if_neg ht]; exact e7 t' h1
      · have hk' : keep a0.wr = false := by simpa using hk
        refine ⟨u, Or.inl rfl, p, q, e1, e2, e3, e4, e5, e6, ?_, e8, e9⟩
        intro t' h1
        by_cases ht : t' = t
        · subst ht; exact absurd (h1 a0 ps hp) hk
        · simp only [upd, if_neg ht]; exact e7 t' h1
  | store t a as v hrem hreg =>
    rw [e1 t] at hrem
    rcases hp : p t with _ | ⟨a0, ps⟩
    · rw [hp, List.nil_append] at hrem
      have hku : u.reg t = some v := by rw [e7 t (by rw [hp]; simp), hreg]
      have hrem' : u.rem t = a :: as := by rw [e2 t, hp]; simpa using hrem
      have hsuf : as <:+ Q t := (List.suffix_cons a as).trans (by rw [← hrem]; exact e4 t)
      refine ⟨_, Or.inr (Step.store u t a as v hrem' hku), p, upd q t as, ?_, ?_, e3, ?_, ?_, ?_, ?_, ?_, ?_⟩
      · intro t'; by_cases ht : t' = t
        · subst ht; simp [upd, hp]
        · simp only [upd, if_neg ht]; exact e1 t'
      · intro t'; by_cases ht : t' = t
        · subst ht; simp [upd, hp]
        · simp only [upd, if_neg ht]; exact e2 t'
      · intro t'; by_cases ht : t' = t
        · subst ht; simpa [upd] using hsuf
        · simp only [upd, if_neg ht]; exact e4 t'
      · intro t' hne; by_cases ht : t' = t
        · subst ht; exact absurd hp hne
        · simp only [upd, if_neg ht]; exact e5 t' hne
      · intro t' a' as' h1 h2; by_cases ht : t' = t
        · simp [upd, ht]
        · simp only [upd, if_neg ht]; exact e6 t' a' as' h1 h2
      · intro t' h1; by_cases ht : t' = t
        · simp [upd, ht]
        · simp only [upd, if_neg ht]; exact e7 t' h1
      · intro l hl
        simp only [upd]
        split_ifs
        · rfl
        · exact e8 l hl
      · intro l t' hl hb
        by_cases hla : l = a.wr
        · right; simp [upd, hla]
        · rcases e9 l t' hl hb with ⟨b, hb1, hb2⟩ | h2
          · left
            refine ⟨b, ?_, hb2⟩
            by_cases ht : t' = t
            · subst ht
              simp only [upd, if_true]
              rw [hrem] at hb1
              rcases List.mem_cons.1 hb1 with rfl | hb1
              · exact absurd hb2.symm hla
              · exact hb1
            · simp only [upd, if_neg ht]; exact hb1
          · right; simp only [upd, if_neg hla]; exact h2
    · rw [hp, List.cons_append] at hrem
      obtain ⟨rfl, hrest⟩ := List.cons.inj hrem
      have hq : q t = Q t := e5 t (by rw [hp]; simp)
      have hsufp : ps <:+ P t := (List.suffix_cons a0 ps).trans (by rw [← hp]; exact e3 t)
      have ha : a0 ∈ P t := (e3 t).subset (by rw [hp]; simp)
      by_cases hk : keep a0.wr = true
      · have hku : u.reg t = some v := by
          rw [e7 t (by intro a as h1; rw [hp] at h1; obtain ⟨rfl, _⟩ := List.cons.inj h1; exact hk), hreg]
        have hrem' : u.rem t = a0 :: (ps.filter (fun a => keep a.wr) ++ q t) := by
          rw [e2 t, hp, List.filter_cons_of_pos (by simpa using hk), List.cons_append]
        refine ⟨_, Or.inr (Step.store u t a0 _ v hrem' hku), upd p t ps, q, ?_, ?_, ?_, e4, ?_, ?_, ?_, ?_, ?_⟩
        · intro t'; by_cases ht : t' = t
          · subst ht; simp [upd, hrest]
          · simp only [upd, if_neg ht]; exact e1 t'
        · intro t'; by_cases ht : t' = t
          · subst ht; simp [upd]
          · simp only [upd, if_neg ht]; exact e2 t'
        · intro t'; by_cases ht : t' = t
          · subst ht; simpa [upd] using hsufp
          · simp only [upd, if_neg ht]; exact e3 t'
        · intro t' hne; by_cases ht : t' = t
          · subst ht; exact hq
          · simp only [upd, if_neg ht] at hne; exact e5 t' hne
        · intro t' a' as' h1 h2; by_cases ht : t' = t
          · simp [upd, ht]
          · simp only [upd, if_neg ht] at h1 ⊢; exact e6 t' a' as' h1 h2
        · intro t' h1; by_cases ht : t' = t
          · simp [upd, ht]
          · simp only [upd, if_neg ht] at h1 ⊢; exact e7 t' h1
        · intro l hl
          simp only [upd]
          split_ifs
          · rfl
          · exact e8 l hl
        · intro l t' hl hb
          rcases e9 l t' hl hb with h1 | h2
          · exact Or.inl h1
          · right
            simp only [upd]
            split_ifs
            · rfl
            · exact h2
      · have hk' : keep a0.wr = false := by simpa using hk
        have hun : u.reg t = none := e6 t a0 ps hp hk'
        refine ⟨u, Or.inl rfl, upd p t ps, q, ?_, ?_, ?_, e4, ?_, ?_, ?_, ?_, ?_⟩
        · intro t'; by_cases ht : t' = t
          · subst ht; simp [upd, hrest]
          · simp only [upd, if_neg ht]; exact e1 t'
        · intro t'; by_cases ht : t' = t
          · subst ht; rw [e2 t', hp, List.filter_cons_of_neg (by simpa using hk)]; simp [upd]
          · simp only [upd, if_neg ht]; exact e2 t'
        · intro t'; by_cases ht : t' = t
          · subst ht; simpa [upd] using hsufp
          · simp only [upd, if_neg ht]; exact e3 t'
        · intro t' hne; by_cases ht : t' = t
          · subst ht; exact hq
          · simp only [upd, if_neg ht] at hne; exact e5 t' hne
        · intro t' a' as' h1 h2; by_cases ht : t' = t
          · subst ht; exact hun
          · simp only [upd, if_neg ht] at h1; exact e6 t' a' as' h1 h2
        · intro t' h1; by_cases ht : t' = t
          · subst ht; simp [upd, hun]
          · simp only [upd, if_neg ht] at h1 ⊢; exact e7 t' h1
        · intro l hl
          have hla : l ≠ a0.wr := fun e => hl ⟨t, a0, ha, hk', e.symm⟩
          simp only [upd, if_neg hla]
          exact e8 l hl
        · intro l t' hl hb
          by_cases hla : l = a0.wr
          · left
            obtain ⟨b, hb1, hb2⟩ := hb
            have ht : t' = t := h.owner t a0 ha hk' t' b hb1 (by rw [hb2, hla])
            subst ht
            exact ⟨b, by rw [hq]; exact hb1, hb2⟩
          · rcases e9 l t' hl hb with h1 | h2
            · exact Or.inl h1
            · right; simp only [upd, if_neg hla]; exact h2

/-- an execution of the full program is, but for the locations assigned by erased assignments only, one of the erased program -/
theorem erase_exec (h : Erasable P Q keep) {m m' : L → V} (he : PhaseExec (fun t => P t ++ Q t) m m') :
    ∃ m'', PhaseExec (erased P Q keep) m m'' ∧ ∀ l, (¬ Dead P keep l ∨ ∃ t, ∃ b ∈ Q t, b.wr = l) → m' l = m'' l := by
  obtain ⟨w, hs, hfin, rfl⟩ := he
  have key : ∃ u, Steps ⟨m, erased P Q keep, fun _ => none⟩ u ∧ ERel P Q keep w u := by
    have h0 : ERel P Q keep ⟨m, fun t => P t ++ Q t, fun _ => none⟩ ⟨m, erased P Q keep, fun _ => none⟩ :=
      ⟨P, Q, fun _ => rfl, fun _ => rfl, fun _ => List.suffix_refl _, fun _ => List.suffix_refl _, fun _ _ => rfl, fun _ _ _ _ _ => rfl,
        fun _ _ => rfl, fun _ _ => rfl, fun _ _ _ h => Or.inl h⟩
    generalize (⟨m, fun t => P t ++ Q t, fun _ => none⟩ : PSt ι L V) = s0 at hs h0
    clear hfin
    induction hs with
    | refl => exact ⟨_, Steps.refl _, h0⟩
    | tail a b hs' hst ih =>
      obtain ⟨u, hu1, hu2⟩ := ih
      obtain ⟨u', hu', hr⟩ := erel_step h hu2 hst
      rcases hu' with rfl | hu'
      · exact ⟨_, hu1, hr⟩
      · exact ⟨u', Steps.tail _ _ _ hu1 hu', hr⟩
  obtain ⟨u, hu1, p, q, e1, e2, e3, e4, e5, e6, e7, e8, e9⟩ := key
  have hnil : ∀ t, p t = [] ∧ q t = [] := fun t => by
    have := hfin t; rw [e1 t] at this; exact List.append_eq_nil_iff.1 this
  refine ⟨u.mem, ⟨u, hu1, fun t => by rw [e2 t, (hnil t).1, (hnil t).2]; rfl, rfl⟩, ?_⟩
  intro l hl
  by_cases hd : Dead P keep l
  · rcases hl with hl | ⟨t, hb⟩
    · exact absurd hd hl
    · rcases e9 l t hd hb with ⟨b, hb1, _⟩ | h2
      · rw [(hnil t).2] at hb1; cases hb1
      · exact h2
  · exact e8 l hd

end generic

variable {A Y V : Type}

/-- the statement on the transverse indices for which `p` holds -/
def S.only (p : Y → Bool) (s : S A Y V) : S A Y V := { s with ys := s.ys.filter p }

theorem only_prog (p : Y → Bool) (N T : Nat) (t : Fin T) : ∀ ss : List (S A Y V),
    progOf ((ss.map (S.only p)).map fun s => s.toStmt N T) t =
      (progOf (ss.map fun s => s.toStmt N T) t).filter fun a => p a.wr.2.2 := by
  intro ss
  induction ss with
  | nil => rfl
  | cons s ss ih =>
    simp only [List.map_cons]
    have hc : ∀ (s : Stmt (Fin T) (A × Int × Y) V) ss, progOf (s :: ss) t = (s.dom t).map s.act ++ progOf ss t := fun s ss => by simp [progOf]
    rw [hc, hc, List.filter_append, ih]
    congr 1
    show ((irange (s.dom.rng N T t)).flatMap fun x => (s.ys.filter p).map fun y => (s.dst, x, y)).map _ =
      (((irange (s.dom.rng N T t)).flatMap fun x => s.ys.map fun y => (s.dst, x, y)).map _).filter _
    rw [List.filter_map]
    congr 1
    rw [List.filter_flatMap]
    congr 1
    funext x
    rw [List.filter_map]
    rfl

theorem progOf_append {ι L V : Type} (a b : List (Stmt ι L V)) (t : ι) : progOf (a ++ b) t = progOf a t ++ progOf b t := by
  unfold progOf; rw [List.flatMap_append]

theorem mem_progOf_map (ss : List (S A Y V)) (N T : Nat) (t : Fin T) (a : Act (A × Int × Y) V) (h : a ∈ progOf (ss.map fun s => s.toStmt N T) t) :
    ∃ s ∈ ss, a = (s.toStmt N T).act a.wr ∧ a.wr.1 = s.dst ∧ (s.dom.rng N T t).Mem a.wr.2.1 ∧ a.wr.2.2 ∈ s.ys := by
  obtain ⟨s', hs', hb⟩ := List.mem_flatMap.1 h
  obtain ⟨s, hs, rfl⟩ := List.mem_map.1 hs'
  obtain ⟨l, hl, rfl⟩ := List.mem_map.1 hb
  exact ⟨s, hs, rfl, (mem_dom s N T t l).1 hl⟩

theorem toStmt_ok (s : S A Y V) (N T : Nat) (m m' : A × Int × Y → V) (l : A × Int × Y) (hl : ∀ l', (s.toStmt N T).rd l l' → m l' = m' l') :
    (s.toStmt N T).f m l = (s.toStmt N T).f m' l := by
  show s.f _ _ _ = s.f _ _ _
  congr 1
  funext a x y
  by_cases h : s.rd l.2.1 l.2.2 a x y
  · simp only [if_pos h]; rw [hl (a, x, y) h]
  · simp only [if_neg h]

/-- conditions under which a phase `P ++ Q` may be replaced by `P` restricted to the indices with `p`, and `Q` -/
structure EraseOk (N T : Nat) (p : Y → Bool) (P Q : List (S A Y V)) : Prop where
  reads : ∀ s, s ∈ P ∨ s ∈ Q → ∀ t : Fin T, ∀ x, (s.dom.rng N T t).Mem x → ∀ y ∈ s.ys, (s ∈ P → p y = true ∨ s ∈ Q) → ∀ a' x' y', s.rd x y a' x' y' →
    p y' = false → ∀ s' ∈ P, s'.dst = a' → y' ∈ s'.ys → ∀ t' : Fin T, ¬ (s'.dom.rng N T t').Mem x'
  owner : ∀ s ∈ P, ∀ s' ∈ Q, s'.dst = s.dst → ∀ y ∈ s.ys, p y = false → y ∈ s'.ys → ∀ t t' : Fin T, ∀ x, (s.dom.rng N T t).Mem x → (s'.dom.rng N T t').Mem x → t' = t

theorem erase_phase [DecidableEq A] [DecidableEq Y] {N T : Nat} {p : Y → Bool} {P Q : List (S A Y V)} (h : EraseOk N T p P Q) {m m' : A × Int × Y → V}
    (he : PhaseExec (progOf ((P ++ Q).map fun s => s.toStmt N T)) m m') :
    ∃ m'', PhaseExec (progOf ((P.map (S.only p) ++ Q).map fun s => s.toStmt N T)) m m'' ∧
      ∀ l, ((∀ s ∈ P, s.dst = l.1 → p l.2.2 = false → l.2.2 ∈ s.ys → ∀ t : Fin T, ¬ (s.dom.rng N T t).Mem l.2.1) ∨
        ∃ s ∈ Q, s.dst = l.1 ∧ l.2.2 ∈ s.ys ∧ ∃ t : Fin T, (s.dom.rng N T t).Mem l.2.1) → m' l = m'' l := by
  have hE : Erasable (progOf (P.map fun s => s.toStmt N T)) (progOf (Q.map fun s => s.toStmt N T)) (fun l => p l.2.2) := by
    refine ⟨?_, ?_, ?_⟩
    · intro t a ha
      have : ∃ ss : List (S A Y V), a ∈ progOf (ss.map fun s => s.toStmt N T) t := by
        rcases ha with ⟨ha, _⟩ | ha
        · exact ⟨_, ha⟩
        · exact ⟨_, ha⟩
      obtain ⟨ss, ha⟩ := this
      obtain ⟨s, hs, e, -⟩ := mem_progOf_map ss N T t a ha
      rw [e]
      exact fun m m' hm => toStmt_ok s N T m m' _ hm
    · intro t a ha t' b hb hk hr
      obtain ⟨s', hs', -, h1, h2, h3⟩ := mem_progOf_map P N T t' b hb
      rcases ha with ⟨ha, hka⟩ | ha
      · obtain ⟨s, hs, e, k1, k2, k3⟩ := mem_progOf_map P N T t a ha
        rw [e] at hr
        exact h.reads s (Or.inl hs) t _ k2 _ k3 (fun _ => Or.inl hka) _ _ _ hr hk s' hs' h1.symm h3 t' h2
      · obtain ⟨s, hs, e, k1, k2, k3⟩ := mem_progOf_map Q N T t a ha
        rw [e] at hr
        exact h.reads s (Or.inr hs) t _ k2 _ k3 (fun _ => Or.inr hs) _ _ _ hr hk s' hs' h1.symm h3 t' h2
    · intro t a ha hk t' b hb e
      obtain ⟨s, hs, -, h1, h2, h3⟩ := mem_progOf_map P N T t a ha
      obtain ⟨s', hs', -, k1, k2, k3⟩ := mem_progOf_map Q N T t' b hb
      rw [e] at k1 k2 k3
      exact h.owner s hs s' hs' (by rw [← k1, h1]) _ h3 hk k3 t t' _ h2 k2
  have he' : PhaseExec (fun t => progOf (P.map fun s => s.toStmt N T) t ++ progOf (Q.map fun s => s.toStmt N T) t) m m' := by
    have : progOf ((P ++ Q).map fun s => s.toStmt N T) = fun t => progOf (P.map fun s => s.toStmt N T) t ++ progOf (Q.map fun s => s.toStmt N T) t := by
      funext t; rw [List.map_append, progOf_append]
    rwa [this] at he
  obtain ⟨m'', h1, h2⟩ := erase_exec hE he'
  refine ⟨m'', ?_, ?_⟩
  · have : progOf ((P.map (S.only p) ++ Q).map fun s => s.toStmt N T) =
        erased (progOf (P.map fun s => s.toStmt N T)) (progOf (Q.map fun s => s.toStmt N T)) (fun l => p l.2.2) := by
      funext t
      rw [List.map_append, progOf_append, only_prog]
      rfl
    rwa [this]
  · intro l hl
    apply h2
    rcases hl with hl | ⟨s, hs, e1, e2, t, e3⟩
    · left
      rintro ⟨t, a, ha, hk, rfl⟩
      obtain ⟨s, hs, -, k1, k2, k3⟩ := mem_progOf_map P N T t a ha
      exact hl s hs k1.symm hk k3 t k2
    · right
      exact ⟨t, (mem_progOf _ t l).2 ⟨s.toStmt N T, List.mem_map.2 ⟨s, hs, rfl⟩, (mem_dom s N T t l).2 ⟨e1.symm, e3, e2⟩⟩⟩

/-- one owner for each location, on the level of footprints -/
theorem owned_of [DecidableEq A] [DecidableEq Y] {N T : Nat} {ss : List (S A Y V)} (hn : ∀ s ∈ ss, s.ys.Nodup)
    (hw : ∀ s ∈ ss, ∀ s' ∈ ss, s'.dst = s.dst → ∀ y ∈ s.ys, y ∈ s'.ys → ∀ t t' : Fin T, ∀ x, (s.dom.rng N T t).Mem x → (s'.dom.rng N T t').Mem x → t' = t)
    (hr : ∀ s ∈ ss, ∀ t : Fin T, ∀ x, (s.dom.rng N T t).Mem x → ∀ y ∈ s.ys, ∀ a' x' y', s.rd x y a' x' y' → ∀ s' ∈ ss, s'.dst = a' → y' ∈ s'.ys →
      ∀ t' : Fin T, (s'.dom.rng N T t').Mem x' → t' = t)
    (hs : ∀ s ∈ ss, ∀ t : Fin T, ∀ x y x' y', (s.dom.rng N T t).Mem x → y ∈ s.ys → s.rd x y s.dst x' y' → (s.dom.rng N T t).Mem x' → y' ∈ s.ys → x' = x ∧ y' = y) :
    StmtsOwned (ss.map fun s => s.toStmt N T) := by
  have wb : ∀ (t : Fin T) (x : A × Int × Y), WrittenBy (ss.map fun s => s.toStmt N T) t x →
      ∃ s ∈ ss, x.1 = s.dst ∧ (s.dom.rng N T t).Mem x.2.1 ∧ x.2.2 ∈ s.ys := by
    rintro t x ⟨_, hs', hx⟩
    obtain ⟨s, hs, rfl⟩ := List.mem_map.1 hs'
    exact ⟨s, hs, (mem_dom s N T t x).1 hx⟩
  refine ⟨?_, ?_, ?_, ?_, ?_⟩
  · intro s' hs' m m' l hl
    obtain ⟨s, hs, rfl⟩ := List.mem_map.1 hs'
    exact toStmt_ok s N T m m' l hl
  · intro s' hs' t
    obtain ⟨s, hs, rfl⟩ := List.mem_map.1 hs'
    exact stmt_nodup s N T t (hn s hs)
  · intro t t' ht l h1 h2
    obtain ⟨s, hs, a1, a2, a3⟩ := wb t l h1
    obtain ⟨s', hs', b1, b2, b3⟩ := wb t' l h2
    exact ht (hw s hs s' hs' (by rw [← b1, a1]) _ a3 b3 t t' _ a2 b2)
  · intro s' hs' t l hl l' hrd t' ht hwr
    obtain ⟨s, hs, rfl⟩ := List.mem_map.1 hs'
    have hl := (mem_dom s N T t l).1 hl
    obtain ⟨s2, hs2, b1, b2, b3⟩ := wb t' l' hwr
    exact ht (hr s hs t _ hl.2.1 _ hl.2.2 _ _ _ hrd s2 hs2 b1.symm b3 t' b2)
  · intro s' hs' t l hl l' hrd hl'
    obtain ⟨s, hs2, rfl⟩ := List.mem_map.1 hs'
    have hl := (mem_dom s N T t l).1 hl
    have hl' := (mem_dom s N T t l').1 hl'
    have hr' : s.rd l.2.1 l.2.2 l'.1 l'.2.1 l'.2.2 := hrd
    rw [hl'.1] at hr'
    obtain ⟨e1, e2⟩ := hs s hs2 t _ _ _ _ hl.2.1 hl.2.2 hr' hl'.2.1 hl'.2.2
    exact Prod.ext (by rw [hl'.1, hl.1]) (Prod.ext e1 e2)

/-- what a phase computes outside the junk set `J` does not depend on what is in `J` -/
def CleanReads (N : Nat) (J : A × Int × Y → Prop) (ss : List (S A Y V)) : Prop :=
  ∀ s ∈ ss, ∀ x, (s.dom.glob N).Mem x → ∀ y ∈ s.ys, ¬ J (s.dst, x, y) → ∀ a' x' y', s.rd x y a' x' y' → ¬ J (a', x', y')

theorem serial_clean {N T : Nat} (hT : 0 < T) (hN : 0 < N) {J : A × Int × Y → Prop} : ∀ {ss : List (S A Y V)}, CleanReads N J ss →
    ∀ {m m' : A × Int × Y → V}, (∀ l, ¬ J l → m l = m' l) → ∀ l, ¬ J l →
    serial (ss.map fun s => s.toStmt N T) m l = serial (ss.map fun s => s.toStmt N T) m' l := by
  intro ss
  induction ss with
  | nil => intro _ m m' hm l hl; exact hm l hl
  | cons s ss ih =>
    intro h m m' hm l hl
    show serial _ (serial1 (s.toStmt N T) m) l = serial _ (serial1 (s.toStmt N T) m') l
    refine ih (fun s' hs' => h s' (List.mem_cons_of_mem _ hs')) ?_ l hl
    intro l hl
    unfold serial1
    split_ifs with hw
    · obtain ⟨t, ht⟩ := hw
      have ht := (mem_dom s N T t l).1 ht
      refine toStmt_ok s N T m m' l (fun l' hl' => hm l' ?_)
      refine h s List.mem_cons_self l.2.1 ((cover s.dom N T hT hN _).1 ⟨t, ht.2.1⟩) l.2.2 ht.2.2 ?_ l'.1 l'.2.1 l'.2.2 hl'
      rw [← ht.1]; exact hl
    · exact hm l hl

/-- a phase whose outcome off `J` is that of the statements `ss'` executed serially, for every number of threads up to the number of points -/
def PhaseIs (N : Nat) (J : A × Int × Y → Prop) [DecidableEq A] [DecidableEq Y] (ss : List (S A Y V)) : Prop :=
  ∃ ss' : List (S A Y V), CleanReads N J ss' ∧ ∀ T, 0 < T → T ≤ N → ∀ m m' : A × Int × Y → V,
    PhaseExec (progOf (ss.map fun s => s.toStmt N T)) m m' → ∀ l, ¬ J l → m' l = serial (ss'.map fun s => s.toStmt N T) m l

/-- programs of such phases give the same results off `J` whatever the numbers of threads and the interleavings -/
theorem phases_indep_junk [DecidableEq A] [DecidableEq Y] {N T T' : Nat} (hT : 0 < T) (hT' : 0 < T') (hTN : T ≤ N) (hTN' : T' ≤ N) {J : A × Int × Y → Prop} :
    ∀ {ps : List (List (S A Y V))}, (∀ ss ∈ ps, PhaseIs N J ss) → ∀ {m1 m2 m1' m2' : A × Int × Y → V}, (∀ l, ¬ J l → m1 l = m2 l) →
    PhasesExec (toPhases N T ps) m1 m1' → PhasesExec (toPhases N T' ps) m2 m2' → ∀ l, ¬ J l → m1' l = m2' l := by
  intro ps
  induction ps with
  | nil =>
    intro _ m1 m2 m1' m2' hm h1 h2
    cases h1; cases h2; exact hm
  | cons ss ps ih =>
    intro h m1 m2 m1' m2' hm h1 h2
    cases h1 with
    | cons _ _ _ n1 _ a1 b1 =>
      cases h2 with
      | cons _ _ _ n2 _ a2 b2 =>
        refine ih (fun s hs => h s (List.mem_cons_of_mem _ hs)) ?_ b1 b2
        obtain ⟨ss', hc, he⟩ := h ss List.mem_cons_self
        intro l hl
        rw [he T hT hTN m1 n1 a1 l hl, he T' hT' hTN' m2 n2 a2 l hl]
        have hN : 0 < N := by omega
        rw [serial_clean hT hN hc hm l hl]
        have := serialPhases_indep [ss'] N T T' hT hT' hN m2
        exact congrFun this l

end Threads
end Mpdata
