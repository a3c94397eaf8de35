import Verif.Lemmas.ThreadProg
/-! # Phases in which every location has one owner are deterministic

Complements `Verif.Lemmas.Threads`: here a location may be assigned by several statements of a phase (`tau *= k_m` after `tau = ...`), but only by one thread, and no other
thread reads it in the phase. -/
set_option linter.unusedSectionVars false
namespace Mpdata
namespace Threads
open Classical

section generic
variable {ι L V : Type} [DecidableEq ι] [DecidableEq L]

/-- effect of the actions of a thread running alone -/
def alone (m : L → V) (as : List (Act L V)) : L → V := as.foldl (fun m a => upd m a.wr (a.f m)) m

theorem alone_append (m : L → V) (as bs : List (Act L V)) : alone m (as ++ bs) = alone (alone m as) bs := by
  unfold alone; rw [List.foldl_append]

theorem alone_notin (as : List (Act L V)) (m : L → V) (l : L) (h : ∀ a ∈ as, a.wr ≠ l) : alone m as l = m l := by
  induction as generalizing m with
  | nil => rfl
  | cons a as ih =>
    show alone (upd m a.wr (a.f m)) as l = m l
    rw [ih _ (fun b hb => h b (List.mem_cons_of_mem _ hb))]
    unfold upd
    rw [if_neg]
    exact fun h' => h a List.mem_cons_self h'.symm

/-- what a thread writes, no other thread reads or writes -/
structure Owned (prog : ι → List (Act L V)) : Prop where
  ok : ∀ t, ∀ a ∈ prog t, a.Ok
  writes : ∀ t t', t' ≠ t → ∀ a ∈ prog t, ∀ b ∈ prog t', b.wr ≠ a.wr
  reads : ∀ t t', t' ≠ t → ∀ a ∈ prog t, ∀ b ∈ prog t', ¬ a.rd b.wr

/-- invariant: each thread has executed a prefix; on the locations it owns memory is as if it had run alone -/
def OInv (prog : ι → List (Act L V)) (m0 : L → V) (s : PSt ι L V) : Prop :=
  ∃ dn : ι → List (Act L V), (∀ t, prog t = dn t ++ s.rem t) ∧
    (∀ t l, (∀ t', t' ≠ t → ∀ b ∈ prog t', b.wr ≠ l) → s.mem l = alone m0 (dn t) l) ∧
    (∀ t v, s.reg t = some v → ∃ a as, s.rem t = a :: as ∧ v = a.f (alone m0 (dn t)))

theorem oinv_step {prog : ι → List (Act L V)} {m0 : L → V} (h : Owned prog) {s u : PSt ι L V} (hi : OInv prog m0 s) (hs : Step s u) : OInv prog m0 u := by
  obtain ⟨dn, hd, hm, hr⟩ := hi
  cases hs with
  | load t a as hrem hreg =>
    refine ⟨dn, hd, hm, ?_⟩
    intro t' v hv
    by_cases ht : t' = t
    · subst ht
      simp only [upd, if_true, Option.some.injEq] at hv
      refine ⟨a, as, hrem, ?_⟩
      rw [← hv]
      have hp : prog t' = dn t' ++ a :: as := by rw [hd t', hrem]
      have ha : a ∈ prog t' := by rw [hp]; simp
      refine h.ok t' a ha _ _ (fun l hl => hm t' l (fun t'' htt b hb hbl => h.reads t' t'' htt a ha b hb (by rw [hbl]; exact hl)))
    · simp only [upd, if_neg ht] at hv
      exact hr t' v hv
  | store t a as v hrem hreg =>
    obtain ⟨a', as', hrem', hv⟩ := hr t v hreg
    rw [hrem] at hrem'
    obtain ⟨rfl, rfl⟩ := List.cons.inj hrem'
    have hp : prog t = dn t ++ a :: as := by rw [hd t, hrem]
    have ha : a ∈ prog t := by rw [hp]; simp
    refine ⟨upd dn t (dn t ++ [a]), ?_, ?_, ?_⟩
    · intro t'
      by_cases ht : t' = t
      · subst ht; simp only [upd, if_true]; rw [hp]; simp
      · simp only [upd, if_neg ht]; exact hd t'
    · intro t' l hl
      show (if l = a.wr then v else s.mem l) = _
      by_cases ht : t' = t
      · subst ht
        simp only [upd, if_true]
        rw [alone_append]
        show _ = (if l = a.wr then a.f (alone m0 (dn t')) else alone m0 (dn t') l)
        split_ifs with hla
        · exact hv
        · exact hm t' l hl
      · have hla : l ≠ a.wr := fun e => hl t (Ne.symm ht) a ha e.symm
        rw [if_neg hla]
        simp only [upd, if_neg ht]
        exact hm t' l hl
    · intro t' v' hv'
      by_cases ht : t' = t
      · subst ht; simp [upd] at hv'
      · simp only [upd, if_neg ht] at hv' ⊢
        exact hr t' v' hv'

/-- after the phase, each thread's locations hold what it would have computed alone -/
theorem owned_result {prog : ι → List (Act L V)} {m0 m' : L → V} (h : Owned prog) (he : PhaseExec prog m0 m') (t : ι) (l : L)
    (hl : ∀ t', t' ≠ t → ∀ b ∈ prog t', b.wr ≠ l) : m' l = alone m0 (prog t) l := by
  obtain ⟨w, hs, hfin, rfl⟩ := he
  have hinv : OInv prog m0 w := by
    have h0 : OInv prog m0 ⟨m0, prog, fun _ => none⟩ := ⟨fun _ => [], fun t => rfl, fun t l _ => rfl, fun t v hv => by simp at hv⟩
    generalize (⟨m0, prog, fun _ => none⟩ : PSt ι L V) = s0 at hs h0
    clear hfin
    induction hs with
    | refl => exact h0
    | tail _ _ hs' hst ih => exact oinv_step h ih hst
  obtain ⟨dn, hd, hm, -⟩ := hinv
  rw [hm t l hl]
  have : dn t = prog t := by rw [hd t, hfin t, List.append_nil]
  rw [this]

/-- the same on statements -/
structure StmtsOwned (ss : List (Stmt ι L V)) : Prop where
  ok : ∀ s ∈ ss, ∀ (m m' : L → V) l, (∀ l', s.rd l l' → m l' = m' l') → s.f m l = s.f m' l
  nodup : ∀ s ∈ ss, ∀ t, (s.dom t).Nodup
  /-- one thread writes a location -/
  writes : ∀ t t', t' ≠ t → ∀ l, WrittenBy ss t l → ¬ WrittenBy ss t' l
  /-- no thread reads what another one writes -/
  reads : ∀ s ∈ ss, ∀ t, ∀ l ∈ s.dom t, ∀ l', s.rd l l' → ∀ t', t' ≠ t → ¬ WrittenBy ss t' l'
  /-- of the array a statement assigns, an element reads only itself -/
  self : ∀ s ∈ ss, ∀ t, ∀ l ∈ s.dom t, ∀ l', s.rd l l' → l' ∈ s.dom t → l' = l

theorem alone_stmt (s : Stmt ι L V) (t : ι) (P : L → Prop) (m1 m2 : L → V) (hm : ∀ l, P l → m1 l = m2 l) (ok : ∀ (m m' : L → V) l, (∀ l', s.rd l l' → m l' = m' l') → s.f m l = s.f m' l)
    (hn : (s.dom t).Nodup) (hr : ∀ l ∈ s.dom t, ∀ l', s.rd l l' → P l' ∧ (l' ∈ s.dom t → l' = l)) (l : L) (hl : P l) :
    alone m1 ((s.dom t).map s.act) l = if l ∈ s.dom t then s.f m2 l else m2 l := by
  by_cases hd : l ∈ s.dom t
  · rw [if_pos hd]
    obtain ⟨d1, d2, he⟩ := List.append_of_mem hd
    have hn' := hn
    rw [he, List.nodup_append] at hn'
    obtain ⟨-, hn2, hn3⟩ := hn'
    rw [List.nodup_cons] at hn2
    rw [he, List.map_append, List.map_cons, alone_append]
    show alone (upd (alone m1 (d1.map s.act)) l (s.f (alone m1 (d1.map s.act)) l)) (d2.map s.act) l = _
    rw [alone_notin]
    · unfold upd
      rw [if_pos rfl]
      refine ok _ _ l (fun l' hl' => ?_)
      obtain ⟨h1, h2⟩ := hr l hd l' hl'
      rw [alone_notin, hm l' h1]
      intro a ha e
      obtain ⟨x, hx, rfl⟩ := List.mem_map.1 ha
      have hx' : x = l' := e
      subst hx'
      have : x = l := h2 (by rw [he]; exact List.mem_append_left _ hx)
      subst this
      exact hn3 _ hx _ List.mem_cons_self rfl
    · intro a ha e
      obtain ⟨x, hx, rfl⟩ := List.mem_map.1 ha
      have hx' : x = l := e
      subst hx'
      exact hn2.1 hx
  · rw [if_neg hd, alone_notin, hm l hl]
    intro a ha e
    obtain ⟨x, hx, rfl⟩ := List.mem_map.1 ha
    have hx' : x = l := e
    subst hx'
    exact hd hx

theorem alone_serial (all : List (Stmt ι L V)) (h : StmtsOwned all) (t : ι) : ∀ (ss : List (Stmt ι L V)) (m1 m2 : L → V), (∀ s ∈ ss, s ∈ all) →
    (∀ l, (∀ t', t' ≠ t → ¬ WrittenBy all t' l) → m1 l = m2 l) → ∀ l, (∀ t', t' ≠ t → ¬ WrittenBy all t' l) → alone m1 (progOf ss t) l = serial ss m2 l := by
  intro ss
  induction ss with
  | nil => intro m1 m2 _ hm l hl; exact hm l hl
  | cons s ss ih =>
    intro m1 m2 hs hm l hl
    have hc : progOf (s :: ss) t = (s.dom t).map s.act ++ progOf ss t := by simp [progOf]
    have hs0 := hs s List.mem_cons_self
    rw [hc, alone_append]
    refine ih _ (serial1 s m2) (fun s' h' => hs s' (List.mem_cons_of_mem _ h')) ?_ l hl
    intro l hl
    rw [alone_stmt s t (fun l => ∀ t', t' ≠ t → ¬ WrittenBy all t' l) m1 m2 hm (h.ok s hs0) (h.nodup s hs0 t)
      (fun l hl l' hl' => ⟨fun t' ht => h.reads s hs0 t l hl l' hl' t' ht, h.self s hs0 t l hl l' hl'⟩) l hl]
    unfold serial1
    have e : (∃ t, l ∈ s.dom t) ↔ l ∈ s.dom t := by
      constructor
      · rintro ⟨t', ht'⟩
        by_cases htt : t' = t
        · rw [← htt]; exact ht'
        · exact absurd ⟨s, hs0, ht'⟩ (hl t' htt)
      · exact fun h => ⟨t, h⟩
    simp only [e]

/-- **Determinism**: a phase in which every location has one owner has, in any interleaving, the effect of executing its statements serially. -/
theorem phase_serial_owned [Inhabited ι] {ss : List (Stmt ι L V)} (h : StmtsOwned ss) {m m' : L → V} (he : PhaseExec (progOf ss) m m') : m' = serial ss m := by
  have ho : Owned (progOf ss) := by
    refine ⟨?_, ?_, ?_⟩
    · intro t a ha
      obtain ⟨s, hs, hb⟩ := List.mem_flatMap.1 ha
      obtain ⟨l, hl, rfl⟩ := List.mem_map.1 hb
      exact fun m m' hm => h.ok s hs m m' l hm
    · intro t t' ht a ha b hb e
      exact h.writes t t' ht a.wr ((mem_progOf ss t _).1 ⟨a, ha, rfl⟩) ((mem_progOf ss t' _).1 ⟨b, hb, e⟩)
    · intro t t' ht a ha b hb hr
      obtain ⟨s, hs, hb'⟩ := List.mem_flatMap.1 ha
      obtain ⟨l, hl, rfl⟩ := List.mem_map.1 hb'
      exact h.reads s hs t l hl _ hr t' ht ((mem_progOf ss t' _).1 ⟨b, hb, rfl⟩)
  funext l
  obtain ⟨t, ht⟩ : ∃ t, ∀ t', t' ≠ t → ¬ WrittenBy ss t' l := by
    by_cases hw : ∃ t, WrittenBy ss t l
    · obtain ⟨t, hw⟩ := hw
      exact ⟨t, fun t' ht => h.writes t t' ht l hw⟩
    · exact ⟨default, fun t' _ h' => hw ⟨t', h'⟩⟩
  rw [owned_result ho he t l (fun t' htt b hb e => ht t' htt ((mem_progOf ss t' _).1 ⟨b, hb, e⟩)),
    alone_serial ss h t ss m m (fun _ h => h) (fun _ _ => rfl) l ht]

end generic

variable {A Y V : Type}

theorem slab_lt (N T : Nat) (t t' : Fin T) (h : t.1 < t'.1) : (slabOf N T t).last < (slabOf N T t').first := by
  have hT : (0 : Int) < T := by have := t.2; omega
  rw [slabOf_last, slabOf_first]
  have := slabMin_mono (span := (N : Int)) (by omega) hT (r := t.1 + 1) (r' := t'.1) (by omega) (by omega)
  omega

theorem disj_ext0 {N T : Nat} {t t' : Fin T} {x : Int} (h : t' ≠ t) (h1 : ((Dom.ext 0 0).rng N T t).Mem x) : ¬ ((Dom.ext 0 0).rng N T t').Mem x := by
  simp only [Dom.rng, Rng.Mem] at h1 ⊢
  rcases lt_or_gt_of_ne (fun e => h (Fin.ext e) : t'.1 ≠ t.1) with h2 | h2
  · have := slab_lt N T t' t h2; omega
  · have := slab_lt N T t t' h2; omega

theorem disj_face0 {N T : Nat} {t t' : Fin T} {x : Int} (h : t' ≠ t) (h1 : ((Dom.face 0).rng N T t).Mem x) : ¬ ((Dom.face 0).rng N T t').Mem x := by
  simp only [Dom.rng, Rng.Mem] at h1 ⊢
  have b := slabOf_bounds N T t
  have b' := slabOf_bounds N T t'
  rcases lt_or_gt_of_ne (fun e => h (Fin.ext e) : t'.1 ≠ t.1) with h2 | h2
  · have := slab_lt N T t' t h2
    rw [if_neg (show t.1 ≠ 0 by omega)] at h1
    omega
  · have := slab_lt N T t t' h2
    rw [if_neg (show t'.1 ≠ 0 by omega)]
    omega

theorem stmt_nodup [DecidableEq A] [DecidableEq Y] (s : S A Y V) (N T : Nat) (t : Fin T) (h : s.ys.Nodup) : ((s.toStmt N T).dom t).Nodup := by
  show ((irange (s.dom.rng N T t)).flatMap fun x => s.ys.map fun y => (s.dst, x, y)).Nodup
  rw [List.nodup_flatMap]
  refine ⟨?_, ?_⟩
  · intro x _
    refine h.map ?_
    intro y y' h; simpa using h
  · refine (nodup_irange _).imp ?_
    intro x x' hne
    simp only [Function.onFun]
    rw [List.disjoint_left]
    intro l h1 h2
    obtain ⟨y, _, rfl⟩ := List.mem_map.1 h1
    obtain ⟨y', _, h⟩ := List.mem_map.1 h2
    simp only [Prod.mk.injEq] at h
    exact hne h.2.1.symm

/-- statements of a phase that all work on the threads' own columns: reads are of the own column or of arrays no statement of the phase assigns,
and of the assigned array only of the element itself -/
structure Columns (d : Dom) (ss : List (S A Y V)) : Prop where
  dom : ∀ s ∈ ss, s.dom = d
  nodup : ∀ s ∈ ss, s.ys.Nodup
  reads : ∀ s ∈ ss, ∀ x y a' x' y', s.rd x y a' x' y' → x' = x ∨ ∀ s' ∈ ss, s'.dst ≠ a'
  self : ∀ s ∈ ss, ∀ x y x' y', s.rd x y s.dst x' y' → x' = x ∧ y' = y

theorem columns_owned [DecidableEq A] [DecidableEq Y] {d : Dom} {ss : List (S A Y V)} (h : Columns d ss) (hd : d = .ext 0 0 ∨ d = .face 0) (N T : Nat) :
    StmtsOwned (ss.map fun s => s.toStmt N T) := by
  have dj : ∀ {t t' : Fin T} {x : Int}, t' ≠ t → (d.rng N T t).Mem x → ¬ (d.rng N T t').Mem x := by
    intro t t' x h1 h2
    rcases hd with rfl | rfl
    · exact disj_ext0 h1 h2
    · exact disj_face0 h1 h2
  have wb : ∀ (t : Fin T) (x : A × Int × Y), WrittenBy (ss.map fun s => s.toStmt N T) t x →
      ∃ s ∈ ss, x.1 = s.dst ∧ (d.rng N T t).Mem x.2.1 ∧ x.2.2 ∈ s.ys := by
    rintro t x ⟨_, hs', hx⟩
    obtain ⟨s, hs, rfl⟩ := List.mem_map.1 hs'
    have := (mem_dom s N T t x).1 hx
    rw [h.dom s hs] at this
    exact ⟨s, hs, this⟩
  refine ⟨?_, ?_, ?_, ?_, ?_⟩
  · intro s' hs' m m' l hl
    obtain ⟨s, hs, rfl⟩ := List.mem_map.1 hs'
    show s.f _ _ _ = s.f _ _ _
    congr 1
    funext a x y
    by_cases h : s.rd l.2.1 l.2.2 a x y
    · simp only [if_pos h]; rw [hl (a, x, y) h]
    · simp only [if_neg h]
  · intro s' hs' t
    obtain ⟨s, hs, rfl⟩ := List.mem_map.1 hs'
    show ((irange (s.dom.rng N T t)).flatMap fun x => s.ys.map fun y => (s.dst, x, y)).Nodup
    rw [List.nodup_flatMap]
    refine ⟨?_, ?_⟩
    · intro x _
      refine (h.nodup s hs).map ?_
      intro y y' h; simpa using h
    · refine (nodup_irange _).imp ?_
      intro x x' hne
      simp only [Function.onFun]
      rw [List.disjoint_left]
      intro l h1 h2
      obtain ⟨y, _, rfl⟩ := List.mem_map.1 h1
      obtain ⟨y', _, h⟩ := List.mem_map.1 h2
      simp only [Prod.mk.injEq] at h
      exact hne h.2.1.symm
  · intro t t' ht l h1 h2
    obtain ⟨_, _, -, a, -⟩ := wb t l h1
    obtain ⟨_, _, -, b, -⟩ := wb t' l h2
    exact dj ht a b
  · intro s' hs' t l hl l' hr t' ht hw
    obtain ⟨s, hs, rfl⟩ := List.mem_map.1 hs'
    have hl := (mem_dom s N T t l).1 hl
    rw [h.dom s hs] at hl
    obtain ⟨s2, hs2, e1, e2, e3⟩ := wb t' l' hw
    rcases h.reads s hs l.2.1 l.2.2 l'.1 l'.2.1 l'.2.2 hr with e | e
    · rw [e] at e2; exact dj ht hl.2.1 e2
    · exact e s2 hs2 e1.symm
  · intro s' hs' t l hl l' hr hl'
    obtain ⟨s, hs, rfl⟩ := List.mem_map.1 hs'
    have hl := (mem_dom s N T t l).1 hl
    have hl' := (mem_dom s N T t l').1 hl'
    have hr' : s.rd l.2.1 l.2.2 l'.1 l'.2.1 l'.2.2 := hr
    rw [hl'.1] at hr'
    obtain ⟨e1, e2⟩ := h.self s hs _ _ _ _ hr'
    exact Prod.ext (by rw [hl'.1, hl.1]) (Prod.ext e1 e2)

/-- a phase is safe by one criterion or the other -/
def PhaseOk (N : Nat) (ss : List (S A Y V)) : Prop :=
  ((∀ T, 0 < T → Good N T ss [] ss) ∧ ss.Pairwise Sep ∧ ∀ s ∈ ss, s.ys.Nodup) ∨ ∃ d, (d = .ext 0 0 ∨ d = .face 0) ∧ Columns d ss

/-- programs all of whose phases are safe give the same memory whatever the numbers of threads and the interleavings -/
theorem phases_indep_owned [DecidableEq A] [DecidableEq Y] (ps : List (List (S A Y V))) (N T T' : Nat) (hT : 0 < T) (hT' : 0 < T') (hN : 0 < N)
    (h : ∀ ss ∈ ps, PhaseOk N ss) {m m' m'' : A × Int × Y → V} (h1 : PhasesExec (toPhases N T ps) m m') (h2 : PhasesExec (toPhases N T' ps) m m'') : m' = m'' := by
  have one : ∀ T, 0 < T → ∀ ss ∈ ps, ∀ {m m' : A × Int × Y → V}, PhaseExec (progOf (ss.map fun s => s.toStmt N T)) m m' →
      m' = serial (ss.map fun s => s.toStmt N T) m := by
    intro T hT ss hs m m' he
    rcases h ss hs with ⟨a, b, c⟩ | ⟨d, hd, hc⟩
    · exact phase_serial (good_safe (a T hT) b c) he
    · have : Inhabited (Fin T) := ⟨⟨0, hT⟩⟩
      exact phase_serial_owned (columns_owned hc hd N T) he
  have key : ∀ T, 0 < T → ∀ (ps : List (List (S A Y V))), (∀ ss ∈ ps, ∀ {m m' : A × Int × Y → V}, PhaseExec (progOf (ss.map fun s => s.toStmt N T)) m m' →
      m' = serial (ss.map fun s => s.toStmt N T) m) → ∀ {m m' : A × Int × Y → V}, PhasesExec (toPhases N T ps) m m' → m' = serialPhases (toPhases N T ps) m := by
    intro T hT ps
    induction ps with
    | nil => intro _ m m' he; cases he; rfl
    | cons ss ps ih =>
      intro hall m m' he
      cases he with
      | cons _ _ _ m1 _ he1 he2 =>
        have e := hall ss List.mem_cons_self he1
        subst e
        exact ih (fun s hs => hall s (List.mem_cons_of_mem _ hs)) he2
  rw [key T hT ps (one T hT) h1, key T' hT' ps (one T' hT') h2, serialPhases_indep ps N T T' hT hT' hN]

end Threads
end Mpdata
