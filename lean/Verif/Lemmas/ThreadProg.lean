import Verif.Model.ThreadProg
import Verif.Lemmas.Threads
import Verif.Lemmas.Range
/-! # Race freedom and coverage of footprint programs -/
set_option linter.unusedSectionVars false
namespace Mpdata
namespace Threads
open Classical
variable {A Y V : Type}

theorem mem_irange (r : Rng) (x : Int) : x ∈ irange r ↔ r.first ≤ x ∧ x ≤ r.last := by
  unfold irange
  rw [List.mem_map]
  constructor
  · rintro ⟨k, hk, rfl⟩
    rw [List.mem_range] at hk
    omega
  · rintro ⟨h1, h2⟩
    exact ⟨(x - r.first).toNat, by rw [List.mem_range]; omega, by omega⟩

theorem nodup_irange (r : Rng) : (irange r).Nodup := by
  unfold irange
  refine List.Nodup.map ?_ List.nodup_range
  intro a b h
  simpa using h

theorem mem_dom (s : S A Y V) (N T : Nat) (t : Fin T) (l : A × Int × Y) :
    l ∈ (s.toStmt N T).dom t ↔ l.1 = s.dst ∧ (s.dom.rng N T t).Mem l.2.1 ∧ l.2.2 ∈ s.ys := by
  obtain ⟨a, x, y⟩ := l
  simp only [S.toStmt, List.mem_flatMap, List.mem_map, mem_irange, Rng.Mem, Prod.mk.injEq]
  constructor
  · rintro ⟨x', hx, y', hy, rfl, rfl, rfl⟩
    exact ⟨rfl, hx, hy⟩
  · rintro ⟨rfl, hx, hy⟩
    exact ⟨x, hx, y, hy, rfl, rfl, rfl⟩

/-- a location is assigned by some thread executing `s` -/
def Writes (s : S A Y V) (N T : Nat) (l : A × Int × Y) : Prop := ∃ t, l ∈ (s.toStmt N T).dom t

/-- the reads of a statement are safe given the statements `pre` before it and all statements of the phase: each reads what the same thread
assigned earlier in the phase, or what nobody assigns in the phase -/
def ReadsOk (N T : Nat) (all pre : List (S A Y V)) (s : S A Y V) : Prop :=
  ∀ t : Fin T, ∀ x, (s.dom.rng N T t).Mem x → ∀ y ∈ s.ys, ∀ a' x' y', s.rd x y a' x' y' →
    (∃ s' ∈ pre, s'.dst = a' ∧ (s'.dom.rng N T t).Mem x' ∧ y' ∈ s'.ys) ∨
    (∀ s' ∈ all, s'.dst = a' → y' ∈ s'.ys → ∀ t', ¬ (s'.dom.rng N T t').Mem x')

def Good (N T : Nat) (all : List (S A Y V)) : List (S A Y V) → List (S A Y V) → Prop
  | _, [] => True
  | pre, s :: ss => ReadsOk N T all pre s ∧ Good N T all (pre ++ [s]) ss

/-- different statements of a phase assign different arrays, or different transverse indices -/
def Sep (s s' : S A Y V) : Prop := s.dst ≠ s'.dst ∨ ∀ y ∈ s.ys, y ∉ s'.ys

theorem good_split {N T : Nat} {all : List (S A Y V)} : ∀ {pre ss : List (S A Y V)}, Good N T all pre ss →
    ∀ p s q, ss = p ++ s :: q → ReadsOk N T all (pre ++ p) s := by
  intro pre ss
  induction ss generalizing pre with
  | nil => intro _ p s q h; simp at h
  | cons s0 ss ih =>
    intro h p s q he
    cases p with
    | nil =>
      rw [List.nil_append] at he
      obtain ⟨rfl, rfl⟩ := List.cons.inj he
      rw [List.append_nil]; exact h.1
    | cons p0 p =>
      rw [List.cons_append] at he
      obtain ⟨rfl, rfl⟩ := List.cons.inj he
      have := ih h.2 p s q rfl
      simpa using this

theorem good_safe [DecidableEq A] [DecidableEq Y] {N T : Nat} {ss : List (S A Y V)} (hg : Good N T ss [] ss) (hp : ss.Pairwise Sep) (hn : ∀ s ∈ ss, s.ys.Nodup) :
    StmtsSafe (ss.map fun s => s.toStmt N T) := by
  have split : ∀ pre' s' post', ss.map (fun s => s.toStmt N T) = pre' ++ s' :: post' →
      ∃ pre s post, ss = pre ++ s :: post ∧ pre' = pre.map (fun s => s.toStmt N T) ∧ s' = s.toStmt N T ∧ post' = post.map (fun s => s.toStmt N T) := by
    intro pre' s' post' h
    obtain ⟨pre, r, h1, h2, h3⟩ := List.map_eq_append_iff.1 h
    obtain ⟨s, post, h4, h5, h6⟩ := List.map_eq_cons_iff.1 h3
    exact ⟨pre, s, post, by rw [h1, h4], h2.symm, h5.symm, h6.symm⟩
  have wb : ∀ (l : List (S A Y V)) (t : Fin T) (x : A × Int × Y), WrittenBy (l.map fun s => s.toStmt N T) t x ↔
      ∃ s ∈ l, x.1 = s.dst ∧ (s.dom.rng N T t).Mem x.2.1 ∧ x.2.2 ∈ s.ys := by
    intro l t x
    unfold WrittenBy
    simp only [List.mem_map]
    constructor
    · rintro ⟨_, ⟨s, hs, rfl⟩, hx⟩; exact ⟨s, hs, (mem_dom s N T t x).1 hx⟩
    · rintro ⟨s, hs, hx⟩; exact ⟨_, ⟨s, hs, rfl⟩, (mem_dom s N T t x).2 hx⟩
  refine ⟨?_, ?_, ?_, ?_⟩
  · intro s' hs' m m' l hl
    obtain ⟨s, hs, rfl⟩ := List.mem_map.1 hs'
    show s.f _ _ _ = s.f _ _ _
    congr 1
    funext a x y
    by_cases h : s.rd l.2.1 l.2.2 a x y
    · simp only [if_pos h]; rw [hl (a, x, y) h]
    · simp only [if_neg h]
  · intro s' hs' t
    obtain ⟨s, hs, rfl⟩ := List.mem_map.1 hs'
    show ((irange (s.dom.rng N T t)).flatMap fun x => s.ys.map fun y => (s.dst, x, y)).Nodup
    rw [List.nodup_flatMap]
    refine ⟨?_, ?_⟩
    · intro x _
      refine (hn s hs).map ?_
      intro y y' h; simpa using h
    · refine (nodup_irange _).imp ?_
      intro x x' hne
      simp only [Function.onFun]
      rw [List.disjoint_left]
      intro l h1 h2
      obtain ⟨y, _, rfl⟩ := List.mem_map.1 h1
      obtain ⟨y', _, h⟩ := List.mem_map.1 h2
      simp only [Prod.mk.injEq] at h
      exact hne h.2.1.symm
  · intro pre' s' post' h t t' l hl
    obtain ⟨pre, s, post, e1, rfl, rfl, rfl⟩ := split pre' s' post' h
    rw [mem_dom] at hl
    rw [e1, List.pairwise_append] at hp
    obtain ⟨-, hp2, hp3⟩ := hp
    rw [List.pairwise_cons] at hp2
    constructor
    · rw [wb]
      rintro ⟨s1, hs1, h1, h2, h3⟩
      rcases hp3 s1 hs1 s List.mem_cons_self with h4 | h4
      · exact h4 (by rw [← h1, hl.1])
      · exact h4 _ h3 hl.2.2
    · rw [wb]
      rintro ⟨s1, hs1, h1, h2, h3⟩
      rcases hp2.1 s1 hs1 with h4 | h4
      · exact h4 (by rw [← h1, hl.1])
      · exact h4 _ hl.2.2 h3
  · intro pre' s' post' h t l hl l' hl'
    obtain ⟨pre, s, post, e1, rfl, rfl, rfl⟩ := split pre' s' post' h
    rw [mem_dom] at hl
    have := good_split hg pre s post e1 t l.2.1 hl.2.1 l.2.2 hl.2.2 l'.1 l'.2.1 l'.2.2 hl'
    rcases this with ⟨s1, hs1, h1, h2, h3⟩ | h1
    · left
      rw [wb]
      rw [List.nil_append] at hs1
      exact ⟨s1, hs1, h1.symm, h2, h3⟩
    · right
      refine ⟨?_, ?_⟩
      · intro t' ht'
        rw [wb]
        rintro ⟨s1, hs1, h2, h3, h4⟩
        exact h1 s1 hs1 h2.symm h4 t' h3
      · intro h2
        rw [mem_dom] at h2
        exact absurd h2.2.1 (h1 s (by rw [e1]; simp) h2.1.symm h2.2.2 t)

/-! ## Coverage: the union of the threads' ranges does not depend on the number of threads -/

theorem slabOf_first (N T : Nat) (t : Fin T) : (slabOf N T t).first = slabMin N t.1 T := by
  simp [slabOf, slab, Rng.length]
theorem slabOf_last (N T : Nat) (t : Fin T) : (slabOf N T t).last = slabMin N (t.1 + 1) T - 1 := by
  simp [slabOf, slab, Rng.length, slabMax]

theorem slabOf_bounds (N T : Nat) (t : Fin T) : 0 ≤ (slabOf N T t).first ∧ (slabOf N T t).last ≤ N - 1 ∧
    (slabOf N T t).first ≤ (slabOf N T t).last + 1 ∧ (t.1 = 0 → (slabOf N T t).first = 0) ∧ (t.1 + 1 = T → (slabOf N T t).last = N - 1) := by
  have hT : (0 : Int) < T := by have := t.2; omega
  have ht := t.2
  have hN : (0 : Int) ≤ N := by omega
  rw [slabOf_first, slabOf_last]
  have h1 := slabMin_mono hN hT (r := 0) (r' := t.1) le_rfl (by omega)
  have h2 := slabMin_mono hN hT (r := t.1 + 1) (r' := T) (by omega) (by omega)
  have h3 := slabMin_mono hN hT (r := t.1) (r' := t.1 + 1) (by omega) (by omega)
  rw [slabMin_zero] at h1
  rw [slabMin_size hT] at h2
  refine ⟨h1, by omega, by omega, ?_, ?_⟩
  · intro h; rw [h]; exact slabMin_zero _ _
  · intro h
    have : ((t.1 : Int) + 1) = T := by omega
    rw [this, slabMin_size hT]

/-- every point of the domain is in some slab -/
theorem slabOf_cover (N T : Nat) (hT : 0 < T) (x : Int) (h0 : 0 ≤ x) (h1 : x ≤ N - 1) : ∃ t : Fin T, (slabOf N T t).Mem x := by
  have hT' : (0 : Int) < T := by omega
  obtain ⟨r, a, b, c, d⟩ := exists_step (fun r => slabMin N r T) T x (by simp [slabMin_zero]; omega) (by simp only [slabMin_size hT']; omega)
  refine ⟨⟨r.toNat, by omega⟩, ?_⟩
  unfold Rng.Mem
  rw [slabOf_first, slabOf_last]
  have : ((r.toNat : Nat) : Int) = r := by omega
  simp only [this]
  omega

/-- the range covered by all threads together -/
def Dom.glob (d : Dom) (N : Nat) : Rng :=
  match d with
  | .ext p q => ⟨-p, N - 1 + q⟩
  | .face k => ⟨-1 - k, N - 1 + k⟩
  | .extR p q => ⟨-p, N - 1 + q⟩
  | .left lo hi => ⟨lo, hi⟩
  | .right lo hi => ⟨lo, hi⟩

theorem cover (d : Dom) (N T : Nat) (hT : 0 < T) (hN : 0 < N) (x : Int) : (∃ t : Fin T, (d.rng N T t).Mem x) ↔ (d.glob N).Mem x := by
  let t0 : Fin T := ⟨0, hT⟩
  let t1 : Fin T := ⟨T - 1, by omega⟩
  have b0 := slabOf_bounds N T t0
  have b1 := slabOf_bounds N T t1
  have e0 := b0.2.2.2.1 rfl
  have e1 := b1.2.2.2.2 (by simp only [t1]; omega)
  have ht1 : t1.1 + 1 = T := by simp only [t1]; omega
  have ht0 : t0.1 = 0 := rfl
  constructor
  · rintro ⟨t, ht⟩
    have b := slabOf_bounds N T t
    cases d <;> simp only [Dom.rng, Dom.glob, Rng.Mem] at ht ⊢
    · omega
    · split_ifs at ht <;> omega
    · split_ifs at ht <;> omega
    · split_ifs at ht <;> simp only at ht <;> omega
    · split_ifs at ht <;> simp only at ht <;> omega
  · intro h
    rcases d with ⟨p, q⟩ | k | ⟨p, q⟩ | ⟨lo, hi⟩ | ⟨lo, hi⟩
    · simp only [Dom.rng, Dom.glob, Rng.Mem] at h ⊢
      by_cases h1 : x < 0
      · exact ⟨t0, by omega⟩
      · by_cases h2 : x ≤ N - 1
        · obtain ⟨t, ht⟩ := slabOf_cover N T hT x (by omega) h2
          unfold Rng.Mem at ht
          exact ⟨t, by omega⟩
        · exact ⟨t1, by omega⟩
    · simp only [Dom.rng, Dom.glob, Rng.Mem] at h ⊢
      by_cases h1 : x < 0
      · exact ⟨t0, by rw [if_pos ht0]; omega⟩
      · by_cases h2 : x ≤ N - 1
        · obtain ⟨t, ht⟩ := slabOf_cover N T hT x (by omega) h2
          unfold Rng.Mem at ht
          exact ⟨t, by split_ifs <;> omega⟩
        · exact ⟨t1, by split_ifs <;> omega⟩
    · simp only [Dom.rng, Dom.glob, Rng.Mem] at h ⊢
      by_cases h1 : x < 0
      · exact ⟨t0, by rw [if_pos ht0]; split_ifs <;> omega⟩
      · by_cases h2 : x ≤ N - 1
        · obtain ⟨t, ht⟩ := slabOf_cover N T hT x (by omega) h2
          unfold Rng.Mem at ht
          exact ⟨t, by split_ifs <;> omega⟩
        · exact ⟨t1, by rw [if_pos ht1]; split_ifs <;> omega⟩
    · simp only [Dom.glob, Rng.Mem] at h
      exact ⟨t0, by simp only [Dom.rng, if_pos ht0, Rng.Mem]; exact h⟩
    · simp only [Dom.glob, Rng.Mem] at h
      exact ⟨t1, by simp only [Dom.rng, if_pos ht1, Rng.Mem]; exact h⟩

/-- the serial meaning of a statement does not depend on the number of threads -/
theorem serial1_indep (s : S A Y V) (N T T' : Nat) (hT : 0 < T) (hT' : 0 < T') (hN : 0 < N) (m : A × Int × Y → V) :
    serial1 (s.toStmt N T) m = serial1 (s.toStmt N T') m := by
  funext l
  unfold serial1
  have key : ∀ T, 0 < T → ((∃ t, l ∈ (s.toStmt N T).dom t) ↔ (l.1 = s.dst ∧ (s.dom.glob N).Mem l.2.1 ∧ l.2.2 ∈ s.ys)) := by
    intro T hT
    rw [← cover s.dom N T hT hN]
    constructor
    · rintro ⟨t, ht⟩
      rw [mem_dom] at ht
      exact ⟨ht.1, ⟨t, ht.2.1⟩, ht.2.2⟩
    · rintro ⟨h1, ⟨t, h2⟩, h3⟩
      exact ⟨t, (mem_dom s N T t l).2 ⟨h1, h2, h3⟩⟩
  by_cases h : l.1 = s.dst ∧ (s.dom.glob N).Mem l.2.1 ∧ l.2.2 ∈ s.ys
  · rw [if_pos ((key T hT).2 h), if_pos ((key T' hT').2 h)]; rfl
  · rw [if_neg (fun h' => h ((key T hT).1 h')), if_neg (fun h' => h ((key T' hT').1 h'))]

theorem serialPhases_indep (ps : List (List (S A Y V))) (N T T' : Nat) (hT : 0 < T) (hT' : 0 < T') (hN : 0 < N) (m : A × Int × Y → V) :
    serialPhases (toPhases N T ps) m = serialPhases (toPhases N T' ps) m := by
  unfold serialPhases toPhases
  induction ps generalizing m with
  | nil => rfl
  | cons ss ps ih =>
    simp only [List.map_cons, List.foldl_cons]
    have : serial (ss.map fun s => s.toStmt N T) m = serial (ss.map fun s => s.toStmt N T') m := by
      unfold serial
      clear ih
      induction ss generalizing m with
      | nil => rfl
      | cons s ss ih2 =>
        simp only [List.map_cons, List.foldl_cons]
        rw [serial1_indep s N T T' hT hT' hN]
        exact ih2 _
    rw [this]
    exact ih _

/-- race-free programs give the same memory whatever the numbers of threads and the interleavings -/
theorem phases_indep [DecidableEq A] [DecidableEq Y] (ps : List (List (S A Y V))) (N T T' : Nat) (hT : 0 < T) (hT' : 0 < T') (hN : 0 < N)
    (h : ∀ T, 0 < T → ∀ ss ∈ ps, Good N T ss [] ss) (hp : ∀ ss ∈ ps, ss.Pairwise Sep) (hn : ∀ ss ∈ ps, ∀ s ∈ ss, s.ys.Nodup)
    {m m' m'' : A × Int × Y → V} (h1 : PhasesExec (toPhases N T ps) m m') (h2 : PhasesExec (toPhases N T' ps) m m'') : m' = m'' := by
  have key : ∀ T, 0 < T → ∀ ss ∈ toPhases N T ps, StmtsSafe ss := by
    intro T hT ss' hs'
    obtain ⟨ss, hs, rfl⟩ := List.mem_map.1 hs'
    exact good_safe (h T hT ss hs) (hp ss hs) (hn ss hs)
  rw [phases_serial (key T hT) h1, phases_serial (key T' hT') h2, serialPhases_indep ps N T T' hT hT' hN]

end Threads
end Mpdata
