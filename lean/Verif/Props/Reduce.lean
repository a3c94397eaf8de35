import Verif.Model.Reduce
import Verif.Lemmas.ThreadProg
import Verif.Lemmas.Donor
import Verif.Props.Decomp
import Mathlib.Algebra.BigOperators.Intervals
import Mathlib.Data.Int.Interval
/-! # C27 (reductions) and C47 (face ranges) -/
set_option linter.unusedSectionVars false
namespace Mpdata
namespace Threads
open Classical

section gen
variable {ι L V : Type} [DecidableEq ι] [DecidableEq L]

/-- a phase of one statement whose elements are written by one thread each and which reads only its own element or unwritten locations -/
theorem single_safe (s : Stmt ι L V)
    (hok : ∀ (m m' : L → V) l, (∀ l', s.rd l l' → m l' = m' l') → s.f m l = s.f m' l)
    (hn : ∀ t, (s.dom t).Nodup)
    (hr : ∀ t l, l ∈ s.dom t → ∀ l', s.rd l l' → (∀ t', t' ≠ t → l' ∉ s.dom t') ∧ (l' ∈ s.dom t → l' = l)) : StmtsSafe [s] := by
  refine ⟨?_, ?_, ?_, ?_⟩
  · intro s' hs'; rw [List.mem_singleton] at hs'; subst hs'; exact hok
  · intro s' hs'; rw [List.mem_singleton] at hs'; subst hs'; exact hn
  · intro pre s' post h t t' l _
    have h' : pre = [] ∧ post = [] := by
      have := congrArg List.length h
      simp only [List.length_cons, List.length_nil, List.length_append] at this
      exact ⟨List.length_eq_zero_iff.1 (by omega), List.length_eq_zero_iff.1 (by omega)⟩
    rw [h'.1, h'.2]
    exact ⟨fun ⟨_, h, _⟩ => by simp at h, fun ⟨_, h, _⟩ => by simp at h⟩
  · intro pre s' post h t l hl l' hl'
    have h' : pre = [] ∧ post = [] := by
      have := congrArg List.length h
      simp only [List.length_cons, List.length_nil, List.length_append] at this
      exact ⟨List.length_eq_zero_iff.1 (by omega), List.length_eq_zero_iff.1 (by omega)⟩
    rw [h'.1, h'.2] at h
    simp only [List.nil_append, List.cons.injEq, and_true] at h
    subst h
    refine Or.inr ⟨?_, (hr t l hl l' hl').2⟩
    rintro t' ht' ⟨s'', h1, h2⟩
    rw [List.mem_singleton] at h1; subst h1
    exact (hr t l hl l' hl').1 t' ht' h2
end gen

/-! ## Slabs as lists of indices -/

theorem irange_append (a b c : Int) (h1 : a ≤ b) (h2 : b ≤ c) : irange ⟨a, b - 1⟩ ++ irange ⟨b, c - 1⟩ = irange ⟨a, c - 1⟩ := by
  obtain ⟨k, rfl⟩ : ∃ k : Nat, b = a + k := ⟨(b - a).toNat, by omega⟩
  obtain ⟨l, rfl⟩ : ∃ l : Nat, c = a + k + l := ⟨(c - (a + k)).toNat, by omega⟩
  unfold irange
  have e1 : (a + (k : Int) - 1 - a + 1).toNat = k := by omega
  have e2 : (a + (k : Int) + l - 1 - (a + k) + 1).toNat = l := by omega
  have e3 : (a + (k : Int) + l - 1 - a + 1).toNat = k + l := by omega
  simp only [e1, e2, e3, List.range_add, List.map_append, List.map_map]
  congr 1
  refine List.map_congr_left fun x _ => ?_
  simp only [Function.comp]; push_cast; ring

/-- the slabs of all ranks, one after the other, are the whole index range -/
theorem slabs_concat (N T : Nat) (hT : 0 < T) :
    ((List.range T).flatMap fun t : Nat => irange (slab ⟨0, (N : Int) - 1⟩ t T)) = irange ⟨0, (N : Int) - 1⟩ := by
  have hlen : (Rng.mk 0 ((N : Int) - 1)).length = N := by simp [Rng.length]
  have key : ∀ k : Nat, ((List.range k).flatMap fun t : Nat => irange (slab ⟨0, (N : Int) - 1⟩ t T)) = irange ⟨0, slabMin N k T - 1⟩ := by
    intro k
    induction k with
    | zero => simp [slabMin_zero, irange]
    | succ k ih =>
      rw [List.range_succ, List.flatMap_append, ih]
      simp only [List.flatMap_cons, List.flatMap_nil, List.append_nil, slab, slabMax, hlen, zero_add]
      push_cast
      have h1 := slabMin_mono (span := N) (size := T) (by omega) (by omega) (r := 0) (r' := k) le_rfl (by omega)
      have h2 := slabMin_mono (span := N) (size := T) (by omega) (by omega) (r := k) (r' := k + 1) (by omega) (by omega)
      rw [slabMin_zero] at h1
      exact irange_append _ _ _ h1 h2
  rw [key T, slabMin_size (by omega)]

theorem slabOf_disj (N T : Nat) (t t' : Fin T) (x : Int) (h : (slabOf N T t).Mem x) (h' : (slabOf N T t').Mem x) : t = t' := by
  have hT : 0 < T := t.pos
  have := C01_slab_unique_owner ⟨0, (N : Int) - 1⟩ T (by omega) (by simp [Rng.length]) x ?_
  · obtain ⟨r, -, hu⟩ := this
    have e1 := hu t.1 ⟨⟨by omega, by omega⟩, h⟩
    have e2 := hu t'.1 ⟨⟨by omega, by omega⟩, h'⟩
    apply Fin.ext; omega
  · exact C01_slab_subset ⟨0, (N : Int) - 1⟩ T t.1 (by omega) (by simp [Rng.length]) (by omega) (by omega) x h

/-! ## C27 -/
variable {Y V : Type} [DecidableEq Y]

theorem sumSlices_safe (red : List V → V) (ys : List Y) (N T : Nat) : StmtsSafe [sumSlices red ys N T] := by
  refine single_safe _ ?_ ?_ ?_
  · intro m m' l h
    cases l with
    | sumtmp c =>
      show red _ = red _
      congr 1
      exact List.map_congr_left fun y _ => h _ ⟨c, y, rfl, rfl⟩
    | _ => rfl
  · intro t
    exact (nodup_irange _).map (fun a b h => by simpa using h)
  · rintro t l hl l' ⟨c, y, rfl, rfl⟩
    exact ⟨fun t' _ h => by simp [sumSlices] at h, fun h => by simp [sumSlices] at h⟩

theorem sumFinal_safe (red : List V → V) (N T : Nat) : StmtsSafe [sumFinal (Y := Y) red N T] := by
  refine single_safe _ ?_ ?_ ?_
  · intro m m' l h
    show red _ = red _
    congr 1
    exact List.map_congr_left fun c _ => h _ ⟨c, rfl⟩
  · intro t; simp [sumFinal]
  · rintro t l hl l' ⟨c, rfl⟩
    exact ⟨fun t' _ h => by simp [sumFinal] at h, fun h => by simp [sumFinal] at h⟩

theorem sumLocalMpi_safe (red : List V → V) (g : V → V) (N T : Nat) : StmtsSafe [sumLocalMpi (Y := Y) red g N T] := by
  refine single_safe _ ?_ ?_ ?_
  · intro m m' l h
    show g (red _) = g (red _)
    congr 2
    exact List.map_congr_left fun c _ => h _ ⟨c, rfl⟩
  · intro t; simp only [sumLocalMpi]; split_ifs <;> simp
  · rintro t l hl l' ⟨c, rfl⟩
    simp only [sumLocalMpi] at hl ⊢
    split_ifs at hl with h0
    · rw [List.mem_singleton] at hl
      refine ⟨fun t' ht' h => ?_, fun h => ?_⟩
      · rw [if_neg (fun h' => ht' (Fin.ext (by omega)))] at h
        simp at h
      · rw [if_pos h0, List.mem_singleton] at h
        rw [h, hl]
    · simp at hl

/-- memory after the first phase of `sum` -/
theorem sumSlices_val (red : List V → V) (ys : List Y) (N T : Nat) (hT : 0 < T) (m : RL Y → V) (c : Int) (h0 : 0 ≤ c) (h1 : c ≤ N - 1) :
    serial [sumSlices red ys N T] m (.sumtmp c) = red (ys.map fun y => m (.arr c y)) := by
  show serial1 (sumSlices red ys N T) m (.sumtmp c) = _
  unfold serial1
  rw [if_pos]
  · rfl
  · obtain ⟨t, ht⟩ := slabOf_cover N T hT c h0 h1
    refine ⟨t, ?_⟩
    simp only [sumSlices, List.mem_map]
    exact ⟨c, (mem_irange _ _).2 ht, rfl⟩

/-- **C27 (sum, bit for bit)**: whatever the number of threads and their interleaving, every thread returns the reduction, in index order, of the
reductions of the slices - for any reduction `red` of a list, e.g. a non-associative floating-point sum or the Kahan sum. -/
theorem C27_sum_threads (red : List V → V) (ys : List Y) (N T : Nat) (m m' : RL Y → V)
    (h : PhasesExec (sumProg red ys N T) m m') (t : Fin T) :
    m' (.res t.1) = red ((irange ⟨0, (N : Int) - 1⟩).map fun c => red (ys.map fun y => m (.arr c y))) := by
  rw [phases_serial (ps := sumProg red ys N T) ?_ h]
  · show serial1 (sumFinal red N T) (serial [sumSlices red ys N T] m) (.res t.1) = _
    unfold serial1
    rw [if_pos ⟨t, by simp [sumFinal]⟩]
    show red _ = red _
    congr 1
    refine List.map_congr_left fun c hc => ?_
    rw [mem_irange] at hc
    exact sumSlices_val red ys N T t.pos m c hc.1 hc.2
  · intro ss hs
    simp only [sumProg, List.mem_cons, List.not_mem_nil, or_false] at hs
    rcases hs with rfl | rfl
    · exact sumSlices_safe red ys N T
    · exact sumFinal_safe red N T

/-- **C27 (sum, independence)**: two runs with different thread counts return the same value. -/
theorem C27_sum_thread_count (red : List V → V) (ys : List Y) (N T T' : Nat) (m m' m'' : RL Y → V)
    (h : PhasesExec (sumProg red ys N T) m m') (h' : PhasesExec (sumProg red ys N T') m m'') (t : Fin T) (t' : Fin T') :
    m' (.res t.1) = m'' (.res t'.1) := by
  rw [C27_sum_threads red ys N T m m' h t, C27_sum_threads red ys N T' m m'' h' t']

/-- **C27 (sum with MPI, bit for bit)**: with the in-place reduction by thread 0, and whatever the cross-process reduction `g` is as a function of the
local sum, every thread of the process returns `g` of the local sum. -/
theorem C27_sum_threads_mpi (red : List V → V) (g : V → V) (ys : List Y) (N T : Nat) (m m' : RL Y → V)
    (h : PhasesExec (sumProgMpi red g ys N T) m m') (t : Fin T) :
    m' (.res t.1) = g (red ((irange ⟨0, (N : Int) - 1⟩).map fun c => red (ys.map fun y => m (.arr c y)))) := by
  have hT := t.pos
  cases h with
  | cons _ _ _ m1 _ h1 h =>
    cases h with
    | cons _ _ _ m2 _ h2 h =>
      cases h with
      | cons _ _ _ m3 _ h3 h =>
        cases h
        have e1 := phase_serial (sumSlices_safe red ys N T) h1
        have e3 : StmtsSafe [sumReadMpi (Y := Y) (V := V) T] := by
          refine single_safe _ ?_ ?_ ?_
          · intro m m' l h; exact h _ rfl
          · intro t; simp [sumReadMpi]
          · rintro t l hl l' rfl
            exact ⟨fun t' _ h => by simp [sumReadMpi] at h, fun h => by simp [sumReadMpi] at h⟩
        rw [phase_serial e3 h3]
        show serial1 (sumReadMpi T) m2 (.res t.1) = _
        unfold serial1
        rw [if_pos ⟨t, by simp [sumReadMpi]⟩]
        show m2 (.sumtmp 0) = _
        rw [phase_serial (sumLocalMpi_safe red g N T) h2]
        show serial1 (sumLocalMpi red g N T) m1 (.sumtmp 0) = _
        unfold serial1
        rw [if_pos ⟨⟨0, hT⟩, by simp [sumLocalMpi]⟩]
        show g (red _) = g (red _)
        congr 2
        refine List.map_congr_left fun c hc => ?_
        rw [mem_irange] at hc
        rw [e1]
        exact sumSlices_val red ys N T hT m c hc.1 hc.2

section exact
variable {K : Type} [Field K] [LinearOrder K] [IsStrictOrderedRing K]

theorem irange_sum (N : Nat) (f : Int → K) : ((irange ⟨0, (N : Int) - 1⟩).map f).sum = ∑ c ∈ Finset.range N, f c := by
  unfold irange
  have e : ((N : Int) - 1 - 0 + 1).toNat = N := by omega
  rw [e, List.map_map, ← List.sum_toFinset _ List.nodup_range]
  · simp [Finset.sum_congr, List.toFinset_range]

theorem redSum_eq (xs : List K) : redSum (· + ·) 0 xs = xs.sum := by
  unfold redSum; rw [List.sum_eq_foldl]

/-- **C27 (sum, value)**: in exact arithmetic, both the plain and the Kahan-compensated sum return the sum of the field over the whole domain. -/
theorem C27_sum_exact (khn : Bool) (ys : List Y) (N T : Nat) (m m' : RL Y → K)
    (h : PhasesExec (sumProg (if khn then kahanSum else redSum (· + ·) 0) ys N T) m m') (t : Fin T) :
    m' (.res t.1) = ∑ c ∈ Finset.range N, (ys.map fun y => m (.arr c y)).sum := by
  rw [C27_sum_threads _ ys N T m m' h t]
  have : (if khn then kahanSum else redSum (· + ·) 0) = (fun xs : List K => xs.sum) := by
    funext xs; cases khn
    · simp [redSum_eq]
    · simp [kahanSum_eq]
  rw [this]
  exact irange_sum N _

/-- **C27 (sum over processes)**: the sums over the MPI processes' parts add up to the sum over the global domain. -/
theorem C27_sum_processes (N P : Nat) (hP : 0 < P) (f : Int → K) :
    ((List.range P).map fun p : Nat => ((irange (slab ⟨0, (N : Int) - 1⟩ p P)).map f).sum).sum = ∑ c ∈ Finset.range N, f c := by
  rw [← irange_sum, ← slabs_concat N P hP, List.map_flatMap]
  generalize List.range P = l
  induction l with
  | nil => rfl
  | cons p l ih => simp only [List.map_cons, List.sum_cons, List.flatMap_cons, List.sum_append, ih]

end exact

section extr
variable {K : Type} [LinearOrder K]

theorem redMin_eq (h : K) (xs : List K) : redMin h xs = xs.foldl min h := by
  unfold redMin
  congr 1
  funext m x
  rcases lt_or_ge x m with h | h
  · rw [if_pos h, min_eq_right h.le]
  · rw [if_neg (not_lt.2 h), min_eq_left h]

theorem redMax_eq (h : K) (xs : List K) : redMax h xs = xs.foldl max h := by
  unfold redMax
  congr 1
  funext m x
  rcases lt_or_ge m x with h | h
  · rw [if_pos h, max_eq_right h.le]
  · rw [if_neg (not_lt.2 h), max_eq_left h]

theorem foldl_min_init (a b : K) (xs : List K) : xs.foldl min (min a b) = min a (xs.foldl min b) := by
  induction xs generalizing b with
  | nil => rfl
  | cons x xs ih => simp only [List.foldl_cons]; rw [min_assoc, ih]

theorem foldl_max_init (a b : K) (xs : List K) : xs.foldl max (max a b) = max a (xs.foldl max b) := by
  induction xs generalizing b with
  | nil => rfl
  | cons x xs ih => simp only [List.foldl_cons]; rw [max_assoc, ih]

theorem redMin_parts {α : Type} (h : K) (ps : List α) (f : α → List K) : redMin h (ps.map fun p => redMin h (f p)) = redMin h (ps.flatMap f) := by
  simp only [redMin_eq]
  suffices H : ∀ a, a ≤ h → (ps.map fun p => (f p).foldl min h).foldl min a = (ps.flatMap f).foldl min a from H h le_rfl
  induction ps with
  | nil => intro a _; rfl
  | cons p ps ih =>
    intro a ha
    simp only [List.map_cons, List.foldl_cons, List.flatMap_cons, List.foldl_append]
    have e : (f p).foldl min a = min a ((f p).foldl min h) := by
      rw [← foldl_min_init, min_eq_left ha]
    rw [e]
    exact ih _ (le_trans (min_le_left _ _) ha)

theorem redMax_parts {α : Type} (h : K) (ps : List α) (f : α → List K) : redMax h (ps.map fun p => redMax h (f p)) = redMax h (ps.flatMap f) := by
  simp only [redMax_eq]
  suffices H : ∀ a, h ≤ a → (ps.map fun p => (f p).foldl max h).foldl max a = (ps.flatMap f).foldl max a from H h le_rfl
  induction ps with
  | nil => intro a _; rfl
  | cons p ps ih =>
    intro a ha
    simp only [List.map_cons, List.foldl_cons, List.flatMap_cons, List.foldl_append]
    have e : (f p).foldl max a = max a ((f p).foldl max h) := by
      rw [← foldl_max_init, max_eq_left ha]
    rw [e]
    exact ih _ (le_trans ha (le_max_left _ _))

theorem redMin_spec (h : K) (xs : List K) : (∀ x ∈ xs, redMin h xs ≤ x) ∧ redMin h xs ≤ h ∧ (redMin h xs = h ∨ redMin h xs ∈ xs) := by
  rw [redMin_eq]
  induction xs generalizing h with
  | nil => simp
  | cons x xs ih =>
    simp only [List.foldl_cons]
    obtain ⟨h1, h2, h3⟩ := ih (min h x)
    refine ⟨?_, le_trans h2 (min_le_left _ _), ?_⟩
    · intro y hy
      rcases List.mem_cons.1 hy with rfl | hy
      · exact le_trans h2 (min_le_right _ _)
      · exact h1 y hy
    · rcases h3 with h3 | h3
      · rw [h3]
        rcases min_choice h x with h | h <;> rw [h] <;> simp
      · exact Or.inr (List.mem_cons_of_mem _ h3)

theorem redMax_spec (h : K) (xs : List K) : (∀ x ∈ xs, x ≤ redMax h xs) ∧ h ≤ redMax h xs ∧ (redMax h xs = h ∨ redMax h xs ∈ xs) := by
  rw [redMax_eq]
  induction xs generalizing h with
  | nil => simp
  | cons x xs ih =>
    simp only [List.foldl_cons]
    obtain ⟨h1, h2, h3⟩ := ih (max h x)
    refine ⟨?_, le_trans (le_max_left _ _) h2, ?_⟩
    · intro y hy
      rcases List.mem_cons.1 hy with rfl | hy
      · exact le_trans (le_max_right _ _) h2
      · exact h1 y hy
    · rcases h3 with h3 | h3
      · rw [h3]
        rcases max_choice h x with h | h <;> rw [h] <;> simp
      · exact Or.inr (List.mem_cons_of_mem _ h3)
end extr

theorem extr_val (red : List V → V) (ys : List Y) (N T : Nat) (m m' : RL Y → V) (h : PhasesExec (extrProg red ys N T) m m') (t : Fin T) :
    m' (.res t.1) = red ((List.range T).map fun t : Nat => red ((irange (slab ⟨0, (N : Int) - 1⟩ t T)).flatMap fun x => ys.map fun y => m (.arr x y))) := by
  rw [phases_serial (ps := extrProg red ys N T) ?_ h]
  · show serial1 (extrFinal red T) (serial1 (extrParts red ys N T) m) (.res t.1) = _
    unfold serial1
    rw [if_pos ⟨t, by simp [extrFinal]⟩]
    show red _ = red _
    congr 1
    refine List.map_congr_left fun t' ht' => ?_
    exact if_pos ⟨⟨t', List.mem_range.1 ht'⟩, by simp [extrParts]⟩
  · intro ss hs
    simp only [extrProg, List.mem_cons, List.not_mem_nil, or_false] at hs
    rcases hs with rfl | rfl
    · refine single_safe _ ?_ ?_ ?_
      · intro m m' l h
        cases l with
        | xtmtmp t =>
          show red _ = red _
          congr 1
          refine List.flatMap_congr fun x _ => ?_
          exact List.map_congr_left fun y _ => h _ ⟨x, y, rfl⟩
        | _ => rfl
      · intro t; simp [extrParts]
      · rintro t l hl l' ⟨x, y, rfl⟩
        exact ⟨fun t' _ h => by simp [extrParts] at h, fun h => by simp [extrParts] at h⟩
    · refine single_safe _ ?_ ?_ ?_
      · intro m m' l h
        show red _ = red _
        congr 1
        exact List.map_congr_left fun t _ => h _ ⟨t, rfl⟩
      · intro t; simp [extrFinal]
      · rintro t l hl l' ⟨t', rfl⟩
        exact ⟨fun t' _ h => by simp [extrFinal] at h, fun h => by simp [extrFinal] at h⟩

theorem slabs_concat_flat (N T : Nat) (hT : 0 < T) (ys : List Y) (m : RL Y → V) :
    ((List.range T).flatMap fun t : Nat => (irange (slab ⟨0, (N : Int) - 1⟩ t T)).flatMap fun x => ys.map fun y => m (.arr x y)) =
    (irange ⟨0, (N : Int) - 1⟩).flatMap fun x => ys.map fun y => m (.arr x y) := by
  rw [← slabs_concat N T hT, List.flatMap_assoc]

/-- **C27 (min)**: whatever the thread count and interleaving, every thread returns the minimum over the whole field (no larger than any element, and
one of the elements), if the field is non-empty and no element exceeds the largest representable number `huge`. -/
theorem C27_min_threads {K : Type} [LinearOrder K] (hugeV : K) (ys : List Y) (N T : Nat) (m m' : RL Y → K)
    (h : PhasesExec (extrProg (redMin hugeV) ys N T) m m') (t : Fin T) (hN : 0 < N) (hy : ys ≠ [])
    (hm : ∀ x y, m (.arr x y) ≤ hugeV) :
    (∀ x : Int, 0 ≤ x → x ≤ N - 1 → ∀ y ∈ ys, m' (.res t.1) ≤ m (.arr x y)) ∧
    ∃ x : Int, 0 ≤ x ∧ x ≤ N - 1 ∧ ∃ y ∈ ys, m' (.res t.1) = m (.arr x y) := by
  have e := extr_val _ ys N T m m' h t
  rw [redMin_parts, slabs_concat_flat N T t.pos] at e
  obtain ⟨h1, h2, h3⟩ := redMin_spec hugeV ((irange ⟨0, (N : Int) - 1⟩).flatMap fun x => ys.map fun y => m (.arr x y))
  rw [← e] at h1 h2 h3
  have mem : ∀ v, v ∈ ((irange ⟨0, (N : Int) - 1⟩).flatMap fun x => ys.map fun y => m (.arr x y)) ↔
      ∃ x : Int, 0 ≤ x ∧ x ≤ N - 1 ∧ ∃ y ∈ ys, v = m (.arr x y) := by
    intro v
    simp only [List.mem_flatMap, List.mem_map, mem_irange]
    constructor
    · rintro ⟨x, ⟨a, b⟩, y, hy, rfl⟩; exact ⟨x, a, b, y, hy, rfl⟩
    · rintro ⟨x, a, b, y, hy, rfl⟩; exact ⟨x, ⟨a, b⟩, y, hy, rfl⟩
  refine ⟨fun x hx hx' y hy => h1 _ ((mem _).2 ⟨x, hx, hx', y, hy, rfl⟩), ?_⟩
  rcases h3 with h3 | h3
  · obtain ⟨y, hy⟩ := List.exists_mem_of_ne_nil _ hy
    refine ⟨0, le_rfl, by omega, y, hy, le_antisymm (h1 _ ((mem _).2 ⟨0, le_rfl, by omega, y, hy, rfl⟩)) ?_⟩
    rw [h3]; exact hm _ _
  · exact (mem _).1 h3

/-- **C27 (max)**: the same for the maximum. -/
theorem C27_max_threads {K : Type} [LinearOrder K] (lowest : K) (ys : List Y) (N T : Nat) (m m' : RL Y → K)
    (h : PhasesExec (extrProg (redMax lowest) ys N T) m m') (t : Fin T) (hN : 0 < N) (hy : ys ≠ [])
    (hm : ∀ x y, lowest ≤ m (.arr x y)) :
    (∀ x : Int, 0 ≤ x → x ≤ N - 1 → ∀ y ∈ ys, m (.arr x y) ≤ m' (.res t.1)) ∧
    ∃ x : Int, 0 ≤ x ∧ x ≤ N - 1 ∧ ∃ y ∈ ys, m' (.res t.1) = m (.arr x y) := by
  have e := extr_val _ ys N T m m' h t
  rw [redMax_parts, slabs_concat_flat N T t.pos] at e
  obtain ⟨h1, h2, h3⟩ := redMax_spec lowest ((irange ⟨0, (N : Int) - 1⟩).flatMap fun x => ys.map fun y => m (.arr x y))
  rw [← e] at h1 h2 h3
  have mem : ∀ v, v ∈ ((irange ⟨0, (N : Int) - 1⟩).flatMap fun x => ys.map fun y => m (.arr x y)) ↔
      ∃ x : Int, 0 ≤ x ∧ x ≤ N - 1 ∧ ∃ y ∈ ys, v = m (.arr x y) := by
    intro v
    simp only [List.mem_flatMap, List.mem_map, mem_irange]
    constructor
    · rintro ⟨x, ⟨a, b⟩, y, hy, rfl⟩; exact ⟨x, a, b, y, hy, rfl⟩
    · rintro ⟨x, a, b, y, hy, rfl⟩; exact ⟨x, ⟨a, b⟩, y, hy, rfl⟩
  refine ⟨fun x hx hx' y hy => h1 _ ((mem _).2 ⟨x, hx, hx', y, hy, rfl⟩), ?_⟩
  rcases h3 with h3 | h3
  · obtain ⟨y, hy⟩ := List.exists_mem_of_ne_nil _ hy
    refine ⟨0, le_rfl, by omega, y, hy, le_antisymm ?_ (h1 _ ((mem _).2 ⟨0, le_rfl, by omega, y, hy, rfl⟩))⟩
    rw [h3]; exact hm _ _
  · exact (mem _).1 h3

/-- **C27 (min/max over processes)**: the minimum (maximum) over MPI processes of the processes' minima (maxima) is that over the global domain. -/
theorem C27_extr_processes {K : Type} [LinearOrder K] (h l : K) (N P : Nat) (hP : 0 < P) (f : Int → K) :
    redMin h ((List.range P).map fun p : Nat => redMin h ((irange (slab ⟨0, (N : Int) - 1⟩ p P)).map f)) = redMin h ((irange ⟨0, (N : Int) - 1⟩).map f) ∧
    redMax l ((List.range P).map fun p : Nat => redMax l ((irange (slab ⟨0, (N : Int) - 1⟩ p P)).map f)) = redMax l ((irange ⟨0, (N : Int) - 1⟩).map f) := by
  rw [redMin_parts, redMax_parts, ← slabs_concat N P hP, List.map_flatMap]
  exact ⟨rfl, rfl⟩

/-- every reduction program can be run to its end, from any memory (so the theorems above are not vacuous) -/
theorem C27_executions_exist (red : List V → V) (ys : List Y) (N T : Nat) (m : RL Y → V) :
    (∃ m', PhasesExec (sumProg red ys N T) m m') ∧ (∃ m', PhasesExec (extrProg red ys N T) m m') := by
  constructor
  · obtain ⟨m1, h1⟩ := phase_exec_exists (progOf [sumSlices red ys N T]) m
    obtain ⟨m2, h2⟩ := phase_exec_exists (progOf [sumFinal (Y := Y) red N T]) m1
    exact ⟨m2, PhasesExec.cons _ _ _ _ _ h1 (PhasesExec.cons _ _ _ _ _ h2 (PhasesExec.nil _))⟩
  · obtain ⟨m1, h1⟩ := phase_exec_exists (progOf [extrParts red ys N T]) m
    obtain ⟨m2, h2⟩ := phase_exec_exists (progOf [extrFinal (Y := Y) red T]) m1
    exact ⟨m2, PhasesExec.cons _ _ _ _ _ h1 (PhasesExec.cons _ _ _ _ _ h2 (PhasesExec.nil _))⟩

-- a plain per-thread partial sum would depend on the number of threads: a non-associative addition for which it matters
example : redSum (fun a b : Int => a - b) 0 [1, 2, 3, 4] ≠
    redSum (fun a b : Int => a - b) 0 [redSum (fun a b : Int => a - b) 0 [1, 2], redSum (fun a b : Int => a - b) 0 [3, 4]] := by decide

/-! ## C47 -/

/-- **C47 (fluxes)**: every face `-1 .. N-1` (storage index of face `i+1/2`) around the cells of the domain is computed by exactly one thread when
threads use `im` (mpdata_osc_2d/3d), and no other face is. -/
theorem C47_flux_faces (N T : Nat) (hT : 0 < T) (f : Int) :
    ((-1 ≤ f ∧ f ≤ N - 1) → ∃! t : Fin T, ((Dom.face 0).rng N T t).Mem f) ∧
    (∀ t : Fin T, ((Dom.face 0).rng N T t).Mem f → -1 ≤ f ∧ f ≤ N - 1) := by
  have hb := slabOf_bounds N T
  constructor
  · rintro ⟨h1, h2⟩
    rcases lt_or_ge f 0 with h | h
    · have hf : f = -1 := by omega
      subst hf
      have h0 : (slabOf N T ⟨0, hT⟩).first = 0 := by rw [slabOf_first]; simp [slabMin_zero]
      refine ⟨⟨0, hT⟩, ?_, ?_⟩
      · simp only [Dom.rng, Rng.Mem, if_true, h0]
        have := (hb ⟨0, hT⟩)
        rw [h0] at this
        omega
      · intro t ht
        simp only [Dom.rng, Rng.Mem] at ht
        have := hb t
        split_ifs at ht with h'
        · exact Fin.ext h'
        · omega
    · obtain ⟨t, ht⟩ := slabOf_cover N T hT f h h2
      refine ⟨t, ?_, ?_⟩
      · simp only [Dom.rng, Rng.Mem] at ht ⊢
        split_ifs <;> omega
      · intro t' ht'
        refine slabOf_disj N T t' t f ?_ ht
        simp only [Dom.rng, Rng.Mem] at ht' ⊢
        split_ifs at ht' with h'
        · have h0 : (slabOf N T t').first = 0 := by rw [slabOf_first, h']; simp [slabMin_zero]
          omega
        · omega
  · intro t ht
    simp only [Dom.rng, Rng.Mem] at ht
    have := hb t
    split_ifs at ht <;> omega

/-- **C47 (fluxes, 1-D)**: with the 1-D ranges (`im = [first-1, last]` for every thread, mpdata_osc_1d.hpp) every face is computed by at least one
thread, and no other face is. -/
theorem C47_flux_faces_1d (N T : Nat) (hT : 0 < T) (hN : 0 < N) (f : Int) :
    (-1 ≤ f ∧ f ≤ N - 1) ↔ ∃ t : Fin T, ((Dom.ext 1 0).rng N T t).Mem f := by
  rw [cover (Dom.ext 1 0) N T hT hN f]
  simp [Dom.glob, Rng.Mem]

/-- **C47 (scaling)**: `scale_gc` touches each of the faces `-1 .. N-2` in exactly one thread and no other face (face `N-1` belongs to the right
halo, which is filled from the scaled faces right after). -/
theorem C47_scale_faces (N T : Nat) (f : Int) :
    ((-1 ≤ f ∧ f ≤ N - 2) → 0 < T → ∃! t : Fin T, (scaleRng (slabOf N T t)).Mem f) ∧
    (∀ t : Fin T, (scaleRng (slabOf N T t)).Mem f → -1 ≤ f ∧ f ≤ N - 2) := by
  have conv : ∀ t : Fin T, (scaleRng (slabOf N T t)).Mem f ↔ (slabOf N T t).Mem (f + 1) := by
    intro t; simp only [scaleRng, Rng.extH, Rng.Mem]; omega
  constructor
  · rintro ⟨h1, h2⟩ hT
    obtain ⟨t, ht⟩ := slabOf_cover N T hT (f + 1) (by omega) (by omega)
    exact ⟨t, (conv t).2 ht, fun t' ht' => slabOf_disj N T t' t (f + 1) ((conv t').1 ht') ht⟩
  · intro t ht
    have h := (conv t).1 ht
    have := slabOf_bounds N T t
    simp only [Rng.Mem] at h; omega

theorem mem_faces (r : Rng) (ys : List Y) (l : Int × Y) : l ∈ ((irange r).flatMap fun x => ys.map fun y => (x, y)) ↔ r.Mem l.1 ∧ l.2 ∈ ys := by
  obtain ⟨x, y⟩ := l
  simp only [List.mem_flatMap, List.mem_map, mem_irange, Prod.mk.injEq, Rng.Mem]
  constructor
  · rintro ⟨x', h, y', h', rfl, rfl⟩; exact ⟨h, h'⟩
  · rintro ⟨h, h'⟩; exact ⟨x, h, y, h', rfl, rfl⟩

theorem nodup_faces (r : Rng) (ys : List Y) (h : ys.Nodup) : ((irange r).flatMap fun x => ys.map fun y => (x, y)).Nodup := by
  rw [List.nodup_flatMap]
  refine ⟨fun x _ => h.map (fun a b hab => (Prod.mk.inj hab).2), (nodup_irange r).imp ?_⟩
  intro a b hab
  simp only [Function.onFun, List.disjoint_left, List.mem_map]
  rintro _ ⟨y, _, rfl⟩ ⟨y', _, h⟩
  exact hab (Prod.mk.inj h).1.symm

/-- an in-place statement whose threads have disjoint elements updates each element once -/
theorem inplace (s : Stmt (Fin T) (Int × Y) V) (upd1 : Int × Y → V → V) (hf : ∀ m l, s.f m l = upd1 l (m l)) (hrd : ∀ l l', s.rd l l' ↔ l' = l)
    (hn : ∀ t, (s.dom t).Nodup) (hd : ∀ t t' l, l ∈ s.dom t → l ∈ s.dom t' → t = t') (m m' : Int × Y → V) (h : PhaseExec (progOf [s]) m m') (l) :
    m' l = if ∃ t, l ∈ s.dom t then upd1 l (m l) else m l := by
  have hs : StmtsSafe [s] := by
    refine single_safe s ?_ hn ?_
    · intro m m' l h
      rw [hf, hf, h l ((hrd l l).2 rfl)]
    · intro t l hl l' hl'
      rw [hrd] at hl'; subst hl'
      exact ⟨fun t' ht' h => ht' (hd t' t _ h hl), fun _ => rfl⟩
  rw [phase_serial hs h]
  show serial1 s m l = _
  unfold serial1
  rw [hf]
  split_ifs <;> rfl

/-- **C47 (scaling, executed)**: run by any number of threads in any interleaving, the in-place scaling multiplies every face `-1 .. N-2` (in the rows `ys`)
exactly once and leaves everything else unchanged. -/
theorem C47_scale_once (mul : V → V) (ys : List Y) (hy : ys.Nodup) (N T : Nat) (hT : 0 < T) (m m' : Int × Y → V)
    (h : PhaseExec (progOf [scaleGc mul ys N T]) m m') (x : Int) (y : Y) :
    m' (x, y) = if (-1 ≤ x ∧ x ≤ N - 2) ∧ y ∈ ys then mul (m (x, y)) else m (x, y) := by
  rw [inplace (scaleGc mul ys N T) (fun _ v => mul v) (fun _ _ => rfl) (fun _ _ => Iff.rfl) (fun t => nodup_faces _ ys hy) ?_ m m' h (x, y)]
  · refine if_congr ?_ rfl rfl
    simp only [scaleGc, mem_faces]
    constructor
    · rintro ⟨t, h1, h2⟩; exact ⟨(C47_scale_faces N T x).2 t h1, h2⟩
    · rintro ⟨h1, h2⟩
      obtain ⟨t, ht, -⟩ := (C47_scale_faces N T x).1 h1 hT
      exact ⟨t, ht, h2⟩
  · intro t t' l h1 h2
    simp only [scaleGc, mem_faces] at h1 h2
    exact ((C47_scale_faces N T l.1).1 ((C47_scale_faces N T l.1).2 t h1.1) hT).unique h1.1 h2.1

/-- **C47 (stress multiplication, executed)**: over `ijkm_sep`, the in-place multiplication of staggered stresses by the viscosity multiplies every face
`-1 .. N-1` exactly once. -/
theorem C47_multiply_once (mul : Int → Y → V → V) (ys : List Y) (hy : ys.Nodup) (N T : Nat) (hT : 0 < T) (m m' : Int × Y → V)
    (h : PhaseExec (progOf [multFaces mul ys N T]) m m') (x : Int) (y : Y) :
    m' (x, y) = if (-1 ≤ x ∧ x ≤ N - 1) ∧ y ∈ ys then mul x y (m (x, y)) else m (x, y) := by
  rw [inplace (multFaces mul ys N T) (fun l v => mul l.1 l.2 v) (fun _ _ => rfl) (fun _ _ => Iff.rfl) (fun t => nodup_faces _ ys hy) ?_ m m' h (x, y)]
  · refine if_congr ?_ rfl rfl
    simp only [multFaces, mem_faces]
    constructor
    · rintro ⟨t, h1, h2⟩; exact ⟨(C47_flux_faces N T hT x).2 t h1, h2⟩
    · rintro ⟨h1, h2⟩
      obtain ⟨t, ht, -⟩ := (C47_flux_faces N T hT x).1 h1
      exact ⟨t, ht, h2⟩
  · intro t t' l h1 h2
    simp only [multFaces, mem_faces] at h1 h2
    exact ((C47_flux_faces N T hT l.1).1 ((C47_flux_faces N T hT l.1).2 t h1.1)).unique h1.1 h2.1

/-- **C47 (extended ranges)**: `extend_range` by `p` (resp. `q`) on the left (right): every index of the extended domain is in exactly one thread's range. -/
theorem C47_extend_range (N T : Nat) (hT : 0 < T) (hTN : T ≤ N) (p q : Nat) (x : Int) :
    ((-(p : Int) ≤ x ∧ x ≤ N - 1 + q) → ∃! t : Fin T, ((Dom.extR p q).rng N T t).Mem x) ∧
    (∀ t : Fin T, ((Dom.extR p q).rng N T t).Mem x → -(p : Int) ≤ x ∧ x ≤ N - 1 + q) := by
  have hb := slabOf_bounds N T
  have hne : ∀ t : Fin T, (slabOf N T t).first ≤ (slabOf N T t).last := by
    intro t
    have := (C01_slab_nonempty_iff_ctor N T (by omega) (by omega)).2 (by simp [sharedmemCtor]; omega) t.1 (by omega) (by omega)
    simp only [Rng.length] at this
    unfold slabOf; omega
  constructor
  · rintro ⟨h1, h2⟩
    rcases lt_or_ge x 0 with h | h
    · refine ⟨⟨0, hT⟩, ?_, ?_⟩
      · have h0 := hb ⟨0, hT⟩
        simp only [Dom.rng, Rng.Mem, if_true]
        have := h0.2.2.2.1 rfl
        have := hne ⟨0, hT⟩
        split_ifs <;> omega
      · intro t ht
        have h0 := hb t
        simp only [Dom.rng, Rng.Mem] at ht
        by_cases h' : t.1 = 0
        · exact Fin.ext h'
        · rw [if_neg h'] at ht; omega
    · rcases lt_or_ge ((N : Int) - 1) x with h' | h'
      · refine ⟨⟨T - 1, by omega⟩, ?_, ?_⟩
        · have h0 := hb ⟨T - 1, by omega⟩
          simp only [Dom.rng, Rng.Mem]
          have e : T - 1 + 1 = T := by omega
          have := h0.2.2.2.2 e
          have := hne ⟨T - 1, by omega⟩
          rw [if_pos e]
          split_ifs <;> omega
        · intro t ht
          have h0 := hb t
          simp only [Dom.rng, Rng.Mem] at ht
          by_cases h'' : t.1 + 1 = T
          · exact Fin.ext (by simp; omega)
          · rw [if_neg h''] at ht; omega
      · obtain ⟨t, ht⟩ := slabOf_cover N T hT x h h'
        refine ⟨t, ?_, ?_⟩
        · simp only [Dom.rng, Rng.Mem] at ht ⊢
          split_ifs <;> omega
        · intro t' ht'
          refine slabOf_disj N T t' t x ?_ ht
          have h0 := hb t'
          simp only [Dom.rng, Rng.Mem] at ht' ⊢
          by_cases g1 : t'.1 = 0 <;> by_cases g2 : t'.1 + 1 = T <;> simp only [g1, g2, if_true, if_false] at ht'
          · have := h0.2.2.2.1 g1; have := h0.2.2.2.2 g2; omega
          · have := h0.2.2.2.1 g1
            rw [if_neg (by omega)] at ht'
            omega
          · have := h0.2.2.2.2 g2; omega
          · omega
  · intro t ht
    have h0 := hb t
    simp only [Dom.rng, Rng.Mem] at ht
    split_ifs at ht <;> omega

/-- the overlapping ranges `ijkm = [first-1, last]` would multiply the face between two slabs twice (the reason for `ijkm_sep`) -/
example : (((Dom.ext 1 0).rng 4 2 0).Mem 1) ∧ (((Dom.ext 1 0).rng 4 2 1).Mem 1) := by decide
example : (0 : Nat) < 2 ∧ 2 ≤ 4 ∧ [0, 1, 2].Nodup ∧ ((Dom.face 0).rng 4 2 0) = ⟨-1, 1⟩ ∧ ((Dom.face 0).rng 4 2 1) = ⟨2, 3⟩ ∧
  scaleRng (slabOf 4 2 0) = ⟨-1, 0⟩ ∧ scaleRng (slabOf 4 2 1) = ⟨1, 2⟩ := by decide

end Threads
end Mpdata
