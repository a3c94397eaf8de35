import Verif.Lemmas.Backends
/-!
# C69: advancing a solver runs all of its domain, whatever other solvers the program has made

Any program that constructs solvers of any of the four classes one after the other, in 1-D, 2-D or 3-D and on any grids, and advances them in any order.
-/
namespace Mpdata
namespace Backend

/-- C69: with `serial`, `boost_thread` and `cxx11_thread` every call of `advance` in every program runs the whole domain of its solver, provided at least one thread is asked for. -/
theorem C69_threads_run_whole_domain (e : Env) (he : 0 < e.asked e.hw) (ops : List Op) (s : Sys) (h : run e (start e) ops = some s)
    (i : Nat) (ran : List Nat) (hl : (i, ran) ∈ s.log) :
    ∃ o, s.objs[i]? = some o ∧ (o.kind ≠ .openmp → WholeDomain o ran) := by
  have key := run_log (e := e) (P := fun _ o => Made e o) (Q := fun s => ∀ o ∈ s.objs, Made e o) (ok := fun _ => True)
    (fun s s' op _ hs hst => step_made hst hs) (fun s i o hs ho => hs o (List.mem_of_getElem? ho)) (fun _ _ => trivial) h (by simp [start]) (by simp [start]) i ran hl
  obtain ⟨o, c, ho, hm, rfl⟩ := key
  refine ⟨o, ho, fun hk => ?_⟩
  by_cases h1 : o.kind = .serial
  · obtain ⟨ha, -⟩ := hm.serial h1
    have := whole_range (o := o) (by omega)
    rw [ha] at this
    simpa [launched, h1] using this
  · have ha := hm.thr h1 hk
    have hl : launched c o = List.range o.algos := by cases hk' : o.kind <;> simp_all [launched]
    rw [hl]
    rcases Nat.eq_zero_or_pos o.algos with h0 | h0
    · exact whole_empty h0 (by omega)
    · exact whole_range h0

/-- C69: so does a call of `advance` with `openmp`, as long as no other OpenMP solver has been constructed since this one was and `omp_set_num_threads` has not been called; in 3-D if
the compiler evaluates the arguments of the constructor call from left to right. -/
theorem C69_openmp_latest_partial (e : Env) (s s1 s2 s3 : Sys) (he : 0 < e.asked s.icv) (memFirst : Bool) (nDims : Nat) (grid : Nat → Nat)
    (hx : 0 < grid 0) (ho : nDims < 3 ∨ memFirst = true) (h1 : step e s (.construct memFirst .openmp nDims grid) = some s1)
    (ops : List Op) (hq : ∀ op ∈ ops, op.quiet) (h2 : run e s1 ops = some s2) (h3 : step e s2 (.advance s.objs.length) = some s3) :
    ∃ o ran, s3.objs[s.objs.length]? = some o ∧ o.grid = grid ∧ s3.log = s2.log ++ [(s.objs.length, ran)] ∧ WholeDomain o ran := by
  have hobj : ∃ o : Solver, s1.objs[s.objs.length]? = some o ∧ o.kind = .openmp ∧ o.nDims = nDims ∧ o.grid = grid ∧ o.algos = s1.icv ∧
      o.algos = min (grid (splitDim nDims)) (if memFirst then (e.asked (min (grid 0) (e.asked s.icv))) else e.asked s.icv) := by
    simp only [step] at h1
    split at h1
    · cases h1
    · cases h1
      refine ⟨_, by rw [List.getElem?_append_right (Nat.le_refl _)]; simp; rfl, rfl, rfl, rfl, ?_, ?_⟩
      · cases memFirst
        · have hd : nDims < 3 := by simpa using ho
          simp [sizeOf, splitDim, hd, Env.asked]; cases e.var <;> simp
        · simp [sizeOf]
      · cases memFirst <;> simp [sizeOf]
  obtain ⟨o, hi, hk, hn, hg, ha, hv⟩ := hobj
  have hicv : ∀ (ops : List Op) (s1 s2 : Sys), (∀ op ∈ ops, op.quiet) → run e s1 ops = some s2 → s2.icv = s1.icv := by
    intro ops
    induction ops with
    | nil => intro s1 s2 _ h; cases h; rfl
    | cons op ops ih =>
      intro s1 s2 hq h
      simp only [run, Option.bind_eq_some_iff] at h
      obtain ⟨u, hu, h2⟩ := h
      rw [ih u s2 (fun o ho => hq o (List.mem_cons_of_mem _ ho)) h2]
      have q := hq op List.mem_cons_self
      cases op with
      | construct mf k nd g =>
        simp only [step] at hu
        split at hu
        · cases hu
        · cases hu
          simp only [Op.quiet] at q
          cases k <;> first | exact absurd rfl q | (cases mf <;> rfl)
      | advance j =>
        simp only [step] at hu
        split at hu
        · cases hu
        · cases hu; rfl
      | setNumThreads n => exact absurd q (by simp [Op.quiet])
  have ho2 : s2.objs[s.objs.length]? = some o := objs_keep h2 hi
  simp only [step, ho2] at h3
  cases h3
  refine ⟨o, _, ho2, hg, rfl, ?_⟩
  have hl : launched s2.icv o = List.range o.algos := by simp [launched, hk, hicv _ _ _ hq h2, ha]
  rw [hl]
  rcases Nat.eq_zero_or_pos o.algos with h0 | h0
  · refine whole_empty h0 ?_
    rw [hn, hg]
    rw [h0] at hv
    cases hvar : e.var with
    | some v => simp only [Env.asked, hvar, ite_self] at hv he; omega
    | none =>
      simp only [Env.asked, hvar] at hv he
      split at hv <;> omega
  · exact whole_range h0

/-- C69: and so does every call of `advance` of every solver of a program in which all OpenMP solvers have grids with at least as many points (along x and along the divided
dimension) as threads are asked for, and which does not call `omp_set_num_threads`. -/
theorem C69_openmp_roomy_grids_partial (e : Env) (he : 0 < e.asked e.hw) (ops : List Op) (hops : ∀ op ∈ ops, op.roomy (e.asked e.hw)) (s : Sys)
    (h : run e (start e) ops = some s) (i : Nat) (ran : List Nat) (hl : (i, ran) ∈ s.log) :
    ∃ o, s.objs[i]? = some o ∧ WholeDomain o ran := by
  set T := e.asked e.hw with hT
  have hT2 : e.asked T = T := by simp only [hT, Env.asked]; cases e.var <;> rfl
  have key := run_log (e := e) (P := fun c o => o.kind = .openmp → c = T ∧ o.algos = T)
    (Q := fun s => s.icv = T ∧ ∀ o ∈ s.objs, o.kind = .openmp → o.algos = T) (ok := fun op => op.roomy T) ?_
    (fun s i o hs ho hk => ⟨hs.1, hs.2 o (List.mem_of_getElem? ho) hk⟩) hops h ⟨rfl, by simp [start]⟩ (by simp [start]) i ran hl
  · obtain ⟨o, c, ho, hm, e1⟩ := key
    refine ⟨o, ho, ?_⟩
    by_cases hk : o.kind = .openmp
    · obtain ⟨hc, ha⟩ := hm hk
      have : ran = List.range o.algos := by rw [e1, ha]; simp [launched, hk, hc]
      rw [this]; exact whole_range (by omega)
    · obtain ⟨o', ho', hw⟩ := C69_threads_run_whole_domain e he ops s h i ran hl
      rw [ho] at ho'; cases ho'
      exact hw hk
  · intro s s' op hop hs hst
    cases op with
    | construct mf k nd g =>
      simp only [step] at hst
      split at hst
      · cases hst
      · cases hst
        by_cases hk : k = .openmp
        · subst hk
          obtain ⟨r1, r2⟩ := hop rfl
          have m1 : min (g 0) T = T := Nat.min_eq_right r1
          have m2 : min (g (splitDim nd)) T = T := Nat.min_eq_right r2
          refine ⟨?_, fun o ho hok => ?_⟩
          · cases mf <;> simp [sizeOf, hs.1, hT2, m1, m2]
          · rcases List.mem_append.1 ho with ho | ho
            · exact hs.2 o ho hok
            · rw [List.mem_singleton] at ho; subst ho
              cases mf <;> simp [sizeOf, hs.1, hT2, m1, m2]
        · refine ⟨?_, fun o ho hok => ?_⟩
          · cases k <;> cases mf <;> simp_all [sizeOf]
          · rcases List.mem_append.1 ho with ho | ho
            · exact hs.2 o ho hok
            · rw [List.mem_singleton] at ho; subst ho; exact absurd hok hk
    | advance j =>
      simp only [step] at hst
      split at hst
      · cases hst
      · cases hst; exact hs
    | setNumThreads n => exact absurd hop (by simp [Op.roomy])

/-- C69: in 1-D and 2-D the barrier of a solver and its array of reductions are made for as many threads as there are subdomains, in every program and for every class. -/
theorem C69_memory_matches_subdomains (e : Env) (ops : List Op) (s : Sys) (h : run e (start e) ops = some s) (o : Solver) (ho : o ∈ s.objs) (hd : o.nDims < 3) :
    o.memSize = o.algos := (run_made h (by simp [start]) o ho).low hd

/-- C69: so a minimum or maximum over the threads is one of exactly the values the subdomains have stored, and never of memory as allocated. -/
theorem C69_reductions_see_subdomains_only {V : Type} (e : Env) (ops : List Op) (s : Sys) (h : run e (start e) ops = some s) (o : Solver) (ho : o ∈ s.objs) (hd : o.nDims < 3)
    (alloc val : Nat → V) : slots o (List.range o.algos) alloc val = (List.range o.algos).map val := by
  rw [slots, C69_memory_matches_subdomains e ops s h o ho hd]
  exact List.map_congr_left fun j hj => if_pos hj

/-- C69: there is at least one subdomain and there are no more than grid points, in every program, if at least one thread is asked for. -/
theorem C69_thread_count (e : Env) (ops : List Op) (s : Sys) (h : run e (start e) ops = some s) (o : Solver) (ho : o ∈ s.objs) :
    (o.kind = .serial → o.algos = 1) ∧ (o.kind ≠ .serial → o.algos ≤ o.grid (splitDim o.nDims)) ∧
      (o.kind ≠ .openmp → 0 < e.asked e.hw → 0 < o.grid (splitDim o.nDims) → 0 < o.algos) := by
  have m := run_made h (by simp [start]) o ho
  refine ⟨fun hk => (m.serial hk).1, m.le, fun hk he hg => ?_⟩
  by_cases h1 : o.kind = .serial
  · rw [(m.serial h1).1]; omega
  · rw [m.thr h1 hk]; omega

/-- C69: the condition at an end of the domain is given to the one subdomain that lies at that end; all others have the do-nothing condition there. -/
theorem C69_boundary_owner (o : Solver) (hle : o.algos ≤ o.grid (splitDim o.nDims)) (t : Nat) (ht : t < o.algos) :
    ((o.physical t).1 = true ↔ (o.range t).first = 0) ∧ ((o.physical t).2 = true ↔ (o.range t).last = o.grid (splitDim o.nDims) - 1) := by
  set N := o.grid (splitDim o.nDims) with hN
  have hs : (0 : Int) < o.algos := by omega
  obtain ⟨c1, c2, c3⟩ := C01_slab_contiguous ⟨0, (N : Int) - 1⟩ o.algos hs
  have ne : ∀ r : Int, 0 ≤ r → r < o.algos → 1 ≤ (slab ⟨0, (N : Int) - 1⟩ r o.algos).length :=
    (C01_slab_nonempty_iff_ctor N o.algos hs (by omega)).2 (by simp [sharedmemCtor]; omega)
  have sub : ∀ r : Int, 0 ≤ r → r < o.algos → 0 ≤ (slab ⟨0, (N : Int) - 1⟩ r o.algos).first ∧ (slab ⟨0, (N : Int) - 1⟩ r o.algos).last ≤ N - 1 := by
    intro r h0 h1
    have hl := ne r h0 h1
    simp only [Rng.length] at hl
    have a := C01_slab_subset ⟨0, (N : Int) - 1⟩ o.algos r hs (by simp [Rng.length]) h0 h1 (slab ⟨0, (N : Int) - 1⟩ r o.algos).first ⟨le_rfl, by omega⟩
    have b := C01_slab_subset ⟨0, (N : Int) - 1⟩ o.algos r hs (by simp [Rng.length]) h0 h1 (slab ⟨0, (N : Int) - 1⟩ r o.algos).last ⟨by omega, le_rfl⟩
    exact ⟨a.1, b.2⟩
  simp only [Solver.physical, Solver.range, ← hN, beq_iff_eq]
  constructor
  · constructor
    · rintro rfl; exact c1
    · intro h
      by_contra hne
      have hr := c3 (t - 1)
      rw [sub_add_cancel] at hr
      have h1 := ne (t - 1) (by omega) (by omega)
      have h2 := sub (t - 1) (by omega) (by omega)
      simp only [Rng.length] at h1
      omega
  · constructor
    · intro h
      have : (t : Int) = o.algos - 1 := by omega
      rw [this]; exact c2
    · intro h
      by_contra hne
      have hr := c3 t
      have h1 := ne (t + 1) (by omega) (by omega)
      have h2 := sub (t + 1) (by omega) (by omega)
      simp only [Rng.length] at h1
      omega

/-! ## Where it fails -/

/-- grid with the given numbers of points along x and y -/
def gridXY (nx ny : Nat) : Nat → Nat := fun d => if d = 0 then nx else ny

/-- C69 is false for `openmp`: on a machine with four hardware threads, constructing a second solver, on a smaller grid, makes later calls of `advance` of the first one skip half
of its domain, ... -/
theorem C69_fails_openmp_second_solver (a b : Bool) :
    ∃ s o, run ⟨none, 4⟩ (start ⟨none, 4⟩) [.construct a .openmp 2 (gridXY 8 8), .construct b .openmp 2 (gridXY 2 2), .advance 0] = some s ∧
      s.objs[0]? = some o ∧ o.algos = 4 ∧ s.log = [(0, [0, 1])] ∧ ¬ WholeDomain o [0, 1] := by
  have hw : ¬ WholeDomain ⟨.openmp, 2, gridXY 8 8, 4, 4⟩ [0, 1] := by
    rintro ⟨-, -, h⟩
    obtain ⟨t, ⟨h1, h2⟩, -⟩ := h 7 (by decide) (by decide)
    simp only [List.mem_cons, List.not_mem_nil, or_false] at h1
    rcases h1 with rfl | rfl <;> revert h2 <;> decide
  cases a <;> cases b <;> exact ⟨_, ⟨.openmp, 2, gridXY 8 8, 4, 4⟩, rfl, rfl, rfl, rfl, hw⟩

/-- ... and with `OMP_NUM_THREADS=4` constructing a larger one makes `advance` of the smaller one run subdomains that do not exist. -/
theorem C69_fails_openmp_second_solver_larger (a b : Bool) :
    ∃ s o, run ⟨some 4, 4⟩ (start ⟨some 4, 4⟩) [.construct a .openmp 2 (gridXY 2 2), .construct b .openmp 2 (gridXY 8 8), .advance 0] = some s ∧
      s.objs[0]? = some o ∧ o.algos = 2 ∧ s.log = [(0, [0, 1, 2, 3])] := by
  cases a <;> cases b <;> exact ⟨_, ⟨.openmp, 2, gridXY 2 2, 2, 2⟩, rfl, rfl, rfl, rfl⟩

/-- C69 is false for a single OpenMP solver in 3-D if the compiler evaluates arguments from right to left: `advance` runs half of the subdomains. -/
theorem C69_fails_openmp_3d_evaluation_order :
    ∃ s o, run ⟨some 4, 4⟩ (start ⟨some 4, 4⟩) [.construct false .openmp 3 (gridXY 2 8), .advance 0] = some s ∧
      s.objs[0]? = some o ∧ o.algos = 4 ∧ s.log = [(0, [0, 1])] := ⟨_, _, rfl, rfl, rfl, rfl⟩

/-- In 3-D the array of reductions is made for another number of threads: there may be entries no thread writes, the maximum of which is whatever was in memory, ... -/
theorem C69_fails_reductions_3d (v : Nat → Int) :
    ∃ s o ran, run ⟨some 4, 4⟩ (start ⟨some 4, 4⟩) [.construct true .openmp 3 (gridXY 4 2), .advance 0] = some s ∧ s.objs[0]? = some o ∧ s.log = [(0, ran)] ∧
      WholeDomain o ran ∧ ∃ alloc, ∃ x ∈ slots o ran alloc v, ∀ t ∈ ran, v t < x := by
  refine ⟨_, ⟨.openmp, 3, gridXY 4 2, 4, 2⟩, [0, 1], rfl, rfl, rfl, whole_range (o := ⟨.openmp, 3, gridXY 4 2, 4, 2⟩) (by decide), fun _ => max (v 0) (v 1) + 1, max (v 0) (v 1) + 1, ?_, ?_⟩
  · simp [slots, List.range, List.range.loop]
  · intro t ht
    simp only [List.mem_cons, List.not_mem_nil, or_false] at ht
    rcases ht with rfl | rfl <;> omega

/-- ... or threads that write past its end. -/
theorem C69_fails_reductions_3d_overrun :
    ∃ s o ran, run ⟨some 4, 4⟩ (start ⟨some 4, 4⟩) [.construct true .openmp 3 (gridXY 2 4), .advance 0] = some s ∧ s.objs[0]? = some o ∧ s.log = [(0, ran)] ∧
      WholeDomain o ran ∧ ∃ t ∈ ran, o.memSize ≤ t :=
  ⟨_, ⟨.openmp, 3, gridXY 2 4, 2, 4⟩, [0, 1, 2, 3], rfl, rfl, rfl, whole_range (o := ⟨.openmp, 3, gridXY 2 4, 2, 4⟩) (by decide), 3, by decide, by decide⟩

/-- If `OMP_NUM_THREADS` is 0 or not a number, `advance` does nothing and reports no error (also where `hardware_concurrency()` is 0, as it may be if it cannot be determined). -/
theorem C69_fails_no_threads :
    ∃ s o, run ⟨some 0, 4⟩ (start ⟨some 0, 4⟩) [.construct true .cxx11 2 (gridXY 8 8), .advance 0] = some s ∧ s.objs[0]? = some o ∧ o.algos = 0 ∧ s.log = [(0, [])] :=
  ⟨_, _, rfl, rfl, rfl, rfl⟩

/-! ## Examples -/

-- three solvers of different classes advanced in turn; a negative number asks for one thread per grid point
example : (run ⟨some 3, 8⟩ (start ⟨some 3, 8⟩) [.construct true .cxx11 2 (gridXY 7 5), .construct false .boost 3 (gridXY 7 2), .advance 1, .construct true .serial 1 (gridXY 9 0),
    .advance 0, .advance 2, .advance 1]).map (fun s => (s.objs.map (·.algos), s.log)) =
    some ([3, 2, 1], [(1, [0, 1]), (0, [0, 1, 2]), (2, [0]), (1, [0, 1])]) := by decide
example : (run ⟨some (-1), 8⟩ (start ⟨some (-1), 8⟩) [.construct true .boost 1 (gridXY 6 0), .advance 0]).map (fun s => s.log) = some [(0, [0, 1, 2, 3, 4, 5])] := by decide
-- hypotheses of the OpenMP statements
example : ∀ op ∈ [Op.construct true .openmp 2 (gridXY 8 8), .advance 0, .construct false .openmp 3 (gridXY 4 6), .advance 0, .advance 1], op.roomy 4 := by
  intro op h
  simp only [List.mem_cons, List.not_mem_nil, or_false] at h
  rcases h with rfl | rfl | rfl | rfl | rfl <;> simp [Op.roomy, gridXY, splitDim]
example : ∃ s1 s2 s3, step ⟨none, 4⟩ (start ⟨none, 4⟩) (.construct true .openmp 2 (gridXY 3 5)) = some s1 ∧
    run ⟨none, 4⟩ s1 [.construct true .cxx11 2 (gridXY 2 2), .advance 1] = some s2 ∧ step ⟨none, 4⟩ s2 (.advance 0) = some s3 ∧ s3.log = [(1, [0, 1]), (0, [0, 1, 2])] :=
  ⟨_, _, _, rfl, rfl, rfl, rfl⟩

end Backend
end Mpdata
