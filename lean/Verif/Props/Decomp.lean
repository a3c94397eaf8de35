import Verif.Lemmas.Range
/-! # C01: thread and MPI slabs tile the grid exactly -/
namespace Mpdata

/-- C01 (cover + disjointness): every cell of the domain belongs to the slab of exactly one rank. -/
theorem C01_slab_unique_owner (span : Rng) (size : Int) (hs : 0 < size) (hl : 0 ≤ span.length)
    (i : Int) (hi : span.Mem i) :
    ∃! rank : Int, (0 ≤ rank ∧ rank < size) ∧ (slab span rank size).Mem i := by
  have hi' := hi
  unfold Rng.Mem at hi
  have hN : slabMin span.length size size = span.length := slabMin_size hs
  obtain ⟨r, h0, h1, h2, h3⟩ := exists_step (fun r => slabMin span.length r size) size.toNat
    (i - span.first) (by simp [slabMin_zero]; omega)
    (by simp only [Int.toNat_of_nonneg hs.le, hN]; unfold Rng.length at *; omega)
  rw [Int.toNat_of_nonneg hs.le] at h1
  refine ⟨r, ⟨⟨h0, h1⟩, ?_⟩, ?_⟩
  · simp only [slab, Rng.Mem, slabMax]; constructor <;> omega
  · rintro r' ⟨⟨a, b⟩, c⟩
    simp only [slab, Rng.Mem, slabMax] at c
    by_contra hne
    rcases lt_or_gt_of_ne hne with h | h
    · have := slabMin_mono hl hs (r := r'+1) (r' := r) (by omega) (by omega); omega
    · have := slabMin_mono hl hs (r := r+1) (r' := r') (by omega) (by omega); omega

/-- C01 (nothing else): every cell of a slab is a cell of the domain. -/
theorem C01_slab_subset (span : Rng) (size rank : Int) (hs : 0 < size) (hl : 0 ≤ span.length)
    (h0 : 0 ≤ rank) (h1 : rank < size) (i : Int) (hi : (slab span rank size).Mem i) : span.Mem i := by
  simp only [slab, Rng.Mem, slabMax] at *
  have a := slabMin_mono hl hs (r := 0) (r' := rank) le_rfl h0
  have b := slabMin_mono hl hs (r := rank+1) (r' := size) (by omega) (by omega)
  rw [slabMin_zero] at a
  rw [slabMin_size hs] at b
  unfold Rng.length at *
  omega

/-- C01 (contiguity in rank order): first slab starts at the domain start, each slab starts right after
its predecessor, the last one ends at the domain end. -/
theorem C01_slab_contiguous (span : Rng) (size : Int) (hs : 0 < size) :
    (slab span 0 size).first = span.first ∧
    (slab span (size - 1) size).last = span.last ∧
    ∀ rank : Int, (slab span (rank + 1) size).first = (slab span rank size).last + 1 := by
  refine ⟨by simp [slab, slabMin_zero], ?_, ?_⟩
  · have := slabMin_size (span := span.length) hs
    simp only [slab, slabMax, sub_add_cancel, this]; unfold Rng.length; omega
  · intro rank; simp [slab, slabMax]; omega

/-- C01 (balance): slab lengths are `⌊N/size⌋` or `⌊N/size⌋ + 1`. -/
theorem C01_slab_balanced (span : Rng) (size rank : Int) (hs : 0 < size) (hl : 0 ≤ span.length)
    (h0 : 0 ≤ rank) :
    (slab span rank size).length = span.length / size ∨
    (slab span rank size).length = span.length / size + 1 := by
  have := slabMin_succ (size := size) hl h0 hs
  have e : (slab span rank size).length
      = slabMin span.length (rank + 1) size - slabMin span.length rank size := by
    simp [slab, slabMax, Rng.length]; ring
  omega

/-- C01 (no idle worker): every rank has at least one cell exactly when the constructor
check of `sharedmem` (size ≤ number of points) passes. -/
theorem C01_slab_nonempty_iff_ctor (N size : Int) (hs : 0 < size) (hN : 0 ≤ N) :
    (∀ rank : Int, 0 ≤ rank → rank < size → 1 ≤ (slab ⟨0, N - 1⟩ rank size).length) ↔
    sharedmemCtor N size = some () := by
  have hlen : (Rng.mk 0 (N-1)).length = N := by simp [Rng.length]
  have key : ∀ rank, (slab ⟨0, N - 1⟩ rank size).length
      = slabMin N (rank + 1) size - slabMin N rank size := by
    intro rank; simp only [slab, slabMax, hlen]; simp only [Rng.length]; ring
  constructor
  · intro h
    have : ∀ n : Nat, (n : Int) ≤ size → (n : Int) ≤ slabMin N n size := by
      intro n
      induction n with
      | zero => intro _; simp [slabMin_zero]
      | succ m ih =>
        intro hm
        have := h m (by omega) (by push_cast at hm; omega)
        rw [key] at this
        have := ih (by push_cast at hm; omega)
        push_cast; omega
    have := this size.toNat (by omega)
    rw [Int.toNat_of_nonneg hs.le, slabMin_size hs] at this
    simp [sharedmemCtor]; omega
  · intro h rank h0 h1
    have hle : size ≤ N := by
      simp [sharedmemCtor] at h; omega
    rw [key]
    have := (slabMin_succ (size := size) hN h0 hs).1
    have : 1 ≤ N / size := by rw [Int.le_ediv_iff_mul_le hs]; omega
    omega

/-- C01: in 1-D and 2-D without MPI the constructor accepts a team of threads exactly when each of them gets work. -/
theorem C01_no_idle_thread_1d_2d (nDims : Nat) (hd : nDims < 3) (grid : Nat → Int) (size : Int) (hs : 0 < size) (hN : 0 ≤ grid 0) :
    (∀ rank : Int, 0 ≤ rank → rank < size → 1 ≤ (threadRange nDims grid 0 1 rank size).length) ↔ sharedmemCtor (grid 0) size = some () := by
  have e : processRange grid (shmemDecompDim nDims) 0 1 = ⟨0, grid 0 - 1⟩ := by
    simp [shmemDecompDim, hd, processRange, slab, slabMin, slabMax, Rng.length]
  simp only [threadRange, e]
  exact C01_slab_nonempty_iff_ctor (grid 0) size hs hN

/-- C01 fails in 3-D: threads divide the second dimension but the constructor compares their number with the first one, so a team in
which some thread has no cells is accepted, and one in which all have cells is refused. -/
theorem C01_fails_3d_ctor_checks_wrong_dimension :
    (∃ grid : Nat → Int, ∃ size : Int, sharedmemCtor (grid 0) size = some () ∧
      ∃ rank, 0 ≤ rank ∧ rank < size ∧ (threadRange 3 grid 0 1 rank size).length = 0) ∧
    (∃ grid : Nat → Int, ∃ size : Int, sharedmemCtor (grid 0) size = none ∧
      ∀ rank, 0 ≤ rank → rank < size → 1 ≤ (threadRange 3 grid 0 1 rank size).length) := by
  refine ⟨⟨fun d => if d = 1 then 2 else 10, 4, by decide, 0, by decide, by decide, by decide⟩,
    ⟨fun d => if d = 1 then 10 else 2, 4, by decide, fun rank h0 h1 => ?_⟩⟩
  obtain rfl | rfl | rfl | rfl : rank = 0 ∨ rank = 1 ∨ rank = 2 ∨ rank = 3 := by omega
  all_goals decide

/-- C01 fails with MPI: the number of threads is compared with the size of the whole domain, not of the part of the process. -/
theorem C01_fails_mpi_ctor_checks_global_size :
    ∃ grid : Nat → Int, ∃ size psize : Int, sharedmemCtor (grid 0) size = some () ∧
      ∃ rank prank, (0 ≤ rank ∧ rank < size) ∧ (0 ≤ prank ∧ prank < psize) ∧ (threadRange 2 grid prank psize rank size).length = 0 :=
  ⟨fun _ => 8, 6, 4, by decide, 0, 0, by decide, by decide, by decide⟩

-- non-vacuity: 7 cells over 3 workers
example : (List.range 3).map (fun r => slab ⟨0, 6⟩ r 3) = [⟨0, 1⟩, ⟨2, 3⟩, ⟨4, 6⟩] := by decide
example : (0:Int) < 3 ∧ 0 ≤ (Rng.mk 0 6).length ∧ (Rng.mk 0 6).Mem 5 ∧ sharedmemCtor 7 3 = some () := by decide

end Mpdata
