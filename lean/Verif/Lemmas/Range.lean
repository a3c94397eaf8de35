import Verif.Model.Range
/-! Arithmetic of the slab bounds. -/
namespace Mpdata

theorem slabMin_eq_ediv {span rank size : Int} (hs : 0 ≤ span) (hr : 0 ≤ rank) :
    slabMin span rank size = rank * span / size := by
  unfold slabMin
  exact Int.tdiv_eq_ediv_of_nonneg (Int.mul_nonneg hr hs)

theorem slabMin_zero (span size : Int) : slabMin span 0 size = 0 := by simp [slabMin]

theorem slabMin_size {span size : Int} (h : 0 < size) : slabMin span size size = span := by
  unfold slabMin
  exact Int.mul_tdiv_cancel_left _ (by omega)

/-- the successor bound is larger by at least `span/size` and by at most `span/size + 1` -/
theorem slabMin_succ {span rank size : Int} (hs : 0 ≤ span) (hr : 0 ≤ rank) (hz : 0 < size) :
    slabMin span rank size + span / size ≤ slabMin span (rank + 1) size ∧
    slabMin span (rank + 1) size ≤ slabMin span rank size + span / size + 1 := by
  rw [slabMin_eq_ediv hs hr, slabMin_eq_ediv hs (by omega)]
  have e : (rank + 1) * span = rank * span + span := by ring
  rw [e]
  generalize rank * span = a
  have h1 := Int.mul_ediv_add_emod a size
  have h2 := Int.mul_ediv_add_emod span size
  have h3 := Int.emod_nonneg a (show size ≠ 0 by omega)
  have h4 := Int.emod_lt_of_pos a hz
  have h5 := Int.emod_nonneg span (show size ≠ 0 by omega)
  have h6 := Int.emod_lt_of_pos span hz
  constructor
  · rw [Int.le_ediv_iff_mul_le hz]; nlinarith
  · have : (a + span) / size < a / size + span / size + 2 := by
      rw [Int.ediv_lt_iff_lt_mul hz]; nlinarith
    omega

theorem slabMin_mono {span size : Int} (hs : 0 ≤ span) (hz : 0 < size) {r r' : Int}
    (hr : 0 ≤ r) (h : r ≤ r') : slabMin span r size ≤ slabMin span r' size := by
  rw [slabMin_eq_ediv hs hr, slabMin_eq_ediv hs (by omega)]
  exact Int.ediv_le_ediv hz (by nlinarith)

/-- staircase lemma: a monotone integer sequence from `f 0` to `f n` locates every point -/
theorem exists_step (f : Int → Int) (n : Nat) (x : Int) (h0 : f 0 ≤ x) (h1 : x < f n) :
    ∃ r : Int, 0 ≤ r ∧ r < n ∧ f r ≤ x ∧ x < f (r + 1) := by
  induction n with
  | zero => simp at h1; omega
  | succ m ih =>
    by_cases h : x < f m
    · obtain ⟨r, a, b, c, d⟩ := ih h
      exact ⟨r, a, by push_cast; omega, c, d⟩
    · exact ⟨m, by omega, by push_cast; omega, by omega, by push_cast at h1; exact h1⟩

end Mpdata
