import Verif.Model.Donor
/-! Facts about the donor-cell kernel. -/
set_option linter.unusedSectionVars false
namespace Mpdata
variable {K : Type} [Field K] [LinearOrder K] [IsStrictOrderedRing K]

theorem pospart_eq (o : OptsT) (x : K) : pospart o x = max 0 x := by
  unfold pospart
  split
  · rcases le_total 0 x with h | h
    · rw [abs_of_nonneg h, max_eq_right h]; ring
    · rw [abs_of_nonpos h, max_eq_left h]; ring
  · rfl

theorem negpart_eq (o : OptsT) (x : K) : negpart o x = min 0 x := by
  unfold negpart
  split
  · rcases le_total 0 x with h | h
    · rw [abs_of_nonneg h, min_eq_left h]; ring
    · rw [abs_of_nonpos h, min_eq_right h]; ring
  · rfl

theorem pospart_nonneg (o : OptsT) (x : K) : 0 ≤ pospart o x := by rw [pospart_eq]; exact le_max_left _ _
theorem negpart_nonpos (o : OptsT) (x : K) : negpart o x ≤ 0 := by rw [negpart_eq]; exact min_le_left _ _
theorem pos_add_neg (o : OptsT) (x : K) : pospart o x + negpart o x = x := by
  rw [pospart_eq, negpart_eq]
  rcases le_total 0 x with h | h
  · rw [max_eq_right h, min_eq_left h]; ring
  · rw [max_eq_left h, min_eq_right h]; ring
theorem pos_sub_neg (o : OptsT) (x : K) : pospart o x - negpart o x = |x| := by
  rw [pospart_eq, negpart_eq]
  rcases le_total 0 x with h | h
  · rw [max_eq_right h, min_eq_left h, abs_of_nonneg h]; ring
  · rw [max_eq_left h, min_eq_right h, abs_of_nonpos h]; ring

theorem kahanSum_foldl (xs : List K) (s : K) : (xs.foldl kahanAdd (0, s)) = (0, s + xs.sum) := by
  induction xs generalizing s with
  | nil => simp
  | cons x xs ih =>
    have : kahanAdd (0, s) x = (0, s + x) := by
      unfold kahanAdd; ext <;> simp
    rw [List.foldl_cons, this, ih, List.sum_cons, add_assoc]

theorem kahanSum_eq (xs : List K) : kahanSum xs = xs.sum := by
  unfold kahanSum; rw [kahanSum_foldl]; simp

theorem donorSum1_eq (o : OptsT) (p f1 f2 g : K) : donorSum1 o p f1 f2 g = p + (-f1 + f2) / g := by
  unfold donorSum1; split
  · rw [kahanSum_eq]; simp; ring
  · rfl
theorem donorSum2_eq (o : OptsT) (p f1 f2 f3 f4 g : K) :
    donorSum2 o p f1 f2 f3 f4 g = p + ((-f1 + f2) + (-f3 + f4)) / g := by
  unfold donorSum2; split
  · rw [kahanSum_eq]; simp; ring
  · rfl
theorem donorSum3_eq (o : OptsT) (p f1 f2 f3 f4 f5 f6 g : K) :
    donorSum3 o p f1 f2 f3 f4 f5 f6 g = p + ((-f1 + f2) + (-f3 + f4) + (-f5 + f6)) / g := by
  unfold donorSum3; split
  · rw [kahanSum_eq]; simp; ring
  · rfl

/-- telescoping of face differences -/
theorem sum_face_diff (F : Int → K) (f : Int) (n : Nat) :
    ∑ i ∈ Finset.range n, (-(F (f + i)) + F (f + i - 1)) = F (f - 1) - F (f + n - 1) := by
  induction n with
  | zero => simp
  | succ n ih =>
    rw [Finset.sum_range_succ, ih]
    have : f + ((n + 1 : Nat) : Int) - 1 = f + n := by push_cast; ring
    rw [this]; ring

/-- contribution of one dimension: with donor fluxes at the two faces of a cell, what flows out is proportional
to the cell's own value and what flows in to the neighbours' values -/
theorem donor_pair (o : OptsT) (pl p pr cl cr : K) :
    -(donorF o p pr cr) + donorF o pl p cl
      = -(pospart o cr - negpart o cl) * p + pospart o cl * pl + (-(negpart o cr)) * pr := by
  unfold donorF; ring

end Mpdata
