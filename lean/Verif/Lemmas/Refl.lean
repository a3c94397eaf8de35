import Verif.Model.Antidiff1
import Mathlib.Tactic.Ring
/-! # Helpers for mirror symmetry: index arithmetic and fractions -/
namespace Mpdata
variable {K : Type} [Field K] [LinearOrder K]

theorem frac_congr_even (o : OptsT) (t : K) {a b a' b' : K} (ha : a' = a) (hb : b' = b) : frac o t a' b' = frac o t a b := by rw [ha, hb]
theorem frac_congr_odd (o : OptsT) (t : K) {a b a' b' : K} (ha : a' = -a) (hb : b' = b) : frac o t a' b' = -frac o t a b := by
  subst ha; subst hb
  unfold frac
  split_ifs <;> ring1
theorem cfrac_even (o : OptsT) (t c : K) {a b a' b' : K} (ha : a' = a) (hb : b' = b) : c * frac o t a' b' = c * frac o t a b := by rw [ha, hb]
theorem cfrac_odd (o : OptsT) (t c : K) {a b a' b' : K} (ha : a' = -a) (hb : b' = b) : c * frac o t a' b' = -(c * frac o t a b) := by
  rw [frac_congr_odd o t ha hb]; ring1

theorem ri1 (i : Int) : -(i + 1) + 1 = -i := by ring
theorem ri2 (i : Int) : -(i + 2) + 1 = -i - 1 := by ring
theorem ri3 (i : Int) : -(i - 1) + 1 = -i + 2 := by ring
theorem ri4 (i : Int) : -(i + 1) = -i - 1 := by ring
theorem ri5 (i : Int) : -(i - 1) = -i + 1 := by ring
theorem ri6 (i : Int) : -i - 1 + 1 = -i := by ring
theorem ri7 (i : Int) : -i + 1 - 1 = -i := by ring
theorem ri8 (i : Int) : -i + 1 + 1 = -i + 2 := by ring
theorem ri9 (i : Int) : -i - 1 - 1 = -i - 2 := by ring
theorem ri10 (i : Int) : -i - 2 + 1 = -i - 1 := by ring
theorem ri11 (i : Int) : -i + 2 - 1 = -i + 1 := by ring

macro "refl_close" : tactic => `(tactic| ((try split_ifs) <;> first
  | rfl | ring1
  | exact cfrac_even _ _ _ (by ring1) (by ring1) | exact cfrac_odd _ _ _ (by ring1) (by ring1)
  | exact frac_congr_even _ _ (by ring1) (by ring1) | exact frac_congr_odd _ _ (by ring1) (by ring1)))
end Mpdata
