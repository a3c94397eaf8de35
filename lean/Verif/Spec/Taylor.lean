import Verif.Basic
import Mathlib.Algebra.BigOperators.Group.Finset.Basic
/-! # Specification: Taylor coefficients and orders of magnitude
Smooth functions enter the accuracy properties only through their Taylor coefficients up to third order. -/
namespace Mpdata
variable {K : Type} [Field K] [LinearOrder K]

/-- `f h = O(h^n)` for small positive `h` -/
def BigO (n : Nat) (f : K → K) : Prop := ∃ M h0 : K, 0 < h0 ∧ ∀ h, 0 < h → h ≤ h0 → |f h| ≤ M * h ^ n

/-- Taylor coefficients of a function of two variables: `a m n` belongs to `x^m t^n` -/
abbrev Ser2 (K : Type) := Nat → Nat → K

namespace Ser2
/-- product of two functions -/
def mul (a b : Ser2 K) : Ser2 K := fun m n => ∑ i ∈ Finset.range (m + 1), ∑ j ∈ Finset.range (n + 1), a i j * b (m - i) (n - j)
/-- derivative with respect to the first variable -/
def dx (a : Ser2 K) : Ser2 K := fun m n => (m + 1) * a (m + 1) n
/-- derivative with respect to the second variable -/
def dt (a : Ser2 K) : Ser2 K := fun m n => (n + 1) * a m (n + 1)
/-- the Taylor polynomial of degree 3 -/
def poly (a : Ser2 K) (x t : K) : K :=
  a 0 0 + (a 1 0 * x + a 0 1 * t) + (a 2 0 * x ^ 2 + a 1 1 * x * t + a 0 2 * t ^ 2) + (a 3 0 * x ^ 3 + a 2 1 * x ^ 2 * t + a 1 2 * x * t ^ 2 + a 0 3 * t ^ 3)
end Ser2

/-- `a` are the Taylor coefficients of `f` at the origin, up to third order -/
def Taylor2 (f : K → K → K) (a : Ser2 K) : Prop :=
  ∃ M r : K, 0 < r ∧ ∀ x t, |x| ≤ r → |t| ≤ r → |f x t - a.poly x t| ≤ M * (|x| + |t|) ^ 4

end Mpdata
