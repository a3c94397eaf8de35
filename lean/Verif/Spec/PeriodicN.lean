import Verif.Model.Nabla
import Mathlib.Algebra.BigOperators.Group.Finset.Basic
import Mathlib.Data.Fintype.Pi
import Mathlib.Data.Int.Interval
/-! # Specification: periodic fields in any number of dimensions -/
namespace Mpdata

/-- `f` has period `P d` in dimension `d` -/
def PeriodicN {n : Nat} {V : Type} (P : Fin n → Nat) (f : (Fin n → Int) → V) : Prop := ∀ x d, f (stepIdx x d (P d)) = f x

/-- one period: the points `0 ≤ x d < P d`. On a cyclic grid of `N d` points the first and the last point are the same point of space, the period being
`N d - 1`. -/
def period {n : Nat} (P : Fin n → Nat) : Finset (Fin n → Int) := Fintype.piFinset fun d => Finset.Ico 0 (P d : Int)

end Mpdata
