import Verif.Basic
import Mathlib.Algebra.BigOperators.Group.Finset.Basic
/-! # Discrete gradient and divergence

Models `formulae/nabla_formulae.hpp` for any number of dimensions at once (the code has separate 1-D, 2-D and 3-D versions of the same formulae; `pi<d>` index
permutations are resolved, see C46). A point is a map from dimensions to indices. -/
namespace Mpdata

/-- `x` moved by `k` cells in dimension `d` -/
def stepIdx {n : Nat} (x : Fin n → Int) (d : Fin n) (k : Int) : Fin n → Int := fun e => if e = d then x e + k else x e

section
variable {K : Type} [Field K] {n : Nat}

/-- `nabla::grad<d>` (nabla_formulae.hpp:22-70) -/
def gradC (d : Fin n) (dx : K) (a : (Fin n → Int) → K) (x : Fin n → Int) : K := (a (stepIdx x d 1) - a (stepIdx x d (-1))) / dx / 2

/-- `nabla::grad_cmpct<d>` (nabla_formulae.hpp:72-120); the value belongs to face `x + 1/2` in dimension `d`, stored at index `x` -/
def gradCmpct (d : Fin n) (dx : K) (a : (Fin n → Int) → K) (x : Fin n → Int) : K := (a (stepIdx x d 1) - a x) / dx

/-- `nabla::calc_grad` (nabla_formulae.hpp:125-146) -/
def calcGrad (dx : Fin n → K) (a : (Fin n → Int) → K) (d : Fin n) (x : Fin n → Int) : K := gradC d (dx d) a x

/-- `nabla::div` (nabla_formulae.hpp:168-199) -/
def divC (dx : Fin n → K) (v : Fin n → (Fin n → Int) → K) (x : Fin n → Int) : K :=
  ∑ d, (v d (stepIdx x d 1) - v d (stepIdx x d (-1))) / dx d / 2
end
end Mpdata
