import Verif.Model.Nabla
import Verif.Model.Rhs
/-! # Shallow-water solver

Models `solvers/shallow_water.hpp` on top of `mpdata_rhs` (Model/Rhs.lean), in any number of dimensions (the code: 1 and 2). Equations `0 .. n-1` are the momenta
`qx, qy`, equation `n` is the depth `h` (the code leaves the numbering to the user's `ix`). Fields are on the whole (periodic) space. -/
namespace Mpdata
variable {K : Type} [Field K] {n : Nat}

/-- `update_rhs` of `shallow_water` after the parent's (shallow_water.hpp:110-134 in 1-D, 149-173 in 2-D): `rhs(q_d) -= g h grad_d h` -/
def swForce (g : K) (dx : Fin n → K) : K → Bool → (Nat → (Fin n → Int) → K) → (Nat → (Fin n → Int) → K) → (Nat → (Fin n → Int) → K) :=
  fun _ _ psi rhs e x => if h : e < n then rhs e x - g * psi n x * gradC ⟨e, h⟩ (dx ⟨e, h⟩) (psi n) x else rhs e x

/-- the solver, for any advection scheme -/
def swCfg (g : K) (dx : Fin n → K) (norhs : Nat) (adv : (Nat → (Fin n → Int) → K) → (Nat → (Fin n → Int) → K)) : RhsCfg K (Fin n → Int) where
  nEqns := n + 1
  norhs := norhs
  adv := adv
  force := swForce g dx

end Mpdata
