import Verif.Basic
import Verif.Model.Opts
/-!
# Right-hand-side time integration (`solvers/mpdata_rhs.hpp`)

The state is the family of all equations' newest fields, `Nat → X → K` (equation, grid point).  Advection of all equations in one step
(`solve_loop_body` for all `e`) is an arbitrary function `adv`; the user's `update_rhs` override is the parent's zeroing followed by an
arbitrary function `force dt at psi rhs` of the state and the (zeroed) right-hand-side arrays.
Simplification: halos are not part of the state here (the exchange in `update_rhs`, mpdata_rhs.hpp:74, only fills halos).
-/
set_option linter.unusedSectionVars false
namespace Mpdata
variable {K : Type} [Field K] {X : Type}

/-- `rhs_scheme_t` (mpdata_rhs.hpp:19-25) without `mixed`, whose hooks are user code -/
inductive Scheme | eulerA | eulerB | trapez
  deriving DecidableEq

/-- advected fields `psi` and right-hand-side arrays `rhs`, by equation and grid point -/
structure RhsSt (K X : Type) where
  psi : Nat → X → K
  rhs : Nat → X → K

/-- what a program supplies: number of equations, the `hint_norhs` mask, advection, and the body of the `update_rhs` override
(the second argument is `true` for `at == n+1`) -/
structure RhsCfg (K X : Type) where
  nEqns : Nat
  norhs : Nat
  adv : (Nat → X → K) → (Nat → X → K)
  force : K → Bool → (Nat → X → K) → (Nat → X → K) → (Nat → X → K)

/-- `update_rhs(rhs, dt, at)`: zero the arrays of the equations that have a right-hand side (mpdata_rhs.hpp:63-71), then the override's body -/
def updateRhs (c : RhsCfg K X) (dt : K) (atNext : Bool) (s : RhsSt K X) : RhsSt K X :=
  let z : Nat → X → K := fun e x => if e < c.nEqns ∧ ¬ isset c.norhs (bit e) then 0 else s.rhs e x
  { s with rhs := c.force dt atNext s.psi z }

/-- `apply_rhs(dt_arg)` (mpdata_rhs.hpp:77-89) -/
def applyRhs (c : RhsCfg K X) (dt : K) (s : RhsSt K X) : RhsSt K X :=
  { s with psi := fun e x => if e < c.nEqns ∧ ¬ isset c.norhs (bit e) then s.psi e x + dt * s.rhs e x else s.psi e x }

/-- `hook_ante_loop` (mpdata_rhs.hpp:127-146) -/
def rhsAnteLoop (c : RhsCfg K X) (sch : Scheme) (dt : K) (s : RhsSt K X) : RhsSt K X :=
  match sch with
  | .eulerA => s
  | .eulerB => s
  | .trapez => updateRhs c (dt / 2) false s

/-- `hook_ante_step` (mpdata_rhs.hpp:148-174) -/
def rhsAnteStep (c : RhsCfg K X) (sch : Scheme) (dt : K) (s : RhsSt K X) : RhsSt K X :=
  match sch with
  | .eulerA => updateRhs c dt false s
  | .eulerB => applyRhs c dt (updateRhs c dt false s)
  | .trapez => applyRhs c (dt / 2) s

/-- `hook_post_step` (mpdata_rhs.hpp:176-195) -/
def rhsPostStep (c : RhsCfg K X) (sch : Scheme) (dt : K) (s : RhsSt K X) : RhsSt K X :=
  match sch with
  | .eulerA => applyRhs c dt s
  | .eulerB => s
  | .trapez => applyRhs c (dt / 2) (updateRhs c (dt / 2) true s)

/-- one step of the time loop as seen by this class (solver_common.hpp:329-351) -/
def rhsStep (c : RhsCfg K X) (sch : Scheme) (dt : K) (s : RhsSt K X) : RhsSt K X :=
  let s := rhsAnteStep c sch dt s
  let s := { s with psi := c.adv s.psi }
  rhsPostStep c sch dt s

/-- the first `n` steps, `hook_ante_loop` once before the first (solver_common.hpp:277-354). -/
def rhsRun (c : RhsCfg K X) (sch : Scheme) (dt : K) (n : Nat) (s : RhsSt K X) : RhsSt K X :=
  (rhsStep c sch dt)^[n] (rhsAnteLoop c sch dt s)

end Mpdata
