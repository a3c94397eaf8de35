import Verif.Model.VipProg
import Verif.Model.ShallowWater
/-! # The shallow-water solver as a whole program

Models `solvers/shallow_water.hpp` on top of the time loop of Model/VipProg.lean: what `shallow_water` fixes among the things a user of `mpdata_rhs_vip` supplies. -/
namespace Mpdata.VP
variable {K : Type} [Field K] {n : Nat}

/-- 1-D `update_rhs` after the parent's (shallow_water.hpp:110-134): `rhs(qx)(i) -= g h(i) grad(h, i, di)` -/
def swForce1 (g : K) (dx : Fin 1 → K) : K → Bool → (Nat → Int → K) → (Nat → Int → K) → (Nat → Int → K) :=
  fun _ _ psi rhs e i => if e = 0 then rhs e i - g * psi 1 i * ((psi 1 (i + 1) - psi 1 (i - 1)) / dx 0 / 2) else rhs e i

/-- 1-D: `{qx, h}` (shallow_water.hpp:103-109); the momentum is the velocity variable, the depth its density. Numbering: `qx = 0`, `h = 1` (the code leaves it to the user's `ix`).
Everything else is taken from `u`. -/
def swUser1 (g : K) (u : User K Int 1) : User K Int 1 := { u with nEqns := 2, vip := fun _ => 0, den := some 1, force := swForce1 g u.dx }

/-- 2-D: `{qx, qy, h}` (shallow_water.hpp:136-173), written for `n` dimensions as `swForce` is. Numbering: momenta `0 .. n-1`, depth `n`. -/
def swUserN (g : K) (u : User K (Idx n) n) : User K (Idx n) n := { u with nEqns := n + 1, vip := fun d => d.1, den := some n, force := swForce g u.dx }

/-- the calls of `update_rhs` in a run of `t` steps as pairs (`this->timestep`, whether `at == n+1`): `hook_ante_loop`, then `hook_ante_step` and, after `timestep++`, `hook_post_step`
of every step (mpdata_rhs.hpp:127-195, solver_common.hpp:306-351) -/
def rhsCalls (sch : Scheme) : Nat → List (Nat × Bool)
  | 0 => if sch = .trapez then [(0, false)] else []
  | t + 1 => rhsCalls sch t ++ match sch with
    | .eulerA => [(t, false)]
    | .eulerB => [(t, false)]
    | .trapez => [(t + 1, true)]

/-- the assertion in `shallow_water_common::update_rhs` (shallow_water.hpp:66-70) -/
def swAssert (q : Nat × Bool) : Bool := (q.1 == 0 && !q.2) || (decide (0 < q.1) && q.2)

end Mpdata.VP
