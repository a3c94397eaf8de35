import Verif.Model.BcKinds
import Verif.Model.Nabla
import Mathlib.Algebra.BigOperators.Fin
/-! What "the flow is non-divergent" means for velocities given at the points of a finite grid. -/
namespace Mpdata
variable {K : Type} [Field K] {n : Nat}

/-- difference of `m` per grid step in dimension `d` at the point `x` of a grid of `N d` points: centred inside; at the ends of a cyclic dimension, where the first and the last point are the same
location, centred across them; at walls and open boundaries one-sided -/
def slope (N : Fin n → Nat) (cyclic : Fin n → Prop) [DecidablePred cyclic] (m : Idx n → K) (d : Fin n) (x : Idx n) : K :=
  let at_ (k : Int) : K := m (stepIdx x d k)
  if x d = 0 then (if cyclic d then (at_ 1 - at_ ((N d : Int) - 2)) / 2 else at_ 1 - at_ 0)
  else if x d = (N d : Int) - 1 then (if cyclic d then (at_ (-((N d : Int) - 2)) - at_ (-1)) / 2 else at_ 0 - at_ (-1))
  else (at_ 1 - at_ (-1)) / 2

/-- divergence of the velocity `v` weighted with `G` (density times Jacobian): `div(G v) / G` -/
def flowDiv (N : Fin n → Nat) (cyclic : Fin n → Prop) [DecidablePred cyclic] (dx : Fin n → K) (G : Idx n → K) (v : Fin n → Idx n → K) (x : Idx n) : K :=
  (∑ d, slope N cyclic (fun y => G y * v d y) d x / dx d) / G x

end Mpdata
