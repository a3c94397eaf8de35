import Verif.Model.VarDt
import Verif.Model.AdvopN
/-! # Courant number, advector scaling and start-up of the adaptive time loop in 2-D and 3-D
The counterparts of `courant1`, `scaleGc1` and `anteLoopVarDt1` (Model/VarDt.lean) on fields of any number of dimensions. -/
namespace Mpdata
section
variable {n : Nat} {K : Type} [Field K] [LinearOrder K]

/-- `courant_number` (solver_2d.hpp:295-302, solver_3d.hpp:390-398) -/
def courantN (o : OptsT) (G : Sca n K) (cells : List (Idx n)) (GC : Vec n K) : K :=
  maxOver cells (fun x => 1 / 2 * (∑ d, |GC d x + GC d (stepIdx x d (-1))|) / gFacN o G x)

/-- the multiplications of `scale_gc` (solver_2d.hpp:317-318, solver_3d.hpp:415-417): in dimension `d` the faces `rng_t(first, last-1)^h`, in the others `ijk` -/
def scaleGcN (b : Fin n → Rng) (ratio : K) (GC : Vec n K) : Vec n K := fun d =>
  asgN (Bx b (fun e => if e = d then 1 else 0) (fun e => if e = d then -1 else 0)) (fun x => GC d x * ratio) (GC d)

/-- `hook_ante_loop` of `solver_common` with `var_dt` (solver_common.hpp:191-211): fill the halos of the advector; if the Courant number is positive, change `dt` and call
`scale_gc` (solver_2d.hpp:313-322, solver_3d.hpp:411-421), which multiplies the advector and fills its halos again. Returns `(dt, GC)`.
Simplification: one thread. -/
def anteLoopVarDtN (o : OptsT) (G : Sca n K) (b : Fin n → Rng) (halo : Int) (cells : List (Idx n)) (fillA : Vec n K → Vec n K) (fillN : Int → Vec n K → Vec n K)
    (maxCourant dt : K) (GC : Vec n K) : K × Vec n K :=
  let GC := fillA GC
  let cfl := courantN o G cells GC
  if cfl > 0 then
    let dt' := dt * (maxCourant / cfl)
    (dt', fillN (halo - 1) (fillA (scaleGcN b (dt' / dt) GC)))
  else (dt, GC)

/-- the memory with which the time loop starts in a solver with `var_dt`: `hook_ante_loop` of `solver_common` and then the refilling of the advector halos in that of
`mpdata_osc` (mpdata_osc_2d.hpp:43-51, mpdata_osc_3d.hpp:44-52) -/
def startVarDt (c : CfgN n K) (cells : List (Idx n)) (mc dt : K) (m : MemN n K) : MemN n K :=
  let GC := (anteLoopVarDtN c.o c.st.G c.box (solverHalo c.o) cells (c.fillA false) c.fillN mc dt m.GC).2
  { m with GC := c.fillN ((solverHalo c.o : Int) - 1) GC }

end
end Mpdata
