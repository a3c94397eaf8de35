import Verif.Model.Donor
import Verif.Model.Range
/-! # Courant numbers, advector scaling and the adaptive time loop
Models `courant_number`, `max_abs_vctr_div`, `scale_gc` (solvers/detail/solver_{1,2,3}d.hpp) and the
variable-time-step parts of `hook_ante_loop` and `solve` (solvers/detail/solver_common.hpp). -/
namespace Mpdata
variable {K : Type} [Field K] [LinearOrder K]

/-- `mem->max(rank, stat_field(ijk))`: maximum over the cells of the subdomain(s) (concurr/detail/sharedmem.hpp:233-265).
Simplification: the two-stage reduction is collapsed to one fold, see C27. `cells` is non-empty. -/
def maxOver {I : Type} (cells : List I) (f : I → K) : K :=
  match cells with
  | [] => 0
  | c :: cs => cs.foldl (fun m x => max m (f x)) (f c)

/-- `courant_number`, 1-D (solver_1d.hpp:105-109); G is not used -/
def courant1 (cells : List Int) (GC : Int → K) : K :=
  maxOver cells (fun i => 1 / 2 * |GC i + GC (i - 1)|)

/-- `courant_number`, 2-D (solver_2d.hpp:295-302) -/
def courant2 (o : OptsT) (G : Int → Int → K) (cells : List (Int × Int)) (GC0 GC1 : Int → Int → K) : K :=
  maxOver cells (fun c => 1 / 2 * (|GC0 c.1 c.2 + GC0 (c.1 - 1) c.2| + |GC1 c.1 c.2 + GC1 c.1 (c.2 - 1)|) / gFac2 o 0 G c.1 c.2)

/-- `courant_number`, 3-D (solver_3d.hpp:390-398) -/
def courant3 (o : OptsT) (G : Int → Int → Int → K) (cells : List (Int × Int × Int)) (GC0 GC1 GC2 : Int → Int → Int → K) : K :=
  maxOver cells (fun c => 1 / 2 * (|GC0 c.1 c.2.1 c.2.2 + GC0 (c.1 - 1) c.2.1 c.2.2|
    + |GC1 c.1 c.2.1 c.2.2 + GC1 c.1 (c.2.1 - 1) c.2.2|
    + |GC2 c.1 c.2.1 c.2.2 + GC2 c.1 c.2.1 (c.2.2 - 1)|) / gFac3 o 0 G c.1 c.2.1 c.2.2)

/-- `max_abs_vctr_div`, 1-D (solver_1d.hpp:111-115); G is not used -/
def maxDiv1 (cells : List Int) (GC : Int → K) : K := maxOver cells (fun i => |GC i - GC (i - 1)|)

/-- `max_abs_vctr_div`, 2-D (solver_2d.hpp:304-311) -/
def maxDiv2 (o : OptsT) (G : Int → Int → K) (cells : List (Int × Int)) (GC0 GC1 : Int → Int → K) : K :=
  maxOver cells (fun c => |(GC0 c.1 c.2 - GC0 (c.1 - 1) c.2) + (GC1 c.1 c.2 - GC1 c.1 (c.2 - 1))| / gFac2 o 0 G c.1 c.2)

/-- `max_abs_vctr_div`, 3-D (solver_3d.hpp:400-409) -/
def maxDiv3 (o : OptsT) (G : Int → Int → Int → K) (cells : List (Int × Int × Int)) (GC0 GC1 GC2 : Int → Int → Int → K) : K :=
  maxOver cells (fun c => |(GC0 c.1 c.2.1 c.2.2 - GC0 (c.1 - 1) c.2.1 c.2.2)
    + (GC1 c.1 c.2.1 c.2.2 - GC1 c.1 (c.2.1 - 1) c.2.2)
    + (GC2 c.1 c.2.1 c.2.2 - GC2 c.1 c.2.1 (c.2.2 - 1))| / gFac3 o 0 G c.1 c.2.1 c.2.2)

/-- the divergence check of `hook_ante_loop` (solver_2d.hpp:279-293, solver_3d.hpp:375-388): `false` means that
`std::runtime_error("initial advector field is divergent")` is thrown. It is skipped with the dfl option; in 1-D there is none. -/
def divCheck (o : OptsT) (maxAbsDiv eps : K) : Bool := isset o oDfl || !(decide (maxAbsDiv > eps))

/-- `scale_gc` before the halo exchange, 1-D (solver_1d.hpp:121): faces `rng_t(first, last-1)^h` -/
def scaleGc1 (r : Rng) (ratio : K) (GC : Int → K) : Int → K :=
  fun i => if (Rng.mk r.first (r.last - 1)).extH.Mem i then GC i * ratio else GC i

/-- `hook_ante_loop` with `var_dt` in 1-D (solver_common.hpp:191-211): fill halos; if the Courant number is positive, rescale
`dt` and the advector and fill halos again. Returns `(dt, GC)`. -/
def anteLoopVarDt1 (r : Rng) (cells : List Int) (fillV : (Int → K) → (Int → K)) (maxCourant dt : K) (GC : Int → K) : K × (Int → K) :=
  let GC := fillV GC
  let cfl := courant1 cells GC
  if cfl > 0 then
    let dt' := dt * (maxCourant / cfl)
    (dt', fillV (scaleGc1 r (dt' / dt) GC))
  else (dt, GC)

/-- the do-while loop that adapts `dt` (solver_common.hpp:315-324) as a relation, because it need not terminate:
`cfl d` is the Courant number of the advector computed by `calc_gc` for time step `d`; `Adapt cfl mc d c d'` means that entered with
time step `d` and Courant number `c` it exits with time step `d'`. -/
inductive Adapt (cfl : K → K) (mc : K) : K → K → K → Prop
  | exit (d c : K) : ¬ (cfl (d * (mc / c)) > mc) → Adapt cfl mc d c (d * (mc / c))
  | again (d c d' : K) : cfl (d * (mc / c)) > mc → Adapt cfl mc (d * (mc / c)) (cfl (d * (mc / c))) d' → Adapt cfl mc d c d'

/-- the sequence of time steps tried by that loop -/
def adaptSeq (cfl : K → K) (mc : K) (d : K) : Nat → K
  | 0 => d
  | k + 1 => adaptSeq cfl mc d k * (mc / cfl (adaptSeq cfl mc d k))

/-- state of the variable-step time loop -/
structure VSt (K : Type) where
  time : K
  steps : Nat
  additional : Int

/-- one pass through the while body (solver_common.hpp:347-353): `dt k` is the step size of step `k` -/
def vBody (dt : Nat → K) (nt : K) (s : VSt K) : VSt K :=
  let time := s.time + dt s.steps
  { time := time, steps := s.steps + 1, additional := if time ≥ nt then s.additional - 1 else s.additional }

/-- the while loop of `solve` with var_dt (solver_common.hpp:293-354) with fuel: `none` if still running -/
def vLoop (dt : Nat → K) (nt : K) : Nat → VSt K → Option (VSt K)
  | 0, s => if s.time < nt ∨ s.additional > 0 then none else some s
  | f + 1, s => if s.time < nt ∨ s.additional > 0 then vLoop dt nt f (vBody dt nt s) else some s

/-- `solve(nt)` with var_dt (solver_common.hpp:270-358): `nt += time`, `additional_steps = out_intrp_ord` -/
def solveVar (dt : Nat → K) (ord : Nat) (fuel : Nat) (nt time : K) (steps : Nat) : Option (VSt K) :=
  vLoop dt (nt + time) fuel ⟨time, steps, ord⟩

/-- `scale(e, exp)` on one value (solver_common.hpp:374-379). Simplification: `1 << exp` is the exact power of two;
in C++ it is a 32-bit `int`, undefined for `|exp| ≥ 31`. -/
def scaleBy (exp : Int) (x : K) : K :=
  if exp = 0 then x else if exp > 0 then x / 2 ^ exp.toNat else x * 2 ^ (-exp).toNat

end Mpdata
