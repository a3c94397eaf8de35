import Verif.Model.PrsProg
import Verif.Model.Nabla
/-! # Boussinesq solvers as programs

Models `solvers/detail/boussinesq_common.hpp`, `boussinesq_expl.hpp` and `boussinesq_impl.hpp` with `sgs_scheme == iles` on top of the incompressible solver `PP`
(`mpdata_rhs_vip_prs_sgs` is then `mpdata_rhs_vip_prs`).

`this->dt` in `update_rhs(.., 1)`: only the trapezoidal scheme calls it with `at == 1`, and then with half the time step as argument (mpdata_rhs.hpp:187-190). -/
namespace Mpdata
namespace PP
variable {K : Type} [Field K] [LinearOrder K] {n : Nat} [NeZero n]

/-- the vertical dimension, `n_dims - 1` (boussinesq_expl.hpp:93, boussinesq_impl.hpp:71, 93, 123) -/
def vert (n : Nat) [NeZero n] : Fin n := ⟨n - 1, by have := NeZero.pos n; omega⟩

/-- parameters and arrays of `boussinesq_common` (boussinesq_common.hpp:26-27); `tht` is `ix::tht`; `filter` and `tmp` are `buoy_filter` and what `tmp1` holds outside the grid
(boussinesq_expl.hpp:34-35). Simplification: `tmp` is the same at all times; the exchange overwrites what is read of it. -/
structure Bous (K : Type) (n : Nat) where
  tht : Nat
  g : K
  Tref : K
  thtE : Idx n → K
  thtAbs : Idx n → K
  hflux : Idx n → K
  filter : Bool
  tmp : Idx n → K

/-- `arr(ijk) += e` for one of the right-hand sides -/
def addRhs (grid : Idx n → Bool) (i : Nat) (v : Idx n → K) (z : Nat → Idx n → K) : Nat → Idx n → K :=
  fun e x => if e = i then (if grid x then z e x + v x else z e x) else z e x

/-- `tht` divided by the implicit absorber, minus the environment, at the new time level (boussinesq_expl.hpp:67-71, 115-119) -/
def thtAt1 (b : Bous K n) (dt : K) (tht : Idx n → K) (x : Idx n) : K :=
  (tht x + 1 / 2 * dt * b.hflux x + 1 / 2 * dt * b.thtAbs x * b.thtE x) / (1 + 1 / 2 * dt * b.thtAbs x) - b.thtE x

/-- `buoy_at_0`, `buoy_at_1` (boussinesq_expl.hpp:53-74) -/
def buoyE (b : Bous K n) (dt : K) (at1 : Bool) (tht : Idx n → K) (x : Idx n) : K :=
  if at1 then b.g * thtAt1 b dt tht x / b.Tref else b.g * (tht x - b.thtE x) / b.Tref

/-- `tmp1(ijk) = ..; filter()` (boussinesq_expl.hpp:37-51, 107-109, 127-129) -/
def buoyFilt (grid : Idx n → Bool) (xchng : (Idx n → K) → (Idx n → K)) (tmp f : Idx n → K) (x : Idx n) : K :=
  let t := xchng (fun x => if grid x then f x else tmp x)
  1 / 4 * (t (stepIdx x (vert n) 1) + 2 * t x + t (stepIdx x (vert n) (-1)))

/-- `update_rhs` of the explicit variant (boussinesq_expl.hpp:80-133) -/
def forceExpl (b : Bous K n) (w : Nat) (grid : Idx n → Bool) (xchng : (Idx n → K) → (Idx n → K)) (dt : K) (at1 : Bool) (psi z : Nat → Idx n → K) : Nat → Idx n → K :=
  let tht := psi b.tht
  let z := addRhs grid b.tht (fun x => b.hflux x - b.thtAbs x * (if at1 then thtAt1 b (2 * dt) tht x else tht x - b.thtE x)) z
  addRhs grid w (if b.filter then buoyFilt grid xchng b.tmp (buoyE b (2 * dt) at1 tht) else buoyE b (2 * dt) at1 tht) z

/-- the explicit solver -/
def bsqExpl (u : VP.User K (Idx n) n) (b : Bous K n) (N : Fin n → Nat) (kind : Fin n → BcKind) (halo : Int) (a : CfgN n K) (tol : K) (cap : Nat) (prs : Scheme) : Cfg K n (MemN n K) :=
  solver { u with force := forceExpl b (u.vip (vert n)) (fun x => decide (cellBox a.box x)) a.fillS } N kind halo a tol cap prs

/-- `calc_dtht_e` (boussinesq_impl.hpp:38-50) -/
def dthtE (u : VP.User K (Idx n) n) (b : Bous K n) (a : CfgN n K) (x : Idx n) : K := calcGrad u.dx (a.fillS b.thtE) (vert n) x

/-- `update_rhs` of the implicit variant (boussinesq_impl.hpp:84-117) -/
def forceImpl (b : Bous K n) (w : Nat) (grid : Idx n → Bool) (dE : Idx n → K) (dt : K) (at1 : Bool) (psi z : Nat → Idx n → K) : Nat → Idx n → K :=
  if at1 then
    let z := addRhs grid b.tht b.hflux z
    addRhs grid w (fun x => b.g * (psi b.tht x + 1 / 2 * (2 * dt) * z b.tht x) / (b.Tref * (1 + 1 / 2 * (2 * dt) * b.thtAbs x))) z
  else
    let z := addRhs grid b.tht (fun x => - psi w x * dE x + b.hflux x - b.thtAbs x * psi b.tht x) z
    addRhs grid w (fun x => b.g * psi b.tht x / b.Tref) z

/-- `normalize_vip` of the implicit variant (boussinesq_impl.hpp:63-82) -/
def nrmImpl (u : VP.User K (Idx n) n) (b : Bous K n) (dE : Idx n → K) (dt : K) (d : Fin n) (x : Idx n) : K :=
  if u.vab = .impl then
    if d = vert n then 1 / (1 + 1 / 2 * dt * u.coeff x + 1 / 4 * dt * dt * b.g / b.Tref * dE x / (1 + 1 / 2 * dt * b.thtAbs x)) else 1 / (1 + 1 / 2 * dt * u.coeff x)
  else if d = vert n then 1 / (1 + 1 / 4 * dt * dt * b.g / b.Tref * dE x / (1 + 1 / 2 * dt * b.thtAbs x)) else 1

/-- what `vip_rhs_impl_fnlz` of the implicit variant does after the parent's (boussinesq_impl.hpp:119-130) -/
def postImpl {T : Type} (b : Bous K n) (w : Nat) (grid : Idx n → Bool) (dE : Idx n → K) (dt : K) (s : VP.St K (Idx n) n T) : VP.St K (Idx n) n T :=
  let s := { s with psi := fun e x => if e = b.tht then (if grid x then (s.psi e x - 1 / 2 * dt * s.psi w x * dE x) / (1 + 1 / 2 * dt * b.thtAbs x) else s.psi e x) else s.psi e x }
  { s with rhs := addRhs grid b.tht (fun x => - s.psi w x * dE x - b.thtAbs x * s.psi b.tht x) s.rhs }

/-- the implicit solver -/
def bsqImpl (u : VP.User K (Idx n) n) (b : Bous K n) (N : Fin n → Nat) (kind : Fin n → BcKind) (halo : Int) (a : CfgN n K) (tol : K) (cap : Nat) (prs : Scheme) : Cfg K n (MemN n K) :=
  { solver { u with force := forceImpl b (u.vip (vert n)) (fun x => decide (cellBox a.box x)) (dthtE u b a) } N kind halo a tol cap prs with
    nrm := nrmImpl u b (dthtE u b a)
    post := postImpl b (u.vip (vert n)) (fun x => decide (cellBox a.box x)) (dthtE u b a) }

end PP
end Mpdata
