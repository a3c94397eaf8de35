import Verif.Model.VipProg
import Verif.Model.Prs
import Verif.Model.Fills
import Verif.Model.BcKinds
/-! # An incompressible solver as one program

Models `solver_common::solve` run by a solver derived from `mpdata_rhs_vip_prs` with the minimal-residual, conjugate-residual or generalised conjugate-residual pressure scheme: the time loop of `VP` with the hooks that
`solvers/detail/mpdata_rhs_vip_prs_common.hpp` overrides.

`normalize_vip` and what an override of `vip_rhs_impl_fnlz` adds are parameters; the base-class versions are `nrmBase` and nothing.

Simplifications: those of `VP` and `Prs` (one subdomain; the two sides of a dimension have the same kind of boundary); the velocities themselves are advected (`vip_den == -1`). -/
namespace Mpdata
namespace PP

/-- the pressure schemes (mpdata_rhs_vip_prs.hpp:17-23): `mr`, and `gcrk` with `k + 1` search directions; `cr` is `gcrk` with one (mpdata_rhs_vip_prs.hpp:55-66) -/
inductive Scheme | mr | gcr (k : Nat)

/-- parameters of the solver -/
structure Cfg (K : Type) (n : Nat) (T : Type) extends VP.Cfg K (Idx n) n T where
  /-- number of grid points in every dimension -/
  N : Fin n → Nat
  /-- kind of the two boundaries of every dimension -/
  kind : Fin n → BcKind
  /-- `err_tol` (mpdata_rhs_vip_prs_common.hpp:205: `prs_tol` over the initial time step) -/
  tol : K
  /-- the cap on iterations (mpdata_rhs_vip_prs_common.hpp:120) -/
  cap : Nat
  /-- pressure scheme -/
  prs : Scheme
  /-- `normalize_vip` with the given time step: the factor of a component at a point -/
  nrm : K → Fin n → Idx n → K
  /-- what an override of `vip_rhs_impl_fnlz` does after calling the version modelled here -/
  post : K → VP.St K (Idx n) n T → VP.St K (Idx n) n T

/-- memory: that of the parent solver, `Phi`, the last `beta`, the saved edge velocities of open boundaries, and what the conjugate-residual schemes keep between calls: `alpha`, `tmp_den`, `p_err`,
`lap_p_err` (mpdata_rhs_vip_prs_gcrk.hpp:34-37) -/
structure St (K : Type) (n : Nat) (T : Type) extends VP.St K (Idx n) n T where
  Phi : Idx n → K
  beta : K
  edge : Fin n → Idx n → K
  alpha : Nat → K
  tmpDen : Nat → K
  pErr : Nat → Idx n → K
  lapErr : Nat → Idx n → K

section
variable {K : Type} [Field K] [LinearOrder K] {n : Nat} {T : Type}

/-- `normalize_vip` of the base class (mpdata_rhs_vip_common.hpp:238-247) -/
def nrmBase (u : VP.User K (Idx n) n) (dt : K) (_ : Fin n) (x : Idx n) : K := if u.vab = .impl then 1 / (1 + 1 / 2 * dt * u.coeff x) else 1

/-- what the pressure operator needs -/
def prsCfg (c : Cfg K n T) (dt : K) (edge : Fin n → Idx n → K) : Prs.Cfg K n where
  N := c.N
  bc d := if c.kind d = .cyclic then .cyclic else .wall
  dx := c.dx
  G := c.G
  nrm := c.nrm dt
  edge := edge

/-- `save_edges` (solver_2d.hpp:239-252): open boundaries store the velocity (open_2d.hpp:51-59), rigid ones prescribe 0 (rigid_2d.hpp:50-56) -/
def saveEdges (c : Cfg K n T) (psi : Nat → Idx n → K) : Fin n → Idx n → K := fun d x => if c.kind d = .opened then psi (c.vip d) x else 0

/-- velocity components -/
def vips (c : Cfg K n T) (psi : Nat → Idx n → K) : Fin n → Idx n → K := fun d => psi (c.vip d)

/-- write to the grid points -/
def put (N : Fin n → Nat) (a : Idx n → K) (v : Prs.Pts N → K) (x : Idx n) : K := if h : Prs.inBox N x then v ⟨x, h⟩ else a x

/-- `pressure_solver_update(simple)` (mpdata_rhs_vip_prs_common.hpp:101-131); `none`: the exception -/
def solve (c : Cfg K n T) (ne : Nonempty (Prs.Pts c.N)) (dt : K) (simple : Bool) (s : St K n T) : Option (St K n T) :=
  let pc := prsCfg c dt s.edge
  let u := vips c s.psi
  haveI : Nonempty (Prs.Pts pc.N) := ne
  match c.prs with
  | .mr =>
    match Prs.mrUpdate (pc.lapG true simple u) (pc.lapG false simple u) c.tol c.cap (fun x => s.Phi x.1) s.beta with
    | none => none
    | some m => some { s with Phi := put c.N s.Phi m.Phi, beta := m.beta }
  | .gcr k =>
    match Prs.gcrUpdate (pc.lapG true simple u) (pc.lapG false simple u) c.tol (k + 1) c.cap ⟨fun _ => 0, fun _ => 0, s.beta, s.alpha, s.tmpDen, fun l x => s.pErr l x.1, fun l x => s.lapErr l x.1, false⟩
      (fun x => s.Phi x.1) with
    | none => none
    | some m => some { s with
        Phi := put c.N s.Phi m.Phi, beta := m.beta, alpha := m.alpha, tmpDen := m.den, pErr := fun l => put c.N (s.pErr l) (m.p l), lapErr := fun l => put c.N (s.lapErr l) (m.lp l) }

/-- `pressure_solver_apply`, `normalize_vip` unless `simple`, `set_edges(vips, ijk, 1)` (mpdata_rhs_vip_prs_common.hpp:133-139, 154-155, 180-182) -/
def apply (c : Cfg K n T) (dt : K) (simple : Bool) (s : St K n T) : St K n T :=
  { s with psi := VP.asgVip c.toCfg (fun d x v => (prsCfg c dt s.edge).newVel simple (fun _ _ => v) s.Phi d x) s.psi }

/-- `ini_pressure` (mpdata_rhs_vip_prs_common.hpp:84-97) -/
def iniPressure (c : Cfg K n T) (s : St K n T) : St K n T :=
  let P : Idx n → K := fun x => 0 - ∑ d, 1 / 2 * (s.psi (c.vip d) x) ^ 2
  let mean := (∑ x : Prs.Pts c.N, P x.1) / (∏ d, (c.N d : K))
  { s with Phi := VP.asgG c.toCfg (fun x => P x - mean) s.Phi }

/-- `hook_ante_loop` (mpdata_rhs_vip_prs_common.hpp:141-170) -/
def anteLoop (c : Cfg K n T) (ne : Nonempty (Prs.Pts c.N)) (dt : K) (s : St K n T) : Option (St K n T) :=
  let s := { s with edge := saveEdges c s.psi }
  let s := { s with Phi := VP.asgG c.toCfg (fun _ => 0) s.Phi }
  match solve c ne dt true s with
  | none => none
  | some s =>
    let s := apply c dt true s
    let s := { s with toSt := VP.anteLoop c.toCfg dt s.toSt }
    let s := iniPressure c s
    some { s with vrhs := fun d => VP.asgG c.toCfg (fun x => s.vrhs d x - calcGrad c.dx (Prs.presFill c.N (prsCfg c dt s.edge).bc s.Phi) d x) (s.vrhs d) }

/-- `vip_rhs_impl_fnlz` (mpdata_rhs_vip_prs_common.hpp:172-189), then what the override adds -/
def fnlz (c : Cfg K n T) (ne : Nonempty (Prs.Pts c.N)) (dt : K) (s : St K n T) : Option (St K n T) :=
  let s := { s with vrhs := fun d => VP.asgG c.toCfg (fun x => - s.psi (c.vip d) x) (s.vrhs d) }
  let s := if c.vab = .impl then { s with psi := VP.asgVip c.toCfg (fun d x v => v + 1 / 2 * dt * c.coeff x * c.relax d x) s.psi } else s
  match solve c ne dt false s with
  | none => none
  | some s =>
    let s := apply c dt false s
    let s := { s with vrhs := fun d => VP.asgG c.toCfg (fun x => (s.vrhs d x + s.psi (c.vip d) x) / (1 / 2 * dt)) (s.vrhs d) }
    some { s with toSt := c.post dt s.toSt }

/-- a time step up to `hook_post_step` (`VP.step` without its last line; solver_common.hpp:306-349) -/
def preStep (c : VP.Cfg K (Idx n) n T) (filt : Bool) (first : K) (more : List K) (s : VP.St K (Idx n) n T) : VP.St K (Idx n) n T :=
  let dt := (first :: more).getLast (by simp)
  let s := (first :: more).foldl (VP.calcGc c) s
  let s := VP.calcNdt c dt s
  let s := VP.anteStep c dt s
  let s := (VP.eqOrder c).foldl (VP.advEq c filt) s
  { s with timestep := s.timestep + 1, ds1 := if c.vc.div3 then s.ds0 else s.ds1, ds0 := dt }

/-- `hook_post_step` of `mpdata_rhs` (mpdata_rhs.hpp:176-195) -/
def postRhs (c : VP.Cfg K (Idx n) n T) (dt : K) (s : VP.St K (Idx n) n T) : VP.St K (Idx n) n T :=
  match c.sch with
  | .eulerA => VP.appRhs c dt s
  | .eulerB => s
  | .trapez => VP.appRhs c (dt / 2) (VP.updRhs c (dt / 2) true s)

/-- one time step (solver_common.hpp:306-351, mpdata_rhs_vip_common.hpp:345-349) -/
def step (c : Cfg K n T) (ne : Nonempty (Prs.Pts c.N)) (filt : Bool) (first : K) (more : List K) (s : St K n T) : Option (St K n T) :=
  let dt := (first :: more).getLast (by simp)
  fnlz c ne dt { s with toSt := postRhs c.toCfg dt (preStep c.toCfg filt first more s.toSt) }

/-- `t` time steps after `hook_ante_loop`; `none` if the pressure solver gave up -/
def run (c : Cfg K n T) (ne : Nonempty (Prs.Pts c.N)) (dt0 : K) (filt : Nat → Bool) (first : Nat → K) (more : Nat → List K) (s : St K n T) : Nat → Option (St K n T)
  | 0 => anteLoop c ne dt0 s
  | t + 1 => (run c ne dt0 filt first more s t).bind (step c ne (filt t) (first t) (more t))

/-! ## Two and three dimensions with cyclic, rigid or open boundaries -/

/-- grid and boundaries as used by the halo fillings -/
def bnd (N : Fin n → Nat) (kind : Fin n → BcKind) (halo : Int) : Bnd n where
  kl d := match kind d with | .cyclic => .cyclic | .rigid => .rigid | .opened => .opened
  kr d := match kind d with | .cyclic => .cyclic | .rigid => .rigid | .opened => .opened
  b d := ⟨0, (N d : Int) - 1⟩
  halo := halo
  pole := 0

/-- `xchng_vctr_alng(arrvec, false, /*cyclic*/ true)` (solver_2d.hpp:76-85, solver_3d.hpp:86-103): `fill_halos_vctr_alng_cyclic` does nothing unless the boundary is cyclic
(bcond_common.hpp:119-120, 194-195, cyclic_2d.hpp:80-84) -/
def alngCyc [NeZero n] (B : Bnd n) (A : Vec n K) : Vec n K :=
  (List.finRange n).foldl (fun A d => if B.kl d = .cyclic then fillA B d false A else A) A

/-- 2-D and 3-D solver: exchanges of `interpolate_in_space` and `extrapolate_in_time` (mpdata_rhs_vip.hpp:125-148, 236-261); advection as configured by `a` -/
def solver [NeZero n] (u : VP.User K (Idx n) n) (N : Fin n → Nat) (kind : Fin n → BcKind) (halo : Int) (a : CfgN n K) (tol : K) (cap : Nat) (prs : Scheme) : Cfg K n (MemN n K) where
  toCfg := { VP.solverN u halo a with
    xchngP := xchngPres (bnd N kind halo) (List.finRange n) (halo - 1)
    fillGC := fun v => xchngNrml (bnd N kind halo) (halo - 1) (alngCyc (bnd N kind halo) v) }
  N := N
  kind := kind
  tol := tol
  cap := cap
  prs := prs
  nrm := nrmBase u
  post _ s := s

end
end PP
end Mpdata
