import Verif.Model.Vip
import Verif.Model.Rhs
import Verif.Model.Solver
import Verif.Model.Advop1
import Verif.Model.AdvopN
/-! # A solver with prognosed velocities as one program

Models the time loop of `solver_common::solve` (solvers/detail/solver_common.hpp:270-358) run by an `mpdata_rhs_vip` solver: the advector is computed from the advected
velocities (or momenta), right-hand sides are evaluated and applied, all equations are advected with that advector and with the same temporary arrays.
Arrays are explicit memory: a statement assigns the grid points (`ijk`) only, halos hold what the last exchange put there.

The text is the same in one, two and three dimensions up to the number of indices. It is written once for an index type `X` and `n` velocity components; the parts that differ
(exchanges, face ranges, advection operator) are parameters, instantiated for 1-D, 2-D and 3-D below.

Simplifications: one subdomain (one thread); `hint_scale` is 0 (see C07 for other values); the pressure solver of derived classes is not included. -/
namespace Mpdata
namespace VP

/-- `vip_vab_t` (solvers/detail/mpdata_rhs_vip_common.hpp:15-21) -/
inductive Vab | noab | expl | impl
  deriving DecidableEq

/-- what a program supplies -/
structure User (K X : Type) (n : Nat) where
  nEqns : Nat
  /-- `hint_norhs`, `delayed_step` -/
  norhs : OptsT
  delayed : OptsT
  /-- `ix::vip_i, vip_j, vip_k`, `ix::vip_den` (`none` for -1), `vip_eps` -/
  vip : Fin n → Nat
  den : Option Nat
  veps : K
  /-- `di, dj, dk` -/
  dx : Fin n → K
  sch : Scheme
  /-- `var_dt`, `div3_mpdata` -/
  vc : VipCfg
  vab : Vab
  /-- `mem->vab_coeff`, `mem->vab_relax` -/
  coeff : X → K
  relax : Fin n → X → K
  /-- the body of the user's `update_rhs` after the call of the parent's -/
  force : K → Bool → (Nat → X → K) → (Nat → X → K) → (Nat → X → K)

/-- the program's parameters and the dimension-specific parts -/
structure Cfg (K X : Type) (n : Nat) (T : Type) extends User K X n where
  /-- the grid points `ijk` -/
  grid : X → Bool
  /-- neighbour `x + k` in dimension `d` -/
  sh : X → Fin n → Int → X
  /-- `mem->G` as used by `interpolate_in_space` (1 if not allocated) -/
  G : X → K
  /-- `xchng_sclr` -/
  xchng : (X → K) → (X → K)
  /-- `xchng_pres(arr, ijk, halo - 1)`; `xchng_sclr` in 1-D (solver_1d.hpp:53-56) -/
  xchngP : (X → K) → (X → K)
  /-- the faces assigned by `interpolate_in_space`: `im^ex` etc. -/
  face : Fin n → X → Bool
  /-- the exchanges at the end of `interpolate_in_space` -/
  fillGC : (Fin n → X → K) → (Fin n → X → K)
  /-- the zeroing of a time derivative of the advector in `hook_ante_loop` and its exchanges -/
  zeroNdt : (Fin n → X → K) → (Fin n → X → K)
  /-- `xchng(e); advop(e); cycle(e)` of one equation in one step: advector, its two time derivatives, whether this is an upwind-filter step, temporaries, `psi[n]` and the other
  time level; returns temporaries and the two time levels -/
  advop : (GC ndt ndtt : Fin n → X → K) → Bool → T → (X → K) → (X → K) → T × (X → K) × (X → K)

/-- memory -/
structure St (K X : Type) (n : Nat) (T : Type) where
  psi : Nat → X → K
  old : Nat → X → K
  rhs : Nat → X → K
  /-- `stash`: block (see `stashBlk`), component -/
  stash : Nat → Fin n → X → K
  vrhs : Fin n → X → K
  GC : Fin n → X → K
  ndt : Fin n → X → K
  ndtt : Fin n → X → K
  tmp : T
  timestep : Nat
  ds0 : K
  ds1 : K

section
variable {K X : Type} [Field K] [LinearOrder K] {n : Nat} {T : Type}

/-- `a(ijk) = e` -/
def asgG (c : Cfg K X n T) (e a : X → K) : X → K := fun x => if c.grid x then e x else a x

/-- velocity component `d` from the state (mpdata_rhs_vip_common.hpp:103-120, 147-163) -/
def vel (c : Cfg K X n T) (psi : Nat → X → K) (d : Fin n) (x : X) : K :=
  velOf (c.den.map fun e => psi e x) c.veps (psi (c.vip d) x)

/-- `interpolate_in_space(dst, src)` (mpdata_rhs_vip.hpp:35-57, 98-134, 208-246) -/
def interp (c : Cfg K X n T) (dt : K) (src dst : Fin n → X → K) : Fin n → X → K :=
  c.fillGC (fun d x => if c.face d x then intrpFace dt (c.dx d) (c.G x) (c.G (c.sh x d 1)) (src d x) (src d (c.sh x d 1)) else dst d x)

/-- the assignments of `extrapolate_in_time` (mpdata_rhs_vip.hpp:60-64, 136-148, 248-261): `extrp` for every component on `ijk`, then the halo of block 0 -/
def extrapolate (c : Cfg K X n T) (dt : K) (s : St K X n T) : Nat → Fin n → X → K := fun b d =>
  if b = 0 then c.xchngP (fun x => if c.grid x then extrp c.vc s.timestep dt s.ds0 (vel c s.psi d x) (fun b => s.stash b d x) 0 else s.stash 0 d x)
  else fun x => if c.grid x then extrp c.vc s.timestep dt s.ds0 (vel c s.psi d x) (fun b => s.stash b d x) b else s.stash b d x

/-- `calc_gc` with the given time step (mpdata_rhs_vip_common.hpp:278-290) -/
def calcGc (c : Cfg K X n T) (s : St K X n T) (dt : K) : St K X n T :=
  let s := { s with stash := extrapolate c dt s }
  { s with GC := interp c dt (s.stash 0) s.GC }

/-- one derivative in `calc_ndt_gc`: `val` on `ijk`, exchange (mpdata_rhs_vip_common.hpp:296-305, 307-322). Block 0 is the output array. -/
def derStash (c : Cfg K X n T) (val : Fin n → X → K) (s : St K X n T) : St K X n T :=
  { s with stash := fun b d => if b = 0 then c.xchngP (asgG c (val d) (s.stash 0 d)) else s.stash b d }

/-- `calc_ndt_gc` (mpdata_rhs_vip_common.hpp:292-325); the first difference is taken from the advected variable itself (`vips()`), not from the velocity `vel` -/
def calcNdt (c : Cfg K X n T) (dt : K) (s : St K X n T) : St K X n T :=
  if c.vc.div3 then
    let s := if s.ds0 > 0 then
        let s := derStash c (fun d x => dt * (s.psi (c.vip d) x - s.stash (stashBlk c.vc s.timestep 1) d x) / s.ds0) s
        { s with ndt := interp c dt (s.stash 0) s.ndt }
      else s
    if s.ds0 > 0 ∧ s.ds1 > 0 then
      let s := derStash c (fun d x => dt * dt * (s.ds1 * s.psi (c.vip d) x - (s.ds1 + s.ds0) * s.stash (stashBlk c.vc s.timestep 1) d x
        + s.ds0 * s.stash (stashBlk c.vc s.timestep 2) d x) / (s.ds0 * s.ds1 * (1 / 2) * (s.ds0 + s.ds1))) s
      { s with ndtt := interp c dt (s.stash 0) s.ndtt }
    else s
  else s

/-- `fill_stash` (mpdata_rhs_vip_common.hpp:99-129) -/
def fillSt (c : Cfg K X n T) (s : St K X n T) : St K X n T :=
  { s with stash := fun b d x => if c.grid x then fillStash c.vc s.timestep (vel c s.psi d x) (fun b => s.stash b d x) b else s.stash b d x }

/-- the equations that have a right-hand side -/
def hasRhs (c : Cfg K X n T) (e : Nat) : Bool := decide (e < c.nEqns) && !isset c.norhs (bit e)

/-- `update_rhs` (mpdata_rhs.hpp:53-75): zero, exchange all equations, then the override's body -/
def updRhs (c : Cfg K X n T) (dt : K) (atNext : Bool) (s : St K X n T) : St K X n T :=
  let z : Nat → X → K := fun e => if hasRhs c e then asgG c (fun _ => 0) (s.rhs e) else s.rhs e
  let psi : Nat → X → K := fun e => if e < c.nEqns then c.xchng (s.psi e) else s.psi e
  { s with psi := psi, rhs := c.force dt atNext psi z }

/-- `apply_rhs` (mpdata_rhs.hpp:77-89) -/
def appRhs (c : Cfg K X n T) (dt : K) (s : St K X n T) : St K X n T :=
  { s with psi := fun e => if hasRhs c e then asgG c (fun x => s.psi e x + dt * s.rhs e x) (s.psi e) else s.psi e }

/-- assignment to the velocity variables: `vips()[d](ijk) = f(d, vips()[d](ijk))` for `d = 0, 1, ..` in turn -/
def asgVip (c : Cfg K X n T) (f : Fin n → X → K → K) (psi : Nat → X → K) : Nat → X → K :=
  (List.finRange n).foldl (fun psi d e => if e = c.vip d then asgG c (fun x => f d x (psi e x)) (psi e) else psi e) psi

/-- `vip_rhs_impl_init` (mpdata_rhs_vip_common.hpp:182-196) -/
def vabInitS (c : Cfg K X n T) (s : St K X n T) : St K X n T :=
  { s with vrhs := fun d => asgG c (fun x => if c.vab = .impl then vabInit (c.coeff x) (c.relax d x) (s.psi (c.vip d) x) else 0) (s.vrhs d) }

/-- `vip_rhs_expl_calc` (mpdata_rhs_vip_common.hpp:198-209) -/
def vabExplS (c : Cfg K X n T) (s : St K X n T) : St K X n T :=
  if c.vab = .expl then
    { s with vrhs := fun d => asgG c (fun x => vabExpl (c.coeff x) (c.relax d x) (s.psi (c.vip d) x) (s.vrhs d x)) (s.vrhs d) }
  else s

/-- `vip_rhs_apply` (mpdata_rhs_vip_common.hpp:229-236) -/
def vabApplyS (c : Cfg K X n T) (dt : K) (s : St K X n T) : St K X n T :=
  { s with psi := asgVip c (fun d x v => (vabApply dt v (s.vrhs d x)).1) s.psi, vrhs := fun d => asgG c (fun _ => 0) (s.vrhs d) }

/-- `vip_rhs_impl_fnlz` (mpdata_rhs_vip_common.hpp:211-227) -/
def vabFnlzS (c : Cfg K X n T) (dt : K) (s : St K X n T) : St K X n T :=
  if c.vab = .impl then
    { s with psi := asgVip c (fun d x v => (vabFnlz dt (c.coeff x) (c.relax d x) v).1) s.psi
             vrhs := fun d => asgG c (fun x => (vabFnlz dt (c.coeff x) (c.relax d x) (s.psi (c.vip d) x)).2) (s.vrhs d) }
  else s

/-- `hook_ante_loop` (mpdata_rhs_vip_common.hpp:258-276, mpdata_rhs.hpp:127-146; solver_common.hpp:188-205, mpdata_osc_1d.hpp:37-54): the advector is zeroed, so an adaptive time
step is left alone here -/
def anteLoop (c : Cfg K X n T) (dt : K) (s : St K X n T) : St K X n T :=
  let s := { s with GC := fun _ _ => 0 }
  let s := { s with stash := fun b d => if b = stashBlk c.vc 0 1 ∨ (c.vc.div3 = true ∧ b = stashBlk c.vc 0 2) then asgG c (fun _ => 0) (s.stash b d) else s.stash b d }
  let s := if c.vc.div3 then { s with ndt := c.zeroNdt s.ndt, ndtt := c.zeroNdt s.ndtt } else s
  let s := match c.sch with
    | .eulerA => s
    | .eulerB => s
    | .trapez => updRhs c (dt / 2) false s
  vabInitS c s

/-- `hook_ante_step` (mpdata_rhs_vip_common.hpp:327-343, mpdata_rhs.hpp:148-174) -/
def anteStep (c : Cfg K X n T) (dt : K) (s : St K X n T) : St K X n T :=
  let s := fillSt c s
  let s := vabExplS c s
  let s := match c.sch with
    | .eulerA => updRhs c dt false s
    | .eulerB => appRhs c dt (updRhs c dt false s)
    | .trapez => appRhs c (dt / 2) s
  vabApplyS c dt s

/-- `hook_post_step` (mpdata_rhs_vip_common.hpp:345-349, mpdata_rhs.hpp:176-195) -/
def postStep (c : Cfg K X n T) (dt : K) (s : St K X n T) : St K X n T :=
  let s := match c.sch with
    | .eulerA => appRhs c dt s
    | .eulerB => s
    | .trapez => appRhs c (dt / 2) (updRhs c (dt / 2) true s)
  vabFnlzS c dt s

/-- advection of one equation (`solve_loop_body`, solver_common.hpp:127-136) -/
def advEq (c : Cfg K X n T) (filt : Bool) (s : St K X n T) (e : Nat) : St K X n T :=
  let r := c.advop s.GC s.ndt s.ndtt filt s.tmp (s.psi e) (s.old e)
  { s with tmp := r.1, psi := fun e' => if e' = e then r.2.1 else s.psi e', old := fun e' => if e' = e then r.2.2 else s.old e' }

/-- the order in which equations are advected (solver_common.hpp:333-345): delayed ones last -/
def eqOrder (c : Cfg K X n T) : List Nat :=
  (List.range c.nEqns).filter (fun e => !isset c.delayed (bit e)) ++ (List.range c.nEqns).filter (fun e => isset c.delayed (bit e))

/-- one time step (solver_common.hpp:306-351). `first` and `more` are the trial time steps of this step: `calc_gc` is called with each of them in turn and the last one is taken
(with a constant time step `more` is empty). -/
def step (c : Cfg K X n T) (filt : Bool) (first : K) (more : List K) (s : St K X n T) : St K X n T :=
  let dt := (first :: more).getLast (by simp)
  let s := (first :: more).foldl (calcGc c) s
  let s := calcNdt c dt s
  let s := anteStep c dt s
  let s := (eqOrder c).foldl (advEq c filt) s
  let s := { s with timestep := s.timestep + 1, ds1 := if c.vc.div3 then s.ds0 else s.ds1, ds0 := dt }
  postStep c dt s

/-- `t` time steps after `hook_ante_loop`; `filt`, `first`, `more` give the filter flag and the trial time steps of every step -/
def run (c : Cfg K X n T) (dt0 : K) (filt : Nat → Bool) (first : Nat → K) (more : Nat → List K) (s : St K X n T) : Nat → St K X n T
  | 0 => anteLoop c dt0 s
  | t + 1 => step c (filt t) (first t) (more t) (run c dt0 filt first more s t)

/-! ## One, two and three dimensions with cyclic boundaries -/

/-- 1-D: `interpolate_in_space` writes `im + h` (mpdata_rhs_vip.hpp:43-46), `xchng_vctr_alng(dst, false, true)` (for cyclic boundaries the same as with `cyclic = false`,
cyclic_1d.hpp:39-42); derivatives zeroed on `im + h` (mpdata_osc_1d.hpp:46-52). Simplification: without `div_3rd`, `div_3rd_dt` the derivative arrays are not allocated; the operator is given zeros. -/
def solver1 (u : User K Int 1) (a : Cfg1 K) : Cfg K Int 1 (Mem1 K) where
  toUser := u
  grid i := decide (a.ijk.Mem i)
  sh i _ k := i + k
  G _ := 1
  xchng := a.fillS
  xchngP := a.fillS
  face _ i := decide (a.im.Mem i)
  fillGC v _ := a.fillV false (v 0)
  zeroNdt v _ := a.fillV false (asg a.im (fun _ => 0) (v 0))
  advop GC ndt ndtt filt t psi old :=
    let m := advance1 { a with filter := filt, ndtGC := if u.vc.div3 then ndt 0 else fun _ => 0, ndttGC := if u.vc.div3 then ndtt 0 else fun _ => 0 }
      { t with psi := psi, psiN := old, GC := GC 0 }
    (m, m.psi, m.psiN)

/-- `xchng_pres(arr, ijk, ext)` with cyclic boundaries (solver_2d.hpp:204-220, solver_3d.hpp:288-307, cyclic_2d.hpp:35-38): dimensions 0, 1 (, 2), the others extended by `ext` -/
def cycXchngP (b : Fin n → Rng) (halo ext : Int) (a : Sca n K) : Sca n K :=
  (List.finRange n).foldl (fun a d => cycS b halo d (fun _ => ext) (fun _ => ext) a) a

/-- 2-D and 3-D with cyclic boundaries: `interpolate_in_space` writes `im^ex` by `j^ex` (mpdata_rhs_vip.hpp:125-134, 236-246) with `ex = halo - 1`, then exchanges; derivatives zeroed on `im + h` by `j`
(mpdata_osc_2d.hpp:53-66, mpdata_osc_3d.hpp:55-71). `G` is the G-factor with the `nug` option, 1 otherwise. -/
def solverN (u : User K (Idx n) n) (halo : Int) (a : CfgN n K) : Cfg K (Idx n) n (MemN n K) where
  toUser := u
  grid x := decide (cellBox a.box x)
  sh := stepIdx
  G := gFacN a.o a.st.G
  xchng := a.fillS
  xchngP := cycXchngP a.box halo (halo - 1)
  face d x := decide (Bx a.box (fun e => if e = d then halo else halo - 1) (fun _ => halo - 1) x)
  fillGC v := a.fillN (halo - 1) (a.fillA false v)
  zeroNdt v := a.fillN (halo - 1) (a.fillA false (fun d => asgN (faceBox a.box d) (fun _ => 0) (v d)))
  advop GC ndt ndtt filt t psi old :=
    let m := advanceN { a with filter := filt, st := { a.st with ndt := if u.vc.div3 then ndt else fun _ _ => 0, ndtt := if u.vc.div3 then ndtt else fun _ _ => 0 } }
      { t with psi := psi, psiN := old, GC := GC }
    (m, m.psi, m.psiN)

end
end VP
end Mpdata
