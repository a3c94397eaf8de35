import Verif.Basic
/-!
# Prognosed velocities: velocity history, advector extrapolation, absorber
(`solvers/detail/mpdata_rhs_vip_common.hpp`, `solvers/mpdata_rhs_vip.hpp`)

All operations modelled here are pointwise in the grid point and the velocity component, so the model follows one component at one point.
-/
set_option linter.unusedSectionVars false
namespace Mpdata
variable {K : Type} [Field K] [LinearOrder K]

/-- the velocity stored and extrapolated (mpdata_rhs_vip_common.hpp:103-120 and 147-163): momentum itself without a density variable,
momentum over density with the default `eps == 0`, and with `eps != 0` zero where the density does not exceed `eps` -/
def velOf (den : Option K) (eps m : K) : K :=
  match den with
  | none => m
  | some d => if eps = 0 then m / d else if d > eps then m / d else 0

/-- which of the three storage layouts is in use (mpdata_rhs_vip_common.hpp:68-92) -/
structure VipCfg where
  varDt : Bool
  div3 : Bool

/-- `vip_stash(t_lev)` (mpdata_rhs_vip_common.hpp:58-97): number of the storage block that holds time level `-lev` at a given `timestep`
(`stash[d + block * n_dims]`) -/
def stashBlk (c : VipCfg) (timestep : Nat) (lev : Nat) : Nat :=
  if !c.varDt && !c.div3 then 0
  else if !c.div3 then lev
  else if lev = 0 then 0
  else if timestep % 2 = 0 then lev
  else 3 - lev

/-- the stash of one component at one point: value by block -/
abbrev Stash (K : Type) := Nat → K

/-- assignment to a block -/
def Stash.set (s : Stash K) (b : Nat) (x : K) : Stash K := fun b' => if b' = b then x else s b'

/-- the weight of the previous velocity (mpdata_rhs_vip_common.hpp:135) -/
def extrpBeta (dt ds0 : K) : K := if ds0 > 0 then dt / (2 * ds0) else 0

/-- `extrp` (mpdata_rhs_vip_common.hpp:131-167): result in block 0; `v` is the current velocity (`velOf` of the state) -/
def extrp (c : VipCfg) (timestep : Nat) (dt ds0 v : K) (s : Stash K) : Stash K :=
  let b := extrpBeta dt ds0
  let s := if !c.varDt && !c.div3 then s.set (stashBlk c timestep 0) (s (stashBlk c timestep 0) * (-b))
           else s.set (stashBlk c timestep 0) (-b * s (stashBlk c timestep 1))
  s.set (stashBlk c timestep 0) (s (stashBlk c timestep 0) + (1 + b) * v)

/-- `fill_stash_helper` (mpdata_rhs_vip_common.hpp:99-124) -/
def fillStash (c : VipCfg) (timestep : Nat) (v : K) (s : Stash K) : Stash K :=
  s.set (stashBlk c timestep (if c.div3 then 2 else 1)) v

/-- first time derivative of the velocity times the step (mpdata_rhs_vip_common.hpp:296-305), `none` if not computed yet. `v` is the advected variable itself (`vips()`): the velocity if
`vip_den == -1`, the undivided momentum otherwise, while the stash holds velocities (see `C31_fails_derivative_with_density`). -/
def ndtVel (c : VipCfg) (timestep : Nat) (dt ds0 v : K) (s : Stash K) : Option K :=
  if ds0 > 0 then some (dt * (v - s (stashBlk c timestep 1)) / ds0) else none

/-- second time derivative times the step squared (mpdata_rhs_vip_common.hpp:307-322) -/
def ndttVel (c : VipCfg) (timestep : Nat) (dt ds0 ds1 v : K) (s : Stash K) : Option K :=
  if ds0 > 0 ∧ ds1 > 0 then
    some (dt * dt * (ds1 * v - (ds1 + ds0) * s (stashBlk c timestep 1) + ds0 * s (stashBlk c timestep 2))
      / (ds0 * ds1 * (1 / 2) * (ds0 + ds1)))
  else none

/-- the part of the solver state relevant to the history: timestep, `dt_stash`, the stash -/
structure VipSt (K : Type) where
  timestep : Nat
  ds0 : K
  ds1 : K
  stash : Stash K

/-- state after `hook_ante_loop` (mpdata_rhs_vip_common.hpp:264-270): block 1 (and 2) zeroed; `dt_stash{}` (solver_common.hpp:233).
The stash is otherwise whatever memory contained. -/
def vipAnteLoop (c : VipCfg) (mem : Stash K) : VipSt K :=
  let s := mem.set (stashBlk c 0 1) 0
  let s := if c.div3 then s.set (stashBlk c 0 2) 0 else s
  ⟨0, 0, 0, s⟩

/-- `calc_gc` called for each trial time step in turn (solver_common.hpp:308-324): once with constant `dt`, any number of times with `var_dt` -/
def vipCalcGc (c : VipCfg) (v : K) (tries : List K) (s : VipSt K) : VipSt K :=
  tries.foldl (fun s dt => { s with stash := extrp c s.timestep dt s.ds0 v s.stash }) s

/-- the writes of `calc_ndt_gc` (mpdata_rhs_vip_common.hpp:292-325) go to block 0; `junk` stands for whatever is left there -/
def vipCalcNdt (c : VipCfg) (junk : K) (s : VipSt K) : VipSt K :=
  if c.div3 then { s with stash := s.stash.set 0 junk } else s

/-- one time step (solver_common.hpp:308-351): advector, derivatives, `hook_ante_step` (fill_stash), ..., `timestep++`, `dt_stash` update.
`v` is the velocity at the beginning of the step, `tries` the trial time steps, of which the last is the step taken. -/
def vipStep (c : VipCfg) (v : K) (tries : List K) (dt junk : K) (s : VipSt K) : VipSt K :=
  let s := vipCalcGc c v tries s
  let s := vipCalcNdt c junk s
  let s := { s with stash := fillStash c s.timestep v s.stash }
  { timestep := s.timestep + 1, ds1 := if c.div3 then s.ds0 else s.ds1, ds0 := dt, stash := s.stash }

/-- the state at the beginning of step `k`, given the velocities `v`, trial steps, taken steps and junk of all steps -/
def vipRun (c : VipCfg) (v : Nat → K) (tries : Nat → List K) (dt junk : Nat → K) (mem : Stash K) : Nat → VipSt K
  | 0 => vipAnteLoop c mem
  | k + 1 => vipStep c (v k) (tries k) (dt k) (junk k) (vipRun c v tries dt junk mem k)

/-- `interpolate_in_space` for one face between points with velocities `u0`, `u1` and G-factors `g0`, `g1`
(mpdata_rhs_vip.hpp:39-57, 98-122, 208-233; without G both factors are 1) -/
def intrpFace (dt dx g0 g1 u0 u1 : K) : K := dt / dx * (1 / 2) * (g0 * u0 + g1 * u1)

/-! ## Velocity absorber -/

/-- `vip_rhs_impl_init` (mpdata_rhs_vip_common.hpp:182-196) with `vip_vab == impl` -/
def vabInit (c r v : K) : K := -(c * (v - r))

/-- `vip_rhs_impl_fnlz` with `vip_vab == impl` (mpdata_rhs_vip_common.hpp:211-227, add_relax 249-256, normalize_vip 238-247):
new velocity and new forcing -/
def vabFnlz (dt c r v : K) : K × K :=
  let rhs := -v
  let v := v + 1 / 2 * dt * c * r
  let v := v / (1 + 1 / 2 * dt * c)
  let rhs := rhs + v
  (v, rhs / (1 / 2 * dt))

/-- `vip_rhs_expl_calc` with `vip_vab == expl` (mpdata_rhs_vip_common.hpp:198-209) -/
def vabExpl (c r v rhs : K) : K := rhs + -2 * c * (v - r)

/-- `vip_rhs_apply` (mpdata_rhs_vip_common.hpp:229-236): new velocity and forcing -/
def vabApply (dt v rhs : K) : K × K := (v + 1 / 2 * dt * rhs, 0)

/-- one full step of the implicit absorber without other forces: apply the stored forcing, advect (arbitrary `adv`), solve implicitly -/
def vabStep (dt c r : K) (adv : K → K) (s : K × K) : K × K :=
  let s := vabApply dt s.1 s.2
  vabFnlz dt c r (adv s.1)

/-- one full step of the explicit absorber without other forces -/
def vabExplStep (dt c r : K) (adv : K → K) (s : K × K) : K × K :=
  let rhs := vabExpl c r s.1 s.2
  let s := vabApply dt s.1 rhs
  (adv s.1, s.2)

end Mpdata
