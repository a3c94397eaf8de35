import Verif.Model.PrsProg
import Verif.Model.Stress
/-! # An incompressible solver with subgrid-scale forces as one program

Models `solver_common::solve` run by a solver derived from `mpdata_rhs_vip_prs_sgs_*`: the program `PP` with the override of `vip_rhs_expl_calc` in
`solvers/detail/mpdata_rhs_vip_prs_sgs_common.hpp`.

Simplifications: those of `PP`; on cyclic domains the exchanges of velocities, divergence and tensor components during the calculation of the forces are represented by the periodic extension of the
velocities and the density (what the exchanges do to these arrays is modelled in `Fills`, the order of the statements in `ThreadSgs`); drag at the surface (`cdrag`, zero by default) is modelled separately in `SgsDrag`. -/
namespace Mpdata
namespace PP
variable {K : Type} [Field K] [LinearOrder K] {n : Nat} {T : Type}

/-- `vip_rhs_expl_calc` (mpdata_rhs_vip_prs_sgs_common.hpp:97-164): whatever the model, forces `F` are added to `vip_rhs` on the grid (`rhs[d](ijk) += ...`, stress_formulae.hpp:754-845, 113-139).
They may depend on everything in memory. (The order with the forces the parent adds in `vip_rhs_expl_calc` does not matter; the Courant numbers and stashes computed before in the same
step do not depend on `vip_rhs`, so the addition is put at the beginning of the step.) -/
def addForce (c : Cfg K n T) (F : St K n T → Fin n → Idx n → K) (s : St K n T) : St K n T :=
  { s with vrhs := fun d => VP.asgG c.toCfg (fun x => s.vrhs d x + F s d x) (s.vrhs d) }

/-- one time step (mpdata_rhs_vip_common.hpp:328-349) -/
def stepF (c : Cfg K n T) (F : St K n T → Fin n → Idx n → K) (ne : Nonempty (Prs.Pts c.N)) (filt : Bool) (first : K) (more : List K) (s : St K n T) : Option (St K n T) :=
  step c ne filt first more (addForce c F s)

/-- `t` time steps after `hook_ante_loop`; `none` if the pressure solver gave up -/
def runF (c : Cfg K n T) (F : Nat → St K n T → Fin n → Idx n → K) (ne : Nonempty (Prs.Pts c.N)) (dt0 : K) (filt : Nat → Bool) (first : Nat → K) (more : Nat → List K) (s : St K n T) :
    Nat → Option (St K n T)
  | 0 => anteLoop c ne dt0 s
  | t + 1 => (runF c F ne dt0 filt first more s t).bind (stepF c (F t) ne (filt t) (first t) (more t))

/-! ## Forces on cyclic domains -/

/-- periodic extension of the values on one period of the grid (what cyclic exchanges provide in halos: bcond/cyclic_2d.hpp:25-60) -/
def wrap (P : Fin n → Nat) (f : Idx n → K) (x : Idx n) : K := f (fun d => x d % (P d : Int))

/-- deformation tensor of the flow in memory (mpdata_rhs_vip_prs_sgs_common.hpp:107-129); `z` is the vertical, `hasG` tells whether the option `nug` is set, so that there is an array `mem->G`
(without it the divergence is taken as zero, lines 117-122) -/
def deformOf (c : Cfg K n T) (P : Fin n → Nat) (hasG : Bool) (z : Fin n) (s : St K n T) : Fin n → Fin n → Idx n → K :=
  let v : Fin n → Idx n → K := fun d => wrap P (s.psi (c.vip d))
  deformCmpct z c.dx v (if hasG then vipDiv z c.dx v (wrap P c.G) else fun _ => 0)

/-- forces of `mpdata_rhs_vip_prs_sgs_dns` with compact differencing (mpdata_rhs_vip_prs_sgs_dns.hpp:26-33, mpdata_rhs_vip_prs_sgs_common.hpp:131-140) -/
def forceDns (c : Cfg K n T) (P : Fin n → Nat) (hasG : Bool) (z : Fin n) (eta : K) (s : St K n T) : Fin n → Idx n → K :=
  stressRhs c.dx (wrap P c.G) 2 (multEta eta (deformOf c P hasG z s))

/-- forces of `mpdata_rhs_vip_prs_sgs_smg` with compact differencing (mpdata_rhs_vip_prs_sgs_smg.hpp:31-47, mpdata_rhs_vip_prs_sgs_common.hpp:131-140) -/
def forceSmg (c : Cfg K n T) (P : Fin n → Nat) (hasG : Bool) (z : Fin n) (smgC : K) (s : St K n T) : Fin n → Idx n → K :=
  stressRhs c.dx (wrap P c.G) 2 (multKm 1 (smgKm smgC c.dx (deformOf c P hasG z s)) (wrap P c.G) (deformOf c P hasG z s))

end PP
end Mpdata
