import Verif.Model.Fills
import Verif.Model.Stress
import Verif.Model.SgsHeat
/-! # Subgrid-scale forces with walls and surface drag as one program

Models the branch `stress_diff == compact` of `mpdata_rhs_vip_prs_sgs_common::vip_rhs_expl_calc` (solvers/detail/mpdata_rhs_vip_prs_sgs_common.hpp:97-140) with the overrides of
`multiply_sgs_visc` in `mpdata_rhs_vip_prs_sgs_dns.hpp`, `mpdata_rhs_vip_prs_sgs_smg.hpp`, `mpdata_rhs_vip_prs_sgs_smgani.hpp` and `boussinesq_sgs_common.hpp`, for any number of dimensions at once, with the exchanges of velocities, divergence and tensor
for any boundaries (`Fills`).

Simplifications: one subdomain and one thread, so `ijkm` and `ijkm_sep` are the ranges `first - 1 .. last`; what the parent classes add to `vip_rhs` before is part of its initial contents; the symmetric
tensor carries two indices and both copies of the off-diagonal components are updated, only those with `d ≤ e` are read; `calc_tdef_sq_cmpct(tau, ijk)(ijk)` in smgani, an expression indexed once more,
is taken as the expression itself. -/
namespace Mpdata
namespace Drag
variable {n : Nat} [NeZero n] {K : Type} [Field K] [LinearOrder K]

/-- which override of `multiply_sgs_visc` -/
inductive Visc (n : Nat) (K : Type) where
  /-- `eta` of mpdata_rhs_vip_prs_sgs_dns.hpp:24, 48-51 -/
  | dns (eta : K)
  /-- `smg_c` of mpdata_rhs_vip_prs_sgs_smg.hpp:28, 64-67 -/
  | smg (smgC : K)
  /-- `smg_c` of mpdata_rhs_vip_prs_sgs_smgani.hpp:28, 57-60 -/
  | ani (smgC : K)
  /-- the Boussinesq solvers replace `multiply_sgs_visc` (boussinesq_sgs_common.hpp:50-143): one (`smg`) or two (`smgani`) viscosities `k`, computed from the stress
  (lines 69-111, modelled in `Heat`) -/
  | bsq (two : Bool) (k : (Fin n → Fin n → (Fin n → Int) → K) → Bool → (Fin n → Int) → K)

/-- what the solver is constructed with; `z` is the last dimension, `ds` and `lat` the orders of dimensions in `xchng_sclr` and `xchng_sgs_div`, `cdrag` the drag coefficient
(mpdata_rhs_vip_prs_sgs_common.hpp:65, 183, 197), `nug` tells whether the option is set and so whether there is an array `mem->G` -/
structure Cfg (n : Nat) (K : Type) where
  B : Bnd n
  z : Fin n
  ds : List (Fin n)
  lat : List (Fin n)
  dx : Fin n → K
  nug : Bool
  G : Sca n K
  cdrag : K
  visc : Visc n K
  sqrt : K → K

/-- velocities and the arrays `tau`, `tau_srfc`, `vip_div`, `k_m`, `vip_rhs` (mpdata_rhs_vip_prs_sgs_common.hpp:46-51, mpdata_rhs_vip_prs_sgs_smg.hpp:29);
`km false` is `k_m` of smg or `k_m[0]` of smgani, `km true` is `k_m[1]` of smgani (mpdata_rhs_vip_prs_sgs_smgani.hpp:29) -/
structure Mem (n : Nat) (K : Type) where
  v : Vec n K
  tau : Fin n → Fin n → Sca n K
  srfc : Vec n K
  div : Sca n K
  km : Bool → Sca n K
  rhs : Vec n K

/-- `G<opts>(rho, ...)`: the array if `opts::nug` is set, 1 otherwise (formulae/common.hpp:124-200) -/
def Cfg.rho (c : Cfg n K) (x : Idx n) : K := if c.nug then c.G x else 1

/-- `this->xchng_sclr(vip, this->ijk, 1)` for the velocities (mpdata_rhs_vip_prs_sgs_common.hpp:105-106) -/
def xchngVip (c : Cfg n K) (m : Mem n K) : Mem n K := { m with v := fun d => xchngSclr c.B c.ds 1 false (m.v d) }

/-- twice the wind speed on the face `x` of dimension `d`: `abs` in 2-D (stress_formulae.hpp:188), `sqrt` of the sum of squares of the horizontal components in 3-D (208-211, 216-219) -/
def speed2 (c : Cfg n K) (v : Vec n K) (d : Fin n) (x : Idx n) : K :=
  if n = 2 then |v d (stepIdx x d 1) + v d x| else c.sqrt (∑ e, if e = c.z then 0 else (v e (stepIdx x d 1) + v e x) ^ 2)

/-- the surface stress on the face `x` of dimension `d` (stress_formulae.hpp:187-191, 206-213, 215-221) -/
def dragAt (c : Cfg n K) (v : Vec n K) (d : Fin n) (x : Idx n) : K :=
  c.cdrag / 8 * speed2 c v d x * (v d (stepIdx x d 1) + v d x) * (c.rho (stepIdx x d 1) + c.rho x)

/-- `calc_drag_cmpct` (stress_formulae.hpp:176-222): surface stress on the faces of the horizontal dimensions at index 0 of the last one -/
def dragFaces (c : Cfg n K) (m : Mem n K) (d : Fin n) : Sca n K :=
  if d = c.z then m.srfc d else asgN (fun x => x c.z = 0 ∧ Ot c.B.b c.z (fun e => if e = d then 1 else 0) (fun _ => 0) x) (dragAt c m.v d) (m.srfc d)
def setDrag (c : Cfg n K) (m : Mem n K) : Mem n K := { m with srfc := dragFaces c m }

/-- `vip_div` and its exchange (mpdata_rhs_vip_prs_sgs_common.hpp:112-122) -/
def setDiv (c : Cfg n K) (m : Mem n K) : Mem n K :=
  { m with div := xchngSgsDiv c.B c.z c.lat (asgN (cellBox c.B.b) (if c.nug then vipDiv c.z c.dx m.v c.G else fun _ => 0) m.div) }

/-- `calc_deform_cmpct` (mpdata_rhs_vip_prs_sgs_common.hpp:124, ranges of stress_formulae.hpp:262-291, 302-362): `ijkm` in the dimensions of the component, `ijk` in the others -/
def setDeform (c : Cfg n K) (m : Mem n K) : Mem n K :=
  { m with tau := fun d e => asgN (Bx c.B.b (fun k => if k = d ∨ k = e then 1 else 0) (fun _ => 0)) (deformCmpct c.z c.dx m.v m.div d e) (m.tau d e) }

/-- `xchng_sgs_tnsr_diag` and `xchng_sgs_tnsr_offdiag` with the surface stress (mpdata_rhs_vip_prs_sgs_common.hpp:126-127, mpdata_rhs_vip_prs_sgs_dns.hpp:32-33,
mpdata_rhs_vip_prs_sgs_smg.hpp:45-46) -/
def xchngTau (c : Cfg n K) (m : Mem n K) : Mem n K :=
  { m with tau := fun d e => if d = e then xchngSgsTnsrDiag c.B (m.v c.z) m.div c.dx (fun k => m.tau k k) d else xchngSgsTnsrOffdiag c.B d e (m.srfc d) (m.tau d e) }

/-- eddy viscosity of smgani with the length scale `dlta` (mpdata_rhs_vip_prs_sgs_smgani.hpp:40-41) -/
def aniKm (smgC dlta : K) (tau : Fin n → Fin n → Sca n K) (x : Idx n) : K := (smgC * dlta) ^ 2 * tdefSqCmpct tau x

/-- `dlta_h`, the mean of the horizontal grid intervals, and `dlta_v` (mpdata_rhs_vip_prs_sgs_smgani.hpp:36-37) -/
def dltaH (c : Cfg n K) : K := (∑ d, if d = c.z then 0 else c.dx d) / (n - 1 : Nat)
def dltaV (c : Cfg n K) : K := c.dx c.z

/-- the eddy viscosity (mpdata_rhs_vip_prs_sgs_smg.hpp:37, mpdata_rhs_vip_prs_sgs_smgani.hpp:40-41), in the Boussinesq solvers with its exchange (boussinesq_sgs_common.hpp:113-119) -/
def setKm (c : Cfg n K) (m : Mem n K) : Mem n K :=
  match c.visc with
  | .dns _ => m
  | .smg s => { m with km := fun b => if b then m.km true else asgN (cellBox c.B.b) (smgKm s c.dx m.tau) (m.km false) }
  | .bsq _ k => { m with km := fun b => xchngSclr c.B c.ds 1 false (k m.tau b) }
  | .ani s => { m with km := fun b => asgN (cellBox c.B.b) (aniKm s (if b then dltaV c else dltaH c) m.tau) (m.km b) }

/-- which viscosity `multiply_tnsr_cmpct` takes for a component when there are two: the second one for off-diagonal components with the last dimension, the first one for all others
(stress_formulae.hpp:502-545, 647-725; the diagonal ones through `vh = true`) -/
def pick (c : Cfg n K) (d e : Fin n) : Bool := decide (d ≠ e ∧ (d = c.z ∨ e = c.z))

/-- the products of `multiply_tnsr_cmpct` (mpdata_rhs_vip_prs_sgs_dns.hpp:30, mpdata_rhs_vip_prs_sgs_smg.hpp:39-43, mpdata_rhs_vip_prs_sgs_smgani.hpp:43-47,
boussinesq_sgs_common.hpp:123-127) -/
def product (c : Cfg n K) (m : Mem n K) (d e : Fin n) : Sca n K :=
  match c.visc with
  | .dns eta => multEta eta m.tau d e
  | .smg _ => multKm 1 (m.km false) c.rho m.tau d e
  | .ani _ => multKm 1 (m.km (pick c d e)) c.rho m.tau d e
  | .bsq two _ => multKm 1 (m.km (two && pick c d e)) c.rho m.tau d e

/-- the exchanges at the end of `multiply_sgs_visc`; the Boussinesq solvers do not exchange the diagonal components again (boussinesq_sgs_common.hpp:129) -/
def xchngLast (c : Cfg n K) (m : Mem n K) : Mem n K :=
  match c.visc with
  | .bsq _ _ => { m with tau := fun d e => if d = e then m.tau d e else (xchngTau c m).tau d e }
  | _ => xchngTau c m

/-- `multiply_tnsr_cmpct` over `ijkm_sep` -/
def multTau (c : Cfg n K) (m : Mem n K) : Mem n K :=
  { m with tau := fun d e => asgN (Bx c.B.b (fun _ => 1) (fun _ => 0)) (product c m d e) (m.tau d e) }

/-- the component of dimensions `d`, `e` is stored once -/
def sym (tau : Fin n → Fin n → Sca n K) (d e : Fin n) : Sca n K := if d ≤ e then tau d e else tau e d

/-- `calc_stress_rhs_cmpct` with the factor 2 (mpdata_rhs_vip_prs_sgs_common.hpp:132-138) -/
def addRhs (c : Cfg n K) (m : Mem n K) : Mem n K :=
  { m with rhs := fun d => asgN (cellBox c.B.b) (fun x => m.rhs d x + stressRhs c.dx c.rho 2 (sym m.tau) d x) (m.rhs d) }

/-- `vip_rhs_expl_calc` with compact differencing (mpdata_rhs_vip_prs_sgs_common.hpp:97-140) -/
def forces (c : Cfg n K) (m : Mem n K) : Mem n K :=
  addRhs c (xchngLast c (multTau c (setKm c (xchngTau c (setDeform c (setDiv c (setDrag c (xchngVip c m))))))))

/-- what the Boussinesq solvers add (boussinesq_common.hpp:20-40, boussinesq_sgs_common.hpp:27-29, 147-150): parameters, mixing lengths (`mix_len_h`, `mix_len_v` or `mix_len` twice), the
potential temperature, and the contents of the temporaries -/
structure Bsq (n : Nat) (K : Type) where
  g : K
  tref : K
  pr : K
  smgC : K
  hflux : K
  mixH : Sca n K
  mixV : Sca n K
  tht : Sca n K
  mem : Heat.Mem n K

/-- the same domain for the heat part -/
def heatCfg (c : Cfg n K) (b : Bsq n K) : Heat.Cfg n K := ⟨c.B, c.z, c.dx, c.rho, b.g, b.tref, b.pr, b.smgC, b.hflux, b.mixH, b.mixV, c.sqrt, c.ds⟩

/-- the viscosities of `multiply_sgs_visc` before their exchange (boussinesq_sgs_common.hpp:60-111) -/
def bsqVisc (hc : Heat.Cfg n K) (tht : Sca n K) (hm : Heat.Mem n K) (tau : Fin n → Fin n → Sca n K) (b : Bool) : Sca n K :=
  let r := Heat.setKmGround hc (Heat.setKm hc (Heat.setRcdsn hc (Heat.setTdef hc tau (Heat.setGrad hc (Heat.setTht hc tht (Heat.setSrfc hc hm))))))
  if b then r.kv else r.kh

/-- a Boussinesq solver with the model `smg` or, with `two`, `smgani` -/
def bsqSolver (c : Cfg n K) (b : Bsq n K) (two : Bool) : Cfg n K := { c with visc := .bsq two (bsqVisc (heatCfg c b) b.tht b.mem) }

end Drag
end Mpdata
