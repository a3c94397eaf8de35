import Verif.Basic
/-! # Boussinesq solvers

Models `solvers/detail/boussinesq_impl.hpp` and `boussinesq_expl.hpp` at one grid point away from edges with prescribed velocity, trapezoidal right-hand sides. The
state is the vertical velocity `w` and the potential temperature `tht` (perturbation in the implicit variant), with the arrays that persist between steps:
`rhs(w)`, `rhs(tht)` and `vip_rhs(w)`.
Simplifications: advection enters as arbitrary values of `w`, `tht` after it; the pressure solver as an arbitrary pressure-gradient value; the horizontal components,
which only have the absorber, are those of C33 (Model/Vip.lean); subgrid forces (which would be added to `vip_rhs` before the half step) are an arbitrary value. -/
namespace Mpdata
namespace Bsq
variable {K : Type} [Field K]

/-- parameters at the point: time step, gravity, reference temperature, environmental gradient `dtht_e`, temperature absorber `tht_abs`, heat-flux forcing
`hflux_frc`, velocity absorber `vab_coeff` and its relaxation value `vab_relax` (coefficient 0 without implicit absorber) -/
structure Par (K : Type) where
  dt : K
  g : K
  Tref : K
  dthtE : K
  alpha : K
  hflux : K
  c : K
  r : K

/-- `w`, `tht` and the arrays kept between steps -/
structure St (K : Type) where
  w : K
  tht : K
  rhsW : K
  rhsTht : K
  vipRhs : K

/-- `update_rhs(.., 0)` of the implicit variant after zeroing (boussinesq_impl.hpp:100-106), at the start of the run -/
def updateAt0 (p : Par K) (s : St K) : St K :=
  { s with rhsTht := -s.w * p.dthtE + p.hflux - p.alpha * s.tht, rhsW := p.g * s.tht / p.Tref }

/-- `update_rhs(.., 1)` of the implicit variant after zeroing (boussinesq_impl.hpp:107-114) -/
def updateAt1 (p : Par K) (s : St K) : St K :=
  { s with rhsTht := p.hflux, rhsW := p.g * (s.tht + 1 / 2 * p.dt * p.hflux) / (p.Tref * (1 + 1 / 2 * p.dt * p.alpha)) }

/-- `apply_rhs(dt / 2)` (mpdata_rhs.hpp:77-89) -/
def applyHalf (p : Par K) (s : St K) : St K :=
  { s with w := s.w + p.dt / 2 * s.rhsW, tht := s.tht + p.dt / 2 * s.rhsTht }

/-- divisor of the vertical component in `normalize_vip` (boussinesq_impl.hpp:63-82) -/
def divisor (p : Par K) : K := 1 + 1 / 2 * p.dt * p.c + 1 / 4 * p.dt * p.dt * p.g / p.Tref * p.dthtE / (1 + 1 / 2 * p.dt * p.alpha)

/-- `vip_rhs_impl_fnlz` (mpdata_rhs_vip_prs_common.hpp:171-189, then boussinesq_impl.hpp:119-129); `gradPhi` is the vertical pressure gradient found -/
def fnlz (p : Par K) (gradPhi : K) (s : St K) : St K :=
  let v0 := -s.w
  let w := s.w + 1 / 2 * p.dt * p.c * p.r
  let w := w - gradPhi
  let w := w / divisor p
  let vip := (v0 + w) / (1 / 2 * p.dt)
  let tht := (s.tht - 1 / 2 * p.dt * w * p.dthtE) / (1 + 1 / 2 * p.dt * p.alpha)
  { w := w, tht := tht, rhsW := s.rhsW, rhsTht := s.rhsTht + (-w * p.dthtE - p.alpha * tht), vipRhs := vip }

/-- everything after advection (`hook_post_step`, mpdata_rhs.hpp:187-190 and mpdata_rhs_vip_common.hpp:340-344) -/
def postStep (p : Par K) (gradPhi : K) (s : St K) : St K := fnlz p gradPhi (applyHalf p (updateAt1 p s))

/-- everything before advection (`hook_ante_step`, mpdata_rhs_vip_common.hpp:325-338): explicit forces `f` (e.g. subgrid) are added to `vip_rhs`, then the kept
right-hand sides are applied (mpdata_rhs.hpp:161-163; mpdata_rhs_vip_common.hpp:229-236) -/
def anteStep (p : Par K) (f : K) (s : St K) : St K :=
  let s := { s with vipRhs := s.vipRhs + f }
  let s := applyHalf p s
  { s with w := s.w + 1 / 2 * p.dt * s.vipRhs, vipRhs := 0 }

/-! ## Explicit variant -/

/-- right-hand side of the temperature, `update_rhs(.., 1)` (boussinesq_expl.hpp:106-111); `te` is `tht_e` -/
def explRhsTht (p : Par K) (te tht : K) : K :=
  p.hflux - p.alpha * ((tht + 1 / 2 * p.dt * p.hflux + 1 / 2 * p.dt * p.alpha * te) / (1 + 1 / 2 * p.dt * p.alpha) - te)

/-- `buoy_at_1` (boussinesq_expl.hpp:62-74) -/
def buoyAt1 (p : Par K) (te tht : K) : K :=
  p.g * ((tht + 1 / 2 * p.dt * p.hflux + 1 / 2 * p.dt * p.alpha * te) / (1 + 1 / 2 * p.dt * p.alpha) - te) / p.Tref

/-- right-hand sides at the start of the run (boussinesq_expl.hpp:53-60, 91) -/
def explRhsTht0 (p : Par K) (te tht : K) : K := p.hflux - p.alpha * (tht - te)
def buoyAt0 (p : Par K) (te tht : K) : K := p.g * (tht - te) / p.Tref

/-- the `buoy_filter` (boussinesq_expl.hpp:38-52): 1-2-1 filter in the vertical -/
def vfilter (b : Int → K) (k : Int) : K := 1 / 4 * (b (k + 1) + 2 * b k + b (k - 1))

end Bsq
end Mpdata
