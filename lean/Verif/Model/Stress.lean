import Verif.Model.Nabla
import Mathlib.Algebra.Order.Group.Abs
/-! # Stress tensor and eddy viscosity

Models `formulae/stress_formulae.hpp` and `solvers/detail/mpdata_rhs_vip_prs_sgs_*.hpp` for any number of dimensions at once. The code stores the unique
components of the symmetric tensor under one index; here they carry two: compact differencing `tau[0] = 00, tau[1] = 11, tau[2] = 01` in 2-D and
`00, 11, 22, 01, 02, 12` in 3-D (stress_formulae.hpp:254-363); otherwise `00, 01, 11` and `00, 01, 02, 11, 12, 22` (59-83). Staggered values at `x + h` are
stored at `x`, those at `x - h` are at `x` moved by -1. `z` is the last (vertical) dimension.
Simplifications: the halo exchanges of the tensor are not modelled; the properties are about fields on the whole periodic space (C41_cyclic_halo). -/
namespace Mpdata
section
variable {K : Type} [Field K] {n : Nat}

/-! ## Compact differencing -/

/-- `calc_vip_div_cmpct` (stress_formulae.hpp:225-250): velocity divergence implied by the density profile, at `x + h` in the vertical -/
def vipDiv (z : Fin n) (dx : Fin n → K) (v : Fin n → (Fin n → Int) → K) (rho : (Fin n → Int) → K) (x : Fin n → Int) : K :=
  - (v z (stepIdx x z 1) + v z x) * (rho (stepIdx x z 1) - rho x) / (dx z * (rho (stepIdx x z 1) + rho x))

/-- diagonal part of `calc_deform_cmpct` (stress_formulae.hpp:262-278, 302-325) -/
def deformDiag (z : Fin n) (dx : Fin n → K) (v : Fin n → (Fin n → Int) → K) (div : (Fin n → Int) → K) (d : Fin n) (x : Fin n → Int) : K :=
  if d = z then 2 * ((v d (stepIdx x d 1) - v d x) / dx d - 1 / (n : K) * div x)
  else 2 * ((v d (stepIdx x d 1) - v d x) / dx d
    - 1 / 4 / (n : K) * (div x + div (stepIdx x z (-1)) + div (stepIdx x d 1) + div (stepIdx (stepIdx x d 1) z (-1))))

/-- off-diagonal part of `calc_deform_cmpct` (stress_formulae.hpp:280-291, 327-362) -/
def deformOff (dx : Fin n → K) (v : Fin n → (Fin n → Int) → K) (d e : Fin n) (x : Fin n → Int) : K :=
  1 / 2 * (
    (v d (stepIdx x e 1) - v d x + v d (stepIdx (stepIdx x d 1) e 1) - v d (stepIdx x d 1)) / dx e
    + (v e (stepIdx x d 1) - v e x + v e (stepIdx (stepIdx x d 1) e 1) - v e (stepIdx x e 1)) / dx d)

/-- `calc_deform_cmpct` (stress_formulae.hpp:254-363) -/
def deformCmpct (z : Fin n) (dx : Fin n → K) (v : Fin n → (Fin n → Int) → K) (div : (Fin n → Int) → K) (d e : Fin n) : (Fin n → Int) → K :=
  if d = e then deformDiag z dx v div d else deformOff dx v d e

/-- average of a field to the location of component `d e` (stress_formulae.hpp:462-491, 585-639) -/
def stgrAvg (f : (Fin n → Int) → K) (d e : Fin n) (x : Fin n → Int) : K :=
  if d = e then 1 / 2 * (f (stepIdx x d 1) + f x)
  else 1 / 4 * (f (stepIdx x d 1) + f x + f (stepIdx (stepIdx x d 1) e 1) + f (stepIdx x e 1))

/-- `multiply_tnsr_cmpct` with an eddy-viscosity field (stress_formulae.hpp:571-639); `G` is 1 unless `opts::nug` is set -/
def multKm (coeff : K) (km G : (Fin n → Int) → K) (tau : Fin n → Fin n → (Fin n → Int) → K) (d e : Fin n) (x : Fin n → Int) : K :=
  tau d e x * (coeff * stgrAvg km d e x * stgrAvg G d e x)

/-- `multiply_tnsr_cmpct` with a constant viscosity (stress_formulae.hpp:549-569) -/
def multEta (eta : K) (tau : Fin n → Fin n → (Fin n → Int) → K) (d e : Fin n) (x : Fin n → Int) : K := tau d e x * eta

/-- `calc_stress_rhs_cmpct` (stress_formulae.hpp:754-845) -/
def stressRhs (dx : Fin n → K) (G : (Fin n → Int) → K) (coeff : K) (tau : Fin n → Fin n → (Fin n → Int) → K) (d : Fin n) (x : Fin n → Int) : K :=
  coeff * (
    (tau d d x - tau d d (stepIdx x d (-1))) / dx d
    + ∑ e, if e = d then 0 else
      1 / 2 * (tau d e x - tau d e (stepIdx x e (-1)) + tau d e (stepIdx x d (-1)) - tau d e (stepIdx (stepIdx x d (-1)) e (-1))) / dx e) / G x

/-- `flux_div_cmpct` (stress_formulae.hpp:717-752): divergence of fluxes on the cell faces -/
def fluxDiv (dx : Fin n → K) (G : (Fin n → Int) → K) (f : Fin n → (Fin n → Int) → K) (x : Fin n → Int) : K :=
  (∑ d, (f d x - f d (stepIdx x d (-1))) / dx d) / G x

/-! ## Plain centred differencing -/

/-- `calc_vgrad` (stress_formulae.hpp:20-55): `vg d c` is the derivative of component `c` in direction `d` -/
def vgrad (dx : Fin n → K) (v : Fin n → (Fin n → Int) → K) (d c : Fin n) : (Fin n → Int) → K := gradC d (dx d) (v c)

/-- `calc_deform` (stress_formulae.hpp:59-83) -/
def deform (vg : Fin n → Fin n → (Fin n → Int) → K) (d e : Fin n) (x : Fin n → Int) : K := vg d e x + vg e d x

/-- `calc_stress_div` and `calc_stress_rhs` (stress_formulae.hpp:87-139) -/
def stressRhsC (dx : Fin n → K) (coeff : K) (tau : Fin n → Fin n → (Fin n → Int) → K) (c : Fin n) (x : Fin n → Int) : K :=
  coeff * ∑ d, gradC d (dx d) (tau d c) x
end

section
variable {K : Type} [Field K] [LinearOrder K] {n : Nat}

/-- `calc_tdef_sq` (stress_formulae.hpp:143-171) -/
def tdefSq (tau : Fin n → Fin n → (Fin n → Int) → K) (x : Fin n → Int) : K :=
  ∑ d, tau d d x ^ 2 / 2 + ∑ d, ∑ e, if d < e then tau d e x ^ 2 else 0

/-- `calc_tdef_sq_cmpct` (stress_formulae.hpp:367-428): half of it an average, half a maximum over the surrounding locations -/
def tdefSqCmpct (tau : Fin n → Fin n → (Fin n → Int) → K) (x : Fin n → Int) : K :=
  (∑ d, (tau d d x ^ 2 + tau d d (stepIdx x d (-1)) ^ 2)
   + ∑ d, ∑ e, if d < e then tau d e x ^ 2 + tau d e (stepIdx x d (-1)) ^ 2 + tau d e (stepIdx x e (-1)) ^ 2 + tau d e (stepIdx (stepIdx x d (-1)) e (-1)) ^ 2 else 0) / 8
  + (∑ d, max (tau d d x ^ 2) (tau d d (stepIdx x d (-1)) ^ 2)
   + ∑ d, ∑ e, if d < e then 2 * max (max (tau d e x ^ 2) (tau d e (stepIdx x d (-1)) ^ 2)) (max (tau d e (stepIdx x e (-1)) ^ 2) (tau d e (stepIdx (stepIdx x d (-1)) e (-1)) ^ 2)) else 0) / 4

/-- eddy viscosity of `mpdata_rhs_vip_prs_sgs_smg::multiply_sgs_visc` (mpdata_rhs_vip_prs_sgs_smg.hpp:35-39) with compact differencing -/
def smgKm (smgC : K) (dx : Fin n → K) (tau : Fin n → Fin n → (Fin n → Int) → K) (x : Fin n → Int) : K :=
  (smgC * ((∑ d, dx d) / 3)) ^ 2 * tdefSqCmpct tau x
end
end Mpdata
