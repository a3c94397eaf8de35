import Verif.Model.Fills
import Verif.Model.Stress
/-! # Eddy viscosity and eddy diffusion of heat in the Boussinesq solvers
Models `multiply_sgs_visc` of `solvers/detail/boussinesq_sgs_common.hpp:28-143` in program order, for the isotropic (`smg`) and the anisotropic (`smgani`) scheme, the vector part
of `formulae/stress_formulae.hpp:454-547` and `nabla::calc_grad_cmpct` (nabla_formulae.hpp:148-163), on one subdomain with any kinds of boundaries and any number of dimensions.
The deformation tensor `tau` and the potential temperature are given. The last part of the file models the viscosity formula in IEEE arithmetic with infinities and NaN.
Simplifications: one thread; the lines 119-128 multiplying and exchanging the tensor are modelled elsewhere (Model/Stress, Model/Fills); exact arithmetic, with the square root a parameter. -/
namespace Mpdata
namespace Heat
variable {n : Nat} [NeZero n] {K : Type} [Field K] [LinearOrder K]

/-- parameters: boundaries, vertical dimension (the last), grid steps, `G` (1 everywhere without `opts::nug`), `g`, `Tht_ref`, `prandtl_num`, `smg_c`, `hflux_const`, the mixing
lengths `mix_len_h`, `mix_len_v` (both are `mix_len` in the isotropic scheme), the square root, the order of dimensions of `xchng_sclr` -/
structure Cfg (n : Nat) (K : Type) where
  B : Bnd n
  z : Fin n
  dx : Fin n → K
  G : Sca n K
  g : K
  tref : K
  pr : K
  smgC : K
  hflux : K
  mixH : Sca n K
  mixV : Sca n K
  sqrt : K → K
  ds : List (Fin n)

/-- the temporaries (boussinesq_sgs_common.hpp:28-29, 156-163) and `k_m`, `hflux_frc` -/
structure Mem (n : Nat) (K : Type) where
  srfc : Sca n K
  fullTht : Sca n K
  grad : Vec n K
  tdef : Sca n K
  rcdsn : Sca n K
  kh : Sca n K
  kv : Sca n K
  frc : Sca n K

/-- the ranges `ij`: the points of the subdomain at vertical index 0 (lines 55-58) -/
def ground (c : Cfg n K) (x : Idx n) : Prop := x c.z = 0 ∧ ∀ e, e ≠ c.z → c.B.f e ≤ x e ∧ x e ≤ c.B.l e
instance (c : Cfg n K) : DecidablePred (ground c) := fun x => by unfold ground; infer_instance

/-- lines 60-67: surface heat flux -/
def setSrfc (c : Cfg n K) (m : Mem n K) : Mem n K := { m with srfc := asgN (ground c) (fun x => -c.hflux * c.G x) m.srfc }

/-- lines 69-71: potential temperature `tht` (boussinesq_expl.hpp:75-78; `tht + tht_e` in boussinesq_impl.hpp:52-55) and its exchange -/
def setTht (c : Cfg n K) (tht : Sca n K) (m : Mem n K) : Mem n K :=
  { m with fullTht := xchngPres c.B (List.finRange n) 0 (asgN (cellBox c.B.b) tht m.fullTht) }

/-- line 72, `calc_grad_cmpct` (nabla_formulae.hpp:148-163): component `d` on `ijkm[d] + h`, `ijkm[d] = [first - 1, last]`, and `ijk` in the other dimensions -/
def setGrad (c : Cfg n K) (m : Mem n K) : Mem n K :=
  { m with grad := fun d => asgN (Bx c.B.b (fun e => if e = d then 1 else 0) (fun _ => 0)) (gradCmpct d (c.dx d) m.fullTht) (m.grad d) }

/-- line 74 -/
def setTdef (c : Cfg n K) (tau : Fin n → Fin n → Sca n K) (m : Mem n K) : Mem n K := { m with tdef := asgN (cellBox c.B.b) (tdefSqCmpct tau) m.tdef }

/-- line 76, `calc_rcdsn_num` (lines 31-47): Richardson number -/
def setRcdsn (c : Cfg n K) (m : Mem n K) : Mem n K :=
  { m with rcdsn := asgN (cellBox c.B.b) (fun x => c.g * (1 / 2) * (m.grad c.z (stepIdx x c.z (-1)) + m.grad c.z x) / (c.tref * m.tdef x)) m.rcdsn }

/-- `where(rcdsn_num / prandtl_num < 1, pow(smg_c * mix, 2) * sqrt(tdef_sq * (1 - rcdsn_num / prandtl_num)), 0)` (lines 79-84, 87-98) -/
def viscosity (c : Cfg n K) (mix td rc : K) : K := if rc / c.pr < 1 then (c.smgC * mix) ^ 2 * c.sqrt (td * (1 - rc / c.pr)) else 0

/-- lines 78-99 -/
def setKm (c : Cfg n K) (m : Mem n K) : Mem n K :=
  { m with
    kh := asgN (cellBox c.B.b) (fun x => viscosity c (c.mixH x) (m.tdef x) (m.rcdsn x)) m.kh
    kv := asgN (cellBox c.B.b) (fun x => viscosity c (c.mixV x) (m.tdef x) (m.rcdsn x)) m.kv }

/-- lines 100-111: the ground takes the value one level above -/
def setKmGround (c : Cfg n K) (m : Mem n K) : Mem n K :=
  { m with
    kh := asgN (ground c) (fun x => m.kh (stepIdx x c.z 1)) m.kh
    kv := asgN (ground c) (fun x => m.kv (stepIdx x c.z 1)) m.kv }

/-- lines 113-119 -/
def xchngKm (c : Cfg n K) (m : Mem n K) : Mem n K := { m with kh := xchngSclr c.B c.ds 1 false m.kh, kv := xchngSclr c.B c.ds 1 false m.kv }

/-- the product on one face: `av[d] *= coeff * 0.5 * (k_m + k_m) * 0.5 * (G + G)` (stress_formulae.hpp:467-503, 506-547) -/
def multFace (c : Cfg n K) (k : Sca n K) (d : Fin n) (a : Sca n K) (x : Idx n) : K :=
  a x * (1 / c.pr * (1 / 2 * (k (stepIdx x d 1) + k x)) * (1 / 2 * (c.G (stepIdx x d 1) + c.G x)))

/-- lines 132-136, `multiply_vctr_cmpct` over `ijk_vec` (stress_formulae.hpp:454-547; mpdata_rhs_vip_prs_sgs_common.hpp:204-211: one more face on the left of dimension 0): the
vertical component with the vertical viscosity, the others with the horizontal one -/
def multVctr (c : Cfg n K) (m : Mem n K) : Mem n K :=
  { m with grad := fun d => asgN (Bx c.B.b (fun e => if e = 0 then 1 else 0) (fun _ => 0)) (multFace c (if d = c.z then m.kv else m.kh) d (m.grad d)) (m.grad d) }

/-- line 138 -/
def xchngFluxes (c : Cfg n K) (m : Mem n K) : Mem n K := { m with grad := xchngSgsVctr c.B m.srfc m.grad }

/-- lines 140-143 -/
def setFrc (c : Cfg n K) (m : Mem n K) : Mem n K := { m with frc := asgN (cellBox c.B.b) (fluxDiv c.dx c.G m.grad) m.frc }

/-- `multiply_sgs_visc` (lines 50-143) up to the exchange of the viscosity -/
def viscPart (c : Cfg n K) (tau : Fin n → Fin n → Sca n K) (tht : Sca n K) (m : Mem n K) : Mem n K :=
  xchngKm c (setKmGround c (setKm c (setRcdsn c (setTdef c tau (setGrad c (setTht c tht (setSrfc c m)))))))

/-- `multiply_sgs_visc` (lines 50-143): heat part -/
def multiplySgsVisc (c : Cfg n K) (tau : Fin n → Fin n → Sca n K) (tht : Sca n K) (m : Mem n K) : Mem n K :=
  setFrc c (xchngFluxes c (multVctr c (viscPart c tau tht m)))

end Heat

/-! ## The viscosity formula in IEEE arithmetic
Numbers are finite (an element of an ordered field, i.e. without rounding, overflow or signed zeros), infinite or NaN. -/

/-- a floating-point number without rounding; zeros are unsigned (positive) -/
inductive Fl (K : Type) | fin (a : K) | inf (neg : Bool) | nan
  deriving DecidableEq

namespace Fl
variable {K : Type} [Field K] [LinearOrder K]

/-- IEEE 754 multiplication -/
def mul : Fl K → Fl K → Fl K
  | .fin a, .fin b => .fin (a * b)
  | .fin a, .inf s => if a = 0 then .nan else .inf (xor s (decide (a < 0)))
  | .inf s, .fin b => if b = 0 then .nan else .inf (xor s (decide (b < 0)))
  | .inf s, .inf t => .inf (xor s t)
  | _, _ => .nan

/-- IEEE 754 division -/
def div : Fl K → Fl K → Fl K
  | .fin a, .fin b => if b = 0 then (if a = 0 then .nan else .inf (decide (a < 0))) else .fin (a / b)
  | .fin _, .inf _ => .fin 0
  | .inf s, .fin b => .inf (xor s (decide (b < 0)))
  | _, _ => .nan

/-- IEEE 754 subtraction -/
def sub : Fl K → Fl K → Fl K
  | .fin a, .fin b => .fin (a - b)
  | .fin _, .inf s => .inf (!s)
  | .inf s, .fin _ => .inf s
  | .inf s, .inf t => if s = t then .nan else .inf s
  | _, _ => .nan

/-- IEEE 754 comparison: false with NaN -/
def lt : Fl K → Fl K → Bool
  | .fin a, .fin b => decide (a < b)
  | .fin _, .inf s => !s
  | .inf s, .fin _ => s
  | .inf s, .inf t => s && !t
  | _, _ => false

/-- IEEE 754 square root, from the square root `r` of the field -/
def sqrt (r : K → K) : Fl K → Fl K
  | .fin a => if a < 0 then .nan else .fin (r a)
  | .inf s => if s then .nan else .inf false
  | .nan => .nan

/-- Richardson number from the mean vertical gradient `gr` (boussinesq_sgs_common.hpp:31-47) -/
def rcdsn (g tref gr td : Fl K) : Fl K := div (mul g gr) (mul tref td)

/-- viscosity at a point (lines 79-84) -/
def viscosity (r : K → K) (smgC mix pr td rc : Fl K) : Fl K :=
  if lt (div rc pr) (.fin 1) then mul (mul (mul smgC mix) (mul smgC mix)) (sqrt r (mul td (sub (.fin 1) (div rc pr)))) else .fin 0
end Fl
end Mpdata
