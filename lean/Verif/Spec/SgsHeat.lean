import Verif.Model.SgsHeat
import Verif.Spec.Mirror
/-! # Specification: eddy diffusion of heat
The grid has the points `0 ≤ x d ≤ P d`; a point on the boundary represents half a cell in that dimension (`trapW`). The face `x` of dimension `d` lies between `x` and the next
point. -/
namespace Mpdata
namespace Heat
variable {n : Nat} [NeZero n] {K : Type} [Field K] [LinearOrder K]

/-- area weight of a face of dimension `d`, or of a piece of the boundary across it: one half for every other dimension in which it lies on the boundary -/
def faceW (P : Fin n → Nat) (d : Fin n) (x : Idx n) : K := ∏ e ∈ Finset.univ.erase d, if x e = 0 ∨ x e = P e then 1 / 2 else 1

/-- the faces of dimension `d` inside the domain -/
def facePts (P : Fin n → Nat) (d : Fin n) : Finset (Idx n) := (gridPts P).filter fun x => x d < P d

/-- the points on the ground -/
def groundPts (P : Fin n → Nat) (z : Fin n) : Finset (Idx n) := (gridPts P).filter fun x => x z = 0

/-- a domain on which the solver is used: cyclic boundaries or walls on the sides, ground (or a wall) below and sky (or a wall) above, at least two points in every dimension -/
structure Domain (c : Cfg n K) (P : Fin n → Nat) : Prop where
  box : ∀ d, c.B.b d = ⟨0, P d⟩
  two : ∀ d, 1 ≤ P d
  halo : 1 ≤ c.B.halo
  sides : ∀ d, d ≠ c.z → (c.B.kl d = .cyclic ∧ c.B.kr d = .cyclic) ∨ (c.B.kl d = .rigid ∧ c.B.kr d = .rigid)
  bottom : c.B.kl c.z = .gndsky ∨ c.B.kl c.z = .rigid
  top : c.B.kr c.z = .gndsky ∨ c.B.kr c.z = .rigid
  order : c.ds.Nodup ∧ ∀ d, d ∈ c.ds
  G0 : ∀ x ∈ gridPts P, 0 < c.G x
  dx0 : ∀ d, 0 < c.dx d
  pr0 : 0 < c.pr

/-- `φ` has the same value at the two ends of cyclic dimensions, which are the same point -/
def Closes (c : Cfg n K) (P : Fin n → Nat) (φ : Sca n K) : Prop := ∀ d x, c.B.kl d = .cyclic → x ∈ gridPts P → x d = 0 → φ (stepIdx x d (P d)) = φ x

/-- flux of heat down the temperature gradient, into the direction of decreasing index: viscosity `k` over Prandtl number times the gradient, per unit density -/
def Fourier (c : Cfg n K) (k tht : Sca n K) (d : Fin n) (x : Idx n) : K :=
  (k (stepIdx x d 1) + k x) / 2 / c.pr * ((c.G (stepIdx x d 1) + c.G x) / 2) * ((tht (stepIdx x d 1) - tht x) / c.dx d)

/-- heat received from the ground by the column above the point -/
def fromGround (c : Cfg n K) (x : Idx n) : K := if c.B.kl c.z = .gndsky then c.hflux * c.G x else 0

/-- mean vertical gradient at a grid point: centred inside, one-sided at the bottom and the top -/
def vertGrad (c : Cfg n K) (P : Fin n → Nat) (tht : Sca n K) (x : Idx n) : K :=
  if x c.z = 0 then (tht (stepIdx x c.z 1) - tht x) / c.dx c.z
  else if x c.z = P c.z then (tht x - tht (stepIdx x c.z (-1))) / c.dx c.z
  else (tht (stepIdx x c.z 1) - tht (stepIdx x c.z (-1))) / (2 * c.dx c.z)

/-- Richardson number: buoyancy frequency squared over deformation squared -/
def richardson (c : Cfg n K) (P : Fin n → Nat) (tau : Fin n → Fin n → Sca n K) (tht : Sca n K) (x : Idx n) : K :=
  c.g * vertGrad c P tht x / (c.tref * tdefSqCmpct tau x)

/-- Smagorinsky viscosity reduced by stable stratification; mixing length `mix`; the points on the ground take the value above -/
def Lilly (c : Cfg n K) (P : Fin n → Nat) (tau : Fin n → Fin n → Sca n K) (tht mix : Sca n K) (x : Idx n) : K :=
  let y := if x c.z = 0 then stepIdx x c.z 1 else x
  if richardson c P tau tht y < c.pr then (c.smgC * mix y) ^ 2 * c.sqrt (tdefSqCmpct tau y * (1 - richardson c P tau tht y / c.pr)) else 0
end Heat
end Mpdata
