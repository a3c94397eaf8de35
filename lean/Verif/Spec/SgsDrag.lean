import Verif.Model.SgsDrag
import Verif.Spec.SgsHeat
/-! # Specification: subgrid-scale forces with walls and surface drag (C71)
The grid has the points `0 ≤ x d ≤ P d`; a point on the boundary represents half a cell in that dimension. The face `x` of dimension `d` lies between `x` and the next point; the edge `x` of the
dimensions `d`, `e` lies between `x` and the diagonally next point. -/
namespace Mpdata
namespace Drag
variable {n : Nat} [NeZero n] {K : Type} [Field K] [LinearOrder K]

/-- a domain on which the solver is used: cyclic boundaries or walls on the sides, ground (or a wall) below and sky (or a wall) above, at least three points in every dimension -/
structure Domain (c : Cfg n K) (P : Fin n → Nat) : Prop where
  box : ∀ d, c.B.b d = ⟨0, P d⟩
  two : ∀ d, 2 ≤ P d
  halo : 1 ≤ c.B.halo
  last : ∀ d, d ≤ c.z
  sides : ∀ d, d ≠ c.z → (c.B.kl d = .cyclic ∧ c.B.kr d = .cyclic) ∨ (c.B.kl d = .rigid ∧ c.B.kr d = .rigid)
  bottom : c.B.kl c.z = .gndsky ∨ c.B.kl c.z = .rigid
  top : c.B.kr c.z = .gndsky ∨ c.B.kr c.z = .rigid
  order : ∀ d, d ∈ c.ds
  lateral : ∀ d ∈ c.lat, d ≠ c.z
  G0 : ∀ x ∈ gridPts P, c.rho x ≠ 0
  Gper : ∀ d x, c.B.kl d = .cyclic → x ∈ gridPts P → x d = 0 →
    c.rho (stepIdx x d (-1)) = c.rho (stepIdx x d (P d - 1)) ∧ c.rho (stepIdx x d (P d)) = c.rho x ∧ c.rho (stepIdx x d (P d + 1)) = c.rho (stepIdx x d 1)

/-- `φ` has the same value at the two ends of cyclic dimensions, which are the same point -/
def Closes (c : Cfg n K) (P : Fin n → Nat) (φ : Sca n K) : Prop := ∀ d x, c.B.kl d = .cyclic → x ∈ gridPts P → x d = 0 → φ (stepIdx x d (P d)) = φ x

/-- `φ` vanishes on the walls across dimension `d` -/
def NoFlow (c : Cfg n K) (P : Fin n → Nat) (d : Fin n) (φ : Sca n K) : Prop := c.B.kl d ≠ .cyclic → ∀ x ∈ gridPts P, x d = 0 ∨ x d = P d → φ x = 0

/-- weight of an edge of dimensions `d`, `e`: one half for every other dimension in which it lies on the boundary -/
def edgeW (P : Fin n → Nat) (d e : Fin n) (x : Idx n) : K := ∏ k ∈ (Finset.univ.erase d).erase e, if x k = 0 ∨ x k = P k then 1 / 2 else 1

/-- the edges of dimensions `d`, `e` inside the domain -/
def edgePts (P : Fin n → Nat) (d e : Fin n) : Finset (Idx n) := (gridPts P).filter fun x => x d < P d ∧ x e < P e

/-- the faces of dimension `d` on the ground -/
def groundFaces (P : Fin n → Nat) (z d : Fin n) : Finset (Idx n) := (gridPts P).filter fun x => x z = 0 ∧ x d < P d

/-- mean over the two points next to a face -/
def mean (d : Fin n) (φ : Sca n K) (x : Idx n) : K := (φ x + φ (stepIdx x d 1)) / 2

/-- the drag law: drag coefficient times density times wind speed times wind component, all on the face `x` of dimension `d` -/
def dragLaw (c : Cfg n K) (v : Vec n K) (d : Fin n) (x : Idx n) : K :=
  c.cdrag * mean d c.rho x * c.sqrt (∑ e, if e = c.z then 0 else mean d (v e) x ^ 2) * mean d (v d) x

/-- stress exerted on the ground: there is none at a plain wall -/
def groundStress (c : Cfg n K) (v : Vec n K) (d : Fin n) (x : Idx n) : K := if c.B.kl c.z = .gndsky then dragLaw c v d x else 0

/-- the square root is the one of nonnegative numbers -/
def IsRoot (c : Cfg n K) : Prop := ∀ a, 0 ≤ a → 0 ≤ c.sqrt a ∧ c.sqrt a ^ 2 = a

/-- viscosity times density at the location of component `d e`: the constant, or the mean of the eddy viscosity field `k false` times the mean density, with `k true` in place of
`k false` for vertical shear in the anisotropic models -/
def viscAt (c : Cfg n K) (k : Bool → Sca n K) (d e : Fin n) (x : Idx n) : K :=
  match c.visc with
  | .dns eta => eta
  | .smg _ => stgrAvg (k false) d e x * stgrAvg c.rho d e x
  | .bsq two _ => stgrAvg (if two = true ∧ d ≠ e ∧ (d = c.z ∨ e = c.z) then k true else k false) d e x * stgrAvg c.rho d e x
  | .ani _ => stgrAvg (if d ≠ e ∧ (d = c.z ∨ e = c.z) then k true else k false) d e x * stgrAvg c.rho d e x

/-- rate of increase of `φ` in dimension `e`, on the edge `x` of dimensions `d`, `e` -/
def slope (c : Cfg n K) (d e : Fin n) (φ : Sca n K) (x : Idx n) : K :=
  (φ (stepIdx x e 1) - φ x + (φ (stepIdx (stepIdx x d 1) e 1) - φ (stepIdx x d 1))) / 2 / c.dx e

/-- strain rates of the flow: along a dimension, and shear in a plane -/
def stretch (c : Cfg n K) (v : Vec n K) (d : Fin n) (x : Idx n) : K := (v d (stepIdx x d 1) - v d x) / c.dx d
def shear (c : Cfg n K) (v : Vec n K) (d e : Fin n) (x : Idx n) : K := slope c d e (v d) x + slope c e d (v e) x

/-- the solver is a Boussinesq one -/
def IsBsq (c : Cfg n K) : Prop := ∃ two k, c.visc = .bsq two k

/-- mean of the horizontal grid intervals -/
def horizontal (c : Cfg n K) : K := (∑ d ∈ Finset.univ.erase c.z, c.dx d) / ((Finset.univ.erase c.z).card : K)

/-- density does not vary -/
def Uniform (c : Cfg n K) : Prop := c.nug = true → ∀ x y, c.G x = c.G y
end Drag
end Mpdata
