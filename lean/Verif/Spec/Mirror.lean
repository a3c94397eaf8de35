import Verif.Spec.SchemeN
import Verif.Model.RigidN
/-! # Specification: mirror images
Walls stand at the planes `x d = 0` and `x d = P d` and pass through the first and the last grid point. A field on the walled domain is the restriction of a field on the unbounded grid
that equals its own mirror image in every wall. -/
namespace Mpdata
variable {n : Nat} {K : Type} [Field K] [LinearOrder K]

/-- the mirror image of a grid point in the plane `x w = 0` -/
def mirC (w : Fin n) (x : Idx n) : Idx n := fun e => if e = w then -x e else x e

/-- the mirror image of a face of dimension `w` in the plane `x w = 0`: the face between `x w` and `x w + 1` goes to the one between `-x w - 1` and `-x w` -/
def mirF (w : Fin n) (x : Idx n) : Idx n := fun e => if e = w then -1 - x e else x e

/-- the mirror image of a scalar field -/
def mirS (w : Fin n) (a : Sca n K) : Sca n K := fun x => a (mirC w x)

/-- the mirror image of a vector field given on faces: the component across the mirror changes sign -/
def mirV (w : Fin n) (A : Vec n K) : Vec n K := fun d x => if d = w then -A d (mirF w x) else A d (mirC w x)

/-- the mirror image of the time-constant fields -/
def Stat.mir (w : Fin n) (st : Stat n K) : Stat n K := ⟨mirS w st.G, mirV w st.ndt, mirV w st.ndtt⟩

/-- the mirror image of the parameters of a solver -/
def SpecN.Par.mir (w : Fin n) (p : SpecN.Par n K) : SpecN.Par n K := ⟨p.o, p.eps, p.F, p.st.mir w⟩

/-- a scalar field on the unbounded grid that continues a domain of `P d + 1` points: across walls it is even, across cyclic boundaries it has period `P d` -/
structure ContS (wall : Fin n → Bool) (P : Fin n → Nat) (a : Sca n K) : Prop where
  cyc : ∀ x d, wall d = false → a (stepIdx x d (P d)) = a x
  per : ∀ x d, wall d = true → a (stepIdx x d (2 * P d)) = a x
  even : ∀ x d, wall d = true → a (mirC d x) = a x

/-- a vector field on the unbounded grid that continues such a domain: across walls the normal component is odd, the tangential ones are even -/
structure ContV (wall : Fin n → Bool) (P : Fin n → Nat) (A : Vec n K) : Prop where
  cyc : ∀ c x d, wall d = false → A c (stepIdx x d (P d)) = A c x
  per : ∀ c x d, wall d = true → A c (stepIdx x d (2 * P d)) = A c x
  odd : ∀ x d, wall d = true → A d (mirF d x) = -A d x
  even : ∀ c x d, c ≠ d → wall d = true → A c (mirC d x) = A c x

/-- a solver on a grid of `P d + 1` points in dimension `d`, with rigid walls in the dimensions where `wall d` and cyclic boundaries in the others; `p` holds its parameters as
fields on the unbounded grid, `ds` is the order in which the scalar exchange treats the dimensions -/
structure WallSetupN (wall : Fin n → Bool) (c : CfgN n K) (p : SpecN.Par n K) (P : Fin n → Nat) (ds : List (Fin n)) : Prop where
  ho : c.o = p.o
  heps : c.eps = p.eps
  hF : c.F = p.F
  hbox : ∀ d, c.box d = ⟨0, P d⟩
  hhP : ∀ d, solverHalo c.o ≤ P d
  hds : ds.Nodup ∧ ∀ d, d ∈ ds
  hS : c.fillS = bcXchngS wall c.box (solverHalo c.o) ds
  hA : ∀ ad, c.fillA ad = bcXchngA wall c.box (solverHalo c.o) ad
  hN : ∀ ext, c.fillN ext = bcXchngN wall c.box (solverHalo c.o) ext
  contG : ContS wall P p.st.G
  contNdt : ContV wall P p.st.ndt
  contNdtt : ContV wall P p.st.ndtt
  hG : ∀ x, Bx c.box (fun _ => solverHalo c.o) (fun _ => solverHalo c.o) x → c.st.G x = p.st.G x
  hndt : ∀ d x, Bx c.box (fun _ => solverHalo c.o) (fun e => if e = d then (solverHalo c.o : Int) - 1 else solverHalo c.o) x → c.st.ndt d x = p.st.ndt d x
  hndtt : ∀ d x, Bx c.box (fun _ => solverHalo c.o) (fun e => if e = d then (solverHalo c.o : Int) - 1 else solverHalo c.o) x → c.st.ndtt d x = p.st.ndtt d x

/-- weights of the trapezoidal rule on a grid of `P d + 1` points: one half for every dimension in which the point is the first or the last -/
def trapW (P : Fin n → Nat) (x : Idx n) : K := ∏ d, if x d = 0 ∨ x d = P d then 1 / 2 else 1

/-- the grid points `0 ≤ x d ≤ P d` -/
def gridPts (P : Fin n → Nat) : Finset (Idx n) := Fintype.piFinset fun d => Finset.Icc 0 (P d : Int)

end Mpdata
