import Verif.Spec.SchemeN
import Mathlib.Logic.Equiv.Defs
/-! # Specification: renaming of the coordinate axes
`s : Equiv.Perm (Fin n)` sends the old name of an axis to its new name: the old axis `e` is the new axis `s e`. -/
namespace Mpdata
variable {n : Nat} {K : Type} [Field K] [LinearOrder K]

/-- the old coordinates of the point with new coordinates `x` -/
def axI (s : Equiv.Perm (Fin n)) (x : Idx n) : Idx n := fun e => x (s e)

/-- a scalar field in the new coordinates -/
def axS (s : Equiv.Perm (Fin n)) (a : Sca n K) : Sca n K := fun x => a (axI s x)

/-- a vector field in the new coordinates: the component along the new axis `d` is the one along the old axis `s⁻¹ d` -/
def axV (s : Equiv.Perm (Fin n)) (A : Vec n K) : Vec n K := fun d x => A (s.symm d) (axI s x)

/-- the time-constant fields in the new coordinates -/
def Stat.ax (s : Equiv.Perm (Fin n)) (st : Stat n K) : Stat n K := ⟨axS s st.G, axV s st.ndt, axV s st.ndtt⟩

/-- the parameters of a solver in the new coordinates -/
def SpecN.Par.ax (s : Equiv.Perm (Fin n)) (p : SpecN.Par n K) : SpecN.Par n K := ⟨p.o, p.eps, p.F, p.st.ax s⟩

/-! ## Reversing an axis
The axis `w` of a grid of `L + 1` points is run through in the opposite direction: grid point `i` becomes grid point `L - i`, and the face between `i` and `i + 1` the one between
`L - 1 - i` and `L - i`. -/

/-- the grid point `x` in the other direction -/
def revC (w : Fin n) (L : Int) (x : Idx n) : Idx n := fun e => if e = w then L - x e else x e

/-- the face `x` of dimension `w` in the other direction -/
def revF (w : Fin n) (L : Int) (x : Idx n) : Idx n := fun e => if e = w then L - 1 - x e else x e

/-- a scalar field with the axis reversed -/
def revS (w : Fin n) (L : Int) (a : Sca n K) : Sca n K := fun x => a (revC w L x)

/-- a vector field with the axis reversed: the component along the axis changes sign -/
def revV (w : Fin n) (L : Int) (A : Vec n K) : Vec n K := fun d x => if d = w then -A d (revF w L x) else A d (revC w L x)

/-- the time-constant fields with the axis reversed -/
def Stat.rev (w : Fin n) (L : Int) (st : Stat n K) : Stat n K := ⟨revS w L st.G, revV w L st.ndt, revV w L st.ndtt⟩

/-- the parameters of a solver with the axis reversed -/
def SpecN.Par.rev (w : Fin n) (L : Int) (p : SpecN.Par n K) : SpecN.Par n K := ⟨p.o, p.eps, p.F, p.st.rev w L⟩

end Mpdata
