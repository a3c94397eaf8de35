import Verif.Model.AdvopN
/-! # Places on the grid a halo exchange is about (C60)
Nothing here refers to the model of the exchanges: `b d` is the range of grid points of the domain in dimension `d`. -/
namespace Mpdata
variable {n : Nat}

/-- a grid point of the domain -/
def InDomain (b : Fin n → Rng) (x : Idx n) : Prop := ∀ e, (b e).first ≤ x e ∧ x e ≤ (b e).last

/-- a grid point of the domain or of the `h` layers around it, corners included -/
def WithHalo (b : Fin n → Rng) (h : Int) (x : Idx n) : Prop := ∀ e, (b e).first - h ≤ x e ∧ x e ≤ (b e).last + h

/-- a face of dimension `d` (half a cell above the grid point `x`) between two grid points of the domain -/
def InnerFace (b : Fin n → Rng) (d : Fin n) (x : Idx n) : Prop :=
  ((b d).first ≤ x d ∧ x d ≤ (b d).last - 1) ∧ ∀ e, e ≠ d → (b e).first ≤ x e ∧ x e ≤ (b e).last

/-- a face of dimension `d` between two points that lie in the domain or in `h` layers beyond its ends in dimension `d`, and in the domain in the other dimensions -/
def AlongFace (b : Fin n → Rng) (h : Int) (d : Fin n) (x : Idx n) : Prop :=
  ((b d).first - h ≤ x d ∧ x d ≤ (b d).last + h - 1) ∧ ∀ e, e ≠ d → (b e).first ≤ x e ∧ x e ≤ (b e).last

/-- a face of dimension `d` between two points of the domain or of the `h` layers around it -/
def HaloFace (b : Fin n → Rng) (h : Int) (d : Fin n) (x : Idx n) : Prop :=
  ((b d).first - h ≤ x d ∧ x d ≤ (b d).last + h - 1) ∧ ∀ e, e ≠ d → (b e).first - h ≤ x e ∧ x e ≤ (b e).last + h

end Mpdata
