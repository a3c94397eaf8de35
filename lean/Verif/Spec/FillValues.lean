import Verif.Model.Fills
import Verif.Spec.Fills
/-! # Specification: what the halo must contain (C60)
A field `u` on the unbounded grid continues the domain beyond its ends as the boundary conditions demand: cyclic boundaries repeat it (the last point is the image of the first), walls,
ground and sky mirror it about the last point, open boundaries keep the value (or 0 for a derivative), poles show the opposite meridian. Only places at most `halo` beyond an end matter. -/
namespace Mpdata
variable {n : Nat} [NeZero n] {K : Type} [Field K] [LinearOrder K]

/-- the place with coordinate `m` in dimension `d` -/
def setc (x : Idx n) (d : Fin n) (m : Int) : Idx n := fun e => if e = d then m else x e

/-- below / above the domain in dimension `d`, within the halo -/
def Below (B : Bnd n) (d : Fin n) (x : Idx n) : Prop := WithHalo B.b B.halo x ∧ x d < (B.b d).first
def Above (B : Bnd n) (d : Fin n) (x : Idx n) : Prop := WithHalo B.b B.halo x ∧ (B.b d).last < x d

/-- walls, including ground and sky -/
def BcAll.isWall (k : BcAll) : Prop := k = .rigid ∨ k = .gndsky

/-- continuation of a scalar; `dv`: the scalar is a derivative -/
structure ContinuesS (B : Bnd n) (dv : Bool) (u : Sca n K) : Prop where
  cycL : ∀ d x, B.kl d = .cyclic → Below B d x → u x = u (setc x d (x d + ((B.b d).last - (B.b d).first)))
  cycR : ∀ d x, B.kr d = .cyclic → Above B d x → u x = u (setc x d (x d - ((B.b d).last - (B.b d).first)))
  wallL : ∀ d x, (B.kl d).isWall → Below B d x → u x = u (setc x d (2 * (B.b d).first - x d))
  wallR : ∀ d x, (B.kr d).isWall → Above B d x → u x = u (setc x d (2 * (B.b d).last - x d))
  openL : ∀ d x, B.kl d = .opened → Below B d x → u x = if dv then 0 else u (setc x d (B.b d).first)
  openR : ∀ d x, B.kr d = .opened → Above B d x → u x = if dv then 0 else u (setc x d (B.b d).last)
  poleL : ∀ d x, B.kl d = .polar → Below B d x → u x = u (setc (setc x d (2 * (B.b d).first - 1 - x d)) (d + 1) (polarNb B.pole (x (d + 1))))
  poleR : ∀ d x, B.kr d = .polar → Above B d x → u x = u (setc (setc x d (2 * (B.b d).last + 1 - x d)) (d + 1) (polarNb B.pole (x (d + 1))))

/-- continuation of the pressure: about walls it is odd with respect to the value at the wall, beyond open boundaries linear -/
structure ContinuesP (B : Bnd n) (u : Sca n K) : Prop where
  cycL : ∀ d x, B.kl d = .cyclic → Below B d x → u x = u (setc x d (x d + ((B.b d).last - (B.b d).first)))
  cycR : ∀ d x, B.kr d = .cyclic → Above B d x → u x = u (setc x d (x d - ((B.b d).last - (B.b d).first)))
  wallL : ∀ d x, (B.kl d).isWall → Below B d x → u x - u (setc x d (B.b d).first) = -(u (setc x d (2 * (B.b d).first - x d)) - u (setc x d (B.b d).first))
  wallR : ∀ d x, (B.kr d).isWall → Above B d x → u x - u (setc x d (B.b d).last) = -(u (setc x d (2 * (B.b d).last - x d)) - u (setc x d (B.b d).last))
  openL : ∀ d x, B.kl d = .opened → Below B d x →
    u x = u (setc x d (B.b d).first) + (((B.b d).first - x d : Int) : K) * (u (setc x d (B.b d).first) - u (setc x d ((B.b d).first + 1)))
  openR : ∀ d x, B.kr d = .opened → Above B d x →
    u x = u (setc x d (B.b d).last) + ((x d - (B.b d).last : Int) : K) * (u (setc x d (B.b d).last) - u (setc x d ((B.b d).last - 1)))

/-- continuation of advector component `c` beyond the ends of dimension `d ≠ c`: as a scalar, but zero beyond open boundaries; the upper pole is left
out (`C24_fails_polar_vctr_nrml_right`) -/
structure ContinuesN (B : Bnd n) (c : Fin n) (u : Sca n K) : Prop where
  cycL : ∀ d x, d ≠ c → B.kl d = .cyclic → Below B d x → u x = u (setc x d (x d + ((B.b d).last - (B.b d).first)))
  cycR : ∀ d x, d ≠ c → B.kr d = .cyclic → Above B d x → u x = u (setc x d (x d - ((B.b d).last - (B.b d).first)))
  wallL : ∀ d x, d ≠ c → (B.kl d).isWall → Below B d x → u x = u (setc x d (2 * (B.b d).first - x d))
  wallR : ∀ d x, d ≠ c → (B.kr d).isWall → Above B d x → u x = u (setc x d (2 * (B.b d).last - x d))
  openL : ∀ d x, d ≠ c → B.kl d = .opened → Below B d x → u x = 0
  openR : ∀ d x, d ≠ c → B.kr d = .opened → Above B d x → u x = 0
  poleL : ∀ d x, d ≠ c → B.kl d = .polar → Below B d x → u x = u (setc (setc x d (2 * (B.b d).first - 1 - x d)) (d + 1) (polarNb B.pole (x (d + 1))))

/-- continuation of each advector component along its own dimension, cyclic boundaries and walls only; the face `x` lies half a cell above the point `x`, so the faces beyond the domain are
`first - halo .. first - 1` and `last .. last + halo - 1`, and the mirror image of face `m` in the wall at `w` is `2 w - 1 - m` with the opposite sign -/
structure ContinuesA (B : Bnd n) (U : Vec n K) : Prop where
  cycL : ∀ d x, B.kl d = .cyclic → AlongFace B.b B.halo d x → x d < (B.b d).first → U d x = U d (setc x d (x d + ((B.b d).last - (B.b d).first)))
  cycR : ∀ d x, B.kr d = .cyclic → AlongFace B.b B.halo d x → (B.b d).last ≤ x d → U d x = U d (setc x d (x d - ((B.b d).last - (B.b d).first)))
  wallL : ∀ d x, (B.kl d).isWall → AlongFace B.b B.halo d x → x d < (B.b d).first → U d x = -U d (setc x d (2 * (B.b d).first - 1 - x d))
  wallR : ∀ d x, (B.kr d).isWall → AlongFace B.b B.halo d x → (B.b d).last ≤ x d → U d x = -U d (setc x d (2 * (B.b d).last - 1 - x d))
end Mpdata
