import Verif.Model.AdvopN
/-! # Scalar halo exchange with a separate kind of boundary on each side
Models `fill_halos_sclr` of `bcond/{cyclic,rigid,open}_{2,3}d.hpp` and `xchng_sclr` (solver_2d.hpp:40-56, solver_3d.hpp:47-66) for one subdomain. -/
namespace Mpdata
variable {n : Nat} {K : Type} [Field K] [LinearOrder K]

/-- `bcond::bcond_e` without the polar, ground/sky and remote boundaries (bcond_common.hpp:15-25) -/
inductive BcKind | cyclic | rigid | opened
  deriving DecidableEq

/-- the element a halo element of dimension `d` is copied from, left side: cyclic (cyclic_2d.hpp:29-33), rigid (rigid_2d.hpp:29-37), open (open_2d.hpp:32-42) -/
def srcL (b : Fin n → Rng) (d : Fin n) : BcKind → Idx n → Idx n
  | .cyclic, x => stepIdx x d ((b d).last - (b d).first)
  | .rigid, x => stepIdx x d (2 * ((b d).first - x d))
  | .opened, x => stepIdx x d ((b d).first - x d)

/-- the same, right side: cyclic (cyclic_2d.hpp:121-125), rigid (rigid_2d.hpp:125-133), open (open_2d.hpp:125-135) -/
def srcR (b : Fin n → Rng) (d : Fin n) : BcKind → Idx n → Idx n
  | .cyclic, x => stepIdx x d (-((b d).last - (b d).first))
  | .rigid, x => stepIdx x d (2 * ((b d).last - x d))
  | .opened, x => stepIdx x d ((b d).last - x d)

/-- `for (auto &bc : bcs[d]) bc->fill_halos_sclr(...)`: left then right (solver_2d.hpp:46-54) -/
def kindS (kl kr : Fin n → BcKind) (b : Fin n → Rng) (halo : Int) (d : Fin n) (lo hi : Fin n → Int) (a : Sca n K) : Sca n K :=
  let a := asgN (fun x => ((b d).first - halo ≤ x d ∧ x d ≤ (b d).first - 1) ∧ Ot b d lo hi x) (fun x => a (srcL b d (kl d) x)) a
  asgN (fun x => ((b d).last + 1 ≤ x d ∧ x d ≤ (b d).last + halo) ∧ Ot b d lo hi x) (fun x => a (srcR b d (kr d) x)) a

/-- `xchng_sclr(arr, ijk, halo)`, dimensions in the order `ds`: 0, 1 in 2-D (solver_2d.hpp:40-56), 1, 0, 2 in 3-D (solver_3d.hpp:47-66) -/
def kindXchngS (kl kr : Fin n → BcKind) (b : Fin n → Rng) (halo : Int) (ds : List (Fin n)) (a : Sca n K) : Sca n K :=
  ds.foldl (fun a d => kindS kl kr b halo d (fun _ => halo) (fun _ => halo) a) a

end Mpdata
