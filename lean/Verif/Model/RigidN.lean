import Verif.Model.AdvopN
/-! # Rigid and mixed rigid/cyclic boundary conditions in 2-D and 3-D
Halo fillings of a domain that has, in every dimension, either a pair of rigid walls or a pair of cyclic boundaries (`bcond/rigid_2d.hpp`, `bcond/rigid_3d.hpp`,
`bcond/cyclic_2d.hpp`, `bcond/cyclic_3d.hpp`) and the exchanges that apply them dimension by dimension (`solver_2d.hpp`, `solver_3d.hpp`). Simplification: the two sides of
a dimension have the same kind of boundary. -/
namespace Mpdata
section
variable {n : Nat} {K : Type} [Field K] [LinearOrder K]

/-- rigid `fill_halos_sclr` in dimension `d`, left then right, also `fill_halos_vctr_nrml` (rigid_2d.hpp:29-37, 65-69, 121-129, 157-161; rigid_3d.hpp:29-37, 120-128;
ranges of bcond/detail/bcond_common.hpp:225-275): the point `m` steps outside the wall point takes the value `m` steps inside -/
def rigS (b : Fin n → Rng) (halo : Int) (d : Fin n) (lo hi : Fin n → Int) (a : Sca n K) : Sca n K :=
  let a := asgN (fun x => ((b d).first - halo ≤ x d ∧ x d ≤ (b d).first - 1) ∧ Ot b d lo hi x) (fun x => a (stepIdx x d (2 * ((b d).first - x d)))) a
  asgN (fun x => ((b d).last + 1 ≤ x d ∧ x d ≤ (b d).last + halo) ∧ Ot b d lo hi x) (fun x => a (stepIdx x d (2 * ((b d).last - x d)))) a

/-- rigid `fill_halos_vctr_alng` in dimension `d` (rigid_2d.hpp:58-63, 150-155; rigid_3d.hpp:58-66, 150-158): on the left `av(first - n) = -av(first + n - 1)` for the
counter `n` from `halo` down to 1 (2 with `ad`); on the right the counter starts from 1 at the first element written, which is `last`, or `last + 1` with `ad`, and the
value is `-av(last - n)` in both cases -/
def rigV (b : Fin n → Rng) (halo : Int) (d : Fin n) (lo hi : Fin n → Int) (ad : Bool) (a : Sca n K) : Sca n K :=
  let e : Int := if ad then 1 else 0
  let a := asgN (fun x => ((b d).first - halo ≤ x d ∧ x d ≤ (b d).first - 1 - e) ∧ Ot b d lo hi x) (fun x => -a (stepIdx x d (2 * ((b d).first - x d) - 1))) a
  asgN (fun x => ((b d).last + e ≤ x d ∧ x d ≤ (b d).last + halo - 1) ∧ Ot b d lo hi x) (fun x => -a (stepIdx x d (2 * ((b d).last - x d) - 1 + e))) a

/-- `fill_halos_sclr` (and `fill_halos_vctr_nrml`) of the boundary conditions of dimension `d`: rigid where `wall d`, cyclic elsewhere -/
def bcS (wall : Fin n → Bool) (b : Fin n → Rng) (halo : Int) (d : Fin n) (lo hi : Fin n → Int) (a : Sca n K) : Sca n K :=
  if wall d then rigS b halo d lo hi a else cycS b halo d lo hi a

/-- `fill_halos_vctr_alng` of the boundary conditions of dimension `d` (cyclic boundaries ignore `ad`, cyclic_2d.hpp:44-48) -/
def bcV (wall : Fin n → Bool) (b : Fin n → Rng) (halo : Int) (d : Fin n) (lo hi : Fin n → Int) (ad : Bool) (a : Sca n K) : Sca n K :=
  if wall d then rigV b halo d lo hi ad a else cycV b halo d lo hi a

/-- `xchng_sclr(arr, ijk, halo)`, dimensions in the order `ds`: 0, 1 in 2-D (solver_2d.hpp:40-56), 1, 0, 2 in 3-D (solver_3d.hpp:47-66) -/
def bcXchngS (wall : Fin n → Bool) (b : Fin n → Rng) (halo : Int) (ds : List (Fin n)) (a : Sca n K) : Sca n K :=
  ds.foldl (fun a d => bcS wall b halo d (fun _ => halo) (fun _ => halo) a) a

/-- `xchng_vctr_alng(arrvec, ad)` (solver_2d.hpp:63-88, solver_3d.hpp:73-95) -/
def bcXchngA (wall : Fin n → Bool) (b : Fin n → Rng) (halo : Int) (ad : Bool) (A : Vec n K) : Vec n K := fun d =>
  bcV wall b halo d (fun _ => 0) (fun _ => 0) ad (A d)

/-- `xchng_vctr_nrml(arrvec, ijk, ext)` (solver_2d.hpp:171-202, solver_3d.hpp:207-245) -/
def bcXchngN (wall : Fin n → Bool) (b : Fin n → Rng) (halo : Int) (ext : Int) (A : Vec n K) : Vec n K := fun c =>
  ((List.finRange n).filter (fun d => decide (d ≠ c))).foldl
    (fun a d => bcS wall b halo d (fun _ => ext + 1) (fun e => if e = c then ext else ext + 1) a) (A c)

end
end Mpdata
