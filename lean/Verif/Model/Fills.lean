import Verif.Model.Bcond
import Verif.Model.AdvopN
/-! # Every halo filling of every boundary kind in 2-D and 3-D
Models the `fill_halos_*` methods of `bcond/{cyclic,rigid,gndsky,open,polar}_{2,3}d.hpp` with the ranges of `bcond/detail/bcond_common.hpp:225-275`, and the
exchanges of `solver_2d.hpp`, `solver_3d.hpp` that apply them, for one subdomain `b` and an arbitrary kind of boundary on each side of each dimension.
The number of dimensions `n` stands for 2 or 3. Faces: `i + h` is index `i`. Simplification: one thread, so the rank conditions of `open_3d.hpp:81-84, 214-217` hold. -/
namespace Mpdata
variable {n : Nat} [NeZero n] {K : Type} [Field K] [LinearOrder K]

/-- `bcond::bcond_e` without `null`, `remote` and `custom` (bcond_common.hpp:15-17) -/
inductive BcAll | cyclic | rigid | gndsky | opened | polar
  deriving DecidableEq

/-- kinds of boundary on both sides of every dimension, the subdomain, the halo width and `pole` (polar_common.hpp:47) -/
structure Bnd (n : Nat) where
  kl : Fin n → BcAll
  kr : Fin n → BcAll
  b : Fin n → Rng
  halo : Int
  pole : Int

namespace Bnd
variable (B : Bnd n)
/-- `left_edge_sclr` (bcond_common.hpp:231-233) -/
def f (d : Fin n) : Int := (B.b d).first
/-- `rght_edge_sclr` (bcond_common.hpp:234-236) -/
def l (d : Fin n) : Int := (B.b d).last
end Bnd

/-- the element across the pole: index `m` in dimension `d`, `polar_neighbours(jj)` in the dimension addressed by the second argument of `pi<d>`, which is `d + 1`
modulo the number of dimensions (polar_2d.hpp:35-41, polar_3d.hpp:36-40, idxperm.hpp) -/
def acrossPole (B : Bnd n) (d : Fin n) (m : Int) (x : Idx n) : Idx n :=
  stepIdx (stepIdx x d (m - x d)) (d + 1) (polarNb B.pole (x (d + 1)) - x (d + 1))

/-! ## Scalars -/

/-- value given to a left halo element by `fill_halos_sclr(a, ..., deriv)`: cyclic_2d.hpp:29-33, rigid_2d.hpp:29-37, gndsky_2d.hpp:22 (inherited), open_2d.hpp:31-41, polar_2d.hpp:29-44 and 3-D counterparts -/
def valSL (B : Bnd n) (d : Fin n) (deriv : Bool) (a : Sca n K) (x : Idx n) : K :=
  match B.kl d with
  | .cyclic => a (stepIdx x d (B.l d - B.f d))
  | .rigid | .gndsky => a (stepIdx x d (2 * (B.f d - x d)))
  | .opened => if deriv then 0 else a (stepIdx x d (B.f d - x d))
  | .polar => a (acrossPole B d (B.f d + (B.f d - 1 - x d)) x)

/-- right side (cyclic_2d.hpp:121-125, rigid_2d.hpp:121-129, open_2d.hpp:125-135, polar_2d.hpp:98-113) -/
def valSR (B : Bnd n) (d : Fin n) (deriv : Bool) (a : Sca n K) (x : Idx n) : K :=
  match B.kr d with
  | .cyclic => a (stepIdx x d (-(B.l d - B.f d)))
  | .rigid | .gndsky => a (stepIdx x d (2 * (B.l d - x d)))
  | .opened => if deriv then 0 else a (stepIdx x d (B.l d - x d))
  | .polar => a (acrossPole B d (B.l d - (x d - (B.l d + 1))) x)

/-- `for (auto &bc : bcs[d]) bc->fill_halos_sclr(...)` -/
def fillS (B : Bnd n) (d : Fin n) (lo hi : Fin n → Int) (deriv : Bool) (a : Sca n K) : Sca n K :=
  let a := asgN (fun x => (B.f d - B.halo ≤ x d ∧ x d ≤ B.f d - 1) ∧ Ot B.b d lo hi x) (valSL B d deriv a) a
  asgN (fun x => (B.l d + 1 ≤ x d ∧ x d ≤ B.l d + B.halo) ∧ Ot B.b d lo hi x) (valSR B d deriv a) a

/-- `xchng_sclr(arr, ijk, ext, deriv)` (solver_2d.hpp:40-56 with `ds = [0, 1]`, solver_3d.hpp:47-66 with `ds = [1, 0, 2]`) -/
def xchngSclr (B : Bnd n) (ds : List (Fin n)) (ext : Int) (deriv : Bool) (a : Sca n K) : Sca n K :=
  ds.foldl (fun a d => fillS B d (fun _ => ext) (fun _ => ext) deriv a) a

/-! ## Pressure -/

/-- how far the left halo is written by `fill_halos_pres`: cyclic and rigid fill it all; open fills one point in 2-D (open_2d.hpp:43-49, the second one is
assigned in `set_edge_pres`, lines 67-71, instead) and two in 3-D if the halo has two (open_3d.hpp:44-55) -/
def presDepthL (B : Bnd n) (d : Fin n) : Int :=
  if B.kl d = .opened then (if n = 2 then 1 else min 2 B.halo) else B.halo

/-- right side (open_2d.hpp:137-149, open_3d.hpp:166-178) -/
def presDepthR (B : Bnd n) (d : Fin n) : Int := if B.kr d = .opened then min 2 B.halo else B.halo

/-- value given to a left halo element by `fill_halos_pres`: cyclic_2d.hpp:35-38 (as a scalar), rigid_2d.hpp:39-48, open_2d.hpp:43-49, open_3d.hpp:44-55.
For open boundaries the element `m` steps outside receives `(m+1) a(edge) - m a(edge+1)`. Polar boundaries have no such method. -/
def valPL (B : Bnd n) (d : Fin n) (a : Sca n K) (x : Idx n) : K :=
  match B.kl d with
  | .cyclic => a (stepIdx x d (B.l d - B.f d))
  | .rigid | .gndsky => 2 * a (stepIdx x d (B.f d - x d)) - a (stepIdx x d (2 * (B.f d - x d)))
  | .opened => ((B.f d - x d + 1 : Int) : K) * a (stepIdx x d (B.f d - x d)) - ((B.f d - x d : Int) : K) * a (stepIdx x d (B.f d + 1 - x d))
  | .polar => a x

/-- right side (cyclic_2d.hpp:127-130, rigid_2d.hpp:131-140, open_2d.hpp:137-149) -/
def valPR (B : Bnd n) (d : Fin n) (a : Sca n K) (x : Idx n) : K :=
  match B.kr d with
  | .cyclic => a (stepIdx x d (-(B.l d - B.f d)))
  | .rigid | .gndsky => 2 * a (stepIdx x d (B.l d - x d)) - a (stepIdx x d (2 * (B.l d - x d)))
  | .opened => ((x d - B.l d + 1 : Int) : K) * a (stepIdx x d (B.l d - x d)) - ((x d - B.l d : Int) : K) * a (stepIdx x d (B.l d - 1 - x d))
  | .polar => a x

/-- `for (auto &bc : bcs[d]) bc->fill_halos_pres(...)` -/
def fillP (B : Bnd n) (d : Fin n) (lo hi : Fin n → Int) (a : Sca n K) : Sca n K :=
  let a := asgN (fun x => (B.f d - presDepthL B d ≤ x d ∧ x d ≤ B.f d - 1) ∧ Ot B.b d lo hi x) (valPL B d a) a
  asgN (fun x => (B.l d + 1 ≤ x d ∧ x d ≤ B.l d + presDepthR B d) ∧ Ot B.b d lo hi x) (valPR B d a) a

/-- `xchng_pres(arr, ijk, ext)` (solver_2d.hpp:205-222 with `ds = [0, 1]`, solver_3d.hpp:288-307 with `ds = [0, 1, 2]`) -/
def xchngPres (B : Bnd n) (ds : List (Fin n)) (ext : Int) (a : Sca n K) : Sca n K :=
  ds.foldl (fun a d => fillP B d (fun _ => ext) (fun _ => ext) a) a

/-! ## Advectors -/

/-- zeroing of the outermost transverse faces before an open filling (open_2d.hpp:80-85, 168-173, open_3d.hpp:77-101, 200-224): components of the later dimensions, at the
edge `i` of dimension `d`, faces on either rim of their own dimension -/
def zeroRim (B : Bnd n) (d : Fin n) (i : Int) (A : Vec n K) : Vec n K := fun e =>
  if d < e then
    asgN (fun x => x d = i ∧ (x e = B.f e - 1 ∨ x e = B.l e) ∧ ∀ c, c ≠ d → c ≠ e → B.f c ≤ x c ∧ x c ≤ B.l c) (fun _ => 0) (A e)
  else A e

/-- sum over the transverse dimensions of inflow minus outflow of the cell `y` (open_2d.hpp:92-95, open_3d.hpp:109-120) -/
def transverse (d : Fin n) (A : Vec n K) (y : Idx n) : K :=
  ((List.finRange n).filter (fun e => decide (e ≠ d))).foldl (fun s e => s + (A e (stepIdx y e (-1)) - A e y)) 0

/-- which left halo faces `fill_halos_vctr_alng` writes: all of them (all but the nearest with `ad`, except cyclic), polar only the nearest and the furthest
(cyclic_2d.hpp:44-48, rigid_2d.hpp:58-63, open_2d.hpp:73-97, polar_2d.hpp:46-59) -/
def alngL (B : Bnd n) (d : Fin n) (ad : Bool) (m : Int) : Prop :=
  match B.kl d with
  | .cyclic => B.f d - B.halo ≤ m ∧ m ≤ B.f d - 1
  | .rigid | .gndsky | .opened => B.f d - B.halo ≤ m ∧ m ≤ B.f d - 1 - (if ad then 1 else 0)
  | .polar => (ad = false ∧ m = B.f d - 1) ∨ (1 < B.halo ∧ m = B.f d - B.halo)
instance (B : Bnd n) (d : Fin n) (ad : Bool) (m : Int) : Decidable (alngL B d ad m) := by unfold alngL; split <;> infer_instance

/-- right side (cyclic_2d.hpp:136-140, rigid_2d.hpp:150-155, open_2d.hpp:166-190, polar_2d.hpp:115-128) -/
def alngR (B : Bnd n) (d : Fin n) (ad : Bool) (m : Int) : Prop :=
  match B.kr d with
  | .cyclic => B.l d ≤ m ∧ m ≤ B.l d + B.halo - 1
  | .rigid | .gndsky | .opened => B.l d + (if ad then 1 else 0) ≤ m ∧ m ≤ B.l d + B.halo - 1
  | .polar => (ad = false ∧ m = B.l d) ∨ (1 < B.halo ∧ m = B.l d + B.halo - 1)
instance (B : Bnd n) (d : Fin n) (ad : Bool) (m : Int) : Decidable (alngR B d ad m) := by unfold alngR; split <;> infer_instance

/-- value given to a left halo face (same lines); polar: the furthest face is assigned last and comes from across the pole, the nearest is zero -/
def valAL (B : Bnd n) (d : Fin n) (A : Vec n K) (x : Idx n) : K :=
  match B.kl d with
  | .cyclic => A d (stepIdx x d (B.l d - B.f d))
  | .rigid | .gndsky => -A d (stepIdx x d (2 * (B.f d - x d) - 1))
  | .opened => A d (stepIdx x d (B.f d - x d)) - transverse d A (stepIdx x d (B.f d - x d))
  | .polar => if 1 < B.halo ∧ x d = B.f d - B.halo then A d (acrossPole B d (B.f d) x) else 0

/-- right side -/
def valAR (B : Bnd n) (d : Fin n) (ad : Bool) (A : Vec n K) (x : Idx n) : K :=
  match B.kr d with
  | .cyclic => A d (stepIdx x d (-(B.l d - B.f d)))
  | .rigid | .gndsky => -A d (stepIdx x d (2 * (B.l d - x d) - 1 + (if ad then 1 else 0)))
  | .opened => A d (stepIdx x d (B.l d - 1 - x d)) + transverse d A (stepIdx x d (B.l d - x d))
  | .polar => if 1 < B.halo ∧ x d = B.l d + B.halo - 1 then A d (acrossPole B d (B.l d - 1) x) else 0

/-- `for (auto &bc : bcs[d]) bc->fill_halos_vctr_alng(arrvec, ..., ad)`, transverse ranges `i`, `j`, `k` -/
def fillA (B : Bnd n) (d : Fin n) (ad : Bool) (A : Vec n K) : Vec n K :=
  let A := if B.kl d = .opened then zeroRim B d (B.f d) A else A
  let A := Function.update A d (asgN (fun x => alngL B d ad (x d) ∧ Ot B.b d (fun _ => 0) (fun _ => 0) x) (valAL B d A) (A d))
  let A := if B.kr d = .opened then zeroRim B d (B.l d) A else A
  Function.update A d (asgN (fun x => alngR B d ad (x d) ∧ Ot B.b d (fun _ => 0) (fun _ => 0) x) (valAR B d ad A) (A d))

/-- `xchng_vctr_alng(arrvec, ad)` (solver_2d.hpp:63-88, solver_3d.hpp:73-103): dimensions in increasing order -/
def xchngAlng (B : Bnd n) (ad : Bool) (A : Vec n K) : Vec n K := (List.finRange n).foldl (fun A d => fillA B d ad A) A

/-- value given to a left halo element by `fill_halos_vctr_nrml` (cyclic_2d.hpp:74-77, rigid_2d.hpp:65-69, open_2d.hpp:99-105, polar_2d.hpp:61-76) -/
def valNL (B : Bnd n) (d : Fin n) (a : Sca n K) (x : Idx n) : K :=
  match B.kl d with
  | .cyclic => a (stepIdx x d (B.l d - B.f d))
  | .rigid | .gndsky => a (stepIdx x d (2 * (B.f d - x d)))
  | .opened => 0
  | .polar => a (acrossPole B d (B.f d + B.halo - 1 - (x d - (B.f d - B.halo))) x)

/-- right side (rigid_2d.hpp:157-161, open_2d.hpp:192-198, polar_2d.hpp:130-145) -/
def valNR (B : Bnd n) (d : Fin n) (a : Sca n K) (x : Idx n) : K :=
  match B.kr d with
  | .cyclic => a (stepIdx x d (-(B.l d - B.f d)))
  | .rigid | .gndsky => a (stepIdx x d (2 * (B.l d - x d)))
  | .opened => 0
  | .polar => a (acrossPole B d (B.l d - 1 - (x d - (B.l d + 1))) x)

/-- `for (auto &bc : bcs[d]) bc->fill_halos_vctr_nrml(...)`, elements of the scalar halo -/
def fillN (B : Bnd n) (d : Fin n) (lo hi : Fin n → Int) (a : Sca n K) : Sca n K :=
  let a := asgN (fun x => (B.f d - B.halo ≤ x d ∧ x d ≤ B.f d - 1) ∧ Ot B.b d lo hi x) (valNL B d a) a
  asgN (fun x => (B.l d + 1 ≤ x d ∧ x d ≤ B.l d + B.halo) ∧ Ot B.b d lo hi x) (valNR B d a) a

/-- `xchng_vctr_nrml(arrvec, ijk, ext)` (solver_2d.hpp:171-202, solver_3d.hpp:207-262): component `c` in every other dimension in increasing order -/
def xchngNrml (B : Bnd n) (ext : Int) (A : Vec n K) : Vec n K := fun c =>
  ((List.finRange n).filter (fun d => decide (d ≠ c))).foldl
    (fun a d => fillN B d (fun _ => ext + 1) (fun e => if e = c then ext else ext + 1) a) (A c)

/-! ## Faces just outside the domain: fluxes and subgrid-scale fields -/

/-- one-face fillings: the face to the left of the domain gets `vl`, the one to the right `vr`; cyclic boundaries fill the whole halo with the periodic image -/
def fillFace (B : Bnd n) (d : Fin n) (lo hi : Fin n → Int) (vl vr : Sca n K → Sca n K) (a : Sca n K) : Sca n K :=
  let a := asgN (fun x => (if B.kl d = .cyclic then B.f d - B.halo ≤ x d ∧ x d ≤ B.f d - 1 else x d = B.f d - 1) ∧ Ot B.b d lo hi x)
    (fun x => if B.kl d = .cyclic then a (stepIdx x d (B.l d - B.f d)) else vl a x) a
  asgN (fun x => (if B.kr d = .cyclic then B.l d ≤ x d ∧ x d ≤ B.l d + B.halo - 1 else x d = B.l d) ∧ Ot B.b d lo hi x)
    (fun x => if B.kr d = .cyclic then a (stepIdx x d (-(B.l d - B.f d))) else vr a x) a

/-- `fill_halos_flux` (rigid_2d.hpp:71-77, 163-168; nothing for the other kinds, bcond_common.hpp:118-119) -/
def fillFlux (B : Bnd n) (d : Fin n) (a : Sca n K) : Sca n K :=
  let a := if B.kl d = .rigid ∨ B.kl d = .gndsky then asgN (fun x => x d = B.f d - 1 ∧ Ot B.b d (fun _ => 0) (fun _ => 0) x) (fun x => -a (stepIdx x d 1)) a else a
  if B.kr d = .rigid ∨ B.kr d = .gndsky then asgN (fun x => x d = B.l d ∧ Ot B.b d (fun _ => 0) (fun _ => 0) x) (fun x => -a (stepIdx x d (-1))) a else a

/-- `xchng_flux` (solver_2d.hpp:90-101, solver_3d.hpp:105-117): component `d` in dimension `d` -/
def xchngFlux (B : Bnd n) (A : Vec n K) : Vec n K := fun d => fillFlux B d (A d)

/-- `fill_halos_sgs_vctr` in dimension `d` (rigid_2d.hpp:90-97, 181-188, cyclic_2d.hpp:63-68, gndsky_2d.hpp:42-49): rigid gives zero on the edge, ground the prescribed value `s` -/
def fillSgsVctr (B : Bnd n) (d : Fin n) (lo hi : Fin n → Int) (s : Sca n K) (a : Sca n K) : Sca n K :=
  fillFace B d lo hi
    (fun a x => if B.kl d = .gndsky then 2 * s (stepIdx x d 1) - a (stepIdx x d 1) else -a (stepIdx x d 1))
    (fun a x => -a (stepIdx x d (-1))) a

/-- `fill_halos_sgs_tnsr` in dimension `d` (rigid_2d.hpp:99-105, 190-196, cyclic_2d.hpp:70-73, gndsky_2d.hpp:51-61): linear extrapolation; at the ground it is rebuilt
from the velocity `u`, the divergence `v` and the grid step `di` -/
def fillSgsTnsr (B : Bnd n) (d : Fin n) (u v : Sca n K) (di : K) (a : Sca n K) : Sca n K :=
  fillFace B d (fun _ => 0) (fun _ => 0)
    (fun a x => if B.kl d = .gndsky then
        2 * ((3 * u (stepIdx x d 2) - 2 * u (stepIdx x d 1) - u (stepIdx x d 3)) / di - v x)
      else 2 * a (stepIdx x d 1) - a (stepIdx x d 2))
    (fun a x => 2 * a (stepIdx x d (-1)) - a (stepIdx x d (-2))) a

/-- `fill_halos_sgs_div_stgr` (rigid_2d.hpp:85-88, 176-179, gndsky_2d.hpp:37-40, cyclic_2d.hpp:55-60) -/
def fillSgsDivStgr (B : Bnd n) (d : Fin n) (a : Sca n K) : Sca n K :=
  fillFace B d (fun _ => 0) (fun _ => 0) (fun a x => 2 * a (stepIdx x d 1) - a (stepIdx x d 2)) (fun a x => 2 * a (stepIdx x d (-1)) - a (stepIdx x d (-2))) a

/-- `fill_halos_sgs_div` (rigid_2d.hpp:79-83, 170-174, gndsky_2d.hpp:31-35, cyclic_2d.hpp:50-53): the rigid version is the same text as the staggered one, `edge + h` on
the right being the index of the edge itself; the cyclic one is `fill_halos_sclr` -/
def fillSgsDiv (B : Bnd n) (d : Fin n) (lo hi : Fin n → Int) (a : Sca n K) : Sca n K :=
  let a := asgN (fun x => (if B.kl d = .cyclic then B.f d - B.halo ≤ x d ∧ x d ≤ B.f d - 1 else x d = B.f d - 1) ∧ Ot B.b d lo hi x)
    (fun x => if B.kl d = .cyclic then a (stepIdx x d (B.l d - B.f d)) else 2 * a (stepIdx x d 1) - a (stepIdx x d 2)) a
  asgN (fun x => (if B.kr d = .cyclic then B.l d + 1 ≤ x d ∧ x d ≤ B.l d + B.halo else x d = B.l d) ∧ Ot B.b d lo hi x)
    (fun x => if B.kr d = .cyclic then a (stepIdx x d (-(B.l d - B.f d))) else 2 * a (stepIdx x d (-1)) - a (stepIdx x d (-2))) a

/-- `xchng_sgs_div` (solver_2d.hpp:103-117 with `lat = [0]`, solver_3d.hpp:119-135 with `lat = [1, 0]`): staggered filling in the vertical dimension `v`, then the lateral
dimensions over `range^h` in the vertical -/
def xchngSgsDiv (B : Bnd n) (v : Fin n) (lat : List (Fin n)) (a : Sca n K) : Sca n K :=
  lat.foldl (fun a d => fillSgsDiv B d (fun e => if e = v then 1 else 0) (fun _ => 0) a) (fillSgsDivStgr B v a)

/-- `xchng_sgs_vctr` (solver_2d.hpp:119-133, solver_3d.hpp:137-153) -/
def xchngSgsVctr (B : Bnd n) (s : Sca n K) (A : Vec n K) : Vec n K := fun d => fillSgsVctr B d (fun _ => 0) (fun _ => 0) s (A d)

/-- `xchng_sgs_tnsr_diag` (solver_2d.hpp:135-150, solver_3d.hpp:155-172) -/
def xchngSgsTnsrDiag (B : Bnd n) (w v : Sca n K) (di : Fin n → K) (A : Vec n K) : Vec n K := fun d => fillSgsTnsr B d w v (di d) (A d)

/-- `xchng_sgs_tnsr_offdiag` for the component of the dimensions `d < e` (solver_2d.hpp:152-169, solver_3d.hpp:174-205): filled in dimension `d` over `ijkm` in dimension
`e`, then in dimension `e` over `ijkm` in dimension `d`; the third dimension has one extra point on each side; `s` is the surface stress `bv[d]` -/
def xchngSgsTnsrOffdiag (B : Bnd n) (d e : Fin n) (s : Sca n K) (a : Sca n K) : Sca n K :=
  let a := fillSgsVctr B d (fun _ => 1) (fun c => if c = e then 0 else 1) s a
  fillSgsVctr B e (fun _ => 1) (fun c => if c = d then 0 else 1) s a

end Mpdata
