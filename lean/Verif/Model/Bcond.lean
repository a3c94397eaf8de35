import Verif.Model.Advop1
/-! # Open, rigid and polar boundary conditions
Models `bcond/open_{1,2,3}d.hpp`, `bcond/rigid_{2,3}d.hpp`, `bcond/polar_{2,3}d.hpp` with the index ranges of
`bcond/detail/bcond_common.hpp:225-275` for a domain `r = [f,l]`:
left_halo_sclr = [f-halo, f-1], rght_halo_sclr = [l+1, l+halo], left_halo_vctr = [f-halo, f-1], rght_halo_vctr = [l, l+halo-1],
left_intr_vctr = [f, f+halo-1], rght_intr_vctr = [l-halo, l-1].
Fills that act on each grid line across the boundary separately are given as functions of one line
(`a(pi<d>(i, j))` for fixed transverse indices `j`, `k`); both sides are applied, left first, as in the loops
`for (auto &bc : bcs[d])` of solver_{1,2,3}d.hpp. Left and right fills write disjoint elements. -/
namespace Mpdata
variable {K : Type} [Field K] [LinearOrder K]

/-! ## open -/

/-- open `fill_halos_sclr` (open_1d.hpp:28-38, 62-72; open_2d.hpp:30-40, 118-128; open_3d.hpp:30-40, 154-164) -/
def openFillS (r : Rng) (halo : Int) (deriv : Bool) (a : Int → K) : Int → K :=
  let a := asg ⟨r.first - halo, r.first - 1⟩ (fun _ => if deriv then 0 else a r.first) a
  asg ⟨r.last + 1, r.last + halo⟩ (fun _ => if deriv then 0 else a r.last) a

/-- open `fill_halos_vctr_alng` in 1-D (open_1d.hpp:40-44, 74-78) -/
def openFillV1 (r : Rng) (halo : Int) (ad : Bool) (a : Int → K) : Int → K :=
  let e : Int := if ad then 1 else 0
  let a := asg ⟨r.first - halo, r.first - 1 - e⟩ (fun _ => a r.first) a
  asg ⟨r.last + e, r.last + halo - 1⟩ (fun _ => a (r.last - halo)) a

/-- open `fill_halos_vctr_nrml` on a line (open_2d.hpp:95-101, 183-189; open_3d.hpp) -/
def openFillN (r : Rng) (halo : Int) (a : Int → K) : Int → K :=
  asg ⟨r.last + 1, r.last + halo⟩ (fun _ => 0) (asg ⟨r.first - halo, r.first - 1⟩ (fun _ => 0) a)

/-- 2-D blitz assignment `a(ri, rj) = e` -/
def asg2 (ri rj : Rng) (e : Int → Int → K) (a : Int → Int → K) : Int → Int → K :=
  fun i j => if ri.Mem i ∧ rj.Mem j then e i j else a i j

/-- zeroing of the outermost transverse faces of row `i` before the open fill in x (open_2d.hpp:74-79, 162-167) -/
def openZero2 (d : Nat) (i : Int) (J : Rng) (b : Int → Int → K) : Int → Int → K :=
  if d = 0 then asg2 ⟨i, i⟩ ⟨J.last, J.last⟩ (fun _ _ => 0) (asg2 ⟨i, i⟩ ⟨J.first - 1, J.first - 1⟩ (fun _ _ => 0) b) else b

/-- open `fill_halos_vctr_alng`, left, 2-D (open_2d.hpp:69-93) in `pi<d>` coordinates: `a = av[d]`, `b = av[d+1]`,
`b(i, j-h)` is `b i (j-1)` -/
def openV2L (d : Nat) (r J : Rng) (halo : Int) (ad : Bool) (ab : (Int → Int → K) × (Int → Int → K)) :
    (Int → Int → K) × (Int → Int → K) :=
  let e : Int := if ad then 1 else 0
  let i := r.first
  let b := openZero2 d i J ab.2
  (asg2 ⟨r.first - halo, r.first - 1 - e⟩ J (fun _ j => ab.1 i j - (b i (j - 1) - b i j)) ab.1, b)

/-- open `fill_halos_vctr_alng`, right, 2-D (open_2d.hpp:157-181) -/
def openV2R (d : Nat) (r J : Rng) (halo : Int) (ad : Bool) (ab : (Int → Int → K) × (Int → Int → K)) :
    (Int → Int → K) × (Int → Int → K) :=
  let e : Int := if ad then 1 else 0
  let i := r.last
  let b := openZero2 d i J ab.2
  (asg2 ⟨r.last + e, r.last + halo - 1⟩ J (fun _ j => ab.1 (i - 1) j + (b i (j - 1) - b i j)) ab.1, b)

/-- open `fill_halos_vctr_alng`, both sides, 2-D -/
def openV2 (d : Nat) (r J : Rng) (halo : Int) (ad : Bool) (ab : (Int → Int → K) × (Int → Int → K)) :
    (Int → Int → K) × (Int → Int → K) := openV2R d r J halo ad (openV2L d r J halo ad ab)

/-- cyclic `fill_halos_vctr_alng` in 2-D (bcond/cyclic_2d.hpp:46-50 and the right-hand version) in `pi<d>` coordinates -/
def cycV2 (r J : Rng) (halo : Int) (a : Int → Int → K) : Int → Int → K :=
  let n := r.last - r.first
  let a := asg2 ⟨r.first - halo, r.first - 1⟩ J (fun i j => a (i + n) j) a
  asg2 ⟨r.last, r.last + halo - 1⟩ J (fun i j => a (i - n) j) a

/-- `xchng_vctr_alng` in 2-D for one thread with open boundaries in x and in y (solver_2d.hpp:63-88): the y call works on
`pi<1>`, i.e. transposed, arrays -/
def xchngVctr2OpenOpen (ri rj : Rng) (halo : Int) (gx gy : Int → Int → K) : (Int → Int → K) × (Int → Int → K) :=
  let p := openV2 0 ri rj halo false (gx, gy)
  let q := openV2 1 rj ri halo false ((fun j i => p.2 i j), (fun j i => p.1 i j))
  ((fun i j => q.2 j i), (fun i j => q.1 j i))

/-- the same with open boundaries in x and cyclic in y -/
def xchngVctr2OpenCyc (ri rj : Rng) (halo : Int) (gx gy : Int → Int → K) : (Int → Int → K) × (Int → Int → K) :=
  let p := openV2 0 ri rj halo false (gx, gy)
  let q := cycV2 rj ri halo (fun j i => p.2 i j)
  (p.1, fun i j => q j i)

/-- 3-D blitz assignment -/
def asg3 (ri rj rk : Rng) (e : Int → Int → Int → K) (a : Int → Int → Int → K) : Int → Int → Int → K :=
  fun i j k => if ri.Mem i ∧ rj.Mem j ∧ rk.Mem k then e i j k else a i j k

/-- zeroing of outermost transverse faces of row `i` before the open fill in 3-D (open_3d.hpp:75-101, 208-232), in `pi<d>` coordinates;
`rank`/`size` are those of the calling thread. Returns `(av[d+1], av[d+2])`. -/
def openZero3 (d : Nat) (i : Int) (J Kr : Rng) (rank size : Int) (b c : Int → Int → Int → K) :
    (Int → Int → Int → K) × (Int → Int → Int → K) :=
  let zb (b : Int → Int → Int → K) (j : Int) := asg3 ⟨i, i⟩ ⟨j, j⟩ Kr (fun _ _ _ => 0) b
  let zc (c : Int → Int → Int → K) (k : Int) := asg3 ⟨i, i⟩ J ⟨k, k⟩ (fun _ _ _ => 0) c
  match d with
  | 0 =>
    let c := zc (zc c (Kr.first - 1)) Kr.last
    let b := if rank = 0 then zb b (J.first - 1) else b
    let b := if rank = size - 1 then zb b J.last else b
    (b, c)
  | 1 => (zb (zb b (J.first - 1)) J.last, c)
  | _ => (b, c)

/-- open `fill_halos_vctr_alng`, left, 3-D (open_3d.hpp:70-124) -/
def openV3L (d : Nat) (r J Kr : Rng) (halo rank size : Int) (ad : Bool) (a b c : Int → Int → Int → K) :
    (Int → Int → Int → K) × (Int → Int → Int → K) × (Int → Int → Int → K) :=
  let e : Int := if ad then 1 else 0
  let i := r.first
  let z := openZero3 d i J Kr rank size b c
  (asg3 ⟨r.first - halo, r.first - 1 - e⟩ J Kr
    (fun _ j k => a i j k - (z.1 i (j - 1) k - z.1 i j k) - (z.2 i j (k - 1) - z.2 i j k)) a, z.1, z.2)

/-- open `fill_halos_vctr_alng`, right, 3-D (open_3d.hpp:203-252) -/
def openV3R (d : Nat) (r J Kr : Rng) (halo rank size : Int) (ad : Bool) (a b c : Int → Int → Int → K) :
    (Int → Int → Int → K) × (Int → Int → Int → K) × (Int → Int → Int → K) :=
  let e : Int := if ad then 1 else 0
  let i := r.last
  let z := openZero3 d i J Kr rank size b c
  (asg3 ⟨r.last + e, r.last + halo - 1⟩ J Kr
    (fun _ j k => a (i - 1) j k + (z.1 i (j - 1) k - z.1 i j k) + (z.2 i j (k - 1) - z.2 i j k)) a, z.1, z.2)

/-! ## rigid -/

/-- rigid `fill_halos_sclr` and `fill_halos_vctr_nrml` (rigid_2d.hpp:29-37, 65-69, 121-129, 157-161; rigid_3d.hpp:29-37, 120-128).
The loop counter `n` is `f - i` on the left and `i - l` on the right. -/
def rigidFillS (r : Rng) (halo : Int) (a : Int → K) : Int → K :=
  let a := asg ⟨r.first - halo, r.first - 1⟩ (fun i => a (r.first + (r.first - i))) a
  asg ⟨r.last + 1, r.last + halo⟩ (fun i => a (r.last - (i - r.last))) a

/-- rigid `fill_halos_pres` (rigid_2d.hpp:39-48, 131-140; rigid_3d.hpp:39-48, 133-142) -/
def rigidFillP (r : Rng) (halo : Int) (a : Int → K) : Int → K :=
  let a := asg ⟨r.first - halo, r.first - 1⟩ (fun i => 2 * a r.first - a (r.first + (r.first - i))) a
  asg ⟨r.last + 1, r.last + halo⟩ (fun i => 2 * a r.last - a (r.last - (i - r.last))) a

/-- rigid `set_edge_pres` (rigid_2d.hpp:52-56, 144-148) -/
def rigidSetEdge (r : Rng) (a : Int → K) : Int → K :=
  asg ⟨r.last, r.last⟩ (fun _ => 0) (asg ⟨r.first, r.first⟩ (fun _ => 0) a)

/-- rigid `fill_halos_vctr_alng` (rigid_2d.hpp:58-63, 150-155; rigid_3d.hpp:58-66, 150-158). On the left the counter `n` counts down
from `halo`, on the right it counts up from 1 at the first element written, which with `ad` is one further out. -/
def rigidFillV (r : Rng) (halo : Int) (ad : Bool) (a : Int → K) : Int → K :=
  let e : Int := if ad then 1 else 0
  let a := asg ⟨r.first - halo, r.first - 1 - e⟩ (fun i => -a (r.first + (r.first - i) - 1)) a
  asg ⟨r.last + e, r.last + halo - 1⟩ (fun i => -a (r.last - (i - (r.last + e) + 1))) a

/-- rigid `fill_halos_flux` (rigid_2d.hpp:71-75, 163-168; rigid_3d.hpp:74-79, 166-171) -/
def rigidFillF (r : Rng) (a : Int → K) : Int → K :=
  asg ⟨r.last, r.last⟩ (fun _ => -a (r.last - 1)) (asg ⟨r.first - 1, r.first - 1⟩ (fun _ => -a r.first) a)

/-! ## polar -/

/-- `pole` (polar_common.hpp:47) for `n` points in dimension 0 -/
def poleOf (n : Int) : Int := Int.tdiv (n - 1) 2

/-- `polar_neighbours` (polar_common.hpp:28-31) -/
def polarNb (pole j : Int) : Int := Int.tmod (j + pole) (2 * pole)

/-- polar `fill_halos_sclr` (polar_2d.hpp:29-44, 98-113) in `pi<d>` coordinates: left `a(f-1-i, jj) = a(f+i, nb jj)`,
right `a(l+1+i, jj) = a(l-i, nb jj)` for `0 ≤ i < halo`. -/
def polarFillS (r J : Rng) (halo pole : Int) (a : Int → Int → K) : Int → Int → K :=
  let a := asg2 ⟨r.first - halo, r.first - 1⟩ J (fun i j => a (r.first + (r.first - 1 - i)) (polarNb pole j)) a
  asg2 ⟨r.last + 1, r.last + halo⟩ J (fun i j => a (r.last - (i - (r.last + 1))) (polarNb pole j)) a

/-- polar `fill_halos_vctr_alng` (polar_2d.hpp:46-59, 115-128) -/
def polarFillV (r J : Rng) (halo pole : Int) (ad : Bool) (a : Int → Int → K) : Int → Int → K :=
  let a := if ad then a else asg2 ⟨r.first - 1, r.first - 1⟩ J (fun _ _ => 0) a
  let a := if halo > 1 then asg2 ⟨r.first - halo, r.first - halo⟩ J (fun _ j => a r.first (polarNb pole j)) a else a
  let a := if ad then a else asg2 ⟨r.last, r.last⟩ J (fun _ _ => 0) a
  if halo > 1 then asg2 ⟨r.last + halo - 1, r.last + halo - 1⟩ J (fun _ j => a (r.last - 1) (polarNb pole j)) a else a

/-- polar `fill_halos_vctr_nrml` (polar_2d.hpp:61-76, 130-145): left `a(f-halo+i, jj+h) = a(f+halo-1-i, nb jj + h)`,
right `a(l+1+i, jj+h) = a(l-1-i, nb jj + h)` -/
def polarFillN (r J : Rng) (halo pole : Int) (a : Int → Int → K) : Int → Int → K :=
  let a := asg2 ⟨r.first - halo, r.first - 1⟩ J (fun i j => a (r.first + halo - 1 - (i - (r.first - halo))) (polarNb pole j)) a
  asg2 ⟨r.last + 1, r.last + halo⟩ J (fun i j => a (r.last - 1 - (i - (r.last + 1))) (polarNb pole j)) a

end Mpdata
