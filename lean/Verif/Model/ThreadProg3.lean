import Verif.Model.ThreadProg2
/-!
# Three-dimensional MPDATA as a multi-threaded program

As `Verif.Model.ThreadProg2`, for solvers/detail/mpdata_osc_3d.hpp, mpdata_fct_3d.hpp and solver_3d.hpp.  Threads split dimension 1
(concurr_common.hpp:332-374), so the coordinate `x` is the second index `j` (`N` points) and the transverse index is `(i, k)` (`L` and `M` points).
Non-MPI build: no boundary condition is `single_threaded` and `distmem.size()` is 1, so the barrier after each `bcs[0]` fill is executed.  Of the two
boundary conditions of dimension 0 the right one acts first (solver_common.hpp:102-114).

The right-hand sides are arbitrary functions of what they read.  A fill that may leave some of its locations as they are (`ad` fills skip the face on the
domain edge; only open boundaries zero perpendicular components; only rigid ones set fluxes) may read the location it assigns, so that "assign the old value" is
one of the functions allowed.  Footprints cover cyclic, open, rigid and gndsky boundaries in any dimension and polar ones in dimensions 0 and 2.
-/
namespace Mpdata
namespace Threads

variable {V : Type}

/-- arrays of the 3-D solver; `d` is the component -/
inductive A3 | psi (b : Bool) | gc (d : Fin 3) | tmp (b : Bool) (d : Fin 3) | flux (d : Fin 3) | mono (d : Fin 3) | pmin | pmax | bup | bdn
deriving DecidableEq

/-- `GC_unco(iter)[d]` (mpdata_common.hpp:38-45) -/
def unco3 (iter : Nat) (d : Fin 3) : A3 := if iter = 1 then .gc d else .tmp (iter % 2 == 1) d
/-- `GC_corr(iter)[d]` (mpdata_common.hpp:47-52) -/
def corr3 (iter : Nat) (d : Fin 3) : A3 := .tmp (iter % 2 == 0) d

/-- the transverse index -/
abbrev IK := Int × Int
/-- a right-hand side -/
abbrev R3 (V : Type) := View A3 IK V → Int → IK → V

/-- the right-hand sides: any functions of what they read; fills differ by dimension, side (`true` right) and component -/
structure F3 (V : Type) where
  pmin : R3 V
  pmax : R3 V
  flx : Nat → Fin 3 → R3 V
  flx1 : Nat → Fin 3 → R3 V
  anti : Nat → Fin 3 → R3 V
  bup : Nat → R3 V
  bdn : Nat → R3 V
  mono : Nat → Fin 3 → R3 V
  donor : Nat → R3 V
  sclr : Fin 3 → Bool → R3 V
  alng : Bool → Fin 3 → Bool → R3 V
  zero : Fin 3 → Bool → Fin 3 → Bool → R3 V
  nrml : Fin 3 → Fin 3 → Bool → R3 V
  fluxB : Fin 3 → Bool → R3 V

/-- transverse indices `is × ks` -/
def box (is ks : List Int) : List IK := is ×ˢ ks

variable (F : F3 V) (o : TOpts) (div3 : Bool) (L N M : Nat)

/-- halo points on both sides of dimension 2 -/
def kHalo : List Int := rows (-o.halo) (-1) ++ rows M (M - 1 + o.halo)
/-- halo faces on both sides of dimension 2 -/
def kHaloF : List Int := rows (-o.halo) (-1) ++ rows (M - 1) (M - 2 + o.halo)
/-- the two faces of the domain in dimension 2 -/
def kEdge : List Int := rows (-1) (-1) ++ rows (M - 1) (M - 1)
/-- halo points of dimension 0, one side -/
def iHalo (r : Bool) : List Int := if r then rows L (L - 1 + o.halo) else rows (-o.halo) (-1)

/-! ### `xchng_sclr` (solver_3d.hpp:47-67) with `ext = halo` (68-71) -/

/-- `bcs[1]`, left: the first thread, on all of `i^ext`, `k^ext`; reads points of the domain along `j` (cyclic, open, rigid) in the same `i` -/
def s1L (a : A3) : S A3 IK V :=
  ⟨a, .left (-o.halo) (-1), box (rows (-o.halo) (L - 1 + o.halo)) (rows (-o.halo) (M - 1 + o.halo)),
    fun _ y a' x' y' => a' = a ∧ (0 ≤ x' ∧ x' ≤ N - 1) ∧ y'.1 = y.1, F.sclr 1 false⟩
/-- `bcs[1]`, right: the last thread -/
def s1R (a : A3) : S A3 IK V :=
  ⟨a, .right N (N - 1 + o.halo), box (rows (-o.halo) (L - 1 + o.halo)) (rows (-o.halo) (M - 1 + o.halo)),
    fun _ y a' x' y' => a' = a ∧ (0 ≤ x' ∧ x' ≤ N - 1) ∧ y'.1 = y.1, F.sclr 1 true⟩
/-- `bcs[0]`: every thread on its `range_ijk_1__ext` (`extend_range`, solver_common.hpp:138-153); reads points of the domain along `i`, in the same `j` or, polar, in
another one of the domain -/
def s0 (r : Bool) (a : A3) : S A3 IK V :=
  ⟨a, .extR o.halo o.halo, box (iHalo o L r) (rows (-o.halo) (M - 1 + o.halo)),
    fun x _ a' x' y' => a' = a ∧ (0 ≤ y'.1 ∧ y'.1 ≤ L - 1) ∧ (x' = x ∨ (0 ≤ x' ∧ x' ≤ N - 1)), F.sclr 0 r⟩
/-- `bcs[2]`: every thread on its `range_ijk_1__ext`; simplification: left and right, which write different points, form one statement; reads points of the domain
along `k` in the same `j` (any `i`: polar) -/
def s2 (a : A3) : S A3 IK V :=
  ⟨a, .extR o.halo o.halo, box (rows (-o.halo) (L - 1 + o.halo)) (kHalo o M),
    fun x _ a' x' y' => a' = a ∧ (0 ≤ y'.2 ∧ y'.2 ≤ M - 1) ∧ x' = x, F.sclr 2 false⟩

/-- `xchng_sclr` (solver_3d.hpp:47-67): there is no barrier between the fills of dimension 1 and the first fill of dimension 0 -/
def xchng3 (a : A3) : List (List (S A3 IK V)) :=
  [[s1L F o L N M a, s1R F o L N M a, s0 F o L N M true a], [s0 F o L N M false a], [s2 F o L M a]]

/-! ### `xchng_vctr_alng` (solver_3d.hpp:73-103) -/

/-- statements of the open boundary of dimension 0 (open_3d.hpp:79-92) at the edge `i = p`: zero the outer faces of component 2 in the thread's own columns ... -/
def z02 (r : Bool) (a : Fin 3 → A3) (p : Int) : S A3 IK V :=
  ⟨a 2, .ext 0 0, box [p] (kEdge M), fun x y a' x' y' => a' = a 2 ∧ x' = x ∧ y' = y, F.zero 0 r 2 r⟩
/-- ... and of component 1, by the first thread ... -/
def z01L (r : Bool) (a : Fin 3 → A3) (p : Int) : S A3 IK V :=
  ⟨a 1, .left (-1) (-1), box [p] (rows 0 (M - 1)), fun x y a' x' y' => a' = a 1 ∧ x' = x ∧ y' = y, F.zero 0 r 1 false⟩
/-- ... and by the last one -/
def z01R (r : Bool) (a : Fin 3 → A3) (p : Int) : S A3 IK V :=
  ⟨a 1, .right (N - 1) (N - 1), box [p] (rows 0 (M - 1)), fun x y a' x' y' => a' = a 1 ∧ x' = x ∧ y' = y, F.zero 0 r 1 true⟩
/-- halo faces of component 0 -/
def iHaloF (r : Bool) : List Int := if r then rows (L - 1) (L - 2 + o.halo) else rows (-o.halo) (-1)
/-- fill of the halo faces of component 0 (e.g. open_3d.hpp:111-124, rigid_3d.hpp:58-66, cyclic_3d.hpp:44-48) -/
def g0 (ad r : Bool) (a : Fin 3 → A3) : S A3 IK V :=
  ⟨a 0, .ext 0 0, box (iHaloF o L r) (rows 0 (M - 1)),
    fun x y a' x' y' => (a' = a 0 ∧ ((x' = x ∧ y' = y) ∨ (y' ∉ box (iHaloF o L r) (rows 0 (M - 1)) ∧ 0 ≤ x' ∧ x' ≤ N - 1))) ∨
      (a' = a 1 ∧ (x' = x ∨ x' = x - 1)) ∨ (a' = a 2 ∧ x' = x), F.alng ad 0 r⟩
/-- statement of the open boundary of dimension 1 (open_3d.hpp:94-97): zero the outer faces of component 2 on the edge -/
def z1 (r : Bool) (a : Fin 3 → A3) : S A3 IK V :=
  ⟨a 2, if r then .right (N - 1) (N - 1) else .left 0 0, box (rows 0 (L - 1)) (kEdge M), fun x y a' x' y' => a' = a 2 ∧ x' = x ∧ y' = y, F.zero 1 r 2 r⟩
/-- fill of the halo faces of component 1, left: reads it inside the domain, and the other components on the edge -/
def g1L (ad : Bool) (a : Fin 3 → A3) : S A3 IK V :=
  ⟨a 1, .left (-o.halo) (-1), box (rows 0 (L - 1)) (rows 0 (M - 1)),
    fun x y a' x' y' => (a' = a 1 ∧ ((x' = x ∧ y' = y) ∨ (0 ≤ x' ∧ (x' ≤ N - 2 ∨ x' = 0)))) ∨ (a' = a 2 ∧ x' = 0) ∨ (a' = a 0 ∧ x' = 0), F.alng ad 1 false⟩
/-- same, right -/
def g1R (ad : Bool) (a : Fin 3 → A3) : S A3 IK V :=
  ⟨a 1, .right (N - 1) (N - 2 + o.halo), box (rows 0 (L - 1)) (rows 0 (M - 1)),
    fun x y a' x' y' => (a' = a 1 ∧ ((x' = x ∧ y' = y) ∨ (x' ≤ N - 2 ∧ (0 ≤ x' ∨ x' = N - 2)))) ∨ (a' = a 2 ∧ x' = N - 1) ∨ (a' = a 0 ∧ x' = N - 1),
    F.alng ad 1 true⟩
/-- fill of the halo faces of component 2 (left and right as one statement) -/
def g2 (ad : Bool) (a : Fin 3 → A3) : S A3 IK V :=
  ⟨a 2, .ext 0 0, box (rows 0 (L - 1)) (kHaloF o M),
    fun x y a' x' y' => (a' = a 2 ∧ x' = x ∧ (y' = y ∨ y' ∉ box (rows 0 (L - 1)) (kHaloF o M))) ∨ (a' = a 0 ∧ x' = x) ∨ (a' = a 1 ∧ (x' = x ∨ x' = x - 1)),
    F.alng ad 2 false⟩

/-- `xchng_vctr_alng` (solver_3d.hpp:73-103) of a vector field with components `a 0`, `a 1`, `a 2` -/
def alng3 (ad : Bool) (a : Fin 3 → A3) : List (List (S A3 IK V)) :=
  [[z02 F M true a (L - 1), z01L F M true a (L - 1), z01R F N M true a (L - 1), g0 F o L N M ad true a],
   [z02 F M false a 0, z01L F M false a 0, z01R F N M false a 0, g0 F o L N M ad false a],
   [z1 F L N M false a, g1L F o L N M ad a, z1 F L N M true a, g1R F o L N M ad a, g2 F o L M ad a]]

/-! ### `xchng_vctr_nrml` (solver_3d.hpp:207-278) with `ext = e` -/

/-- `bcs[1]`, component 0, left (219): reads the domain along `j`, in the same `i`, and inside the domain along `k` if the point is -/
def n0L (e : Nat) (a : Fin 3 → A3) : S A3 IK V :=
  ⟨a 0, .left (-o.halo) (-1), box (rows (-e - 1) (L - 1 + e)) (rows (-e - 1) (M + e)),
    fun _ y a' x' y' => a' = a 0 ∧ (0 ≤ x' ∧ x' ≤ N - 1) ∧ y'.1 = y.1 ∧ (0 ≤ y.2 ∧ y.2 ≤ M - 1 → 0 ≤ y'.2 ∧ y'.2 ≤ M - 1), F.nrml 0 1 false⟩
/-- same, right -/
def n0R (e : Nat) (a : Fin 3 → A3) : S A3 IK V :=
  ⟨a 0, .right N (N - 1 + o.halo), box (rows (-e - 1) (L - 1 + e)) (rows (-e - 1) (M + e)),
    fun _ y a' x' y' => a' = a 0 ∧ (0 ≤ x' ∧ x' ≤ N - 1) ∧ y'.1 = y.1 ∧ (0 ≤ y.2 ∧ y.2 ≤ M - 1 → 0 ≤ y'.2 ∧ y'.2 ≤ M - 1), F.nrml 0 1 true⟩
/-- `bcs[2]`, component 0 (230) -/
def n02 (e : Nat) (a : Fin 3 → A3) : S A3 IK V :=
  ⟨a 0, .extR (e + 1) (e + 1), box (rows (-e - 1) (L - 1 + e)) (kHalo o M), fun x _ a' x' y' => a' = a 0 ∧ (0 ≤ y'.2 ∧ y'.2 ≤ M - 1) ∧ x' = x, F.nrml 0 2 false⟩
/-- `bcs[0]`, component 1 (233-239) -/
def n10 (e : Nat) (r : Bool) (a : Fin 3 → A3) : S A3 IK V :=
  ⟨a 1, .extR (e + 1) e, box (iHalo o L r) (rows (-e - 1) (M + e)), fun _ _ a' _ y' => a' = a 1 ∧ (0 ≤ y'.1 ∧ y'.1 ≤ L - 1), F.nrml 1 0 r⟩
/-- `bcs[2]`, component 1 (242) -/
def n12 (e : Nat) (a : Fin 3 → A3) : S A3 IK V :=
  ⟨a 1, .extR (e + 1) e, box (rows (-e - 1) (L + e)) (kHalo o M), fun x _ a' x' y' => a' = a 1 ∧ (0 ≤ y'.2 ∧ y'.2 ≤ M - 1) ∧ x' = x, F.nrml 1 2 false⟩
/-- `bcs[0]`, component 2 (245-251) -/
def n20 (e : Nat) (r : Bool) (a : Fin 3 → A3) : S A3 IK V :=
  ⟨a 2, .extR (e + 1) (e + 1), box (iHalo o L r) (rows (-e - 1) (M - 1 + e)), fun _ _ a' _ y' => a' = a 2 ∧ (0 ≤ y'.1 ∧ y'.1 ≤ L - 1), F.nrml 2 0 r⟩
/-- `bcs[1]`, component 2 (254) -/
def n21 (e : Nat) (r : Bool) (a : Fin 3 → A3) : S A3 IK V :=
  ⟨a 2, if r then .right N (N - 1 + o.halo) else .left (-o.halo) (-1), box (rows (-e - 1) (L + e)) (rows (-e - 1) (M - 1 + e)),
    fun _ _ a' x' _ => a' = a 2 ∧ (0 ≤ x' ∧ x' ≤ N - 1), F.nrml 2 1 r⟩

/-- `xchng_vctr_nrml` (solver_3d.hpp:207-278): the barrier after the first fill is there for `div3_mpdata` only (225-228) -/
def nrml3 (e : Nat) (a : Fin 3 → A3) : List (List (S A3 IK V)) :=
  (if div3 then [[n0L F o L N M e a, n0R F o L N M e a], [n02 F o L M e a, n10 F o L M e true a]]
   else [[n0L F o L N M e a, n0R F o L N M e a, n02 F o L M e a, n10 F o L M e true a]]) ++
  [[n10 F o L M e false a], [n12 F o L M e a, n20 F o L M e true a], [n20 F o L M e false a], [n21 F o L N M e false a, n21 F o L N M e true a]]

/-! ### `xchng_flux` (solver_3d.hpp:105-118) -/

/-- at most the faces on the domain boundary are set (rigid_3d.hpp:74-79) -/
def xflux3 (a : Fin 3 → A3) : List (List (S A3 IK V)) :=
  [[⟨a 0, .ext 0 0, box [(L : Int) - 1] (rows 0 (M - 1)), fun x y a' x' y' => a' = a 0 ∧ x' = x ∧ (y' = y ∨ y'.1 ≠ L - 1), F.fluxB 0 true⟩],
   [⟨a 0, .ext 0 0, box [-1] (rows 0 (M - 1)), fun x y a' x' y' => a' = a 0 ∧ x' = x ∧ (y' = y ∨ y'.1 ≠ -1), F.fluxB 0 false⟩],
   [⟨a 1, .left (-1) (-1), box (rows 0 (L - 1)) (rows 0 (M - 1)), fun x y a' x' y' => a' = a 1 ∧ ((x' = x ∧ y' = y) ∨ x' = 0), F.fluxB 1 false⟩,
    ⟨a 1, .right (N - 1) (N - 1), box (rows 0 (L - 1)) (rows 0 (M - 1)), fun x y a' x' y' => a' = a 1 ∧ ((x' = x ∧ y' = y) ∨ x' = N - 2), F.fluxB 1 true⟩,
    ⟨a 2, .ext 0 0, box (rows 0 (L - 1)) (kEdge M), fun x y a' x' y' => a' = a 2 ∧ x' = x ∧ (y' = y ∨ y'.2 ∉ kEdge M), F.fluxB 2 false⟩]]

/-! ### the advection operator -/

/-- `fct_init` (mpdata_fct_3d.hpp:31-55) -/
def fctInit3 (n : Bool) : List (S A3 IK V) :=
  if o.fct then
    [⟨.pmin, .ext 1 1, box (rows (-1) L) (rows (-1) M), fun _ _ a' _ _ => a' = .psi n, F.pmin⟩,
     ⟨.pmax, .ext 1 1, box (rows (-1) L) (rows (-1) M), fun _ _ a' _ _ => a' = .psi n, F.pmax⟩]
  else []

/-- fluxes (mpdata_osc_3d.hpp:159-161); `im`, `km` start at `first - 1`, `jm` for rank 0 only (256-258); the velocity is read at the face itself -/
def flux3 (n : Bool) (g : Fin 3 → A3) (iter : Nat) : List (S A3 IK V) :=
  [⟨.flux 0, .ext 0 0, box (rows (-1) (L - 1)) (rows 0 (M - 1)), fun x y a' x' y' => a' = .psi n ∨ (a' = g 0 ∧ x' = x ∧ y' = y), F.flx iter 0⟩,
   ⟨.flux 1, .face 0, box (rows 0 (L - 1)) (rows 0 (M - 1)), fun x y a' x' y' => a' = .psi n ∨ (a' = g 1 ∧ x' = x ∧ y' = y), F.flx iter 1⟩,
   ⟨.flux 2, .ext 0 0, box (rows 0 (L - 1)) (rows (-1) (M - 1)), fun x y a' x' y' => a' = .psi n ∨ (a' = g 2 ∧ x' = x ∧ y' = y), F.flx iter 2⟩]

/-- the six faces of the cell `(x, y)` -/
def Faces (flx : Fin 3 → A3) (x : Int) (y : IK) (a' : A3) (x' : Int) (y' : IK) : Prop :=
  (a' = flx 0 ∧ x' = x ∧ (y' = y ∨ y' = (y.1 - 1, y.2))) ∨ (a' = flx 1 ∧ (x' = x ∨ x' = x - 1) ∧ y' = y) ∨
  (a' = flx 2 ∧ x' = x ∧ (y' = y ∨ y' = (y.1, y.2 - 1)))

/-- `donorcell_sum` (mpdata_osc_3d.hpp:181-193) -/
def donor3 (n : Bool) (flx : Fin 3 → A3) (iter : Nat) : S A3 IK V :=
  ⟨.psi !n, .ext 0 0, box (rows 0 (L - 1)) (rows 0 (M - 1)), fun x y a' x' y' => a' = .psi n ∨ Faces flx x y a' x' y', F.donor iter⟩

/-- how far along `j` an antidiffusive velocity `d` reads component 0 of the previous velocity; more only with `div_3rd`, `div_3rd_dt`
(formulae/mpdata/formulae_mpdata_*_3d.hpp: averages over the cells next to the face, divergences and their differences) -/
def Near (d : Fin 3) (x x' : Int) : Prop := div3 = true ∨ if d = 1 then x ≤ x' ∧ x' ≤ x + 1 else x - 1 ≤ x' ∧ x' ≤ x + 1

/-- what `antidiff` reads: both time levels and the previous velocities -/
def AntiRd (n : Bool) (iter : Nat) (d : Fin 3) (x : Int) (_ : IK) (a' : A3) (x' : Int) (_ : IK) : Prop :=
  a' = .psi n ∨ a' = .psi (!n) ∨ ∃ d', a' = unco3 iter d' ∧ (d' = 0 → Near div3 d x x')

/-- the three `antidiff` calls (mpdata_osc_3d.hpp:85-128) -/
def anti3 (n : Bool) (iter : Nat) : List (S A3 IK V) :=
  [⟨corr3 iter 0, .ext 0 0, box (rows (-1) (L - 1)) (rows 0 (M - 1)), AntiRd div3 n iter 0, F.anti iter 0⟩,
   ⟨corr3 iter 1, .face 0, box (rows 0 (L - 1)) (rows 0 (M - 1)), AntiRd div3 n iter 1, F.anti iter 1⟩,
   ⟨corr3 iter 2, .ext 0 0, box (rows 0 (L - 1)) (rows (-1) (M - 1)), AntiRd div3 n iter 2, F.anti iter 2⟩]

/-- fluxes for the betas (mpdata_fct_3d.hpp:81-83) -/
def flux3b (n : Bool) (iter : Nat) : List (S A3 IK V) :=
  [⟨.flux 0, .ext 1 1, box (rows (-2) L) (rows (-1) M), fun x y a' x' y' => a' = .psi n ∨ (a' = corr3 iter 0 ∧ x' = x ∧ y' = y), F.flx1 iter 0⟩,
   ⟨.flux 1, .face 1, box (rows (-1) L) (rows (-1) M), fun x y a' x' y' => a' = .psi n ∨ (a' = corr3 iter 1 ∧ x' = x ∧ y' = y), F.flx1 iter 1⟩,
   ⟨.flux 2, .ext 1 1, box (rows (-1) L) (rows (-2) M), fun x y a' x' y' => a' = .psi n ∨ (a' = corr3 iter 2 ∧ x' = x ∧ y' = y), F.flx1 iter 2⟩]

/-- `beta_up`, `beta_dn` on `(i^1, j^1, k^1)` (mpdata_fct_3d.hpp:91-92) -/
def betas3 (n : Bool) (flx : Fin 3 → A3) (iter : Nat) : List (S A3 IK V) :=
  [⟨.bup, .ext 1 1, box (rows (-1) L) (rows (-1) M), fun x y a' x' y' => a' = .psi n ∨ a' = .pmax ∨ Faces flx x y a' x' y', F.bup iter⟩,
   ⟨.bdn, .ext 1 1, box (rows (-1) L) (rows (-1) M), fun x y a' x' y' => a' = .psi n ∨ a' = .pmin ∨ Faces flx x y a' x' y', F.bdn iter⟩]

/-- `GC_mono` for the three components (mpdata_fct_3d.hpp:107-109): betas of the two cells next to the face, the velocity at the face -/
def mono3 (n : Bool) (iter : Nat) : List (S A3 IK V) :=
  [⟨.mono 0, .ext 0 0, box (rows (-1) (L - 1)) (rows 0 (M - 1)), fun x y a' x' y' => a' = .psi n ∨ (a' = corr3 iter 0 ∧ x' = x ∧ y' = y) ∨
      ((a' = .bup ∨ a' = .bdn) ∧ x' = x ∧ (y' = y ∨ y' = (y.1 + 1, y.2))), F.mono iter 0⟩,
   ⟨.mono 1, .face 0, box (rows 0 (L - 1)) (rows 0 (M - 1)), fun x y a' x' y' => a' = .psi n ∨ (a' = corr3 iter 1 ∧ x' = x ∧ y' = y) ∨
      ((a' = .bup ∨ a' = .bdn) ∧ (x' = x ∨ x' = x + 1) ∧ y' = y), F.mono iter 1⟩,
   ⟨.mono 2, .ext 0 0, box (rows 0 (L - 1)) (rows (-1) (M - 1)), fun x y a' x' y' => a' = .psi n ∨ (a' = corr3 iter 2 ∧ x' = x ∧ y' = y) ∨
      ((a' = .bup ∨ a' = .bdn) ∧ x' = x ∧ (y' = y ∨ y' = (y.1, y.2 + 1))), F.mono iter 2⟩]

/-- one corrective iteration (mpdata_osc_3d.hpp:79-193, mpdata_fct_3d.hpp:57-110) as phases; `n` is the current time level.  The barrier after the antidiffusive
velocities is there for `div_3rd_dt` only (130-131); with `iga` there is none between betas and the limited velocities (mpdata_fct_common.hpp:38-42). -/
def iter3 (n : Bool) (iter : Nat) : List (List (S A3 IK V)) :=
  xchng3 F o L N M (.psi n) ++
  if o.fct then
    [anti3 F div3 L M n iter] ++ alng3 F o L N M true (corr3 iter) ++ nrml3 F o div3 L N M 0 (corr3 iter) ++
    (if o.iga then
      [betas3 F L M n (corr3 iter) iter ++ mono3 F L M n iter] ++ xflux3 F L N M .mono ++ [[donor3 F L M n .mono iter]]
    else
      [flux3b F L M n iter ++ betas3 F L M n .flux iter, mono3 F L M n iter ++ flux3 F L M n .mono iter] ++ xflux3 F L N M .flux ++
      [[donor3 F L M n .flux iter]])
  else
    (if iter ≠ o.n_iters - 1 then
      [anti3 F div3 L M n iter] ++ nrml3 F o div3 L N M 0 (corr3 iter) ++ (if o.dfl then alng3 F o L N M false (corr3 iter) else []) ++
      (if o.iga then [] else [flux3 F L M n (corr3 iter) iter])
    else if o.iga then [anti3 F div3 L M n iter]
    else if o.div3dt then [anti3 F div3 L M n iter, flux3 F L M n (corr3 iter) iter]
    else [anti3 F div3 L M n iter ++ flux3 F L M n (corr3 iter) iter]) ++
    (if o.iga then xflux3 F L N M (corr3 iter) ++ [[donor3 F L M n (corr3 iter) iter]]
     else xflux3 F L N M .flux ++ [[donor3 F L M n .flux iter]])

/-- corrective iterations `iter, iter+1, ...` (`k` of them) -/
def iters3 : Nat → Bool → Nat → List (List (S A3 IK V))
  | 0, _, _ => []
  | k + 1, n, iter => iter3 F o div3 L N M n iter ++ iters3 k (!n) (iter + 1)

/-- one time step of one equation: `xchng` and `advop` (solver_common.hpp:127-136, mpdata_osc_3d.hpp:73-202) -/
def step3 (n : Bool) : List (List (S A3 IK V)) :=
  xchng3 F o L N M (.psi n) ++ [fctInit3 F o L M n ++ flux3 F L M n .gc 0] ++ xflux3 F L N M .flux ++ [[donor3 F L M n .flux 0]] ++
  iters3 F o div3 L N M (o.n_iters - 1) (!n) 1

/-- `hook_ante_loop` (mpdata_osc_3d.hpp:40-51): normal halos of the prescribed velocity, `ext = halo - 1` -/
def anteLoop3 : List (List (S A3 IK V)) := nrml3 F o div3 L N M (o.halo - 1) .gc

end Threads
end Mpdata
