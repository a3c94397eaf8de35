import Verif.Model.ThreadProg
/-!
# Two-dimensional MPDATA as a multi-threaded program

As `Verif.Model.ThreadProg`, for solvers/detail/mpdata_osc_2d.hpp, mpdata_fct_2d.hpp and solver_2d.hpp.  Threads split dimension 0
(concurr_common.hpp:286-330); the transverse index is the second coordinate.  Non-MPI build: `distmem.size()` is 1 (distmem.hpp:67-74), so the
barrier after each `bcs[0]` fill is executed.
-/
namespace Mpdata
namespace Threads

variable {V : Type}

/-- arrays of the 2-D solver; `d = false` for the component along dimension 0 -/
inductive A2 | psi (b : Bool) | gc (d : Bool) | tmp (b d : Bool) | flux (d : Bool) | mono (d : Bool) | pmin | pmax | bup | bdn
deriving DecidableEq

/-- `GC_unco(iter)[d]` (mpdata_common.hpp:38-45) -/
def unco2 (iter : Nat) (d : Bool) : A2 := if iter = 1 then .gc d else .tmp (iter % 2 == 1) d
/-- `GC_corr(iter)[d]` (mpdata_common.hpp:47-52) -/
def corr2 (iter : Nat) (d : Bool) : A2 := .tmp (iter % 2 == 0) d

/-- the right-hand sides: any functions of what they read; the first index of fills is the call site, so that each may differ -/
structure F2 (V : Type) where
  pmin : View A2 Int V → Int → Int → V
  pmax : View A2 Int V → Int → Int → V
  flx : Nat → Bool → View A2 Int V → Int → Int → V
  flx1 : Nat → Bool → View A2 Int V → Int → Int → V
  anti : Nat → Bool → View A2 Int V → Int → Int → V
  bup : Nat → View A2 Int V → Int → Int → V
  bdn : Nat → View A2 Int V → Int → Int → V
  mono : Nat → Bool → View A2 Int V → Int → Int → V
  donor : Nat → View A2 Int V → Int → Int → V
  fillX : Bool → View A2 Int V → Int → Int → V
  fillY : View A2 Int V → Int → Int → V
  zero : Bool → View A2 Int V → Int → Int → V
  alngX : Bool → View A2 Int V → Int → Int → V
  alngY : View A2 Int V → Int → Int → V
  nrmlX : Bool → View A2 Int V → Int → Int → V
  nrmlY : View A2 Int V → Int → Int → V
  fluxX : Bool → View A2 Int V → Int → Int → V
  fluxY : View A2 Int V → Int → Int → V

variable (F : F2 V) (o : TOpts) (N M : Nat)

/-- rows `[lo, hi]` of the second dimension -/
def rows (lo hi : Int) : List Int := irange ⟨lo, hi⟩

/-- halo rows of a scalar (or of GC_x): below 0 and above `M-1` -/
def haloRows : List Int := rows (-o.halo) (-1) ++ rows M (M - 1 + o.halo)
/-- halo rows of GC_y faces -/
def haloFaceRows : List Int := rows (-o.halo) (-1) ++ rows (M - 1) (M - 2 + o.halo)

/-- a fill by the boundary condition of dimension 0: `r = true` right, executed by the last thread, writes columns `[N+s, N-1+s+halo]`;
`r = false` left, first thread, columns `[-halo, -1]`; it reads anything but the other locations it writes (it may leave a location as it is: `ad` fills skip
the face on the domain edge).  (`s` is `0` for points, `-1` for faces.) -/
def bc0 (a : A2) (r : Bool) (s : Int) (ys : List Int) (f : View A2 Int V → Int → Int → V) : S A2 Int V :=
  if r then ⟨a, .right (N + s) (N - 1 + s + o.halo), ys, fun x y a' x' y' => (x' = x ∧ y' = y) ∨ ¬ (a' = a ∧ (N + s ≤ x' ∧ x' ≤ N - 1 + s + o.halo) ∧ y' ∈ ys), f⟩
  else ⟨a, .left (-o.halo) (-1), ys, fun x y a' x' y' => (x' = x ∧ y' = y) ∨ ¬ (a' = a ∧ (-o.halo ≤ x' ∧ x' ≤ -1) ∧ y' ∈ ys), f⟩

/-- the fills by the two boundary conditions of dimension 1, executed by every thread on its columns; simplification: the left and the right
fill, which write different rows, form one statement; they read anything but the other locations in the rows they write -/
def bc1 (a : A2) (d : Dom) (ys : List Int) (f : View A2 Int V → Int → Int → V) : S A2 Int V :=
  ⟨a, d, ys, fun x y a' x' y' => (x' = x ∧ y' = y) ∨ ¬ (a' = a ∧ y' ∈ ys), f⟩

/-- `xchng_sclr` (solver_2d.hpp:40-56) with `ext = halo` -/
def xchng2 (a : A2) : List (List (S A2 Int V)) :=
  [[bc0 o N a true 0 (rows (-o.halo) (M - 1 + o.halo)) (F.fillX true)], [bc0 o N a false 0 (rows (-o.halo) (M - 1 + o.halo)) (F.fillX false)],
   [bc1 a (.extR o.halo o.halo) (haloRows o M) F.fillY]]

/-- open boundary conditions of dimension 0 first set the perpendicular component to zero at two faces of the edge column (open_2d.hpp:80-84, 173-177); the others
leave them -/
def zero2 (a : Bool → A2) (r : Bool) : S A2 Int V :=
  ⟨a true, if r then .right (N - 1) (N - 1) else .left 0 0, rows (-1) (-1) ++ rows (M - 1) (M - 1), fun x y a' x' y' => a' = a true ∧ x' = x ∧ y' = y, F.zero r⟩

/-- `xchng_vctr_alng` (solver_2d.hpp:63-88) of a vector field with components `a false`, `a true` -/
def alng2 (a : Bool → A2) : List (List (S A2 Int V)) :=
  [[zero2 F N M a true, bc0 o N (a false) true (-1) (rows 0 (M - 1)) (F.alngX true)],
   [zero2 F N M a false, bc0 o N (a false) false 0 (rows 0 (M - 1)) (F.alngX false)],
   [bc1 (a true) (.ext 0 0) (haloFaceRows o M) F.alngY]]

/-- `xchng_vctr_nrml` (solver_2d.hpp:171-202) with `ext = 0`: dimension 1 first, in the same phase as the first fill of dimension 0 -/
def nrml2 (a : Bool → A2) : List (List (S A2 Int V)) :=
  [[⟨a false, .extR 1 0, haloRows o M, fun _ _ a' _ y' => a' = a false ∧ y' ∉ haloRows o M, F.nrmlY⟩,
    ⟨a true, .right N (N - 1 + o.halo), rows (-1) (M - 1), fun _ _ a' x' _ => a' = a true ∧ ¬ (N ≤ x' ∧ x' ≤ N - 1 + o.halo), F.nrmlX true⟩],
   [bc0 o N (a true) false 0 (rows (-1) (M - 1)) (F.nrmlX false)]]

/-- `xchng_flux` (solver_2d.hpp:90-101): at most the faces on the domain boundary are set, by rigid boundaries only (rigid_2d.hpp:74-78, 170-175) -/
def xflux2 (a : Bool → A2) : List (List (S A2 Int V)) :=
  [[⟨a false, .right (N - 1) (N - 1), rows 0 (M - 1), fun x y a' x' y' => (x' = x ∧ y' = y) ∨ ¬ (a' = a false ∧ x' = N - 1), F.fluxX true⟩],
   [⟨a false, .left (-1) (-1), rows 0 (M - 1), fun x y a' x' y' => (x' = x ∧ y' = y) ∨ ¬ (a' = a false ∧ x' = -1), F.fluxX false⟩],
   [⟨a true, .ext 0 0, rows (-1) (-1) ++ rows (M - 1) (M - 1), fun x y a' x' y' => (x' = x ∧ y' = y) ∨ ¬ (a' = a true ∧ y' ∈ rows (-1) (-1) ++ rows (M - 1) (M - 1)),
     F.fluxY⟩]]

/-- `fct_init` (mpdata_fct_2d.hpp:31-48) -/
def fctInit2 (n : Bool) : List (S A2 Int V) :=
  if o.fct then
    [⟨.pmin, .ext 1 1, rows (-1) M, fun _ _ a' _ _ => a' = .psi n, F.pmin⟩, ⟨.pmax, .ext 1 1, rows (-1) M, fun _ _ a' _ _ => a' = .psi n, F.pmax⟩]
  else []

/-- `flux[0](im+h, j)`, `flux[1](i, jm+h)` (mpdata_osc_2d.hpp:129-139); `im` starts at `first - 1` for rank 0 only (233), `jm = [-1, M-1]` (234) -/
def flux2 (n : Bool) (g : Bool → A2) (iter : Nat) : List (S A2 Int V) :=
  [⟨.flux false, .face 0, rows 0 (M - 1), fun x y a' x' y' => a' = .psi n ∨ (a' = g false ∧ x' = x ∧ y' = y), F.flx iter false⟩,
   ⟨.flux true, .ext 0 0, rows (-1) (M - 1), fun x y a' x' y' => a' = .psi n ∨ (a' = g true ∧ x' = x ∧ y' = y), F.flx iter true⟩]

/-- `donorcell_sum` (mpdata_osc_2d.hpp:159-170) -/
def donor2 (n : Bool) (flx : Bool → A2) (iter : Nat) : S A2 Int V :=
  ⟨.psi !n, .ext 0 0, rows 0 (M - 1), fun x y a' x' y' => a' = .psi n ∨ (a' = flx false ∧ (x' = x ∨ x' = x - 1) ∧ y' = y) ∨
    (a' = flx true ∧ x' = x ∧ (y' = y ∨ y' = y - 1)), F.donor iter⟩

/-- both `antidiff` calls (mpdata_osc_2d.hpp:80-110); they may read both time levels and the previous velocities anywhere -/
def anti2 (n : Bool) (iter : Nat) : List (S A2 Int V) :=
  [⟨corr2 iter false, .face 0, rows 0 (M - 1), fun _ _ a' _ _ => a' = .psi n ∨ a' = .psi (!n) ∨ ∃ d, a' = unco2 iter d, F.anti iter false⟩,
   ⟨corr2 iter true, .ext 0 0, rows (-1) (M - 1), fun _ _ a' _ _ => a' = .psi n ∨ a' = .psi (!n) ∨ ∃ d, a' = unco2 iter d, F.anti iter true⟩]

/-- fluxes for the betas (mpdata_fct_2d.hpp:71-73): `flux[0](im1+h, j1)`, `flux[1](i1, jm1+h)` with `im1 = im^1`, `jm1 = jm^1` -/
def flux2b (n : Bool) (iter : Nat) : List (S A2 Int V) :=
  [⟨.flux false, .face 1, rows (-1) M, fun _ _ a' _ _ => a' = .psi n ∨ ∃ d, a' = corr2 iter d, F.flx1 iter false⟩,
   ⟨.flux true, .ext 1 1, rows (-2) M, fun _ _ a' _ _ => a' = .psi n ∨ ∃ d, a' = corr2 iter d, F.flx1 iter true⟩]

/-- `beta_up`, `beta_dn` on `(i^1, j^1)` (mpdata_fct_2d.hpp:80-81): the fluxes through the four faces of the cell are read -/
def betas2 (n : Bool) (flx : Bool → A2) (iter : Nat) : List (S A2 Int V) :=
  [⟨.bup, .ext 1 1, rows (-1) M, fun x y a' x' y' => a' = .psi n ∨ a' = .pmax ∨ (a' = flx false ∧ (x' = x ∨ x' = x - 1) ∧ y' = y) ∨
      (a' = flx true ∧ x' = x ∧ (y' = y ∨ y' = y - 1)), F.bup iter⟩,
   ⟨.bdn, .ext 1 1, rows (-1) M, fun x y a' x' y' => a' = .psi n ∨ a' = .pmin ∨ (a' = flx false ∧ (x' = x ∨ x' = x - 1) ∧ y' = y) ∨
      (a' = flx true ∧ x' = x ∧ (y' = y ∨ y' = y - 1)), F.bdn iter⟩]

/-- `GC_mono` for both components (mpdata_fct_2d.hpp:93-94): betas of the two cells next to the face are read -/
def mono2 (n : Bool) (iter : Nat) : List (S A2 Int V) :=
  [⟨.mono false, .face 0, rows 0 (M - 1), fun x y a' x' y' => a' = .psi n ∨ (∃ d, a' = corr2 iter d) ∨
      ((a' = .bup ∨ a' = .bdn) ∧ (x' = x ∨ x' = x + 1) ∧ y' = y), F.mono iter false⟩,
   ⟨.mono true, .ext 0 0, rows (-1) (M - 1), fun x y a' x' y' => a' = .psi n ∨ (∃ d, a' = corr2 iter d) ∨
      ((a' = .bup ∨ a' = .bdn) ∧ x' = x ∧ (y' = y ∨ y' = y + 1)), F.mono iter true⟩]

/-- barrier after the antidiffusive velocities (mpdata_osc_2d.hpp:113-114), or none: the next statements join the phase -/
def joinIf (b : Bool) (p q : List (S A2 Int V)) : List (List (S A2 Int V)) := if b then [p, q] else [p ++ q]

/-- one corrective iteration (mpdata_osc_2d.hpp:72-170, mpdata_fct_2d.hpp:50-95) as phases; `n` is the current time level -/
def iter2 (n : Bool) (iter : Nat) : List (List (S A2 Int V)) :=
  xchng2 F o N M (.psi n) ++
  if o.fct then
    [anti2 F M n iter] ++ alng2 F o N M (corr2 iter) ++ nrml2 F o N M (corr2 iter) ++
    (if o.iga then
      [betas2 F M n (corr2 iter) iter ++ mono2 F M n iter] ++ xflux2 F N M .mono ++ [[donor2 F M n .mono iter]]
    else
      [flux2b F M n iter ++ betas2 F M n .flux iter, mono2 F M n iter ++ flux2 F M n .mono iter] ++ xflux2 F N M .flux ++
      [[donor2 F M n .flux iter]])
  else
    (if iter ≠ o.n_iters - 1 then
      [anti2 F M n iter] ++ nrml2 F o N M (corr2 iter) ++ (if o.dfl then alng2 F o N M (corr2 iter) else []) ++
      (if o.iga then [] else [flux2 F M n (corr2 iter) iter])
    else if o.iga then [anti2 F M n iter] else joinIf o.div3dt (anti2 F M n iter) (flux2 F M n (corr2 iter) iter)) ++
    (if o.iga then xflux2 F N M (corr2 iter) ++ [[donor2 F M n (corr2 iter) iter]]
     else xflux2 F N M .flux ++ [[donor2 F M n .flux iter]])

/-- corrective iterations `iter, iter+1, ...` (`k` of them) -/
def iters2 : Nat → Bool → Nat → List (List (S A2 Int V))
  | 0, _, _ => []
  | k + 1, n, iter => iter2 F o N M n iter ++ iters2 k (!n) (iter + 1)

/-- one time step of one equation: `xchng` and `advop` (solver_common.hpp:127-136, mpdata_osc_2d.hpp:70-183) -/
def step2 (n : Bool) : List (List (S A2 Int V)) :=
  xchng2 F o N M (.psi n) ++ [fctInit2 F o M n ++ flux2 F M n .gc 0] ++ xflux2 F N M .flux ++ [[donor2 F M n .flux 0]] ++
  iters2 F o N M (o.n_iters - 1) (!n) 1

end Threads
end Mpdata
