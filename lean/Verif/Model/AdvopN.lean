import Verif.Model.Antidiff3
import Verif.Model.Nabla
import Verif.Model.Range
import Mathlib.Data.Fin.VecNotation
import Mathlib.Data.Fintype.Pi
/-! # The 2-D and 3-D advection operators as programs on arrays
Models `advop` (solvers/detail/mpdata_osc_2d.hpp:70-183, mpdata_osc_3d.hpp:73-202), `fct_init`/`fct_adjust_antidiff` (solvers/detail/mpdata_fct_2d.hpp:31-88,
mpdata_fct_3d.hpp:31-113) and buffer selection (solvers/detail/mpdata_common.hpp:38-70, mpdata_fct_common.hpp:32-36) on explicit memory: every array keeps whatever it held
outside the index box a statement assigns.

The 2-D and the 3-D sources are the same program text with one more index; the program is written once for `n` dimensions, and the formulae that do differ
(antidiffusive velocity, donor-cell sum) are parameters, instantiated with the 2-D and 3-D formulae at the end. An index is a map from dimensions to integers.
One subdomain spanning the whole grid (one thread). Simplification: `xchng_flux`, a no-op for all boundary conditions but the polar ones, is left out. -/
namespace Mpdata

abbrev Idx (n : Nat) := Fin n → Int
/-- a scalar array -/
abbrev Sca (n : Nat) (K : Type) := Idx n → K
/-- a vector array (`arrvec_t`): one array per dimension -/
abbrev Vec (n : Nat) (K : Type) := Fin n → Idx n → K

section
variable {n : Nat} {K : Type}

/-- blitz assignment `a(box) = expr`: writes exactly the indices that satisfy `P` -/
def asgN (P : Idx n → Prop) [DecidablePred P] (e a : Sca n K) : Sca n K := fun x => if P x then e x else a x

/-- the grid box `b` widened by `lo` below and `hi` above -/
def Bx (b : Fin n → Rng) (lo hi : Fin n → Int) (x : Idx n) : Prop := ∀ e, (b e).first - lo e ≤ x e ∧ x e ≤ (b e).last + hi e
instance (b : Fin n → Rng) (lo hi : Fin n → Int) : DecidablePred (Bx b lo hi) := fun x => by unfold Bx; infer_instance

/-- `ijk` -/
def cellBox (b : Fin n → Rng) : Idx n → Prop := Bx b (fun _ => 0) (fun _ => 0)
instance (b : Fin n → Rng) : DecidablePred (cellBox b) := fun x => by unfold cellBox; infer_instance

/-- `i^1, j^1 (, k^1)` -/
def cellBox1 (b : Fin n → Rng) : Idx n → Prop := Bx b (fun _ => 1) (fun _ => 1)
instance (b : Fin n → Rng) : DecidablePred (cellBox1 b) := fun x => by unfold cellBox1; infer_instance

/-- `im+h` in dimension `d`, `ijk` in the others (mpdata_osc_2d.hpp:233-234, mpdata_osc_3d.hpp:250-260) -/
def faceBox (b : Fin n → Rng) (d : Fin n) : Idx n → Prop := Bx b (fun e => if e = d then 1 else 0) (fun _ => 0)
instance (b : Fin n → Rng) (d : Fin n) : DecidablePred (faceBox b d) := fun x => by unfold faceBox; infer_instance

/-- `im1+h` in dimension `d`, `i^1` in the others (mpdata_fct_2d.hpp:53-54, mpdata_fct_3d.hpp:67-70) -/
def faceBox1 (b : Fin n → Rng) (d : Fin n) : Idx n → Prop := Bx b (fun e => if e = d then 2 else 1) (fun _ => 1)
instance (b : Fin n → Rng) (d : Fin n) : DecidablePred (faceBox1 b d) := fun x => by unfold faceBox1; infer_instance
end

section
variable {n : Nat} {K : Type} [Field K] [LinearOrder K]

/-- `formulae::G` (formulae/common.hpp:126-197) -/
def gFacN (o : OptsT) (G : Sca n K) (x : Idx n) : K := if isset o oNug then G x else 1

/-- `make_flux<d>` (formulae/donorcell_formulae.hpp:50-79): flux through the face between `x` and its neighbour in dimension `d` -/
def makeFluxN (o : OptsT) (psi : Sca n K) (GC : Vec n K) (d : Fin n) (x : Idx n) : K :=
  donorF o (psi x) (psi (stepIdx x d 1)) (GC d x)

/-- the largest value of the cell and its `2n` face neighbours (mpdata_fct_2d.hpp:41-45, mpdata_fct_3d.hpp:46-54; the order in which the `max`
are nested, which differs between the sources, is that of the 3-D source) -/
def nbMax (psi : Sca n K) (x : Idx n) : K :=
  (List.finRange n).foldl (fun m d => max (max m (psi (stepIdx x d 1))) (psi (stepIdx x d (-1)))) (psi x)

/-- the smallest value (mpdata_fct_2d.hpp:36-40, mpdata_fct_3d.hpp:36-44) -/
def nbMin (psi : Sca n K) (x : Idx n) : K :=
  (List.finRange n).foldl (fun m d => min (min m (psi (stepIdx x d 1))) (psi (stepIdx x d (-1)))) (psi x)

/-- `beta_up` (formulae_mpdata_fct_2d.hpp:21-69, formulae_mpdata_fct_3d.hpp) -/
def betaUpN (o : OptsT) (eps : K) (psi psiMax : Sca n K) (flx : Vec n K) (G : Sca n K) (x : Idx n) : K :=
  fctFrac eps ((max (psiMax x) (nbMax psi x) - psi x) * gFacN o G x)
    (∑ d, (pospart o (flx d (stepIdx x d (-1))) - negpart o (flx d x)))

/-- `beta_dn` (formulae_mpdata_fct_2d.hpp:71-120, formulae_mpdata_fct_3d.hpp) -/
def betaDnN (o : OptsT) (eps : K) (psi psiMin : Sca n K) (flx : Vec n K) (G : Sca n K) (x : Idx n) : K :=
  fctFrac eps ((psi x - min (psiMin x) (nbMin psi x)) * gFacN o G x)
    (∑ d, (pospart o (flx d x) - negpart o (flx d (stepIdx x d (-1)))))

/-- `GC_mono<d>` (formulae_mpdata_fct_2d.hpp:122-214, formulae_mpdata_fct_3d.hpp) -/
def gcMonoN (o : OptsT) (psi bUp bDn : Sca n K) (gcCorr : Vec n K) (d : Fin n) (x : Idx n) : K :=
  let y := stepIdx x d 1
  if !isset o oIga && isset o oAbs then
    gcCorr d x *
      (if gcCorr d x > 0 then
        (if psi x > 0 then min (min 1 (bDn x)) (bUp y) else min (min 1 (bUp x)) (bDn y))
      else
        (if psi y > 0 then min (min 1 (bUp x)) (bDn y) else min (min 1 (bDn x)) (bUp y)))
  else
    gcCorr d x * (if gcCorr d x > 0 then min (min 1 (bDn x)) (bUp y) else min (min 1 (bUp x)) (bDn y))

/-- arrays that the advection operator only reads: `mem->G`, `mem->ndt_GC`, `mem->ndtt_GC` -/
structure Stat (n : Nat) (K : Type) where
  G : Sca n K
  ndt : Vec n K
  ndtt : Vec n K

/-- the formulae that are written separately for each number of dimensions -/
structure Formulae (n : Nat) (K : Type) where
  /-- `antidiff<opts, dim>` -/
  vel : Fin n → Stat n K → (psi old : Sca n K) → (GC : Vec n K) → Idx n → K
  /-- `donorcell_sum` on the fluxes through the faces of a cell -/
  donor : (psi : Sca n K) → (flx : Vec n K) → (G : Sca n K) → Idx n → K

/-- parameters of the operator -/
structure CfgN (n : Nat) (K : Type) where
  o : OptsT
  nIters : Nat
  /-- `upwind_filter_freq > 0 && timestep % upwind_filter_freq == 0` in this step -/
  filter : Bool
  eps : K
  F : Formulae n K
  /-- grid ranges of the (only) subdomain -/
  box : Fin n → Rng
  st : Stat n K
  /-- `xchng(e)`: `xchng_sclr(psi, ijk, halo)` (solver_2d.hpp:40-62, solver_3d.hpp:47-71) -/
  fillS : Sca n K → Sca n K
  /-- `xchng_vctr_alng(arrvec, ad)` (solver_2d.hpp:63-88, solver_3d.hpp:73-) -/
  fillA : Bool → Vec n K → Vec n K
  /-- `xchng_vctr_nrml(arrvec, ijk, ext)` (solver_2d.hpp:171-202, solver_3d.hpp:207-) -/
  fillN : Int → Vec n K → Vec n K

/-- memory of the operator -/
structure MemN (n : Nat) (K : Type) where
  psi : Sca n K      -- psi[e][n]
  psiN : Sca n K     -- psi[e][n+1], the same array as psi[e][n-1]
  GC : Vec n K       -- mem->GC
  tmp0 : Vec n K
  tmp1 : Vec n K
  flux : Vec n K
  mono : Vec n K     -- GC_mono
  psiMin : Sca n K
  psiMax : Sca n K
  bUp : Sca n K
  bDn : Sca n K

/-- `GC_unco(iter)` (mpdata_common.hpp:40-47) -/
def gcUncoN (iter : Nat) (m : MemN n K) : Vec n K := if iter = 1 then m.GC else if iter % 2 = 1 then m.tmp1 else m.tmp0

/-- `GC_corr(iter)` (mpdata_common.hpp:49-54) -/
def gcCorrN (iter : Nat) (m : MemN n K) : Vec n K := if iter % 2 = 1 then m.tmp0 else m.tmp1

/-- assigning `GC_corr(iter)` -/
def setCorrN (iter : Nat) (m : MemN n K) (a : Vec n K) : MemN n K := if iter % 2 = 1 then { m with tmp0 := a } else { m with tmp1 := a }

/-- `GC(iter)` (mpdata_common.hpp:56-60; overridden mpdata_fct_common.hpp:32-36) -/
def gcUsedN (o : OptsT) (iter : Nat) (m : MemN n K) : Vec n K :=
  if iter = 0 then m.GC else if isset o oFct then m.mono else gcCorrN iter m

/-- `fct_init` (mpdata_fct_2d.hpp:31-46, mpdata_fct_3d.hpp:31-55; a no-op without fct) -/
def fctInitN (c : CfgN n K) (m : MemN n K) : MemN n K :=
  if isset c.o oFct then
    { m with
      psiMin := asgN (cellBox1 c.box) (nbMin m.psi) m.psiMin
      psiMax := asgN (cellBox1 c.box) (nbMax m.psi) m.psiMax }
  else m

/-- `fct_adjust_antidiff` (mpdata_fct_2d.hpp:48-88, mpdata_fct_3d.hpp:57-113) -/
def fctAdjustN (c : CfgN n K) (iter : Nat) (m : MemN n K) : MemN n K :=
  if isset c.o oFct then
    let m := setCorrN iter m (c.fillA true (gcCorrN iter m))
    let m := setCorrN iter m (c.fillN 0 (gcCorrN iter m))
    let m := if isset c.o oIga then m
      else { m with flux := fun d => asgN (faceBox1 c.box d) (makeFluxN c.o m.psi (gcCorrN iter m) d) (m.flux d) }
    let flx := if isset c.o oIga then gcCorrN iter m else m.flux
    let m := { m with bUp := asgN (cellBox1 c.box) (betaUpN c.o c.eps m.psi m.psiMax flx c.st.G) m.bUp }
    let m := { m with bDn := asgN (cellBox1 c.box) (betaDnN c.o c.eps m.psi m.psiMin flx c.st.G) m.bDn }
    { m with mono := fun d => asgN (faceBox c.box d) (gcMonoN c.o m.psi m.bUp m.bDn (gcCorrN iter m) d) (m.mono d) }
  else m

/-- the part of an iteration that computes the corrective velocity (mpdata_osc_2d.hpp:76-135, mpdata_osc_3d.hpp:79-145) -/
def corrIterN (c : CfgN n K) (iter : Nat) (m : MemN n K) : MemN n K :=
  let m := { m with psi := m.psiN, psiN := m.psi }                      -- cycle(e)
  let m := { m with psi := c.fillS m.psi }                              -- xchng(e)
  let m := setCorrN iter m (fun d =>
    asgN (faceBox c.box d) (c.F.vel d c.st m.psi m.psiN (gcUncoN iter m)) (gcCorrN iter m d))
  let m := if !isset c.o oFct && iter != c.nIters - 1 then
      let m := setCorrN iter m (c.fillN 0 (gcCorrN iter m))
      if isset c.o oDfl then setCorrN iter m (c.fillA false (gcCorrN iter m)) else m
    else m
  fctAdjustN c iter m

/-- one pass of the iteration loop of `advop` (mpdata_osc_2d.hpp:74-182, mpdata_osc_3d.hpp:77-201) -/
def advIterN (c : CfgN n K) (iter : Nat) (m : MemN n K) : MemN n K :=
  let m := if iter ≠ 0 then corrIterN c iter m else m
  let m := if !isset c.o oIga || iter == 0
    then { m with flux := fun d => asgN (faceBox c.box d) (makeFluxN c.o m.psi (gcUsedN c.o iter m) d) (m.flux d) } else m
  let flx := if !isset c.o oIga || iter == 0 then m.flux else gcUsedN c.o iter m
  { m with psiN := asgN (cellBox c.box) (c.F.donor m.psi flx c.st.G) m.psiN }

/-- the iteration loop with its `break` (mpdata_osc_2d.hpp:74, 175-178): `k` iterations left -/
def advLoopN (c : CfgN n K) : (k iter : Nat) → MemN n K → MemN n K
  | 0, _, m => m
  | k + 1, iter, m =>
    let m := advIterN c iter m
    if c.filter then m else advLoopN c k (iter + 1) m

/-- `xchng(e); advop(e); cycle(e)` (solver_common.hpp:130-134, scaling by 2^0) -/
def advanceN (c : CfgN n K) (m : MemN n K) : MemN n K :=
  let m := { m with psi := c.fillS m.psi }
  let m := fctInitN c m
  let m := advLoopN c c.nIters 0 m
  { m with psi := m.psiN, psiN := m.psi }

/-- halo filling of a time-constant advector before the loop: `xchng_vctr_alng(mem->GC)` then `xchng_vctr_nrml(mem->GC, ijk, halo - 1)`
(solver_common.hpp:191, mpdata_osc_2d.hpp:43-51, mpdata_osc_3d.hpp:44-52) -/
def prepGC (c : CfgN n K) (halo : Int) (GC : Vec n K) : Vec n K := c.fillN (halo - 1) (c.fillA false GC)

/-! ## The 2-D and 3-D formulae as instances -/

/-- an array as seen from the face `x` of dimension `d` in 2-D: `pi<d>(i, j)` puts the first index in dimension `d`, the second in `d+1` -/
def view2 (d : Fin 2) (x : Idx 2) (a : Sca 2 K) : Ar2 K := fun i j => a (stepIdx (stepIdx x d i) (d + 1) j)

/-- an array as seen from the face `x` of dimension `d` in 3-D: `pi<d>(i, j, k)` puts the first index in dimension `d`, the second in `d+1`, the third in `d+2` -/
def view3 (d : Fin 3) (x : Idx 3) (a : Sca 3 K) : Ar3 K := fun i j k => a (stepIdx (stepIdx (stepIdx x d i) (d + 1) j) (d + 2) k)

/-- a 2-D array as a function of two indices -/
def cur2 (a : Sca 2 K) : Ar2 K := fun i j => a ![i, j]
/-- a 3-D array as a function of three indices -/
def cur3 (a : Sca 3 K) : Ar3 K := fun i j k => a ![i, j, k]

/-- the calls `antidiff<opts, dim>(GC_corr[dim], psi[n], psi[n-1], GC_unco, ndt_GC, ndtt_GC, G, ...)` and `donorcell_sum` in 2-D
(mpdata_osc_2d.hpp:81-111, 159-170) -/
def formulae2 (o : OptsT) (si : SptlIntrp) (te : TmprlExtrp) (tiny : K) : Formulae 2 K where
  vel d st psi old GC x :=
    antidiff2 o si te tiny (view2 d x psi) (view2 d x old) (view2 d x (GC d)) (view2 d x (GC (d + 1)))
      (view2 d x (st.ndt d)) (view2 d x (st.ndt (d + 1))) (view2 d x (st.ndtt d)) (view2 d x st.G) 0 0
  donor psi flx G x := donorStep2 o (cur2 psi) (cur2 (flx 0)) (cur2 (flx 1)) (cur2 G) (x 0) (x 1)

/-- the same calls in 3-D (mpdata_osc_3d.hpp:84-128, 176-189); `GC[dim-1]` is `GC[dim+2]` -/
def formulae3 (o : OptsT) (si : SptlIntrp) (te : TmprlExtrp) (tiny : K) : Formulae 3 K where
  vel d st psi old GC x :=
    antidiff3 o si te tiny (view3 d x psi) (view3 d x old) (view3 d x (GC d)) (view3 d x (GC (d + 1))) (view3 d x (GC (d + 2)))
      (view3 d x (st.ndt d)) (view3 d x (st.ndt (d + 1))) (view3 d x (st.ndt (d + 2))) (view3 d x (st.ndtt d)) (view3 d x st.G) 0 0 0
  donor psi flx G x := donorStep3 o (cur3 psi) (cur3 (flx 0)) (cur3 (flx 1)) (cur3 (flx 2)) (cur3 G) (x 0) (x 1) (x 2)

/-! ## Cyclic boundary conditions in 2-D and 3-D -/

/-- the range arguments of a halo filling in dimension `d`: every other dimension restricted to its grid range widened by `lo`, `hi` -/
def Ot (b : Fin n → Rng) (d : Fin n) (lo hi : Fin n → Int) (x : Idx n) : Prop :=
  ∀ e, e ≠ d → (b e).first - lo e ≤ x e ∧ x e ≤ (b e).last + hi e
instance (b : Fin n → Rng) (d : Fin n) (lo hi : Fin n → Int) : DecidablePred (Ot b d lo hi) := fun x => by unfold Ot; infer_instance

/-- `cyclic` `fill_halos_sclr` in dimension `d`, left then right (bcond/cyclic_2d.hpp:29-33, 121-125, cyclic_3d.hpp; ranges of bcond/detail/bcond_common.hpp:225-275);
also `fill_halos_vctr_nrml` (cyclic_2d.hpp:74-77) -/
def cycS (b : Fin n → Rng) (halo : Int) (d : Fin n) (lo hi : Fin n → Int) (a : Sca n K) : Sca n K :=
  let N := (b d).last - (b d).first
  let a := asgN (fun x => ((b d).first - halo ≤ x d ∧ x d ≤ (b d).first - 1) ∧ Ot b d lo hi x) (fun x => a (stepIdx x d N)) a
  asgN (fun x => ((b d).last + 1 ≤ x d ∧ x d ≤ (b d).last + halo) ∧ Ot b d lo hi x) (fun x => a (stepIdx x d (-N))) a

/-- `cyclic` `fill_halos_vctr_alng` in dimension `d` (bcond/cyclic_2d.hpp:44-48 and the right counterpart) -/
def cycV (b : Fin n → Rng) (halo : Int) (d : Fin n) (lo hi : Fin n → Int) (a : Sca n K) : Sca n K :=
  let N := (b d).last - (b d).first
  let a := asgN (fun x => ((b d).first - halo ≤ x d ∧ x d ≤ (b d).first - 1) ∧ Ot b d lo hi x) (fun x => a (stepIdx x d N)) a
  asgN (fun x => ((b d).last ≤ x d ∧ x d ≤ (b d).last + halo - 1) ∧ Ot b d lo hi x) (fun x => a (stepIdx x d (-N))) a

/-- `xchng_sclr(arr, ijk, halo)` with cyclic boundaries, dimensions in the order `ds`: 0, 1 in 2-D (solver_2d.hpp:40-56), 1, 0, 2 in 3-D (solver_3d.hpp:47-66) -/
def cycXchngS (b : Fin n → Rng) (halo : Int) (ds : List (Fin n)) (a : Sca n K) : Sca n K :=
  ds.foldl (fun a d => cycS b halo d (fun _ => halo) (fun _ => halo) a) a

/-- `xchng_vctr_alng(arrvec)` with cyclic boundaries (solver_2d.hpp:63-88, solver_3d.hpp:73-95) -/
def cycXchngA (b : Fin n → Rng) (halo : Int) (A : Vec n K) : Vec n K := fun d => cycV b halo d (fun _ => 0) (fun _ => 0) (A d)

/-- `xchng_vctr_nrml(arrvec, ijk, ext)` with cyclic boundaries (solver_2d.hpp:171-202, solver_3d.hpp:207-245): component `c` is filled in every other dimension in
increasing order; the remaining ranges are `^ext^h` in dimension `c` and `^ext^1` in the third dimension -/
def cycXchngN (b : Fin n → Rng) (halo : Int) (ext : Int) (A : Vec n K) : Vec n K := fun c =>
  ((List.finRange n).filter (fun d => decide (d ≠ c))).foldl
    (fun a d => cycS b halo d (fun _ => ext + 1) (fun e => if e = c then ext else ext + 1) a) (A c)

end
end Mpdata
