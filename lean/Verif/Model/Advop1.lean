import Verif.Model.Antidiff1
import Verif.Model.Range
/-! # The 1-D advection operator as a program on arrays
Models `advop` (solvers/detail/mpdata_osc_1d.hpp:58-132), `fct_init`/`fct_adjust_antidiff`
(solvers/detail/mpdata_fct_1d.hpp:31-81) and buffer selection (solvers/detail/mpdata_common.hpp:40-70,
solvers/detail/mpdata_fct_common.hpp:32-36) on explicit memory: every array keeps whatever it held outside the
index range a statement assigns. One subdomain spanning the whole grid (one thread) is modelled here; see
the schedule model for several threads. Arrays are total functions of the index: values outside the allocated
range stand for whatever memory is there. -/
namespace Mpdata
variable {K : Type} [Field K] [LinearOrder K]

/-- blitz assignment `a(r) = expr` : writes exactly the indices of `r` -/
def asg (r : Rng) (e : Int → K) (a : Int → K) : Int → K := fun i => if r.Mem i then e i else a i

/-- run-time and compile-time parameters of the 1-D operator -/
structure Cfg1 (K : Type) where
  o : OptsT
  si : SptlIntrp
  te : TmprlExtrp
  nIters : Nat
  /-- `upwind_filter_freq > 0 && timestep % upwind_filter_freq == 0` in this step -/
  filter : Bool
  tiny : K
  eps : K
  /-- grid range of the (only) subdomain -/
  ijk : Rng
  G : Int → K
  ndtGC : Int → K
  ndttGC : Int → K
  /-- `xchng_sclr` (solver_1d.hpp:39-49) of the configured boundary conditions -/
  fillS : (Int → K) → (Int → K)
  /-- `xchng_vctr_alng(arr, ad)` (solver_1d.hpp:63-85) -/
  fillV : Bool → (Int → K) → (Int → K)

/-- memory of the 1-D operator -/
structure Mem1 (K : Type) where
  psi : Int → K      -- psi[e][n]
  psiN : Int → K     -- psi[e][n+1]
  GC : Int → K       -- mem->GC[0]
  tmp0 : Int → K
  tmp1 : Int → K
  flux : Int → K
  mono : Int → K     -- GC_mono[0]
  psiMin : Int → K
  psiMax : Int → K
  bUp : Int → K
  bDn : Int → K

/-- `tmp` has `n_tmp = n_iters > 2 ? 2 : 1` elements (mpdata_common.hpp:67-70); with one element only
`tmp[0]` is ever used because `iter ≤ 1`. Reading `GC_unco(iter)` (mpdata_common.hpp:40-47). -/
def gcUnco (iter : Nat) (m : Mem1 K) : Int → K :=
  if iter = 1 then m.GC else if iter % 2 = 1 then m.tmp1 else m.tmp0

/-- reading `GC_corr(iter)` (mpdata_common.hpp:49-54) -/
def gcCorr (iter : Nat) (m : Mem1 K) : Int → K := if iter % 2 = 1 then m.tmp0 else m.tmp1

/-- assigning `GC_corr(iter)` -/
def setCorr (iter : Nat) (m : Mem1 K) (a : Int → K) : Mem1 K :=
  if iter % 2 = 1 then { m with tmp0 := a } else { m with tmp1 := a }

/-- reading `GC(iter)` (mpdata_common.hpp:56-60; overridden mpdata_fct_common.hpp:32-36) -/
def gcUsed (o : OptsT) (iter : Nat) (m : Mem1 K) : Int → K :=
  if iter = 0 then m.GC else if isset o oFct then m.mono else gcCorr iter m

/-- `im` (mpdata_osc_1d.hpp:176) -/
def Cfg1.im (c : Cfg1 K) : Rng := ⟨c.ijk.first - 1, c.ijk.last⟩

/-- `fct_init` (mpdata_fct_1d.hpp:31-41; a no-op without fct, mpdata_common.hpp:63) -/
def fctInit1 (c : Cfg1 K) (m : Mem1 K) : Mem1 K :=
  if isset c.o oFct then
    let i1 := c.ijk.ext 1
    { m with
      psiMin := asg i1 (fun i => min (min (m.psi (i - 1)) (m.psi i)) (m.psi (i + 1))) m.psiMin
      psiMax := asg i1 (fun i => max (max (m.psi (i - 1)) (m.psi i)) (m.psi (i + 1))) m.psiMax }
  else m

/-- `fct_adjust_antidiff` (mpdata_fct_1d.hpp:43-81) -/
def fctAdjust1 (c : Cfg1 K) (iter : Nat) (m : Mem1 K) : Mem1 K :=
  if isset c.o oFct then
    let i1 := c.ijk.ext 1
    let im1 := c.im.ext 1
    let m := setCorr iter m (c.fillV true (gcCorr iter m))
    let m := if isset c.o oIga then m
      else { m with flux := asg im1 (makeFlux1 c.o m.psi (gcCorr iter m)) m.flux }
    let flx := if isset c.o oIga then gcCorr iter m else m.flux
    let m := { m with bUp := asg i1 (betaUp1 c.o c.eps m.psi m.psiMax flx c.G) m.bUp }
    let m := { m with bDn := asg i1 (betaDn1 c.o c.eps m.psi m.psiMin flx c.G) m.bDn }
    { m with mono := asg c.im (gcMono1 c.o m.psi m.bUp m.bDn (gcCorr iter m)) m.mono }
  else m

/-- one pass of the iteration loop of `advop` (mpdata_osc_1d.hpp:62-131) -/
def advIter1 (c : Cfg1 K) (iter : Nat) (m : Mem1 K) : Mem1 K :=
  let m := if iter ≠ 0 then
      let m := { m with psi := m.psiN, psiN := m.psi }                      -- cycle(e)
      let m := { m with psi := c.fillS m.psi }                              -- xchng(e)
      let m := setCorr iter m (asg c.im
        (antidiff1 c.o c.si c.te c.tiny m.psi (gcUnco iter m) c.ndtGC c.ndttGC c.G) (gcCorr iter m))
      let m := if isset c.o oDfl && iter != c.nIters - 1 && !isset c.o oFct
        then setCorr iter m (c.fillV false (gcCorr iter m)) else m
      fctAdjust1 c iter m
    else m
  let m := if !isset c.o oIga || iter == 0
    then { m with flux := asg c.im (makeFlux1 c.o m.psi (gcUsed c.o iter m)) m.flux } else m
  let flx := if !isset c.o oIga || iter == 0 then m.flux else gcUsed c.o iter m
  { m with psiN := asg c.ijk (donorStep1 c.o m.psi flx c.G) m.psiN }

/-- the iteration loop with its `break` (mpdata_osc_1d.hpp:62, 125-128): `k` iterations left -/
def advLoop1 (c : Cfg1 K) : (k iter : Nat) → Mem1 K → Mem1 K
  | 0, _, m => m
  | k + 1, iter, m =>
    let m := advIter1 c iter m
    if c.filter then m else advLoop1 c k (iter + 1) m

/-- `xchng(e); advop(e); cycle(e)` (solver_common.hpp:130-134, scaling by 2^0) -/
def advance1 (c : Cfg1 K) (m : Mem1 K) : Mem1 K :=
  let m := { m with psi := c.fillS m.psi }
  let m := fctInit1 c m
  let m := advLoop1 c c.nIters 0 m
  { m with psi := m.psiN, psiN := m.psi }

/-! ## Cyclic boundary conditions in 1-D -/

/-- `cyclic` `fill_halos_sclr` left then right (bcond/cyclic_1d.hpp; ranges of bcond/detail/bcond_common.hpp:225-275):
`a(left_halo_sclr) = a(rght_intr_sclr)`, `a(rght_halo_sclr) = a(left_intr_sclr)`. -/
def cycFillS (r : Rng) (halo : Int) (a : Int → K) : Int → K :=
  let n := r.last - r.first
  let a := asg ⟨r.first - halo, r.first - 1⟩ (fun i => a (i + n)) a
  asg ⟨r.last + 1, r.last + halo⟩ (fun i => a (i - n)) a

/-- `cyclic` `fill_halos_vctr_alng` (bcond/cyclic_1d.hpp): `a(left_halo_vctr) = a(rght_intr_vctr)`,
`a(rght_halo_vctr) = a(left_intr_vctr)` -/
def cycFillV (r : Rng) (halo : Int) (a : Int → K) : Int → K :=
  let n := r.last - r.first
  let a := asg ⟨r.first - halo, r.first - 1⟩ (fun i => a (i + n)) a
  asg ⟨r.last, r.last + halo - 1⟩ (fun i => a (i - n)) a

end Mpdata
