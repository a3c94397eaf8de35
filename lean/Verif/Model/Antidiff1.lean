import Verif.Model.Donor
/-! # 1-D antidiffusive velocities and flux limiter, formula by formula
Models `formulae/mpdata/formulae_mpdata_{common,g_1d,gc_1d,psi_1d,fdiv_1d,hot_1d,dfl_1d,1d,fct_1d}.hpp`.
`tiny`, `eps` stand for `blitz::tiny`, `blitz::epsilon` of the real type. -/
namespace Mpdata
variable {K : Type} [Field K] [LinearOrder K]

/-- `sptl_intrp_t` (formulae_mpdata_common.hpp:20-25) -/
inductive SptlIntrp | exact | aver2 | aver4 deriving DecidableEq, Repr
/-- `tmprl_extrp_t` (formulae_mpdata_common.hpp:27-31) -/
inductive TmprlExtrp | noextrp | linear2 deriving DecidableEq, Repr

/-- `frac` (formulae_mpdata_common.hpp:61-86) -/
def frac (o : OptsT) (tiny nom den : K) : K :=
  if isset o oPfc then (if den ≠ 0 then nom / den else 0) else nom / (den + tiny)

/-- `fct_frac` (formulae_mpdata_common.hpp:88-98) -/
def fctFrac (eps nom den : K) : K := nom / (den + eps)

/-- `G_bar_x` (formulae_mpdata_g_1d.hpp:20-44) -/
def gBarX1 (o : OptsT) (G : Int → K) (i : Int) : K :=
  if isset o oNug then (gFac1 o G (i + 1) + gFac1 o G i) / 2 else 1

/-- `GC0_bar_x` (formulae_mpdata_gc_1d.hpp:20-32) -/
def gc0BarX1 (GC : Int → K) (i : Int) : K := (GC i + GC (i - 1)) / 2

/-- `ndx_GC0` (formulae_mpdata_gc_1d.hpp:34-45) -/
def ndxGC01 (GC : Int → K) (i : Int) : K := (GC (i + 1) - GC (i - 1)) / 2

/-- `psi_bar_x` (formulae_mpdata_psi_1d.hpp:20-47) -/
def psiBarX1 (o : OptsT) (psi : Int → K) (i : Int) : K :=
  if isset o oAbs then (|psi (i + 1)| + |psi i|) / 2 else (psi (i + 1) + psi i) / 2

/-- `ndxx_GC0` (formulae_mpdata_gc_1d.hpp:47-78) -/
def ndxxGC01 (o : OptsT) (psi GC : Int → K) (i : Int) : K :=
  if isset o oIga then (GC (i + 1) + GC (i - 1) - 2 * GC i) * psiBarX1 o psi i
  else GC (i + 1) + GC (i - 1) - 2 * GC i

/-- `ndtt_GC0` (formulae_mpdata_gc_1d.hpp:80-108) -/
def ndttGC01 (o : OptsT) (psi ndttGC : Int → K) (i : Int) : K :=
  if isset o oIga then ndttGC i * psiBarX1 o psi i else ndttGC i

/-- `ndx_psi` (formulae_mpdata_psi_1d.hpp:49-105) -/
def ndxPsi1 (o : OptsT) (tiny : K) (psi : Int → K) (i : Int) : K :=
  if isset o oIga then 2 * (psi (i + 1) - psi i) / (1 + 1)
  else if isset o oAbs then 2 * frac o tiny (|psi (i + 1)| - |psi i|) (|psi (i + 1)| + |psi i|)
  else 2 * frac o tiny (psi (i + 1) - psi i) (psi (i + 1) + psi i)

/-- `ndxx_psi` (formulae_mpdata_psi_1d.hpp:107-161) -/
def ndxxPsi1 (o : OptsT) (tiny : K) (psi : Int → K) (i : Int) : K :=
  if isset o oIga then 2 * (psi (i + 2) - psi (i + 1) - psi i + psi (i - 1)) / (1 + 1 + 1 + 1)
  else if isset o oAbs then
    2 * frac o tiny (|psi (i + 2)| - |psi (i + 1)| - |psi i| + |psi (i - 1)|)
                    (|psi (i + 2)| + |psi (i + 1)| + |psi i| + |psi (i - 1)|)
  else 2 * frac o tiny (psi (i + 2) - psi (i + 1) - psi i + psi (i - 1))
                       (psi (i + 2) + psi (i + 1) + psi i + psi (i - 1))

/-- `fdiv_centre` (formulae_mpdata_fdiv_1d.hpp:22-38) -/
def fdivCentre1 (o : OptsT) (psi GC G : Int → K) (i : Int) : K :=
  (GC i * psiBarX1 o psi i - GC (i - 1) * psiBarX1 o psi (i - 1)) / gFac1 o G i

/-- `nfdiv` (formulae_mpdata_fdiv_1d.hpp:40-107) -/
def nfdiv1 (o : OptsT) (tiny : K) (psi GC G : Int → K) (i : Int) : K :=
  if isset o oIga then
    (gc0BarX1 GC (i + 1) * psi (i + 1) - gc0BarX1 GC i * psi i) / gBarX1 o G i
  else if isset o oAbs then
    2 * frac o tiny (gc0BarX1 GC (i + 1) * |psi (i + 1)| - gc0BarX1 GC i * |psi i|)
                    (gBarX1 o G i * (|psi (i + 1)| + |psi i|))
  else
    2 * frac o tiny (gc0BarX1 GC (i + 1) * psi (i + 1) - gc0BarX1 GC i * psi i)
                    (gBarX1 o G i * (psi (i + 1) + psi i))

/-- `nfdiv_fdiv` (formulae_mpdata_fdiv_1d.hpp:109-180) -/
def nfdivFdiv1 (o : OptsT) (tiny : K) (psi GC G : Int → K) (i : Int) : K :=
  let nom := gc0BarX1 GC (i + 1) * fdivCentre1 o psi GC G (i + 1) - gc0BarX1 GC i * fdivCentre1 o psi GC G i
  if isset o oIga then nom / gBarX1 o G i
  else if isset o oAbs then
    4 * frac o tiny nom (gBarX1 o G i * (|psi (i + 2)| + |psi (i + 1)| + |psi i| + |psi (i - 1)|))
  else 4 * frac o tiny nom (gBarX1 o G i * (psi (i + 2) + psi (i + 1) + psi i + psi (i - 1)))

/-- `ndx_fdiv` (formulae_mpdata_fdiv_1d.hpp:182-247) -/
def ndxFdiv1 (o : OptsT) (tiny : K) (psi GC G : Int → K) (i : Int) : K :=
  let nom := fdivCentre1 o psi GC G (i + 1) - fdivCentre1 o psi GC G i
  if isset o oIga then nom
  else if isset o oAbs then 4 * frac o tiny nom (|psi (i + 2)| + |psi (i + 1)| + |psi i| + |psi (i - 1)|)
  else 4 * frac o tiny nom (psi (i + 2) + psi (i + 1) + psi i + psi (i - 1))

/-- `ndxx_psi_coeff` (formulae_mpdata_hot_1d.hpp:20-34) -/
def ndxxPsiCoeff1 (o : OptsT) (GC G : Int → K) (i : Int) : K :=
  (3 * GC i * |GC i| / gBarX1 o G i - 2 * GC i ^ 3 / gBarX1 o G i ^ 2 - GC i) / 6

/-- `TOT` (formulae_mpdata_hot_1d.hpp:36-62) -/
def tot1 (o : OptsT) (tiny : K) (psi GC G : Int → K) (i : Int) : K :=
  if isset o oTot then ndxxPsi1 o tiny psi i * ndxxPsiCoeff1 o GC G i else 0

/-- `DFL` (formulae_mpdata_dfl_1d.hpp:19-69) -/
def dfl1 (o : OptsT) (psi GC G : Int → K) (i : Int) : K :=
  if isset o oDfl then
    if isset o oIga then
      -(1 / 2) * GC i / (gFac1 o G (i + 1) + gFac1 o G i) * (GC (i + 1) - GC (i - 1))
        * (1 / 2) * (psi (i + 1) + psi i)
    else -(1 / 2) * GC i / (gFac1 o G (i + 1) + gFac1 o G i) * (GC (i + 1) - GC (i - 1))
  else 0

/-- `div_2nd` (formulae_mpdata_1d.hpp:21-36) -/
def div2nd1 (o : OptsT) (tiny : K) (psi GC G : Int → K) (i : Int) : K :=
  |GC i| / 2 * ndxPsi1 o tiny psi i - GC i / 2 * nfdiv1 o tiny psi GC G i

/-- `div_3rd_upwind` (formulae_mpdata_1d.hpp:38-65) -/
def div3rdUpwind1 (o : OptsT) (tiny : K) (psi GC G : Int → K) (i : Int) : K :=
  if isset o oIga then 0 else |div2nd1 o tiny psi GC G i| / 2 * ndxPsi1 o tiny psi i

/-- `div_3rd_temporal` (formulae_mpdata_1d.hpp:67-87) -/
def div3rdTemporal1 (o : OptsT) (te : TmprlExtrp) (psi ndttGC : Int → K) (i : Int) : K :=
  match te with
  | .noextrp => ndttGC01 o psi ndttGC i
  | .linear2 => 10 * ndttGC01 o psi ndttGC i

/-- `div_3rd_spatial_helper` (formulae_mpdata_1d.hpp:89-127) -/
def div3rdSpatialHelper1 (o : OptsT) (si : SptlIntrp) (psi GC : Int → K) (i : Int) : K :=
  match si with
  | .exact => ndxxGC01 o psi GC i
  | .aver2 => 4 * ndxxGC01 o psi GC i
  | .aver4 => 0

/-- `div_3rd_spatial` (formulae_mpdata_1d.hpp:129-145) -/
def div3rdSpatial1 (o : OptsT) (si : SptlIntrp) (tiny : K) (psi GC : Int → K) (i : Int) : K :=
  -(1 / 24) * (4 * GC i * ndxxPsi1 o tiny psi i + 2 * ndxPsi1 o tiny psi i * ndxGC01 GC i
    + div3rdSpatialHelper1 o si psi GC i)

/-- `div_3rd` (formulae_mpdata_1d.hpp:147-183) -/
def div3rd1 (o : OptsT) (si : SptlIntrp) (te : TmprlExtrp) (tiny : K)
    (psi GC ndtGC ndttGC G : Int → K) (i : Int) : K :=
  if isset o oDiv3 then
    div3rdUpwind1 o tiny psi GC G i
    + div3rdSpatial1 o si tiny psi GC i
    + (1 / 2) * |GC i| * ndxFdiv1 o tiny psi GC G i
    + (1 / 24) * (-8 * GC i * nfdivFdiv1 o tiny psi GC G i
        + div3rdTemporal1 o te psi ndttGC i
        + 2 * GC i * nfdiv1 o tiny psi ndtGC G i
        - 2 * ndtGC i * nfdiv1 o tiny psi GC G i)
  else 0

/-- `antidiff` (formulae_mpdata_1d.hpp:185-234), value at face `i+1/2`. The overload for `div_3rd`
without `div_2nd` does not exist (compile error); the model then uses the divergence form. -/
def antidiff1 (o : OptsT) (si : SptlIntrp) (te : TmprlExtrp) (tiny : K)
    (psi GC ndtGC ndttGC G : Int → K) (i : Int) : K :=
  if isset o oDiv2 || isset o oDiv3 then
    div2nd1 o tiny psi GC G i + div3rd1 o si te tiny psi GC ndtGC ndttGC G i
  else
    |GC i| / 2 * (1 - |GC i| / gBarX1 o G i) * ndxPsi1 o tiny psi i
    + tot1 o tiny psi GC G i + dfl1 o psi GC G i

/-- `beta_up` with `beta_up_nominator` (formulae_mpdata_fct_1d.hpp:28-62) -/
def betaUp1 (o : OptsT) (eps : K) (psi psiMax flx G : Int → K) (i : Int) : K :=
  fctFrac eps ((max (max (max (psiMax i) (psi (i - 1))) (psi i)) (psi (i + 1)) - psi i) * gFac1 o G i)
    (pospart o (flx (i - 1)) - negpart o (flx i))

/-- `beta_dn` with `beta_dn_nominator` (formulae_mpdata_fct_1d.hpp:69-103) -/
def betaDn1 (o : OptsT) (eps : K) (psi psiMin flx G : Int → K) (i : Int) : K :=
  fctFrac eps ((psi i - min (min (min (psiMin i) (psi (i - 1))) (psi i)) (psi (i + 1))) * gFac1 o G i)
    (pospart o (flx i) - negpart o (flx (i - 1)))

/-- `GC_mono` (formulae_mpdata_fct_1d.hpp:110-194), value at face `i+1/2` -/
def gcMono1 (o : OptsT) (psi bUp bDn gcCorr : Int → K) (i : Int) : K :=
  if !isset o oIga && isset o oAbs then
    gcCorr i *
      (if gcCorr i > 0 then
        (if psi i > 0 then min (min 1 (bDn i)) (bUp (i + 1)) else min (min 1 (bUp i)) (bDn (i + 1)))
      else
        (if psi (i + 1) > 0 then min (min 1 (bUp i)) (bDn (i + 1)) else min (min 1 (bDn i)) (bUp (i + 1))))
  else
    gcCorr i * (if gcCorr i > 0 then min (min 1 (bDn i)) (bUp (i + 1)) else min (min 1 (bUp i)) (bDn (i + 1)))

end Mpdata
