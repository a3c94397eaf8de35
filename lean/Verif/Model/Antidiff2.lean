import Verif.Model.Antidiff1
/-! # 2-D antidiffusive velocities, formula by formula
Models `formulae/mpdata/formulae_mpdata_{g_2d,gc_2d,psi_2d,fdiv_2d,hot_2d,dfl_2d,2d}.hpp`.

Every formula of the code is a template over the dimension `dim` and indexes arrays through `pi<dim>(i, j)`; here the formulae are written in the permuted
coordinates: `psi i j` is `psi(pi<dim>(i, j))`, `ga` is `GC[dim]`, `gb` is `GC[dim+1]` (= `GC[dim-1]` in 2-D, `arrvec_t` wraps around, C46).
Arakawa-C: `GC(i+h)` is storage index `i`, `GC(i-h)` storage index `i-1`. The three overloads of each formula (plain, `abs`, `iga`) are one definition;
`abs` and `iga` together do not compile (static_assert). -/
namespace Mpdata
variable {K : Type} [Field K] [LinearOrder K]

/-- the `abs(...)` of the variable-sign overloads -/
def vabs (o : OptsT) (x : K) : K := if isset o oAbs then |x| else x

/-- a 2-D array in permuted coordinates -/
abbrev Ar2 (K : Type) := Int → Int → K

/-- `formulae::G<opts, dim>` (formulae/common.hpp:136-144, 169-182) -/
def gF2 (o : OptsT) (G : Ar2 K) (i j : Int) : K := if isset o oNug then G i j else 1

/-- `G_bar_x` (formulae_mpdata_g_2d.hpp:23-47) -/
def gBarX2 (o : OptsT) (G : Ar2 K) (i j : Int) : K := if isset o oNug then (gF2 o G (i + 1) j + gF2 o G i j) / 2 else 1

/-- `G_bar_xy` (formulae_mpdata_g_2d.hpp:49-78) -/
def gBarXY2 (o : OptsT) (G : Ar2 K) (i j : Int) : K :=
  if isset o oNug then (gF2 o G i j + gF2 o G i (j + 1) + gF2 o G (i + 1) j + gF2 o G (i + 1) (j + 1)) / 4 else 1

/-- `GC0_bar_x` (formulae_mpdata_gc_2d.hpp:23-35) -/
def gc0BarX2 (ga : Ar2 K) (i j : Int) : K := (ga i j + ga (i - 1) j) / 2

/-- `GC0_bar_xy` (formulae_mpdata_gc_2d.hpp:37-53) -/
def gc0BarXY2 (ga : Ar2 K) (i j : Int) : K := (ga i j + ga (i - 1) j + ga i (j + 1) + ga (i - 1) (j + 1)) / 4

/-- `GC1_bar_x` (formulae_mpdata_gc_2d.hpp:56-71) -/
def gc1BarX2 (gb : Ar2 K) (i j : Int) : K := (gb (i + 1) j + gb i j) / 2

/-- `GC1_bar_xy` (formulae_mpdata_gc_2d.hpp:73-90) -/
def gc1BarXY2 (gb : Ar2 K) (i j : Int) : K := (gb (i + 1) j + gb i j + gb (i + 1) (j - 1) + gb i (j - 1)) / 4

/-- `ndx_GC0` (formulae_mpdata_gc_2d.hpp:92-104) -/
def ndxGC02 (ga : Ar2 K) (i j : Int) : K := (ga (i + 1) j - ga (i - 1) j) / 2

/-- `psi_bar_x` (formulae_mpdata_psi_2d.hpp:21-52) -/
def psiBarX2 (o : OptsT) (psi : Ar2 K) (i j : Int) : K := (vabs o (psi (i + 1) j) + vabs o (psi i j)) / 2

/-- `psi_bar_y` (formulae_mpdata_psi_2d.hpp:54-84) -/
def psiBarY2 (o : OptsT) (psi : Ar2 K) (i j : Int) : K := (vabs o (psi i j) + vabs o (psi i (j + 1))) / 2

/-- `psi_bar_xy` (formulae_mpdata_psi_2d.hpp:86-122) -/
def psiBarXY2 (o : OptsT) (psi : Ar2 K) (i j : Int) : K :=
  (vabs o (psi (i + 1) j) + vabs o (psi i j) + vabs o (psi i (j + 1)) + vabs o (psi (i + 1) (j + 1))) / 4

/-- `ndxx_GC0` (formulae_mpdata_gc_2d.hpp:106-137) -/
def ndxxGC02 (o : OptsT) (psi ga : Ar2 K) (i j : Int) : K :=
  if isset o oIga then (ga (i + 1) j + ga (i - 1) j - 2 * ga i j) * psiBarX2 o psi i j
  else ga (i + 1) j + ga (i - 1) j - 2 * ga i j

/-- `ndtt_GC0` (formulae_mpdata_gc_2d.hpp:139-170) -/
def ndttGC02 (o : OptsT) (psi ndtt : Ar2 K) (i j : Int) : K :=
  if isset o oIga then ndtt i j * psiBarX2 o psi i j else ndtt i j

/-- `ndx_psi` (formulae_mpdata_psi_2d.hpp:124-183) -/
def ndxPsi2 (o : OptsT) (tiny : K) (psi : Ar2 K) (i j : Int) : K :=
  if isset o oIga then 2 * (psi (i + 1) j - psi i j) / (1 + 1)
  else 2 * frac o tiny (vabs o (psi (i + 1) j) - vabs o (psi i j)) (vabs o (psi (i + 1) j) + vabs o (psi i j))

/-- `ndy_psi` (formulae_mpdata_psi_2d.hpp:185-241) -/
def ndyPsi2 (o : OptsT) (tiny : K) (psi : Ar2 K) (i j : Int) : K :=
  if isset o oIga then (psi (i + 1) (j + 1) + psi i (j + 1) - psi (i + 1) (j - 1) - psi i (j - 1)) / (1 + 1 + 1 + 1)
  else frac o tiny
    (vabs o (psi (i + 1) (j + 1)) + vabs o (psi i (j + 1)) - vabs o (psi (i + 1) (j - 1)) - vabs o (psi i (j - 1)))
    (vabs o (psi (i + 1) (j + 1)) + vabs o (psi i (j + 1)) + vabs o (psi (i + 1) (j - 1)) + vabs o (psi i (j - 1)))

/-- `ndxx_psi` (formulae_mpdata_psi_2d.hpp:243-300) -/
def ndxxPsi2 (o : OptsT) (tiny : K) (psi : Ar2 K) (i j : Int) : K :=
  if isset o oIga then 2 * (psi (i + 2) j - psi (i + 1) j - psi i j + psi (i - 1) j) / (1 + 1 + 1 + 1)
  else 2 * frac o tiny
    (vabs o (psi (i + 2) j) - vabs o (psi (i + 1) j) - vabs o (psi i j) + vabs o (psi (i - 1) j))
    (vabs o (psi (i + 2) j) + vabs o (psi (i + 1) j) + vabs o (psi i j) + vabs o (psi (i - 1) j))

/-- `ndxy_psi` (formulae_mpdata_psi_2d.hpp:302-359) -/
def ndxyPsi2 (o : OptsT) (tiny : K) (psi : Ar2 K) (i j : Int) : K :=
  if isset o oIga then 2 * (psi (i + 1) (j + 1) - psi i (j + 1) - psi (i + 1) (j - 1) + psi i (j - 1)) / (1 + 1 + 1 + 1)
  else 2 * frac o tiny
    (vabs o (psi (i + 1) (j + 1)) - vabs o (psi i (j + 1)) - vabs o (psi (i + 1) (j - 1)) + vabs o (psi i (j - 1)))
    (vabs o (psi (i + 1) (j + 1)) + vabs o (psi i (j + 1)) + vabs o (psi (i + 1) (j - 1)) + vabs o (psi i (j - 1)))

/-- `ndxxx_psi` (formulae_mpdata_psi_2d.hpp:361-376; infinite gauge only) -/
def ndxxxPsi2 (psi : Ar2 K) (i j : Int) : K :=
  (psi (i + 2) j - 3 * psi (i + 1) j + 3 * psi i j - psi (i - 1) j) / (1 + 1 + 1 + 1)

/-- `ndxxy_psi` (formulae_mpdata_psi_2d.hpp:378-394; infinite gauge only) -/
def ndxxyPsi2 (psi : Ar2 K) (i j : Int) : K :=
  (psi (i + 2) (j + 1) - psi (i + 1) (j + 1) - psi i (j + 1) + psi (i - 1) (j + 1)
    - psi (i + 2) (j - 1) + psi (i + 1) (j - 1) + psi i (j - 1) - psi (i - 1) (j - 1)) / (1 + 1 + 1 + 1 + 1 + 1 + 1 + 1)

/-- `ndxyy_psi` (formulae_mpdata_psi_2d.hpp:396-412; infinite gauge only) -/
def ndxyyPsi2 (psi : Ar2 K) (i j : Int) : K :=
  (psi (i + 1) (j + 1) - 2 * psi (i + 1) j + psi (i + 1) (j - 1)
    - psi i (j + 1) + 2 * psi i j - psi i (j - 1)) / (1 + 1 + 1 + 1 + 1 + 1)

/-- `ndtx_psi` (formulae_mpdata_psi_2d.hpp:414-485): `psi` is the newer, `old` the older field -/
def ndtxPsi2 (o : OptsT) (tiny : K) (psi old : Ar2 K) (i j : Int) : K :=
  if isset o oIga then psi (i + 1) j - old (i + 1) j - psi i j + old i j
  else 4 * frac o tiny
    (vabs o (psi (i + 1) j) - vabs o (old (i + 1) j) - vabs o (psi i j) + vabs o (old i j))
    (vabs o (psi (i + 1) j) + vabs o (old (i + 1) j) + vabs o (psi i j) + vabs o (old i j))

/-- `ndt_psi` (formulae_mpdata_psi_2d.hpp:487-560) -/
def ndtPsi2 (o : OptsT) (tiny : K) (psi old : Ar2 K) (i j : Int) : K :=
  if isset o oIga then (psi (i + 1) j - old (i + 1) j + psi i j - old i j) / 2
  else 2 * frac o tiny
    (vabs o (psi (i + 1) j) - vabs o (old (i + 1) j) + vabs o (psi i j) - vabs o (old i j))
    (vabs o (psi (i + 1) j) + vabs o (old (i + 1) j) + vabs o (psi i j) + vabs o (old i j))

/-- `fdiv_centre` (formulae_mpdata_fdiv_2d.hpp:25-45) -/
def fdivCentre2 (o : OptsT) (psi ga gb G : Ar2 K) (i j : Int) : K :=
  (ga i j * psiBarX2 o psi i j - ga (i - 1) j * psiBarX2 o psi (i - 1) j
    + gb i j * psiBarY2 o psi i j - gb i (j - 1) * psiBarY2 o psi i (j - 1)) / gF2 o G i j

/-- `fdiv_corner_xy` (formulae_mpdata_fdiv_2d.hpp:46-66) -/
def fdivCornerXY2 (o : OptsT) (psi ga gb G : Ar2 K) (i j : Int) : K :=
  (gc0BarXY2 ga (i + 1) j * psiBarY2 o psi (i + 1) j - gc0BarXY2 ga i j * psiBarY2 o psi i j
    + gc1BarXY2 gb i (j + 1) * psiBarX2 o psi i (j + 1) - gc1BarXY2 gb i j * psiBarX2 o psi i j) / gBarXY2 o G i j

/-- `nfdiv` (formulae_mpdata_fdiv_2d.hpp:68-152) -/
def nfdiv2 (o : OptsT) (tiny : K) (psi ga gb G : Ar2 K) (i j : Int) : K :=
  let ab : K → K := fun x => if isset o oIga then x else vabs o x
  let nom := gc0BarX2 ga (i + 1) j * ab (psi (i + 1) j) - gc0BarX2 ga i j * ab (psi i j)
    + gc1BarX2 gb i j * psiBarXY2 o psi i j - gc1BarX2 gb i (j - 1) * psiBarXY2 o psi i (j - 1)
  if isset o oIga then nom / gBarX2 o G i j
  else 6 * frac o tiny nom (gBarX2 o G i j *
    (vabs o (psi (i + 1) j) + vabs o (psi i j) + vabs o (psi i (j + 1)) + vabs o (psi (i + 1) (j + 1))
      + vabs o (psi i (j - 1)) + vabs o (psi (i + 1) (j - 1))))

/-- the eight-point sum in the denominators of `nfdiv_fdiv` and `ndx_fdiv` (formulae_mpdata_fdiv_2d.hpp:175-184, 262-270) -/
def sum8_2 (o : OptsT) (psi : Ar2 K) (i j : Int) : K :=
  vabs o (psi (i + 2) j) + vabs o (psi (i + 1) j) + vabs o (psi i j) + vabs o (psi (i - 1) j)
    + vabs o (psi i (j + 1)) + vabs o (psi i (j - 1)) + vabs o (psi (i + 1) (j + 1)) + vabs o (psi (i + 1) (j - 1))

/-- `nfdiv_fdiv` (formulae_mpdata_fdiv_2d.hpp:154-243) -/
def nfdivFdiv2 (o : OptsT) (tiny : K) (psi ga gb G : Ar2 K) (i j : Int) : K :=
  let nom := gc0BarX2 ga (i + 1) j * fdivCentre2 o psi ga gb G (i + 1) j
    - gc0BarX2 ga i j * fdivCentre2 o psi ga gb G i j
    + gc1BarX2 gb i j * fdivCornerXY2 o psi ga gb G i j
    - gc1BarX2 gb i (j - 1) * fdivCornerXY2 o psi ga gb G i (j - 1)
  if isset o oIga then nom / gBarX2 o G i j else 8 * frac o tiny nom (gBarX2 o G i j * sum8_2 o psi i j)

/-- `ndx_fdiv` (formulae_mpdata_fdiv_2d.hpp:244-321) -/
def ndxFdiv2 (o : OptsT) (tiny : K) (psi ga gb G : Ar2 K) (i j : Int) : K :=
  let nom := fdivCentre2 o psi ga gb G (i + 1) j - fdivCentre2 o psi ga gb G i j
  if isset o oIga then nom else 8 * frac o tiny nom (sum8_2 o psi i j)

/-- `nfdiv_dt` (formulae_mpdata_fdiv_2d.hpp:322-431) -/
def nfdivDt2 (o : OptsT) (tiny : K) (psi old ga gb G : Ar2 K) (i j : Int) : K :=
  let ab : K → K := fun x => if isset o oIga then x else vabs o x
  let nom := gc0BarX2 ga (i + 1) j * (ab (psi (i + 1) j) - ab (old (i + 1) j)) - gc0BarX2 ga i j * (ab (psi i j) - ab (old i j))
    + gc1BarX2 gb i j * (psiBarXY2 o psi i j - psiBarXY2 o old i j)
    - gc1BarX2 gb i (j - 1) * (psiBarXY2 o psi i (j - 1) - psiBarXY2 o old i (j - 1))
  if isset o oIga then nom / gBarX2 o G i j
  else 12 * frac o tiny nom (gBarX2 o G i j *
    (vabs o (psi (i + 1) j) + vabs o (psi i j) + vabs o (psi i (j + 1)) + vabs o (psi (i + 1) (j + 1))
      + vabs o (psi i (j - 1)) + vabs o (psi (i + 1) (j - 1))
      + vabs o (old (i + 1) j) + vabs o (old i j) + vabs o (old i (j + 1)) + vabs o (old (i + 1) (j + 1))
      + vabs o (old i (j - 1)) + vabs o (old (i + 1) (j - 1))))

/-- `ndxx_psi_coeff` (formulae_mpdata_hot_2d.hpp:21-36) -/
def ndxxPsiCoeff2 (o : OptsT) (ga G : Ar2 K) (i j : Int) : K :=
  (3 * ga i j * |ga i j| / gBarX2 o G i j - 2 * ga i j ^ 3 / gBarX2 o G i j ^ 2 - ga i j) / 6

/-- `ndxy_psi_coeff` (formulae_mpdata_hot_2d.hpp:38-50) -/
def ndxyPsiCoeff2 (o : OptsT) (ga gb G : Ar2 K) (i j : Int) : K :=
  (|ga i j| - 2 * ga i j ^ 2 / gBarX2 o G i j) * gc1BarXY2 gb i j / (2 * gBarX2 o G i j)

/-- `TOT` (formulae_mpdata_hot_2d.hpp:52-82) -/
def tot2 (o : OptsT) (tiny : K) (psi ga gb G : Ar2 K) (i j : Int) : K :=
  if isset o oTot then
    ndxxPsi2 o tiny psi i j * ndxxPsiCoeff2 o ga G i j + ndxyPsi2 o tiny psi i j * ndxyPsiCoeff2 o ga gb G i j
  else 0

/-- `ndxxx_psi_coeff` (formulae_mpdata_hot_2d.hpp:84-99) -/
def ndxxxPsiCoeff2 (o : OptsT) (ga G : Ar2 K) (i j : Int) : K :=
  (6 * |ga i j| * ga i j ^ 2 / gBarX2 o G i j ^ 2 - 3 * ga i j ^ 2 / gBarX2 o G i j - 3 * ga i j ^ 4 / gBarX2 o G i j ^ 3) / 2

/-- `ndxxy_psi_coeff` (formulae_mpdata_hot_2d.hpp:101-115) -/
def ndxxyPsiCoeff2 (o : OptsT) (ga gb G : Ar2 K) (i j : Int) : K :=
  3 * (|ga i j| - ga i j ^ 2 / gBarX2 o G i j) * ga i j * gc1BarXY2 gb i j / gBarX2 o G i j ^ 2

/-- `ndxyy_psi_coeff` (formulae_mpdata_hot_2d.hpp:117-136) -/
def ndxyyPsiCoeff2 (o : OptsT) (ga gb G : Ar2 K) (i j : Int) : K :=
  3 * (3 * |gc1BarXY2 gb i j| * ga i j ^ 2 / gBarX2 o G i j + 3 * gc1BarXY2 gb i j ^ 2 * |ga i j| / gBarX2 o G i j
    - 2 * |gc1BarXY2 gb i j| * |ga i j| - 9 * gc1BarXY2 gb i j ^ 2 * ga i j ^ 2 / gBarX2 o G i j ^ 2) / gBarX2 o G i j / 4

/-- `FOT` (formulae_mpdata_hot_2d.hpp:138-172); `fot` without `iga` does not compile (static_assert) -/
def fot2 (o : OptsT) (psi ga gb G : Ar2 K) (i j : Int) : K :=
  if isset o oFot then
    ndxxxPsi2 psi i j * ndxxxPsiCoeff2 o ga G i j + ndxxyPsi2 psi i j * ndxxyPsiCoeff2 o ga gb G i j
      + ndxyyPsi2 psi i j * ndxyyPsiCoeff2 o ga gb G i j
  else 0

/-- `DFL` (formulae_mpdata_dfl_2d.hpp:20-96) -/
def dfl2 (o : OptsT) (psi ga gb G : Ar2 K) (i j : Int) : K :=
  if isset o oDfl then
    let v := -(1 / 4) * ga i j / gBarX2 o G i j *
      ((ga (i + 1) j - ga (i - 1) j) + (gb (i + 1) j + gb i j - gb (i + 1) (j - 1) - gb i (j - 1)))
    if isset o oIga then v * psiBarX2 o psi i j else v
  else 0

/-- `div_2nd` (formulae_mpdata_2d.hpp:22-39) -/
def div2nd2 (o : OptsT) (tiny : K) (psi ga gb G : Ar2 K) (i j : Int) : K :=
  |ga i j| / 2 * ndxPsi2 o tiny psi i j - ga i j / 2 * nfdiv2 o tiny psi ga gb G i j

/-- `div_3rd_upwind` (formulae_mpdata_2d.hpp:41-68) -/
def div3rdUpwind2 (o : OptsT) (tiny : K) (psi ga gb G : Ar2 K) (i j : Int) : K :=
  if isset o oIga then 0 else |div2nd2 o tiny psi ga gb G i j| / 2 * ndxPsi2 o tiny psi i j

/-- `div_3rd_temporal` (formulae_mpdata_2d.hpp:70-96) -/
def div3rdTemporal2 (o : OptsT) (te : TmprlExtrp) (psi ndtt : Ar2 K) (i j : Int) : K :=
  match te with
  | .noextrp => ndttGC02 o psi ndtt i j
  | .linear2 => 10 * ndttGC02 o psi ndtt i j

/-- `div_3rd_spatial_helper` (formulae_mpdata_2d.hpp:98-137) -/
def div3rdSpatialHelper2 (o : OptsT) (si : SptlIntrp) (psi ga : Ar2 K) (i j : Int) : K :=
  match si with
  | .exact => ndxxGC02 o psi ga i j
  | .aver2 => 4 * ndxxGC02 o psi ga i j
  | .aver4 => 0

/-- `div_3rd_spatial` (formulae_mpdata_2d.hpp:139-157) -/
def div3rdSpatial2 (o : OptsT) (si : SptlIntrp) (tiny : K) (psi ga : Ar2 K) (i j : Int) : K :=
  -(1 / 24) * (4 * ga i j * ndxxPsi2 o tiny psi i j + 2 * ndxPsi2 o tiny psi i j * ndxGC02 ga i j
    + div3rdSpatialHelper2 o si psi ga i j)

/-- `div_3rd` (formulae_mpdata_2d.hpp:159-239): nothing, the `div_3rd` or the `div_3rd_dt` version (both options together do not compile: ambiguous overload) -/
def div3rd2 (o : OptsT) (si : SptlIntrp) (te : TmprlExtrp) (tiny : K) (psi old ga gb nda ndb ndtt G : Ar2 K) (i j : Int) : K :=
  if isset o oDiv3 then
    div3rdUpwind2 o tiny psi ga gb G i j + div3rdSpatial2 o si tiny psi ga i j
      + (1 / 2) * |ga i j| * ndxFdiv2 o tiny psi ga gb G i j
      + (1 / 24) * (-8 * ga i j * nfdivFdiv2 o tiny psi ga gb G i j + div3rdTemporal2 o te psi ndtt i j
        + 2 * ga i j * nfdiv2 o tiny psi nda ndb G i j - 2 * nda i j * nfdiv2 o tiny psi ga gb G i j)
  else if isset o oDiv3dt then
    div3rdUpwind2 o tiny psi ga gb G i j + div3rdSpatial2 o si tiny psi ga i j
      - (1 / 2) * |ga i j| * ndtxPsi2 o tiny psi old i j
      + (1 / 24) * (8 * ga i j * nfdivDt2 o tiny psi old ga gb G i j + 1 * ndttGC02 o psi ndtt i j
        + 2 * ga i j * nfdiv2 o tiny psi nda ndb G i j + 2 * nda i j * ndtPsi2 o tiny psi old i j)
  else 0

/-- `antidiff` in 2-D (formulae_mpdata_2d.hpp:241-308), value at the face `i+1/2` of dimension `dim`. `nda`, `ndb` are `ndt_GC[dim]`, `ndt_GC[dim+1]`, `ndtt` is
`ndtt_GC[dim]`. The overload for `div_3rd` without `div_2nd` does not exist (compile error); the model then uses the divergence form. -/
def antidiff2 (o : OptsT) (si : SptlIntrp) (te : TmprlExtrp) (tiny : K) (psi old ga gb nda ndb ndtt G : Ar2 K) (i j : Int) : K :=
  if isset o oDiv2 || isset o oDiv3 then
    div2nd2 o tiny psi ga gb G i j + div3rd2 o si te tiny psi old ga gb nda ndb ndtt G i j + fot2 o psi ga gb G i j
  else
    |ga i j| / 2 * (1 - |ga i j| / gBarX2 o G i j) * ndxPsi2 o tiny psi i j
      - ga i j * gc1BarXY2 gb i j / (2 * gBarX2 o G i j) * ndyPsi2 o tiny psi i j
      + tot2 o tiny psi ga gb G i j + fot2 o psi ga gb G i j + dfl2 o psi ga gb G i j

end Mpdata
