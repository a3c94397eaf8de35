import Verif.Model.Antidiff2
/-! # 3-D antidiffusive velocities, formula by formula
Models `formulae/mpdata/formulae_mpdata_{g_3d,gc_3d,psi_3d,fdiv_3d,hot_3d,dfl_3d,3d}.hpp` in the permuted coordinates of `pi<dim>(i, j, k)`: `ga` is `GC[dim]`,
`gb` is `GC[dim+1]`, `gc` is `GC[dim-1]` (indices wrap around, C46). See `Antidiff2` for the conventions. -/
namespace Mpdata
variable {K : Type} [Field K] [LinearOrder K]

/-- a 3-D array in permuted coordinates -/
abbrev Ar3 (K : Type) := Int → Int → Int → K

/-- `formulae::G<opts, dim>` (formulae/common.hpp:146-154, 184-197) -/
def gF3 (o : OptsT) (G : Ar3 K) (i j k : Int) : K := if isset o oNug then G i j k else 1

/-- `G_bar_x` (formulae_mpdata_g_3d.hpp:23-52) -/
def gBarX3 (o : OptsT) (G : Ar3 K) (i j k : Int) : K := if isset o oNug then (gF3 o G (i + 1) j k + gF3 o G i j k) / 2 else 1

/-- `G_bar_xy` (formulae_mpdata_g_3d.hpp:54-85) -/
def gBarXY3 (o : OptsT) (G : Ar3 K) (i j k : Int) : K :=
  if isset o oNug then (gF3 o G i j k + gF3 o G i (j + 1) k + gF3 o G (i + 1) j k + gF3 o G (i + 1) (j + 1) k) / 4 else 1

/-- `G_bar_xz` (formulae_mpdata_g_3d.hpp:87-117) -/
def gBarXZ3 (o : OptsT) (G : Ar3 K) (i j k : Int) : K :=
  if isset o oNug then (gF3 o G i j k + gF3 o G i j (k + 1) + gF3 o G (i + 1) j k + gF3 o G (i + 1) j (k + 1)) / 4 else 1

/-- `GC0_bar_x` (formulae_mpdata_gc_3d.hpp:26-41) -/
def gc0BarX3 (ga : Ar3 K) (i j k : Int) : K := (ga i j k + ga (i - 1) j k) / 2

/-- `GC0_bar_xy` (formulae_mpdata_gc_3d.hpp:43-60) -/
def gc0BarXY3 (ga : Ar3 K) (i j k : Int) : K := (ga i j k + ga (i - 1) j k + ga i (j + 1) k + ga (i - 1) (j + 1) k) / 4

/-- `GC0_bar_xz` (formulae_mpdata_gc_3d.hpp:62-79) -/
def gc0BarXZ3 (ga : Ar3 K) (i j k : Int) : K := (ga i j k + ga (i - 1) j k + ga i j (k + 1) + ga (i - 1) j (k + 1)) / 4

/-- `GC1_bar_x` (formulae_mpdata_gc_3d.hpp:81-96) -/
def gc1BarX3 (gb : Ar3 K) (i j k : Int) : K := (gb (i + 1) j k + gb i j k) / 2

/-- `GC1_bar_xy` (formulae_mpdata_gc_3d.hpp:98-115) -/
def gc1BarXY3 (gb : Ar3 K) (i j k : Int) : K := (gb (i + 1) j k + gb i j k + gb (i + 1) (j - 1) k + gb i (j - 1) k) / 4

/-- `GC1_bar_xz` (formulae_mpdata_gc_3d.hpp:117-134) -/
def gc1BarXZ3 (gb : Ar3 K) (i j k : Int) : K := (gb (i + 1) j k + gb (i + 1) j (k + 1) + gb i j k + gb i j (k + 1)) / 4

/-- `GC2_bar_x` (formulae_mpdata_gc_3d.hpp:136-151) -/
def gc2BarX3 (gc : Ar3 K) (i j k : Int) : K := (gc (i + 1) j k + gc i j k) / 2

/-- `GC2_bar_xz` (formulae_mpdata_gc_3d.hpp:153-170) -/
def gc2BarXZ3 (gc : Ar3 K) (i j k : Int) : K := (gc (i + 1) j k + gc i j k + gc (i + 1) j (k - 1) + gc i j (k - 1)) / 4

/-- `GC2_bar_xy` (formulae_mpdata_gc_3d.hpp:172-189) -/
def gc2BarXY3 (gc : Ar3 K) (i j k : Int) : K := (gc (i + 1) (j + 1) k + gc i (j + 1) k + gc (i + 1) j k + gc i j k) / 4

/-- `ndx_GC0` (formulae_mpdata_gc_3d.hpp:191-204) -/
def ndxGC03 (ga : Ar3 K) (i j k : Int) : K := (ga (i + 1) j k - ga (i - 1) j k) / 2

/-- `psi_bar_x` (formulae_mpdata_psi_3d.hpp:23-57) -/
def psiBarX3 (o : OptsT) (psi : Ar3 K) (i j k : Int) : K := (vabs o (psi (i + 1) j k) + vabs o (psi i j k)) / 2

/-- `psi_bar_y` (formulae_mpdata_psi_3d.hpp:59-93) -/
def psiBarY3 (o : OptsT) (psi : Ar3 K) (i j k : Int) : K := (vabs o (psi i j k) + vabs o (psi i (j + 1) k)) / 2

/-- `psi_bar_z` (formulae_mpdata_psi_3d.hpp:95-129) -/
def psiBarZ3 (o : OptsT) (psi : Ar3 K) (i j k : Int) : K := (vabs o (psi i j k) + vabs o (psi i j (k + 1))) / 2

/-- `psi_bar_xy` (formulae_mpdata_psi_3d.hpp:131-169) -/
def psiBarXY3 (o : OptsT) (psi : Ar3 K) (i j k : Int) : K :=
  (vabs o (psi (i + 1) j k) + vabs o (psi i j k) + vabs o (psi i (j + 1) k) + vabs o (psi (i + 1) (j + 1) k)) / 4

/-- `psi_bar_xz` (formulae_mpdata_psi_3d.hpp:171-209) -/
def psiBarXZ3 (o : OptsT) (psi : Ar3 K) (i j k : Int) : K :=
  (vabs o (psi (i + 1) j k) + vabs o (psi i j k) + vabs o (psi i j (k + 1)) + vabs o (psi (i + 1) j (k + 1))) / 4

/-- `psi_bar_xyz` (formulae_mpdata_psi_3d.hpp:211-257) -/
def psiBarXYZ3 (o : OptsT) (psi : Ar3 K) (i j k : Int) : K :=
  (vabs o (psi i j k) + vabs o (psi (i + 1) j k) + vabs o (psi i (j + 1) k) + vabs o (psi i j (k + 1))
    + vabs o (psi (i + 1) (j + 1) k) + vabs o (psi (i + 1) j (k + 1)) + vabs o (psi i (j + 1) (k + 1))
    + vabs o (psi (i + 1) (j + 1) (k + 1))) / 8

/-- `ndxx_GC0` (formulae_mpdata_gc_3d.hpp:206-239) -/
def ndxxGC03 (o : OptsT) (psi ga : Ar3 K) (i j k : Int) : K :=
  if isset o oIga then (ga (i + 1) j k + ga (i - 1) j k - 2 * ga i j k) * psiBarX3 o psi i j k
  else ga (i + 1) j k + ga (i - 1) j k - 2 * ga i j k

/-- `ndtt_GC0` (formulae_mpdata_gc_3d.hpp:241-273) -/
def ndttGC03 (o : OptsT) (psi ndtt : Ar3 K) (i j k : Int) : K :=
  if isset o oIga then ndtt i j k * psiBarX3 o psi i j k else ndtt i j k

/-- `ndx_psi` (formulae_mpdata_psi_3d.hpp:259-316) -/
def ndxPsi3 (o : OptsT) (tiny : K) (psi : Ar3 K) (i j k : Int) : K :=
  if isset o oIga then psi (i + 1) j k - psi i j k
  else 2 * frac o tiny (vabs o (psi (i + 1) j k) - vabs o (psi i j k)) (vabs o (psi (i + 1) j k) + vabs o (psi i j k))

/-- `ndy_psi` (formulae_mpdata_psi_3d.hpp:318-390) -/
def ndyPsi3 (o : OptsT) (tiny : K) (psi : Ar3 K) (i j k : Int) : K :=
  if isset o oIga then (psi (i + 1) (j + 1) k + psi i (j + 1) k - psi (i + 1) (j - 1) k - psi i (j - 1) k) / 4
  else frac o tiny
    (vabs o (psi (i + 1) (j + 1) k) + vabs o (psi i (j + 1) k) - vabs o (psi (i + 1) (j - 1) k) - vabs o (psi i (j - 1) k))
    (vabs o (psi (i + 1) (j + 1) k) + vabs o (psi i (j + 1) k) + vabs o (psi (i + 1) (j - 1) k) + vabs o (psi i (j - 1) k))

/-- `ndz_psi` (formulae_mpdata_psi_3d.hpp:392-464) -/
def ndzPsi3 (o : OptsT) (tiny : K) (psi : Ar3 K) (i j k : Int) : K :=
  if isset o oIga then (psi (i + 1) j (k + 1) + psi i j (k + 1) - psi (i + 1) j (k - 1) - psi i j (k - 1)) / 4
  else frac o tiny
    (vabs o (psi (i + 1) j (k + 1)) + vabs o (psi i j (k + 1)) - vabs o (psi (i + 1) j (k - 1)) - vabs o (psi i j (k - 1)))
    (vabs o (psi (i + 1) j (k + 1)) + vabs o (psi i j (k + 1)) + vabs o (psi (i + 1) j (k - 1)) + vabs o (psi i j (k - 1)))

/-- `ndxx_psi` (formulae_mpdata_psi_3d.hpp:466-540) -/
def ndxxPsi3 (o : OptsT) (tiny : K) (psi : Ar3 K) (i j k : Int) : K :=
  if isset o oIga then 2 * (psi (i + 2) j k - psi (i + 1) j k - psi i j k + psi (i - 1) j k) / 4
  else 2 * frac o tiny
    (vabs o (psi (i + 2) j k) - vabs o (psi (i + 1) j k) - vabs o (psi i j k) + vabs o (psi (i - 1) j k))
    (vabs o (psi (i + 2) j k) + vabs o (psi (i + 1) j k) + vabs o (psi i j k) + vabs o (psi (i - 1) j k))

/-- `ndxy_psi` (formulae_mpdata_psi_3d.hpp:542-616) -/
def ndxyPsi3 (o : OptsT) (tiny : K) (psi : Ar3 K) (i j k : Int) : K :=
  if isset o oIga then 2 * (psi (i + 1) (j + 1) k - psi i (j + 1) k - psi (i + 1) (j - 1) k + psi i (j - 1) k) / 4
  else 2 * frac o tiny
    (vabs o (psi (i + 1) (j + 1) k) - vabs o (psi i (j + 1) k) - vabs o (psi (i + 1) (j - 1) k) + vabs o (psi i (j - 1) k))
    (vabs o (psi (i + 1) (j + 1) k) + vabs o (psi i (j + 1) k) + vabs o (psi (i + 1) (j - 1) k) + vabs o (psi i (j - 1) k))

/-- `ndxz_psi` (formulae_mpdata_psi_3d.hpp:618-692) -/
def ndxzPsi3 (o : OptsT) (tiny : K) (psi : Ar3 K) (i j k : Int) : K :=
  if isset o oIga then 2 * (psi (i + 1) j (k + 1) - psi i j (k + 1) - psi (i + 1) j (k - 1) + psi i j (k - 1)) / 4
  else 2 * frac o tiny
    (vabs o (psi (i + 1) j (k + 1)) - vabs o (psi i j (k + 1)) - vabs o (psi (i + 1) j (k - 1)) + vabs o (psi i j (k - 1)))
    (vabs o (psi (i + 1) j (k + 1)) + vabs o (psi i j (k + 1)) + vabs o (psi (i + 1) j (k - 1)) + vabs o (psi i j (k - 1)))

/-- `ndyz_psi` (formulae_mpdata_psi_3d.hpp:694-790) -/
def ndyzPsi3 (o : OptsT) (tiny : K) (psi : Ar3 K) (i j k : Int) : K :=
  if isset o oIga then
    (psi (i + 1) (j + 1) (k + 1) + psi (i + 1) (j - 1) (k - 1) - psi (i + 1) (j + 1) (k - 1) - psi (i + 1) (j - 1) (k + 1)
      + psi i (j + 1) (k + 1) + psi i (j - 1) (k - 1) - psi i (j + 1) (k - 1) - psi i (j - 1) (k + 1)) / (1 + 1 + 1 + 1 + 1 + 1 + 1 + 1)
  else frac o tiny
    (vabs o (psi (i + 1) (j + 1) (k + 1)) + vabs o (psi (i + 1) (j - 1) (k - 1)) - vabs o (psi (i + 1) (j + 1) (k - 1))
      - vabs o (psi (i + 1) (j - 1) (k + 1)) + vabs o (psi i (j + 1) (k + 1)) + vabs o (psi i (j - 1) (k - 1))
      - vabs o (psi i (j + 1) (k - 1)) - vabs o (psi i (j - 1) (k + 1)))
    (vabs o (psi (i + 1) (j + 1) (k + 1)) + vabs o (psi (i + 1) (j - 1) (k - 1)) + vabs o (psi (i + 1) (j + 1) (k - 1))
      + vabs o (psi (i + 1) (j - 1) (k + 1)) + vabs o (psi i (j + 1) (k + 1)) + vabs o (psi i (j - 1) (k - 1))
      + vabs o (psi i (j + 1) (k - 1)) + vabs o (psi i (j - 1) (k + 1)))

/-- `ndtx_psi` (formulae_mpdata_psi_3d.hpp:792-864) -/
def ndtxPsi3 (o : OptsT) (tiny : K) (psi old : Ar3 K) (i j k : Int) : K :=
  if isset o oIga then psi (i + 1) j k - old (i + 1) j k - psi i j k + old i j k
  else 4 * frac o tiny
    (vabs o (psi (i + 1) j k) - vabs o (old (i + 1) j k) - vabs o (psi i j k) + vabs o (old i j k))
    (vabs o (psi (i + 1) j k) + vabs o (old (i + 1) j k) + vabs o (psi i j k) + vabs o (old i j k))

/-- `ndt_psi` (formulae_mpdata_psi_3d.hpp:866-938) -/
def ndtPsi3 (o : OptsT) (tiny : K) (psi old : Ar3 K) (i j k : Int) : K :=
  if isset o oIga then (1 / 2) * (psi (i + 1) j k - old (i + 1) j k + psi i j k - old i j k)
  else 2 * frac o tiny
    (vabs o (psi (i + 1) j k) - vabs o (old (i + 1) j k) + vabs o (psi i j k) - vabs o (old i j k))
    (vabs o (psi (i + 1) j k) + vabs o (old (i + 1) j k) + vabs o (psi i j k) + vabs o (old i j k))

/-- `fdiv_centre` (formulae_mpdata_fdiv_3d.hpp:26-50) -/
def fdivCentre3 (o : OptsT) (psi ga gb gc G : Ar3 K) (i j k : Int) : K :=
  (ga i j k * psiBarX3 o psi i j k - ga (i - 1) j k * psiBarX3 o psi (i - 1) j k
    + gb i j k * psiBarY3 o psi i j k - gb i (j - 1) k * psiBarY3 o psi i (j - 1) k
    + gc i j k * psiBarZ3 o psi i j k - gc i j (k - 1) * psiBarZ3 o psi i j (k - 1)) / gF3 o G i j k

/-- `fdiv_corner_xy` (formulae_mpdata_fdiv_3d.hpp:52-76) -/
def fdivCornerXY3 (o : OptsT) (psi ga gb gc G : Ar3 K) (i j k : Int) : K :=
  (gc0BarXY3 ga (i + 1) j k * psiBarY3 o psi (i + 1) j k - gc0BarXY3 ga i j k * psiBarY3 o psi i j k
    + gc1BarXY3 gb i (j + 1) k * psiBarX3 o psi i (j + 1) k - gc1BarXY3 gb i j k * psiBarX3 o psi i j k
    + gc2BarXY3 gc i j k * psiBarXYZ3 o psi i j k - gc2BarXY3 gc i j (k - 1) * psiBarXYZ3 o psi i j (k - 1)) / gBarXY3 o G i j k

/-- `fdiv_corner_xz` (formulae_mpdata_fdiv_3d.hpp:78-102) -/
def fdivCornerXZ3 (o : OptsT) (psi ga gb gc G : Ar3 K) (i j k : Int) : K :=
  (gc0BarXZ3 ga (i + 1) j k * psiBarZ3 o psi (i + 1) j k - gc0BarXZ3 ga i j k * psiBarZ3 o psi i j k
    + gc1BarXZ3 gb i j k * psiBarXYZ3 o psi i j k - gc1BarXZ3 gb i (j - 1) k * psiBarXYZ3 o psi i (j - 1) k
    + gc2BarXZ3 gc i j (k + 1) * psiBarX3 o psi i j (k + 1) - gc2BarXZ3 gc i j k * psiBarX3 o psi i j k) / gBarXZ3 o G i j k

/-- the ten-point sum in the denominators of `nfdiv` and `nfdiv_dt` (formulae_mpdata_fdiv_3d.hpp:128-139, 452-473) -/
def sum10_3 (o : OptsT) (psi : Ar3 K) (i j k : Int) : K :=
  vabs o (psi (i + 1) j k) + vabs o (psi i j k) + vabs o (psi i (j + 1) k) + vabs o (psi (i + 1) (j + 1) k)
    + vabs o (psi i (j - 1) k) + vabs o (psi (i + 1) (j - 1) k) + vabs o (psi (i + 1) j (k + 1)) + vabs o (psi (i + 1) j (k - 1))
    + vabs o (psi i j (k - 1)) + vabs o (psi i j (k + 1))

/-- `nfdiv` (formulae_mpdata_fdiv_3d.hpp:104-215) -/
def nfdiv3 (o : OptsT) (tiny : K) (psi ga gb gc G : Ar3 K) (i j k : Int) : K :=
  let ab : K → K := fun x => if isset o oIga then x else vabs o x
  let nom := gc0BarX3 ga (i + 1) j k * ab (psi (i + 1) j k) - gc0BarX3 ga i j k * ab (psi i j k)
    + gc1BarX3 gb i j k * psiBarXY3 o psi i j k - gc1BarX3 gb i (j - 1) k * psiBarXY3 o psi i (j - 1) k
    + gc2BarX3 gc i j k * psiBarXZ3 o psi i j k - gc2BarX3 gc i j (k - 1) * psiBarXZ3 o psi i j (k - 1)
  if isset o oIga then nom / gBarX3 o G i j k else 10 * frac o tiny nom (gBarX3 o G i j k * sum10_3 o psi i j k)

/-- the twelve-point sum in the denominators of `nfdiv_fdiv` and `ndx_fdiv` (formulae_mpdata_fdiv_3d.hpp:241-255, 351-363) -/
def sum12_3 (o : OptsT) (psi : Ar3 K) (i j k : Int) : K :=
  vabs o (psi (i + 2) j k) + vabs o (psi (i + 1) j k) + vabs o (psi i j k) + vabs o (psi (i - 1) j k)
    + vabs o (psi i (j + 1) k) + vabs o (psi i (j - 1) k) + vabs o (psi (i + 1) (j + 1) k) + vabs o (psi (i + 1) (j - 1) k)
    + vabs o (psi i j (k + 1)) + vabs o (psi i j (k - 1)) + vabs o (psi (i + 1) j (k + 1)) + vabs o (psi (i + 1) j (k - 1))

/-- `nfdiv_fdiv` (formulae_mpdata_fdiv_3d.hpp:217-330) -/
def nfdivFdiv3 (o : OptsT) (tiny : K) (psi ga gb gc G : Ar3 K) (i j k : Int) : K :=
  let nom := gc0BarX3 ga (i + 1) j k * fdivCentre3 o psi ga gb gc G (i + 1) j k
    - gc0BarX3 ga i j k * fdivCentre3 o psi ga gb gc G i j k
    + gc1BarX3 gb i j k * fdivCornerXY3 o psi ga gb gc G i j k
    - gc1BarX3 gb i (j - 1) k * fdivCornerXY3 o psi ga gb gc G i (j - 1) k
    + gc2BarX3 gc i j k * fdivCornerXZ3 o psi ga gb gc G i j k
    - gc2BarX3 gc i j (k - 1) * fdivCornerXZ3 o psi ga gb gc G i j (k - 1)
  if isset o oIga then nom / gBarX3 o G i j k else 12 * frac o tiny nom (gBarX3 o G i j k * sum12_3 o psi i j k)

/-- `ndx_fdiv` (formulae_mpdata_fdiv_3d.hpp:332-420) -/
def ndxFdiv3 (o : OptsT) (tiny : K) (psi ga gb gc G : Ar3 K) (i j k : Int) : K :=
  let nom := fdivCentre3 o psi ga gb gc G (i + 1) j k - fdivCentre3 o psi ga gb gc G i j k
  if isset o oIga then nom else 12 * frac o tiny nom (sum12_3 o psi i j k)

/-- `nfdiv_dt` (formulae_mpdata_fdiv_3d.hpp:422-575) -/
def nfdivDt3 (o : OptsT) (tiny : K) (psi old ga gb gc G : Ar3 K) (i j k : Int) : K :=
  let ab : K → K := fun x => if isset o oIga then x else vabs o x
  let nom := gc0BarX3 ga (i + 1) j k * (ab (psi (i + 1) j k) - ab (old (i + 1) j k))
    - gc0BarX3 ga i j k * (ab (psi i j k) - ab (old i j k))
    + gc1BarX3 gb i j k * (psiBarXY3 o psi i j k - psiBarXY3 o old i j k)
    - gc1BarX3 gb i (j - 1) k * (psiBarXY3 o psi i (j - 1) k - psiBarXY3 o old i (j - 1) k)
    + gc2BarX3 gc i j k * (psiBarXZ3 o psi i j k - psiBarXZ3 o old i j k)
    - gc2BarX3 gc i j (k - 1) * (psiBarXZ3 o psi i j (k - 1) - psiBarXZ3 o old i j (k - 1))
  if isset o oIga then nom / gBarX3 o G i j k
  else 20 * frac o tiny nom (gBarX3 o G i j k * (sum10_3 o psi i j k + sum10_3 o old i j k))

/-- `ndxx_psi_coeff` (formulae_mpdata_hot_3d.hpp:21-37) -/
def ndxxPsiCoeff3 (o : OptsT) (ga G : Ar3 K) (i j k : Int) : K :=
  (3 * ga i j k * |ga i j k| / gBarX3 o G i j k - 2 * ga i j k ^ 3 / gBarX3 o G i j k ^ 2 - ga i j k) / 6

/-- `ndxy_psi_coeff` (formulae_mpdata_hot_3d.hpp:39-54) -/
def ndxyPsiCoeff3 (o : OptsT) (ga gb G : Ar3 K) (i j k : Int) : K :=
  (|ga i j k| - 2 * ga i j k ^ 2 / gBarX3 o G i j k) * gc1BarXY3 gb i j k / (2 * gBarX3 o G i j k)

/-- `ndxz_psi_coeff` (formulae_mpdata_hot_3d.hpp:56-71) -/
def ndxzPsiCoeff3 (o : OptsT) (ga gc G : Ar3 K) (i j k : Int) : K :=
  (|ga i j k| - 2 * ga i j k ^ 2 / gBarX3 o G i j k) * gc2BarXZ3 gc i j k / (2 * gBarX3 o G i j k)

/-- `ndyz_psi_coeff` (formulae_mpdata_hot_3d.hpp:73-86) -/
def ndyzPsiCoeff3 (o : OptsT) (ga gb gc G : Ar3 K) (i j k : Int) : K :=
  -2 * ga i j k * gc1BarXY3 gb i j k * gc2BarXZ3 gc i j k / 3 / gBarX3 o G i j k ^ 2

/-- `TOT` (formulae_mpdata_hot_3d.hpp:88-123) -/
def tot3 (o : OptsT) (tiny : K) (psi ga gb gc G : Ar3 K) (i j k : Int) : K :=
  if isset o oTot then
    ndxxPsi3 o tiny psi i j k * ndxxPsiCoeff3 o ga G i j k + ndxyPsi3 o tiny psi i j k * ndxyPsiCoeff3 o ga gb G i j k
      + ndxzPsi3 o tiny psi i j k * ndxzPsiCoeff3 o ga gc G i j k + ndyzPsi3 o tiny psi i j k * ndyzPsiCoeff3 o ga gb gc G i j k
  else 0

/-- `DFL` (formulae_mpdata_dfl_3d.hpp:20-113) -/
def dfl3 (o : OptsT) (psi ga gb gc G : Ar3 K) (i j k : Int) : K :=
  if isset o oDfl then
    let v := -(1 / 4) * ga i j k / gBarX3 o G i j k *
      ((ga (i + 1) j k - ga (i - 1) j k) + (gb (i + 1) j k + gb i j k - gb (i + 1) (j - 1) k - gb i (j - 1) k)
        + (gc (i + 1) j k + gc i j k - gc (i + 1) j (k - 1) - gc i j (k - 1)))
    if isset o oIga then v * psiBarX3 o psi i j k else v
  else 0

/-- `div_2nd` (formulae_mpdata_3d.hpp:22-40) -/
def div2nd3 (o : OptsT) (tiny : K) (psi ga gb gc G : Ar3 K) (i j k : Int) : K :=
  |ga i j k| / 2 * ndxPsi3 o tiny psi i j k - ga i j k / 2 * nfdiv3 o tiny psi ga gb gc G i j k

/-- `div_3rd_upwind` (formulae_mpdata_3d.hpp:42-71) -/
def div3rdUpwind3 (o : OptsT) (tiny : K) (psi ga gb gc G : Ar3 K) (i j k : Int) : K :=
  if isset o oIga then 0 else |div2nd3 o tiny psi ga gb gc G i j k| / 2 * ndxPsi3 o tiny psi i j k

/-- `div_3rd_temporal` (formulae_mpdata_3d.hpp:73-101) -/
def div3rdTemporal3 (o : OptsT) (te : TmprlExtrp) (psi ndtt : Ar3 K) (i j k : Int) : K :=
  match te with
  | .noextrp => ndttGC03 o psi ndtt i j k
  | .linear2 => 10 * ndttGC03 o psi ndtt i j k

/-- `div_3rd_spatial_helper` (formulae_mpdata_3d.hpp:103-144) -/
def div3rdSpatialHelper3 (o : OptsT) (si : SptlIntrp) (psi ga : Ar3 K) (i j k : Int) : K :=
  match si with
  | .exact => ndxxGC03 o psi ga i j k
  | .aver2 => 4 * ndxxGC03 o psi ga i j k
  | .aver4 => 0

/-- `div_3rd_spatial` (formulae_mpdata_3d.hpp:146-165) -/
def div3rdSpatial3 (o : OptsT) (si : SptlIntrp) (tiny : K) (psi ga : Ar3 K) (i j k : Int) : K :=
  -(1 / 24) * (4 * ga i j k * ndxxPsi3 o tiny psi i j k + 2 * ndxPsi3 o tiny psi i j k * ndxGC03 ga i j k
    + div3rdSpatialHelper3 o si psi ga i j k)

/-- `div_3rd` (formulae_mpdata_3d.hpp:167-250). Unlike in 2-D the `div_3rd_dt` version uses `div_3rd_temporal` for the temporal term. -/
def div3rd3 (o : OptsT) (si : SptlIntrp) (te : TmprlExtrp) (tiny : K) (psi old ga gb gc nda ndb ndc ndtt G : Ar3 K) (i j k : Int) : K :=
  if isset o oDiv3 then
    div3rdUpwind3 o tiny psi ga gb gc G i j k + div3rdSpatial3 o si tiny psi ga i j k
      + (1 / 2) * |ga i j k| * ndxFdiv3 o tiny psi ga gb gc G i j k
      + (1 / 24) * (-8 * ga i j k * nfdivFdiv3 o tiny psi ga gb gc G i j k + div3rdTemporal3 o te psi ndtt i j k
        + 2 * ga i j k * nfdiv3 o tiny psi nda ndb ndc G i j k - 2 * nda i j k * nfdiv3 o tiny psi ga gb gc G i j k)
  else if isset o oDiv3dt then
    div3rdUpwind3 o tiny psi ga gb gc G i j k + div3rdSpatial3 o si tiny psi ga i j k
      - (1 / 2) * |ga i j k| * ndtxPsi3 o tiny psi old i j k
      + (1 / 24) * (8 * ga i j k * nfdivDt3 o tiny psi old ga gb gc G i j k + div3rdTemporal3 o te psi ndtt i j k
        + 2 * ga i j k * nfdiv3 o tiny psi nda ndb ndc G i j k + 2 * nda i j k * ndtPsi3 o tiny psi old i j k)
  else 0

/-- `antidiff` in 3-D (formulae_mpdata_3d.hpp:252-328), value at the face `i+1/2` of dimension `dim` -/
def antidiff3 (o : OptsT) (si : SptlIntrp) (te : TmprlExtrp) (tiny : K) (psi old ga gb gc nda ndb ndc ndtt G : Ar3 K)
    (i j k : Int) : K :=
  if isset o oDiv2 || isset o oDiv3 then
    div2nd3 o tiny psi ga gb gc G i j k + div3rd3 o si te tiny psi old ga gb gc nda ndb ndc ndtt G i j k
  else
    |ga i j k| / 2 * (1 - |ga i j k| / gBarX3 o G i j k) * ndxPsi3 o tiny psi i j k
      - ga i j k / 2 * (gc1BarXY3 gb i j k * ndyPsi3 o tiny psi i j k + gc2BarXZ3 gc i j k * ndzPsi3 o tiny psi i j k) / gBarX3 o G i j k
      + tot3 o tiny psi ga gb gc G i j k + dfl3 o psi ga gb gc G i j k

end Mpdata
