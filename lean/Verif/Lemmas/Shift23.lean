import Verif.Model.Antidiff2
import Verif.Model.Antidiff3
/-! # Translation of the indices in the 2-D and 3-D antidiffusive velocities
Generated table (tools/gen_sh.py). -/
set_option linter.unusedSectionVars false
set_option linter.unusedSimpArgs false
namespace Mpdata
variable {K : Type} [Field K] [LinearOrder K]

/-- the array with another origin -/
def sh2 (x y : Int) (a : Ar2 K) : Ar2 K := fun i j => a (x + i) (y + j)
theorem sh2_at (x y : Int) (a : Ar2 K) (i j : Int) : sh2 x y a i j = a (x + i) (y + j) := rfl
def sh3 (x y z : Int) (a : Ar3 K) : Ar3 K := fun i j k => a (x + i) (y + j) (z + k)
theorem sh3_at (x y z : Int) (a : Ar3 K) (i j k : Int) : sh3 x y z a i j k = a (x + i) (y + j) (z + k) := rfl

theorem gF2_sh (o : OptsT) (G : Ar2 K) (x y i j : Int) :
    gF2 o (sh2 x y G) i j = gF2 o G (x + i) (y + j) := by
  simp only [gF2, sh2_at, ← add_assoc, ← add_sub_assoc]
theorem gBarX2_sh (o : OptsT) (G : Ar2 K) (x y i j : Int) :
    gBarX2 o (sh2 x y G) i j = gBarX2 o G (x + i) (y + j) := by
  simp only [gBarX2, gF2_sh, sh2_at, ← add_assoc, ← add_sub_assoc]
theorem gBarXY2_sh (o : OptsT) (G : Ar2 K) (x y i j : Int) :
    gBarXY2 o (sh2 x y G) i j = gBarXY2 o G (x + i) (y + j) := by
  simp only [gBarXY2, gF2_sh, sh2_at, ← add_assoc, ← add_sub_assoc]
theorem gc0BarX2_sh (ga : Ar2 K) (x y i j : Int) :
    gc0BarX2 (sh2 x y ga) i j = gc0BarX2 ga (x + i) (y + j) := by
  simp only [gc0BarX2, sh2_at, ← add_assoc, ← add_sub_assoc]
theorem gc0BarXY2_sh (ga : Ar2 K) (x y i j : Int) :
    gc0BarXY2 (sh2 x y ga) i j = gc0BarXY2 ga (x + i) (y + j) := by
  simp only [gc0BarXY2, sh2_at, ← add_assoc, ← add_sub_assoc]
theorem gc1BarX2_sh (gb : Ar2 K) (x y i j : Int) :
    gc1BarX2 (sh2 x y gb) i j = gc1BarX2 gb (x + i) (y + j) := by
  simp only [gc1BarX2, sh2_at, ← add_assoc, ← add_sub_assoc]
theorem gc1BarXY2_sh (gb : Ar2 K) (x y i j : Int) :
    gc1BarXY2 (sh2 x y gb) i j = gc1BarXY2 gb (x + i) (y + j) := by
  simp only [gc1BarXY2, sh2_at, ← add_assoc, ← add_sub_assoc]
theorem ndxGC02_sh (ga : Ar2 K) (x y i j : Int) :
    ndxGC02 (sh2 x y ga) i j = ndxGC02 ga (x + i) (y + j) := by
  simp only [ndxGC02, sh2_at, ← add_assoc, ← add_sub_assoc]
theorem psiBarX2_sh (o : OptsT) (psi : Ar2 K) (x y i j : Int) :
    psiBarX2 o (sh2 x y psi) i j = psiBarX2 o psi (x + i) (y + j) := by
  simp only [psiBarX2, sh2_at, ← add_assoc, ← add_sub_assoc]
theorem psiBarY2_sh (o : OptsT) (psi : Ar2 K) (x y i j : Int) :
    psiBarY2 o (sh2 x y psi) i j = psiBarY2 o psi (x + i) (y + j) := by
  simp only [psiBarY2, sh2_at, ← add_assoc, ← add_sub_assoc]
theorem psiBarXY2_sh (o : OptsT) (psi : Ar2 K) (x y i j : Int) :
    psiBarXY2 o (sh2 x y psi) i j = psiBarXY2 o psi (x + i) (y + j) := by
  simp only [psiBarXY2, sh2_at, ← add_assoc, ← add_sub_assoc]
theorem ndxxGC02_sh (o : OptsT) (psi : Ar2 K) (ga : Ar2 K) (x y i j : Int) :
    ndxxGC02 o (sh2 x y psi) (sh2 x y ga) i j = ndxxGC02 o psi ga (x + i) (y + j) := by
  simp only [ndxxGC02, psiBarX2_sh, sh2_at, ← add_assoc, ← add_sub_assoc]
theorem ndttGC02_sh (o : OptsT) (psi : Ar2 K) (ndtt : Ar2 K) (x y i j : Int) :
    ndttGC02 o (sh2 x y psi) (sh2 x y ndtt) i j = ndttGC02 o psi ndtt (x + i) (y + j) := by
  simp only [ndttGC02, psiBarX2_sh, sh2_at, ← add_assoc, ← add_sub_assoc]
theorem ndxPsi2_sh (o : OptsT) (tiny : K) (psi : Ar2 K) (x y i j : Int) :
    ndxPsi2 o tiny (sh2 x y psi) i j = ndxPsi2 o tiny psi (x + i) (y + j) := by
  simp only [ndxPsi2, sh2_at, ← add_assoc, ← add_sub_assoc]
theorem ndyPsi2_sh (o : OptsT) (tiny : K) (psi : Ar2 K) (x y i j : Int) :
    ndyPsi2 o tiny (sh2 x y psi) i j = ndyPsi2 o tiny psi (x + i) (y + j) := by
  simp only [ndyPsi2, sh2_at, ← add_assoc, ← add_sub_assoc]
theorem ndxxPsi2_sh (o : OptsT) (tiny : K) (psi : Ar2 K) (x y i j : Int) :
    ndxxPsi2 o tiny (sh2 x y psi) i j = ndxxPsi2 o tiny psi (x + i) (y + j) := by
  simp only [ndxxPsi2, sh2_at, ← add_assoc, ← add_sub_assoc]
theorem ndxyPsi2_sh (o : OptsT) (tiny : K) (psi : Ar2 K) (x y i j : Int) :
    ndxyPsi2 o tiny (sh2 x y psi) i j = ndxyPsi2 o tiny psi (x + i) (y + j) := by
  simp only [ndxyPsi2, sh2_at, ← add_assoc, ← add_sub_assoc]
theorem ndxxxPsi2_sh (psi : Ar2 K) (x y i j : Int) :
    ndxxxPsi2 (sh2 x y psi) i j = ndxxxPsi2 psi (x + i) (y + j) := by
  simp only [ndxxxPsi2, sh2_at, ← add_assoc, ← add_sub_assoc]
theorem ndxxyPsi2_sh (psi : Ar2 K) (x y i j : Int) :
    ndxxyPsi2 (sh2 x y psi) i j = ndxxyPsi2 psi (x + i) (y + j) := by
  simp only [ndxxyPsi2, sh2_at, ← add_assoc, ← add_sub_assoc]
theorem ndxyyPsi2_sh (psi : Ar2 K) (x y i j : Int) :
    ndxyyPsi2 (sh2 x y psi) i j = ndxyyPsi2 psi (x + i) (y + j) := by
  simp only [ndxyyPsi2, sh2_at, ← add_assoc, ← add_sub_assoc]
theorem ndtxPsi2_sh (o : OptsT) (tiny : K) (psi : Ar2 K) (old : Ar2 K) (x y i j : Int) :
    ndtxPsi2 o tiny (sh2 x y psi) (sh2 x y old) i j = ndtxPsi2 o tiny psi old (x + i) (y + j) := by
  simp only [ndtxPsi2, sh2_at, ← add_assoc, ← add_sub_assoc]
theorem ndtPsi2_sh (o : OptsT) (tiny : K) (psi : Ar2 K) (old : Ar2 K) (x y i j : Int) :
    ndtPsi2 o tiny (sh2 x y psi) (sh2 x y old) i j = ndtPsi2 o tiny psi old (x + i) (y + j) := by
  simp only [ndtPsi2, sh2_at, ← add_assoc, ← add_sub_assoc]
theorem fdivCentre2_sh (o : OptsT) (psi : Ar2 K) (ga : Ar2 K) (gb : Ar2 K) (G : Ar2 K) (x y i j : Int) :
    fdivCentre2 o (sh2 x y psi) (sh2 x y ga) (sh2 x y gb) (sh2 x y G) i j = fdivCentre2 o psi ga gb G (x + i) (y + j) := by
  simp only [fdivCentre2, gF2_sh, psiBarX2_sh, psiBarY2_sh, sh2_at, ← add_assoc, ← add_sub_assoc]
theorem fdivCornerXY2_sh (o : OptsT) (psi : Ar2 K) (ga : Ar2 K) (gb : Ar2 K) (G : Ar2 K) (x y i j : Int) :
    fdivCornerXY2 o (sh2 x y psi) (sh2 x y ga) (sh2 x y gb) (sh2 x y G) i j = fdivCornerXY2 o psi ga gb G (x + i) (y + j) := by
  simp only [fdivCornerXY2, gBarXY2_sh, gc0BarXY2_sh, gc1BarXY2_sh, psiBarX2_sh, psiBarY2_sh, sh2_at, ← add_assoc, ← add_sub_assoc]
theorem nfdiv2_sh (o : OptsT) (tiny : K) (psi : Ar2 K) (ga : Ar2 K) (gb : Ar2 K) (G : Ar2 K) (x y i j : Int) :
    nfdiv2 o tiny (sh2 x y psi) (sh2 x y ga) (sh2 x y gb) (sh2 x y G) i j = nfdiv2 o tiny psi ga gb G (x + i) (y + j) := by
  simp only [nfdiv2, gBarX2_sh, gc0BarX2_sh, gc1BarX2_sh, psiBarXY2_sh, sh2_at, ← add_assoc, ← add_sub_assoc]
theorem sum8_2_sh (o : OptsT) (psi : Ar2 K) (x y i j : Int) :
    sum8_2 o (sh2 x y psi) i j = sum8_2 o psi (x + i) (y + j) := by
  simp only [sum8_2, sh2_at, ← add_assoc, ← add_sub_assoc]
theorem nfdivFdiv2_sh (o : OptsT) (tiny : K) (psi : Ar2 K) (ga : Ar2 K) (gb : Ar2 K) (G : Ar2 K) (x y i j : Int) :
    nfdivFdiv2 o tiny (sh2 x y psi) (sh2 x y ga) (sh2 x y gb) (sh2 x y G) i j = nfdivFdiv2 o tiny psi ga gb G (x + i) (y + j) := by
  simp only [nfdivFdiv2, gBarX2_sh, gc0BarX2_sh, gc1BarX2_sh, fdivCentre2_sh, fdivCornerXY2_sh, sum8_2_sh, sh2_at, ← add_assoc, ← add_sub_assoc]
theorem ndxFdiv2_sh (o : OptsT) (tiny : K) (psi : Ar2 K) (ga : Ar2 K) (gb : Ar2 K) (G : Ar2 K) (x y i j : Int) :
    ndxFdiv2 o tiny (sh2 x y psi) (sh2 x y ga) (sh2 x y gb) (sh2 x y G) i j = ndxFdiv2 o tiny psi ga gb G (x + i) (y + j) := by
  simp only [ndxFdiv2, fdivCentre2_sh, sum8_2_sh, sh2_at, ← add_assoc, ← add_sub_assoc]
theorem nfdivDt2_sh (o : OptsT) (tiny : K) (psi : Ar2 K) (old : Ar2 K) (ga : Ar2 K) (gb : Ar2 K) (G : Ar2 K) (x y i j : Int) :
    nfdivDt2 o tiny (sh2 x y psi) (sh2 x y old) (sh2 x y ga) (sh2 x y gb) (sh2 x y G) i j = nfdivDt2 o tiny psi old ga gb G (x + i) (y + j) := by
  simp only [nfdivDt2, gBarX2_sh, gc0BarX2_sh, gc1BarX2_sh, psiBarXY2_sh, sh2_at, ← add_assoc, ← add_sub_assoc]
theorem ndxxPsiCoeff2_sh (o : OptsT) (ga : Ar2 K) (G : Ar2 K) (x y i j : Int) :
    ndxxPsiCoeff2 o (sh2 x y ga) (sh2 x y G) i j = ndxxPsiCoeff2 o ga G (x + i) (y + j) := by
  simp only [ndxxPsiCoeff2, gBarX2_sh, sh2_at, ← add_assoc, ← add_sub_assoc]
theorem ndxyPsiCoeff2_sh (o : OptsT) (ga : Ar2 K) (gb : Ar2 K) (G : Ar2 K) (x y i j : Int) :
    ndxyPsiCoeff2 o (sh2 x y ga) (sh2 x y gb) (sh2 x y G) i j = ndxyPsiCoeff2 o ga gb G (x + i) (y + j) := by
  simp only [ndxyPsiCoeff2, gBarX2_sh, gc1BarXY2_sh, sh2_at, ← add_assoc, ← add_sub_assoc]
theorem tot2_sh (o : OptsT) (tiny : K) (psi : Ar2 K) (ga : Ar2 K) (gb : Ar2 K) (G : Ar2 K) (x y i j : Int) :
    tot2 o tiny (sh2 x y psi) (sh2 x y ga) (sh2 x y gb) (sh2 x y G) i j = tot2 o tiny psi ga gb G (x + i) (y + j) := by
  simp only [tot2, ndxxPsi2_sh, ndxyPsi2_sh, ndxxPsiCoeff2_sh, ndxyPsiCoeff2_sh, sh2_at, ← add_assoc, ← add_sub_assoc]
theorem ndxxxPsiCoeff2_sh (o : OptsT) (ga : Ar2 K) (G : Ar2 K) (x y i j : Int) :
    ndxxxPsiCoeff2 o (sh2 x y ga) (sh2 x y G) i j = ndxxxPsiCoeff2 o ga G (x + i) (y + j) := by
  simp only [ndxxxPsiCoeff2, gBarX2_sh, sh2_at, ← add_assoc, ← add_sub_assoc]
theorem ndxxyPsiCoeff2_sh (o : OptsT) (ga : Ar2 K) (gb : Ar2 K) (G : Ar2 K) (x y i j : Int) :
    ndxxyPsiCoeff2 o (sh2 x y ga) (sh2 x y gb) (sh2 x y G) i j = ndxxyPsiCoeff2 o ga gb G (x + i) (y + j) := by
  simp only [ndxxyPsiCoeff2, gBarX2_sh, gc1BarXY2_sh, sh2_at, ← add_assoc, ← add_sub_assoc]
theorem ndxyyPsiCoeff2_sh (o : OptsT) (ga : Ar2 K) (gb : Ar2 K) (G : Ar2 K) (x y i j : Int) :
    ndxyyPsiCoeff2 o (sh2 x y ga) (sh2 x y gb) (sh2 x y G) i j = ndxyyPsiCoeff2 o ga gb G (x + i) (y + j) := by
  simp only [ndxyyPsiCoeff2, gBarX2_sh, gc1BarXY2_sh, sh2_at, ← add_assoc, ← add_sub_assoc]
theorem fot2_sh (o : OptsT) (psi : Ar2 K) (ga : Ar2 K) (gb : Ar2 K) (G : Ar2 K) (x y i j : Int) :
    fot2 o (sh2 x y psi) (sh2 x y ga) (sh2 x y gb) (sh2 x y G) i j = fot2 o psi ga gb G (x + i) (y + j) := by
  simp only [fot2, ndxxxPsi2_sh, ndxxyPsi2_sh, ndxyyPsi2_sh, ndxxxPsiCoeff2_sh, ndxxyPsiCoeff2_sh, ndxyyPsiCoeff2_sh, sh2_at, ← add_assoc, ← add_sub_assoc]
theorem dfl2_sh (o : OptsT) (psi : Ar2 K) (ga : Ar2 K) (gb : Ar2 K) (G : Ar2 K) (x y i j : Int) :
    dfl2 o (sh2 x y psi) (sh2 x y ga) (sh2 x y gb) (sh2 x y G) i j = dfl2 o psi ga gb G (x + i) (y + j) := by
  simp only [dfl2, gBarX2_sh, psiBarX2_sh, sh2_at, ← add_assoc, ← add_sub_assoc]
theorem div2nd2_sh (o : OptsT) (tiny : K) (psi : Ar2 K) (ga : Ar2 K) (gb : Ar2 K) (G : Ar2 K) (x y i j : Int) :
    div2nd2 o tiny (sh2 x y psi) (sh2 x y ga) (sh2 x y gb) (sh2 x y G) i j = div2nd2 o tiny psi ga gb G (x + i) (y + j) := by
  simp only [div2nd2, ndxPsi2_sh, nfdiv2_sh, sh2_at, ← add_assoc, ← add_sub_assoc]
theorem div3rdUpwind2_sh (o : OptsT) (tiny : K) (psi : Ar2 K) (ga : Ar2 K) (gb : Ar2 K) (G : Ar2 K) (x y i j : Int) :
    div3rdUpwind2 o tiny (sh2 x y psi) (sh2 x y ga) (sh2 x y gb) (sh2 x y G) i j = div3rdUpwind2 o tiny psi ga gb G (x + i) (y + j) := by
  simp only [div3rdUpwind2, ndxPsi2_sh, div2nd2_sh, sh2_at, ← add_assoc, ← add_sub_assoc]
theorem div3rdTemporal2_sh (o : OptsT) (te : TmprlExtrp) (psi : Ar2 K) (ndtt : Ar2 K) (x y i j : Int) :
    div3rdTemporal2 o te (sh2 x y psi) (sh2 x y ndtt) i j = div3rdTemporal2 o te psi ndtt (x + i) (y + j) := by
  simp only [div3rdTemporal2, ndttGC02_sh, sh2_at, ← add_assoc, ← add_sub_assoc]
theorem div3rdSpatialHelper2_sh (o : OptsT) (si : SptlIntrp) (psi : Ar2 K) (ga : Ar2 K) (x y i j : Int) :
    div3rdSpatialHelper2 o si (sh2 x y psi) (sh2 x y ga) i j = div3rdSpatialHelper2 o si psi ga (x + i) (y + j) := by
  simp only [div3rdSpatialHelper2, ndxxGC02_sh, sh2_at, ← add_assoc, ← add_sub_assoc]
theorem div3rdSpatial2_sh (o : OptsT) (si : SptlIntrp) (tiny : K) (psi : Ar2 K) (ga : Ar2 K) (x y i j : Int) :
    div3rdSpatial2 o si tiny (sh2 x y psi) (sh2 x y ga) i j = div3rdSpatial2 o si tiny psi ga (x + i) (y + j) := by
  simp only [div3rdSpatial2, ndxGC02_sh, ndxPsi2_sh, ndxxPsi2_sh, div3rdSpatialHelper2_sh, sh2_at, ← add_assoc, ← add_sub_assoc]
theorem div3rd2_sh (o : OptsT) (si : SptlIntrp) (te : TmprlExtrp) (tiny : K) (psi : Ar2 K) (old : Ar2 K) (ga : Ar2 K) (gb : Ar2 K) (nda : Ar2 K) (ndb : Ar2 K) (ndtt : Ar2 K) (G : Ar2 K) (x y i j : Int) :
    div3rd2 o si te tiny (sh2 x y psi) (sh2 x y old) (sh2 x y ga) (sh2 x y gb) (sh2 x y nda) (sh2 x y ndb) (sh2 x y ndtt) (sh2 x y G) i j = div3rd2 o si te tiny psi old ga gb nda ndb ndtt G (x + i) (y + j) := by
  simp only [div3rd2, ndttGC02_sh, ndtxPsi2_sh, ndtPsi2_sh, nfdiv2_sh, nfdivFdiv2_sh, ndxFdiv2_sh, nfdivDt2_sh, div3rdUpwind2_sh, div3rdTemporal2_sh, div3rdSpatial2_sh, sh2_at, ← add_assoc, ← add_sub_assoc]
theorem antidiff2_sh (o : OptsT) (si : SptlIntrp) (te : TmprlExtrp) (tiny : K) (psi : Ar2 K) (old : Ar2 K) (ga : Ar2 K) (gb : Ar2 K) (nda : Ar2 K) (ndb : Ar2 K) (ndtt : Ar2 K) (G : Ar2 K) (x y i j : Int) :
    antidiff2 o si te tiny (sh2 x y psi) (sh2 x y old) (sh2 x y ga) (sh2 x y gb) (sh2 x y nda) (sh2 x y ndb) (sh2 x y ndtt) (sh2 x y G) i j = antidiff2 o si te tiny psi old ga gb nda ndb ndtt G (x + i) (y + j) := by
  simp only [antidiff2, gBarX2_sh, gc1BarXY2_sh, ndxPsi2_sh, ndyPsi2_sh, tot2_sh, fot2_sh, dfl2_sh, div2nd2_sh, div3rd2_sh, sh2_at, ← add_assoc, ← add_sub_assoc]
theorem gF3_sh (o : OptsT) (G : Ar3 K) (x y z i j k : Int) :
    gF3 o (sh3 x y z G) i j k = gF3 o G (x + i) (y + j) (z + k) := by
  simp only [gF3, sh3_at, ← add_assoc, ← add_sub_assoc]
theorem gBarX3_sh (o : OptsT) (G : Ar3 K) (x y z i j k : Int) :
    gBarX3 o (sh3 x y z G) i j k = gBarX3 o G (x + i) (y + j) (z + k) := by
  simp only [gBarX3, gF3_sh, sh3_at, ← add_assoc, ← add_sub_assoc]
theorem gBarXY3_sh (o : OptsT) (G : Ar3 K) (x y z i j k : Int) :
    gBarXY3 o (sh3 x y z G) i j k = gBarXY3 o G (x + i) (y + j) (z + k) := by
  simp only [gBarXY3, gF3_sh, sh3_at, ← add_assoc, ← add_sub_assoc]
theorem gBarXZ3_sh (o : OptsT) (G : Ar3 K) (x y z i j k : Int) :
    gBarXZ3 o (sh3 x y z G) i j k = gBarXZ3 o G (x + i) (y + j) (z + k) := by
  simp only [gBarXZ3, gF3_sh, sh3_at, ← add_assoc, ← add_sub_assoc]
theorem gc0BarX3_sh (ga : Ar3 K) (x y z i j k : Int) :
    gc0BarX3 (sh3 x y z ga) i j k = gc0BarX3 ga (x + i) (y + j) (z + k) := by
  simp only [gc0BarX3, sh3_at, ← add_assoc, ← add_sub_assoc]
theorem gc0BarXY3_sh (ga : Ar3 K) (x y z i j k : Int) :
    gc0BarXY3 (sh3 x y z ga) i j k = gc0BarXY3 ga (x + i) (y + j) (z + k) := by
  simp only [gc0BarXY3, sh3_at, ← add_assoc, ← add_sub_assoc]
theorem gc0BarXZ3_sh (ga : Ar3 K) (x y z i j k : Int) :
    gc0BarXZ3 (sh3 x y z ga) i j k = gc0BarXZ3 ga (x + i) (y + j) (z + k) := by
  simp only [gc0BarXZ3, sh3_at, ← add_assoc, ← add_sub_assoc]
theorem gc1BarX3_sh (gb : Ar3 K) (x y z i j k : Int) :
    gc1BarX3 (sh3 x y z gb) i j k = gc1BarX3 gb (x + i) (y + j) (z + k) := by
  simp only [gc1BarX3, sh3_at, ← add_assoc, ← add_sub_assoc]
theorem gc1BarXY3_sh (gb : Ar3 K) (x y z i j k : Int) :
    gc1BarXY3 (sh3 x y z gb) i j k = gc1BarXY3 gb (x + i) (y + j) (z + k) := by
  simp only [gc1BarXY3, sh3_at, ← add_assoc, ← add_sub_assoc]
theorem gc1BarXZ3_sh (gb : Ar3 K) (x y z i j k : Int) :
    gc1BarXZ3 (sh3 x y z gb) i j k = gc1BarXZ3 gb (x + i) (y + j) (z + k) := by
  simp only [gc1BarXZ3, sh3_at, ← add_assoc, ← add_sub_assoc]
theorem gc2BarX3_sh (gc : Ar3 K) (x y z i j k : Int) :
    gc2BarX3 (sh3 x y z gc) i j k = gc2BarX3 gc (x + i) (y + j) (z + k) := by
  simp only [gc2BarX3, sh3_at, ← add_assoc, ← add_sub_assoc]
theorem gc2BarXZ3_sh (gc : Ar3 K) (x y z i j k : Int) :
    gc2BarXZ3 (sh3 x y z gc) i j k = gc2BarXZ3 gc (x + i) (y + j) (z + k) := by
  simp only [gc2BarXZ3, sh3_at, ← add_assoc, ← add_sub_assoc]
theorem gc2BarXY3_sh (gc : Ar3 K) (x y z i j k : Int) :
    gc2BarXY3 (sh3 x y z gc) i j k = gc2BarXY3 gc (x + i) (y + j) (z + k) := by
  simp only [gc2BarXY3, sh3_at, ← add_assoc, ← add_sub_assoc]
theorem ndxGC03_sh (ga : Ar3 K) (x y z i j k : Int) :
    ndxGC03 (sh3 x y z ga) i j k = ndxGC03 ga (x + i) (y + j) (z + k) := by
  simp only [ndxGC03, sh3_at, ← add_assoc, ← add_sub_assoc]
theorem psiBarX3_sh (o : OptsT) (psi : Ar3 K) (x y z i j k : Int) :
    psiBarX3 o (sh3 x y z psi) i j k = psiBarX3 o psi (x + i) (y + j) (z + k) := by
  simp only [psiBarX3, sh3_at, ← add_assoc, ← add_sub_assoc]
theorem psiBarY3_sh (o : OptsT) (psi : Ar3 K) (x y z i j k : Int) :
    psiBarY3 o (sh3 x y z psi) i j k = psiBarY3 o psi (x + i) (y + j) (z + k) := by
  simp only [psiBarY3, sh3_at, ← add_assoc, ← add_sub_assoc]
theorem psiBarZ3_sh (o : OptsT) (psi : Ar3 K) (x y z i j k : Int) :
    psiBarZ3 o (sh3 x y z psi) i j k = psiBarZ3 o psi (x + i) (y + j) (z + k) := by
  simp only [psiBarZ3, sh3_at, ← add_assoc, ← add_sub_assoc]
theorem psiBarXY3_sh (o : OptsT) (psi : Ar3 K) (x y z i j k : Int) :
    psiBarXY3 o (sh3 x y z psi) i j k = psiBarXY3 o psi (x + i) (y + j) (z + k) := by
  simp only [psiBarXY3, sh3_at, ← add_assoc, ← add_sub_assoc]
theorem psiBarXZ3_sh (o : OptsT) (psi : Ar3 K) (x y z i j k : Int) :
    psiBarXZ3 o (sh3 x y z psi) i j k = psiBarXZ3 o psi (x + i) (y + j) (z + k) := by
  simp only [psiBarXZ3, sh3_at, ← add_assoc, ← add_sub_assoc]
theorem psiBarXYZ3_sh (o : OptsT) (psi : Ar3 K) (x y z i j k : Int) :
    psiBarXYZ3 o (sh3 x y z psi) i j k = psiBarXYZ3 o psi (x + i) (y + j) (z + k) := by
  simp only [psiBarXYZ3, sh3_at, ← add_assoc, ← add_sub_assoc]
theorem ndxxGC03_sh (o : OptsT) (psi : Ar3 K) (ga : Ar3 K) (x y z i j k : Int) :
    ndxxGC03 o (sh3 x y z psi) (sh3 x y z ga) i j k = ndxxGC03 o psi ga (x + i) (y + j) (z + k) := by
  simp only [ndxxGC03, psiBarX3_sh, sh3_at, ← add_assoc, ← add_sub_assoc]
theorem ndttGC03_sh (o : OptsT) (psi : Ar3 K) (ndtt : Ar3 K) (x y z i j k : Int) :
    ndttGC03 o (sh3 x y z psi) (sh3 x y z ndtt) i j k = ndttGC03 o psi ndtt (x + i) (y + j) (z + k) := by
  simp only [ndttGC03, psiBarX3_sh, sh3_at, ← add_assoc, ← add_sub_assoc]
theorem ndxPsi3_sh (o : OptsT) (tiny : K) (psi : Ar3 K) (x y z i j k : Int) :
    ndxPsi3 o tiny (sh3 x y z psi) i j k = ndxPsi3 o tiny psi (x + i) (y + j) (z + k) := by
  simp only [ndxPsi3, sh3_at, ← add_assoc, ← add_sub_assoc]
theorem ndyPsi3_sh (o : OptsT) (tiny : K) (psi : Ar3 K) (x y z i j k : Int) :
    ndyPsi3 o tiny (sh3 x y z psi) i j k = ndyPsi3 o tiny psi (x + i) (y + j) (z + k) := by
  simp only [ndyPsi3, sh3_at, ← add_assoc, ← add_sub_assoc]
theorem ndzPsi3_sh (o : OptsT) (tiny : K) (psi : Ar3 K) (x y z i j k : Int) :
    ndzPsi3 o tiny (sh3 x y z psi) i j k = ndzPsi3 o tiny psi (x + i) (y + j) (z + k) := by
  simp only [ndzPsi3, sh3_at, ← add_assoc, ← add_sub_assoc]
theorem ndxxPsi3_sh (o : OptsT) (tiny : K) (psi : Ar3 K) (x y z i j k : Int) :
    ndxxPsi3 o tiny (sh3 x y z psi) i j k = ndxxPsi3 o tiny psi (x + i) (y + j) (z + k) := by
  simp only [ndxxPsi3, sh3_at, ← add_assoc, ← add_sub_assoc]
theorem ndxyPsi3_sh (o : OptsT) (tiny : K) (psi : Ar3 K) (x y z i j k : Int) :
    ndxyPsi3 o tiny (sh3 x y z psi) i j k = ndxyPsi3 o tiny psi (x + i) (y + j) (z + k) := by
  simp only [ndxyPsi3, sh3_at, ← add_assoc, ← add_sub_assoc]
theorem ndxzPsi3_sh (o : OptsT) (tiny : K) (psi : Ar3 K) (x y z i j k : Int) :
    ndxzPsi3 o tiny (sh3 x y z psi) i j k = ndxzPsi3 o tiny psi (x + i) (y + j) (z + k) := by
  simp only [ndxzPsi3, sh3_at, ← add_assoc, ← add_sub_assoc]
theorem ndyzPsi3_sh (o : OptsT) (tiny : K) (psi : Ar3 K) (x y z i j k : Int) :
    ndyzPsi3 o tiny (sh3 x y z psi) i j k = ndyzPsi3 o tiny psi (x + i) (y + j) (z + k) := by
  simp only [ndyzPsi3, sh3_at, ← add_assoc, ← add_sub_assoc]
theorem ndtxPsi3_sh (o : OptsT) (tiny : K) (psi : Ar3 K) (old : Ar3 K) (x y z i j k : Int) :
    ndtxPsi3 o tiny (sh3 x y z psi) (sh3 x y z old) i j k = ndtxPsi3 o tiny psi old (x + i) (y + j) (z + k) := by
  simp only [ndtxPsi3, sh3_at, ← add_assoc, ← add_sub_assoc]
theorem ndtPsi3_sh (o : OptsT) (tiny : K) (psi : Ar3 K) (old : Ar3 K) (x y z i j k : Int) :
    ndtPsi3 o tiny (sh3 x y z psi) (sh3 x y z old) i j k = ndtPsi3 o tiny psi old (x + i) (y + j) (z + k) := by
  simp only [ndtPsi3, sh3_at, ← add_assoc, ← add_sub_assoc]
theorem fdivCentre3_sh (o : OptsT) (psi : Ar3 K) (ga : Ar3 K) (gb : Ar3 K) (gc : Ar3 K) (G : Ar3 K) (x y z i j k : Int) :
    fdivCentre3 o (sh3 x y z psi) (sh3 x y z ga) (sh3 x y z gb) (sh3 x y z gc) (sh3 x y z G) i j k = fdivCentre3 o psi ga gb gc G (x + i) (y + j) (z + k) := by
  simp only [fdivCentre3, gF3_sh, psiBarX3_sh, psiBarY3_sh, psiBarZ3_sh, sh3_at, ← add_assoc, ← add_sub_assoc]
theorem fdivCornerXY3_sh (o : OptsT) (psi : Ar3 K) (ga : Ar3 K) (gb : Ar3 K) (gc : Ar3 K) (G : Ar3 K) (x y z i j k : Int) :
    fdivCornerXY3 o (sh3 x y z psi) (sh3 x y z ga) (sh3 x y z gb) (sh3 x y z gc) (sh3 x y z G) i j k = fdivCornerXY3 o psi ga gb gc G (x + i) (y + j) (z + k) := by
  simp only [fdivCornerXY3, gBarXY3_sh, gc0BarXY3_sh, gc1BarXY3_sh, gc2BarXY3_sh, psiBarX3_sh, psiBarY3_sh, psiBarXYZ3_sh, sh3_at, ← add_assoc, ← add_sub_assoc]
theorem fdivCornerXZ3_sh (o : OptsT) (psi : Ar3 K) (ga : Ar3 K) (gb : Ar3 K) (gc : Ar3 K) (G : Ar3 K) (x y z i j k : Int) :
    fdivCornerXZ3 o (sh3 x y z psi) (sh3 x y z ga) (sh3 x y z gb) (sh3 x y z gc) (sh3 x y z G) i j k = fdivCornerXZ3 o psi ga gb gc G (x + i) (y + j) (z + k) := by
  simp only [fdivCornerXZ3, gBarXZ3_sh, gc0BarXZ3_sh, gc1BarXZ3_sh, gc2BarXZ3_sh, psiBarX3_sh, psiBarZ3_sh, psiBarXYZ3_sh, sh3_at, ← add_assoc, ← add_sub_assoc]
theorem sum10_3_sh (o : OptsT) (psi : Ar3 K) (x y z i j k : Int) :
    sum10_3 o (sh3 x y z psi) i j k = sum10_3 o psi (x + i) (y + j) (z + k) := by
  simp only [sum10_3, sh3_at, ← add_assoc, ← add_sub_assoc]
theorem nfdiv3_sh (o : OptsT) (tiny : K) (psi : Ar3 K) (ga : Ar3 K) (gb : Ar3 K) (gc : Ar3 K) (G : Ar3 K) (x y z i j k : Int) :
    nfdiv3 o tiny (sh3 x y z psi) (sh3 x y z ga) (sh3 x y z gb) (sh3 x y z gc) (sh3 x y z G) i j k = nfdiv3 o tiny psi ga gb gc G (x + i) (y + j) (z + k) := by
  simp only [nfdiv3, gBarX3_sh, gc0BarX3_sh, gc1BarX3_sh, gc2BarX3_sh, psiBarXY3_sh, psiBarXZ3_sh, sum10_3_sh, sh3_at, ← add_assoc, ← add_sub_assoc]
theorem sum12_3_sh (o : OptsT) (psi : Ar3 K) (x y z i j k : Int) :
    sum12_3 o (sh3 x y z psi) i j k = sum12_3 o psi (x + i) (y + j) (z + k) := by
  simp only [sum12_3, sh3_at, ← add_assoc, ← add_sub_assoc]
theorem nfdivFdiv3_sh (o : OptsT) (tiny : K) (psi : Ar3 K) (ga : Ar3 K) (gb : Ar3 K) (gc : Ar3 K) (G : Ar3 K) (x y z i j k : Int) :
    nfdivFdiv3 o tiny (sh3 x y z psi) (sh3 x y z ga) (sh3 x y z gb) (sh3 x y z gc) (sh3 x y z G) i j k = nfdivFdiv3 o tiny psi ga gb gc G (x + i) (y + j) (z + k) := by
  simp only [nfdivFdiv3, gBarX3_sh, gc0BarX3_sh, gc1BarX3_sh, gc2BarX3_sh, fdivCentre3_sh, fdivCornerXY3_sh, fdivCornerXZ3_sh, sum12_3_sh, sh3_at, ← add_assoc, ← add_sub_assoc]
theorem ndxFdiv3_sh (o : OptsT) (tiny : K) (psi : Ar3 K) (ga : Ar3 K) (gb : Ar3 K) (gc : Ar3 K) (G : Ar3 K) (x y z i j k : Int) :
    ndxFdiv3 o tiny (sh3 x y z psi) (sh3 x y z ga) (sh3 x y z gb) (sh3 x y z gc) (sh3 x y z G) i j k = ndxFdiv3 o tiny psi ga gb gc G (x + i) (y + j) (z + k) := by
  simp only [ndxFdiv3, fdivCentre3_sh, sum12_3_sh, sh3_at, ← add_assoc, ← add_sub_assoc]
theorem nfdivDt3_sh (o : OptsT) (tiny : K) (psi : Ar3 K) (old : Ar3 K) (ga : Ar3 K) (gb : Ar3 K) (gc : Ar3 K) (G : Ar3 K) (x y z i j k : Int) :
    nfdivDt3 o tiny (sh3 x y z psi) (sh3 x y z old) (sh3 x y z ga) (sh3 x y z gb) (sh3 x y z gc) (sh3 x y z G) i j k = nfdivDt3 o tiny psi old ga gb gc G (x + i) (y + j) (z + k) := by
  simp only [nfdivDt3, gBarX3_sh, gc0BarX3_sh, gc1BarX3_sh, gc2BarX3_sh, psiBarXY3_sh, psiBarXZ3_sh, sum10_3_sh, sh3_at, ← add_assoc, ← add_sub_assoc]
theorem ndxxPsiCoeff3_sh (o : OptsT) (ga : Ar3 K) (G : Ar3 K) (x y z i j k : Int) :
    ndxxPsiCoeff3 o (sh3 x y z ga) (sh3 x y z G) i j k = ndxxPsiCoeff3 o ga G (x + i) (y + j) (z + k) := by
  simp only [ndxxPsiCoeff3, gBarX3_sh, sh3_at, ← add_assoc, ← add_sub_assoc]
theorem ndxyPsiCoeff3_sh (o : OptsT) (ga : Ar3 K) (gb : Ar3 K) (G : Ar3 K) (x y z i j k : Int) :
    ndxyPsiCoeff3 o (sh3 x y z ga) (sh3 x y z gb) (sh3 x y z G) i j k = ndxyPsiCoeff3 o ga gb G (x + i) (y + j) (z + k) := by
  simp only [ndxyPsiCoeff3, gBarX3_sh, gc1BarXY3_sh, sh3_at, ← add_assoc, ← add_sub_assoc]
theorem ndxzPsiCoeff3_sh (o : OptsT) (ga : Ar3 K) (gc : Ar3 K) (G : Ar3 K) (x y z i j k : Int) :
    ndxzPsiCoeff3 o (sh3 x y z ga) (sh3 x y z gc) (sh3 x y z G) i j k = ndxzPsiCoeff3 o ga gc G (x + i) (y + j) (z + k) := by
  simp only [ndxzPsiCoeff3, gBarX3_sh, gc2BarXZ3_sh, sh3_at, ← add_assoc, ← add_sub_assoc]
theorem ndyzPsiCoeff3_sh (o : OptsT) (ga : Ar3 K) (gb : Ar3 K) (gc : Ar3 K) (G : Ar3 K) (x y z i j k : Int) :
    ndyzPsiCoeff3 o (sh3 x y z ga) (sh3 x y z gb) (sh3 x y z gc) (sh3 x y z G) i j k = ndyzPsiCoeff3 o ga gb gc G (x + i) (y + j) (z + k) := by
  simp only [ndyzPsiCoeff3, gBarX3_sh, gc1BarXY3_sh, gc2BarXZ3_sh, sh3_at, ← add_assoc, ← add_sub_assoc]
theorem tot3_sh (o : OptsT) (tiny : K) (psi : Ar3 K) (ga : Ar3 K) (gb : Ar3 K) (gc : Ar3 K) (G : Ar3 K) (x y z i j k : Int) :
    tot3 o tiny (sh3 x y z psi) (sh3 x y z ga) (sh3 x y z gb) (sh3 x y z gc) (sh3 x y z G) i j k = tot3 o tiny psi ga gb gc G (x + i) (y + j) (z + k) := by
  simp only [tot3, ndxxPsi3_sh, ndxyPsi3_sh, ndxzPsi3_sh, ndyzPsi3_sh, ndxxPsiCoeff3_sh, ndxyPsiCoeff3_sh, ndxzPsiCoeff3_sh, ndyzPsiCoeff3_sh, sh3_at, ← add_assoc, ← add_sub_assoc]
theorem dfl3_sh (o : OptsT) (psi : Ar3 K) (ga : Ar3 K) (gb : Ar3 K) (gc : Ar3 K) (G : Ar3 K) (x y z i j k : Int) :
    dfl3 o (sh3 x y z psi) (sh3 x y z ga) (sh3 x y z gb) (sh3 x y z gc) (sh3 x y z G) i j k = dfl3 o psi ga gb gc G (x + i) (y + j) (z + k) := by
  simp only [dfl3, gBarX3_sh, psiBarX3_sh, sh3_at, ← add_assoc, ← add_sub_assoc]
theorem div2nd3_sh (o : OptsT) (tiny : K) (psi : Ar3 K) (ga : Ar3 K) (gb : Ar3 K) (gc : Ar3 K) (G : Ar3 K) (x y z i j k : Int) :
    div2nd3 o tiny (sh3 x y z psi) (sh3 x y z ga) (sh3 x y z gb) (sh3 x y z gc) (sh3 x y z G) i j k = div2nd3 o tiny psi ga gb gc G (x + i) (y + j) (z + k) := by
  simp only [div2nd3, ndxPsi3_sh, nfdiv3_sh, sh3_at, ← add_assoc, ← add_sub_assoc]
theorem div3rdUpwind3_sh (o : OptsT) (tiny : K) (psi : Ar3 K) (ga : Ar3 K) (gb : Ar3 K) (gc : Ar3 K) (G : Ar3 K) (x y z i j k : Int) :
    div3rdUpwind3 o tiny (sh3 x y z psi) (sh3 x y z ga) (sh3 x y z gb) (sh3 x y z gc) (sh3 x y z G) i j k = div3rdUpwind3 o tiny psi ga gb gc G (x + i) (y + j) (z + k) := by
  simp only [div3rdUpwind3, ndxPsi3_sh, div2nd3_sh, sh3_at, ← add_assoc, ← add_sub_assoc]
theorem div3rdTemporal3_sh (o : OptsT) (te : TmprlExtrp) (psi : Ar3 K) (ndtt : Ar3 K) (x y z i j k : Int) :
    div3rdTemporal3 o te (sh3 x y z psi) (sh3 x y z ndtt) i j k = div3rdTemporal3 o te psi ndtt (x + i) (y + j) (z + k) := by
  simp only [div3rdTemporal3, ndttGC03_sh, sh3_at, ← add_assoc, ← add_sub_assoc]
theorem div3rdSpatialHelper3_sh (o : OptsT) (si : SptlIntrp) (psi : Ar3 K) (ga : Ar3 K) (x y z i j k : Int) :
    div3rdSpatialHelper3 o si (sh3 x y z psi) (sh3 x y z ga) i j k = div3rdSpatialHelper3 o si psi ga (x + i) (y + j) (z + k) := by
  simp only [div3rdSpatialHelper3, ndxxGC03_sh, sh3_at, ← add_assoc, ← add_sub_assoc]
theorem div3rdSpatial3_sh (o : OptsT) (si : SptlIntrp) (tiny : K) (psi : Ar3 K) (ga : Ar3 K) (x y z i j k : Int) :
    div3rdSpatial3 o si tiny (sh3 x y z psi) (sh3 x y z ga) i j k = div3rdSpatial3 o si tiny psi ga (x + i) (y + j) (z + k) := by
  simp only [div3rdSpatial3, ndxGC03_sh, ndxPsi3_sh, ndxxPsi3_sh, div3rdSpatialHelper3_sh, sh3_at, ← add_assoc, ← add_sub_assoc]
theorem div3rd3_sh (o : OptsT) (si : SptlIntrp) (te : TmprlExtrp) (tiny : K) (psi : Ar3 K) (old : Ar3 K) (ga : Ar3 K) (gb : Ar3 K) (gc : Ar3 K) (nda : Ar3 K) (ndb : Ar3 K) (ndc : Ar3 K) (ndtt : Ar3 K) (G : Ar3 K) (x y z i j k : Int) :
    div3rd3 o si te tiny (sh3 x y z psi) (sh3 x y z old) (sh3 x y z ga) (sh3 x y z gb) (sh3 x y z gc) (sh3 x y z nda) (sh3 x y z ndb) (sh3 x y z ndc) (sh3 x y z ndtt) (sh3 x y z G) i j k = div3rd3 o si te tiny psi old ga gb gc nda ndb ndc ndtt G (x + i) (y + j) (z + k) := by
  simp only [div3rd3, ndtxPsi3_sh, ndtPsi3_sh, nfdiv3_sh, nfdivFdiv3_sh, ndxFdiv3_sh, nfdivDt3_sh, div3rdUpwind3_sh, div3rdTemporal3_sh, div3rdSpatial3_sh, sh3_at, ← add_assoc, ← add_sub_assoc]
theorem antidiff3_sh (o : OptsT) (si : SptlIntrp) (te : TmprlExtrp) (tiny : K) (psi : Ar3 K) (old : Ar3 K) (ga : Ar3 K) (gb : Ar3 K) (gc : Ar3 K) (nda : Ar3 K) (ndb : Ar3 K) (ndc : Ar3 K) (ndtt : Ar3 K) (G : Ar3 K) (x y z i j k : Int) :
    antidiff3 o si te tiny (sh3 x y z psi) (sh3 x y z old) (sh3 x y z ga) (sh3 x y z gb) (sh3 x y z gc) (sh3 x y z nda) (sh3 x y z ndb) (sh3 x y z ndc) (sh3 x y z ndtt) (sh3 x y z G) i j k = antidiff3 o si te tiny psi old ga gb gc nda ndb ndc ndtt G (x + i) (y + j) (z + k) := by
  simp only [antidiff3, gBarX3_sh, gc1BarXY3_sh, gc2BarXZ3_sh, ndxPsi3_sh, ndyPsi3_sh, ndzPsi3_sh, tot3_sh, dfl3_sh, div2nd3_sh, div3rd3_sh, sh3_at, ← add_assoc, ← add_sub_assoc]
end Mpdata
