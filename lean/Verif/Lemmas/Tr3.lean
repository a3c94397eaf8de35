import Verif.Model.Antidiff3
import Verif.Lemmas.Refl
/-! # Exchange of the two transverse directions in the 3-D antidiffusive velocities
Generated table (tools/gen_tr.py): each formula of arrays with their last two coordinates exchanged. -/
set_option linter.unusedSectionVars false
set_option linter.unusedSimpArgs false
set_option linter.unusedTactic false
set_option linter.unreachableTactic false
set_option linter.unnecessarySeqFocus false
namespace Mpdata
variable {K : Type} [Field K] [LinearOrder K]

/-- the array with its last two coordinates exchanged -/
def tr3 (a : Ar3 K) : Ar3 K := fun i j k => a i k j
theorem tr3_at (a : Ar3 K) (i j k : Int) : tr3 a i j k = a i k j := rfl

theorem gF3_tr (o : OptsT) (G : Ar3 K) (i j k : Int) :
    gF3 o (tr3 G) i j k = gF3 o G i k j := by
  simp only [gF3, tr3_at] <;>
  refl_close
theorem gBarX3_tr (o : OptsT) (G : Ar3 K) (i j k : Int) :
    gBarX3 o (tr3 G) i j k = gBarX3 o G i k j := by
  simp only [gBarX3, gF3_tr, tr3_at] <;>
  refl_close
theorem gBarXY3_tr (o : OptsT) (G : Ar3 K) (i j k : Int) :
    gBarXY3 o (tr3 G) i j k = gBarXZ3 o G i k j := by
  simp only [gBarXY3, gBarXZ3, gF3_tr, tr3_at] <;>
  refl_close
theorem gBarXZ3_tr (o : OptsT) (G : Ar3 K) (i j k : Int) :
    gBarXZ3 o (tr3 G) i j k = gBarXY3 o G i k j := by
  simp only [gBarXZ3, gBarXY3, gF3_tr, tr3_at] <;>
  refl_close
theorem gc0BarX3_tr (ga : Ar3 K) (i j k : Int) :
    gc0BarX3 (tr3 ga) i j k = gc0BarX3 ga i k j := by
  simp only [gc0BarX3, tr3_at] <;>
  refl_close
theorem gc0BarXY3_tr (ga : Ar3 K) (i j k : Int) :
    gc0BarXY3 (tr3 ga) i j k = gc0BarXZ3 ga i k j := by
  simp only [gc0BarXY3, gc0BarXZ3, tr3_at] <;>
  refl_close
theorem gc0BarXZ3_tr (ga : Ar3 K) (i j k : Int) :
    gc0BarXZ3 (tr3 ga) i j k = gc0BarXY3 ga i k j := by
  simp only [gc0BarXZ3, gc0BarXY3, tr3_at] <;>
  refl_close
theorem gc1BarX3_tr (gc : Ar3 K) (i j k : Int) :
    gc1BarX3 (tr3 gc) i j k = gc2BarX3 gc i k j := by
  simp only [gc1BarX3, gc2BarX3, tr3_at] <;>
  refl_close
theorem gc1BarXY3_tr (gc : Ar3 K) (i j k : Int) :
    gc1BarXY3 (tr3 gc) i j k = gc2BarXZ3 gc i k j := by
  simp only [gc1BarXY3, gc2BarXZ3, tr3_at] <;>
  refl_close
theorem gc1BarXZ3_tr (gc : Ar3 K) (i j k : Int) :
    gc1BarXZ3 (tr3 gc) i j k = gc2BarXY3 gc i k j := by
  simp only [gc1BarXZ3, gc2BarXY3, tr3_at] <;>
  refl_close
theorem gc2BarX3_tr (gb : Ar3 K) (i j k : Int) :
    gc2BarX3 (tr3 gb) i j k = gc1BarX3 gb i k j := by
  simp only [gc2BarX3, gc1BarX3, tr3_at] <;>
  refl_close
theorem gc2BarXZ3_tr (gb : Ar3 K) (i j k : Int) :
    gc2BarXZ3 (tr3 gb) i j k = gc1BarXY3 gb i k j := by
  simp only [gc2BarXZ3, gc1BarXY3, tr3_at] <;>
  refl_close
theorem gc2BarXY3_tr (gb : Ar3 K) (i j k : Int) :
    gc2BarXY3 (tr3 gb) i j k = gc1BarXZ3 gb i k j := by
  simp only [gc2BarXY3, gc1BarXZ3, tr3_at] <;>
  refl_close
theorem ndxGC03_tr (ga : Ar3 K) (i j k : Int) :
    ndxGC03 (tr3 ga) i j k = ndxGC03 ga i k j := by
  simp only [ndxGC03, tr3_at] <;>
  refl_close
theorem psiBarX3_tr (o : OptsT) (psi : Ar3 K) (i j k : Int) :
    psiBarX3 o (tr3 psi) i j k = psiBarX3 o psi i k j := by
  simp only [psiBarX3, tr3_at] <;>
  refl_close
theorem psiBarY3_tr (o : OptsT) (psi : Ar3 K) (i j k : Int) :
    psiBarY3 o (tr3 psi) i j k = psiBarZ3 o psi i k j := by
  simp only [psiBarY3, psiBarZ3, tr3_at] <;>
  refl_close
theorem psiBarZ3_tr (o : OptsT) (psi : Ar3 K) (i j k : Int) :
    psiBarZ3 o (tr3 psi) i j k = psiBarY3 o psi i k j := by
  simp only [psiBarZ3, psiBarY3, tr3_at] <;>
  refl_close
theorem psiBarXY3_tr (o : OptsT) (psi : Ar3 K) (i j k : Int) :
    psiBarXY3 o (tr3 psi) i j k = psiBarXZ3 o psi i k j := by
  simp only [psiBarXY3, psiBarXZ3, tr3_at] <;>
  refl_close
theorem psiBarXZ3_tr (o : OptsT) (psi : Ar3 K) (i j k : Int) :
    psiBarXZ3 o (tr3 psi) i j k = psiBarXY3 o psi i k j := by
  simp only [psiBarXZ3, psiBarXY3, tr3_at] <;>
  refl_close
theorem psiBarXYZ3_tr (o : OptsT) (psi : Ar3 K) (i j k : Int) :
    psiBarXYZ3 o (tr3 psi) i j k = psiBarXYZ3 o psi i k j := by
  simp only [psiBarXYZ3, tr3_at] <;>
  refl_close
theorem ndxxGC03_tr (o : OptsT) (psi : Ar3 K) (ga : Ar3 K) (i j k : Int) :
    ndxxGC03 o (tr3 psi) (tr3 ga) i j k = ndxxGC03 o psi ga i k j := by
  simp only [ndxxGC03, psiBarX3_tr, tr3_at] <;>
  refl_close
theorem ndttGC03_tr (o : OptsT) (psi : Ar3 K) (ndtt : Ar3 K) (i j k : Int) :
    ndttGC03 o (tr3 psi) (tr3 ndtt) i j k = ndttGC03 o psi ndtt i k j := by
  simp only [ndttGC03, psiBarX3_tr, tr3_at] <;>
  refl_close
theorem ndxPsi3_tr (o : OptsT) (tiny : K) (psi : Ar3 K) (i j k : Int) :
    ndxPsi3 o tiny (tr3 psi) i j k = ndxPsi3 o tiny psi i k j := by
  simp only [ndxPsi3, tr3_at] <;>
  refl_close
theorem ndyPsi3_tr (o : OptsT) (tiny : K) (psi : Ar3 K) (i j k : Int) :
    ndyPsi3 o tiny (tr3 psi) i j k = ndzPsi3 o tiny psi i k j := by
  simp only [ndyPsi3, ndzPsi3, tr3_at] <;>
  refl_close
theorem ndzPsi3_tr (o : OptsT) (tiny : K) (psi : Ar3 K) (i j k : Int) :
    ndzPsi3 o tiny (tr3 psi) i j k = ndyPsi3 o tiny psi i k j := by
  simp only [ndzPsi3, ndyPsi3, tr3_at] <;>
  refl_close
theorem ndxxPsi3_tr (o : OptsT) (tiny : K) (psi : Ar3 K) (i j k : Int) :
    ndxxPsi3 o tiny (tr3 psi) i j k = ndxxPsi3 o tiny psi i k j := by
  simp only [ndxxPsi3, tr3_at] <;>
  refl_close
theorem ndxyPsi3_tr (o : OptsT) (tiny : K) (psi : Ar3 K) (i j k : Int) :
    ndxyPsi3 o tiny (tr3 psi) i j k = ndxzPsi3 o tiny psi i k j := by
  simp only [ndxyPsi3, ndxzPsi3, tr3_at] <;>
  refl_close
theorem ndxzPsi3_tr (o : OptsT) (tiny : K) (psi : Ar3 K) (i j k : Int) :
    ndxzPsi3 o tiny (tr3 psi) i j k = ndxyPsi3 o tiny psi i k j := by
  simp only [ndxzPsi3, ndxyPsi3, tr3_at] <;>
  refl_close
theorem ndyzPsi3_tr (o : OptsT) (tiny : K) (psi : Ar3 K) (i j k : Int) :
    ndyzPsi3 o tiny (tr3 psi) i j k = ndyzPsi3 o tiny psi i k j := by
  simp only [ndyzPsi3, tr3_at] <;>
  refl_close
theorem ndtxPsi3_tr (o : OptsT) (tiny : K) (psi : Ar3 K) (old : Ar3 K) (i j k : Int) :
    ndtxPsi3 o tiny (tr3 psi) (tr3 old) i j k = ndtxPsi3 o tiny psi old i k j := by
  simp only [ndtxPsi3, tr3_at] <;>
  refl_close
theorem ndtPsi3_tr (o : OptsT) (tiny : K) (psi : Ar3 K) (old : Ar3 K) (i j k : Int) :
    ndtPsi3 o tiny (tr3 psi) (tr3 old) i j k = ndtPsi3 o tiny psi old i k j := by
  simp only [ndtPsi3, tr3_at] <;>
  refl_close
theorem fdivCentre3_tr (o : OptsT) (psi : Ar3 K) (ga : Ar3 K) (gb : Ar3 K) (gc : Ar3 K) (G : Ar3 K) (i j k : Int) :
    fdivCentre3 o (tr3 psi) (tr3 ga) (tr3 gc) (tr3 gb) (tr3 G) i j k = fdivCentre3 o psi ga gb gc G i k j := by
  simp only [fdivCentre3, gF3_tr, psiBarX3_tr, psiBarY3_tr, psiBarZ3_tr, tr3_at] <;>
  refl_close
theorem fdivCornerXY3_tr (o : OptsT) (psi : Ar3 K) (ga : Ar3 K) (gb : Ar3 K) (gc : Ar3 K) (G : Ar3 K) (i j k : Int) :
    fdivCornerXY3 o (tr3 psi) (tr3 ga) (tr3 gc) (tr3 gb) (tr3 G) i j k = fdivCornerXZ3 o psi ga gb gc G i k j := by
  simp only [fdivCornerXY3, fdivCornerXZ3, gBarXY3_tr, gc0BarXY3_tr, gc1BarXY3_tr, gc2BarXY3_tr, psiBarX3_tr, psiBarY3_tr, psiBarXYZ3_tr, tr3_at] <;>
  refl_close
theorem fdivCornerXZ3_tr (o : OptsT) (psi : Ar3 K) (ga : Ar3 K) (gb : Ar3 K) (gc : Ar3 K) (G : Ar3 K) (i j k : Int) :
    fdivCornerXZ3 o (tr3 psi) (tr3 ga) (tr3 gc) (tr3 gb) (tr3 G) i j k = fdivCornerXY3 o psi ga gb gc G i k j := by
  simp only [fdivCornerXZ3, fdivCornerXY3, gBarXZ3_tr, gc0BarXZ3_tr, gc1BarXZ3_tr, gc2BarXZ3_tr, psiBarX3_tr, psiBarZ3_tr, psiBarXYZ3_tr, tr3_at] <;>
  refl_close
theorem sum10_3_tr (o : OptsT) (psi : Ar3 K) (i j k : Int) :
    sum10_3 o (tr3 psi) i j k = sum10_3 o psi i k j := by
  simp only [sum10_3, tr3_at] <;>
  refl_close
theorem nfdiv3_tr (o : OptsT) (tiny : K) (psi : Ar3 K) (ga : Ar3 K) (gb : Ar3 K) (gc : Ar3 K) (G : Ar3 K) (i j k : Int) :
    nfdiv3 o tiny (tr3 psi) (tr3 ga) (tr3 gc) (tr3 gb) (tr3 G) i j k = nfdiv3 o tiny psi ga gb gc G i k j := by
  simp only [nfdiv3, gBarX3_tr, gc0BarX3_tr, gc1BarX3_tr, gc2BarX3_tr, psiBarXY3_tr, psiBarXZ3_tr, sum10_3_tr, tr3_at] <;>
  refl_close
theorem sum12_3_tr (o : OptsT) (psi : Ar3 K) (i j k : Int) :
    sum12_3 o (tr3 psi) i j k = sum12_3 o psi i k j := by
  simp only [sum12_3, tr3_at] <;>
  refl_close
theorem nfdivFdiv3_tr (o : OptsT) (tiny : K) (psi : Ar3 K) (ga : Ar3 K) (gb : Ar3 K) (gc : Ar3 K) (G : Ar3 K) (i j k : Int) :
    nfdivFdiv3 o tiny (tr3 psi) (tr3 ga) (tr3 gc) (tr3 gb) (tr3 G) i j k = nfdivFdiv3 o tiny psi ga gb gc G i k j := by
  simp only [nfdivFdiv3, gBarX3_tr, gc0BarX3_tr, gc1BarX3_tr, gc2BarX3_tr, fdivCentre3_tr, fdivCornerXY3_tr, fdivCornerXZ3_tr, sum12_3_tr, tr3_at] <;>
  refl_close
theorem ndxFdiv3_tr (o : OptsT) (tiny : K) (psi : Ar3 K) (ga : Ar3 K) (gb : Ar3 K) (gc : Ar3 K) (G : Ar3 K) (i j k : Int) :
    ndxFdiv3 o tiny (tr3 psi) (tr3 ga) (tr3 gc) (tr3 gb) (tr3 G) i j k = ndxFdiv3 o tiny psi ga gb gc G i k j := by
  simp only [ndxFdiv3, fdivCentre3_tr, sum12_3_tr, tr3_at] <;>
  refl_close
theorem nfdivDt3_tr (o : OptsT) (tiny : K) (psi : Ar3 K) (old : Ar3 K) (ga : Ar3 K) (gb : Ar3 K) (gc : Ar3 K) (G : Ar3 K) (i j k : Int) :
    nfdivDt3 o tiny (tr3 psi) (tr3 old) (tr3 ga) (tr3 gc) (tr3 gb) (tr3 G) i j k = nfdivDt3 o tiny psi old ga gb gc G i k j := by
  simp only [nfdivDt3, gBarX3_tr, gc0BarX3_tr, gc1BarX3_tr, gc2BarX3_tr, psiBarXY3_tr, psiBarXZ3_tr, sum10_3_tr, tr3_at] <;>
  refl_close
theorem ndxxPsiCoeff3_tr (o : OptsT) (ga : Ar3 K) (G : Ar3 K) (i j k : Int) :
    ndxxPsiCoeff3 o (tr3 ga) (tr3 G) i j k = ndxxPsiCoeff3 o ga G i k j := by
  simp only [ndxxPsiCoeff3, gBarX3_tr, tr3_at] <;>
  refl_close
theorem ndxyPsiCoeff3_tr (o : OptsT) (ga : Ar3 K) (gc : Ar3 K) (G : Ar3 K) (i j k : Int) :
    ndxyPsiCoeff3 o (tr3 ga) (tr3 gc) (tr3 G) i j k = ndxzPsiCoeff3 o ga gc G i k j := by
  simp only [ndxyPsiCoeff3, ndxzPsiCoeff3, gBarX3_tr, gc1BarXY3_tr, tr3_at] <;>
  refl_close
theorem ndxzPsiCoeff3_tr (o : OptsT) (ga : Ar3 K) (gb : Ar3 K) (G : Ar3 K) (i j k : Int) :
    ndxzPsiCoeff3 o (tr3 ga) (tr3 gb) (tr3 G) i j k = ndxyPsiCoeff3 o ga gb G i k j := by
  simp only [ndxzPsiCoeff3, ndxyPsiCoeff3, gBarX3_tr, gc2BarXZ3_tr, tr3_at] <;>
  refl_close
theorem ndyzPsiCoeff3_tr (o : OptsT) (ga : Ar3 K) (gb : Ar3 K) (gc : Ar3 K) (G : Ar3 K) (i j k : Int) :
    ndyzPsiCoeff3 o (tr3 ga) (tr3 gc) (tr3 gb) (tr3 G) i j k = ndyzPsiCoeff3 o ga gb gc G i k j := by
  simp only [ndyzPsiCoeff3, gBarX3_tr, gc1BarXY3_tr, gc2BarXZ3_tr, tr3_at] <;>
  refl_close
theorem tot3_tr (o : OptsT) (tiny : K) (psi : Ar3 K) (ga : Ar3 K) (gb : Ar3 K) (gc : Ar3 K) (G : Ar3 K) (i j k : Int) :
    tot3 o tiny (tr3 psi) (tr3 ga) (tr3 gc) (tr3 gb) (tr3 G) i j k = tot3 o tiny psi ga gb gc G i k j := by
  simp only [tot3, ndxxPsi3_tr, ndxyPsi3_tr, ndxzPsi3_tr, ndyzPsi3_tr, ndxxPsiCoeff3_tr, ndxyPsiCoeff3_tr, ndxzPsiCoeff3_tr, ndyzPsiCoeff3_tr, tr3_at] <;>
  refl_close
theorem dfl3_tr (o : OptsT) (psi : Ar3 K) (ga : Ar3 K) (gb : Ar3 K) (gc : Ar3 K) (G : Ar3 K) (i j k : Int) :
    dfl3 o (tr3 psi) (tr3 ga) (tr3 gc) (tr3 gb) (tr3 G) i j k = dfl3 o psi ga gb gc G i k j := by
  simp only [dfl3, gBarX3_tr, psiBarX3_tr, tr3_at] <;>
  refl_close
theorem div2nd3_tr (o : OptsT) (tiny : K) (psi : Ar3 K) (ga : Ar3 K) (gb : Ar3 K) (gc : Ar3 K) (G : Ar3 K) (i j k : Int) :
    div2nd3 o tiny (tr3 psi) (tr3 ga) (tr3 gc) (tr3 gb) (tr3 G) i j k = div2nd3 o tiny psi ga gb gc G i k j := by
  simp only [div2nd3, ndxPsi3_tr, nfdiv3_tr, tr3_at] <;>
  refl_close
theorem div3rdUpwind3_tr (o : OptsT) (tiny : K) (psi : Ar3 K) (ga : Ar3 K) (gb : Ar3 K) (gc : Ar3 K) (G : Ar3 K) (i j k : Int) :
    div3rdUpwind3 o tiny (tr3 psi) (tr3 ga) (tr3 gc) (tr3 gb) (tr3 G) i j k = div3rdUpwind3 o tiny psi ga gb gc G i k j := by
  simp only [div3rdUpwind3, ndxPsi3_tr, div2nd3_tr, tr3_at] <;>
  refl_close
theorem div3rdTemporal3_tr (o : OptsT) (te : TmprlExtrp) (psi : Ar3 K) (ndtt : Ar3 K) (i j k : Int) :
    div3rdTemporal3 o te (tr3 psi) (tr3 ndtt) i j k = div3rdTemporal3 o te psi ndtt i k j := by
  cases te <;> simp only [div3rdTemporal3, ndttGC03_tr] <;> refl_close
theorem div3rdSpatialHelper3_tr (o : OptsT) (si : SptlIntrp) (psi : Ar3 K) (ga : Ar3 K) (i j k : Int) :
    div3rdSpatialHelper3 o si (tr3 psi) (tr3 ga) i j k = div3rdSpatialHelper3 o si psi ga i k j := by
  cases si <;> simp only [div3rdSpatialHelper3, ndxxGC03_tr] <;> refl_close
theorem div3rdSpatial3_tr (o : OptsT) (si : SptlIntrp) (tiny : K) (psi : Ar3 K) (ga : Ar3 K) (i j k : Int) :
    div3rdSpatial3 o si tiny (tr3 psi) (tr3 ga) i j k = div3rdSpatial3 o si tiny psi ga i k j := by
  simp only [div3rdSpatial3, ndxGC03_tr, ndxPsi3_tr, ndxxPsi3_tr, div3rdSpatialHelper3_tr, tr3_at] <;>
  refl_close
theorem div3rd3_tr (o : OptsT) (si : SptlIntrp) (te : TmprlExtrp) (tiny : K) (psi : Ar3 K) (old : Ar3 K) (ga : Ar3 K) (gb : Ar3 K) (gc : Ar3 K) (nda : Ar3 K) (ndb : Ar3 K) (ndc : Ar3 K) (ndtt : Ar3 K) (G : Ar3 K) (i j k : Int) :
    div3rd3 o si te tiny (tr3 psi) (tr3 old) (tr3 ga) (tr3 gc) (tr3 gb) (tr3 nda) (tr3 ndc) (tr3 ndb) (tr3 ndtt) (tr3 G) i j k = div3rd3 o si te tiny psi old ga gb gc nda ndb ndc ndtt G i k j := by
  simp only [div3rd3, ndtxPsi3_tr, ndtPsi3_tr, nfdiv3_tr, nfdivFdiv3_tr, ndxFdiv3_tr, nfdivDt3_tr, div3rdUpwind3_tr, div3rdTemporal3_tr, div3rdSpatial3_tr, tr3_at] <;>
  refl_close
theorem antidiff3_tr (o : OptsT) (si : SptlIntrp) (te : TmprlExtrp) (tiny : K) (psi : Ar3 K) (old : Ar3 K) (ga : Ar3 K) (gb : Ar3 K) (gc : Ar3 K) (nda : Ar3 K) (ndb : Ar3 K) (ndc : Ar3 K) (ndtt : Ar3 K) (G : Ar3 K) (i j k : Int) :
    antidiff3 o si te tiny (tr3 psi) (tr3 old) (tr3 ga) (tr3 gc) (tr3 gb) (tr3 nda) (tr3 ndc) (tr3 ndb) (tr3 ndtt) (tr3 G) i j k = antidiff3 o si te tiny psi old ga gb gc nda ndb ndc ndtt G i k j := by
  simp only [antidiff3, gBarX3_tr, gc1BarXY3_tr, gc2BarXZ3_tr, ndxPsi3_tr, ndyPsi3_tr, ndzPsi3_tr, tot3_tr, dfl3_tr, div2nd3_tr, div3rd3_tr, tr3_at] <;>
  refl_close
end Mpdata
