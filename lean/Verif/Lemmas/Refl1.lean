import Verif.Model.Antidiff1
import Verif.Lemmas.Refl
/-! # Mirror symmetry of the 1-D antidiffusive velocities
Generated table: each formula of arrays run through in the opposite direction, `i ↦ L - i` for cells, `i ↦ L - 1 - i` and a change of sign for faces. -/
set_option linter.unusedSectionVars false
set_option linter.unusedSimpArgs false
set_option linter.unusedTactic false
set_option linter.unreachableTactic false
set_option linter.unnecessarySeqFocus false
namespace Mpdata
variable {K : Type} [Field K] [LinearOrder K]

def c1r (L : Int) (a : Int → K) : Int → K := fun i => a (L - i)
def f1r (L : Int) (a : Int → K) : Int → K := fun i => -a (L - 1 - i)
theorem c1r_at (L : Int) (a : Int → K) (i : Int) : c1r L a i = a (L - i) := rfl
theorem f1r_at (L : Int) (a : Int → K) (i : Int) : f1r L a i = -a (L - 1 - i) := rfl
theorem rj1 (L i : Int) : L - (i + 1) = L - i - 1 := by ring
theorem rj2 (L i : Int) : L - (i + 2) = L - i - 2 := by ring
theorem rj3 (L i : Int) : L - (i - 1) = L - i + 1 := by ring
theorem rj4 (L i : Int) : L - 1 - (i + 1) = L - i - 2 := by ring
theorem rj5 (L i : Int) : L - 1 - (i - 1) = L - i := by ring
theorem rj6 (L i : Int) : L - 1 - i = L - i - 1 := by ring
theorem rj7 (i : Int) : i - 1 + 1 = i := by ring
theorem rj8 (i : Int) : i + 1 - 1 = i := by ring
theorem rj9 (i : Int) : i - 1 - 1 = i - 2 := by ring
theorem rj10 (i : Int) : i - 1 + 2 = i + 1 := by ring
theorem gFac1_r (o : OptsT) (L : Int) (G : Int → K) (i : Int) : gFac1 o (c1r L G) i = gFac1 o G (L - i) := rfl

theorem gBarX1_r (L : Int) (o : OptsT) (G : Int → K) (i : Int) :
    gBarX1 o (c1r L G) i = gBarX1 o G (L - 1 - i) := by
  simp only [gBarX1, gFac1_r, c1r_at, f1r_at, rj1, rj2, rj3, rj4, rj5, rj6, rj7, rj8, rj9, rj10, abs_neg] <;>
  refl_close
theorem gc0BarX1_r (L : Int) (GC : Int → K) (i : Int) :
    gc0BarX1 (f1r L GC) i = -gc0BarX1 GC (L - i) := by
  simp only [gc0BarX1, c1r_at, f1r_at, rj1, rj2, rj3, rj4, rj5, rj6, rj7, rj8, rj9, rj10, abs_neg] <;>
  refl_close
theorem ndxGC01_r (L : Int) (GC : Int → K) (i : Int) :
    ndxGC01 (f1r L GC) i = ndxGC01 GC (L - 1 - i) := by
  simp only [ndxGC01, c1r_at, f1r_at, rj1, rj2, rj3, rj4, rj5, rj6, rj7, rj8, rj9, rj10, abs_neg] <;>
  refl_close
theorem psiBarX1_r (L : Int) (o : OptsT) (psi : Int → K) (i : Int) :
    psiBarX1 o (c1r L psi) i = psiBarX1 o psi (L - 1 - i) := by
  simp only [psiBarX1, c1r_at, f1r_at, rj1, rj2, rj3, rj4, rj5, rj6, rj7, rj8, rj9, rj10, abs_neg] <;>
  refl_close
theorem ndxxGC01_r (L : Int) (o : OptsT) (psi : Int → K) (GC : Int → K) (i : Int) :
    ndxxGC01 o (c1r L psi) (f1r L GC) i = -ndxxGC01 o psi GC (L - 1 - i) := by
  simp only [ndxxGC01, psiBarX1_r, c1r_at, f1r_at, rj1, rj2, rj3, rj4, rj5, rj6, rj7, rj8, rj9, rj10, abs_neg] <;>
  refl_close
theorem ndttGC01_r (L : Int) (o : OptsT) (psi : Int → K) (ndttGC : Int → K) (i : Int) :
    ndttGC01 o (c1r L psi) (f1r L ndttGC) i = -ndttGC01 o psi ndttGC (L - 1 - i) := by
  simp only [ndttGC01, psiBarX1_r, c1r_at, f1r_at, rj1, rj2, rj3, rj4, rj5, rj6, rj7, rj8, rj9, rj10, abs_neg] <;>
  refl_close
theorem ndxPsi1_r (L : Int) (o : OptsT) (tiny : K) (psi : Int → K) (i : Int) :
    ndxPsi1 o tiny (c1r L psi) i = -ndxPsi1 o tiny psi (L - 1 - i) := by
  simp only [ndxPsi1, c1r_at, f1r_at, rj1, rj2, rj3, rj4, rj5, rj6, rj7, rj8, rj9, rj10, abs_neg] <;>
  refl_close
theorem ndxxPsi1_r (L : Int) (o : OptsT) (tiny : K) (psi : Int → K) (i : Int) :
    ndxxPsi1 o tiny (c1r L psi) i = ndxxPsi1 o tiny psi (L - 1 - i) := by
  simp only [ndxxPsi1, c1r_at, f1r_at, rj1, rj2, rj3, rj4, rj5, rj6, rj7, rj8, rj9, rj10, abs_neg] <;>
  refl_close
theorem fdivCentre1_r (L : Int) (o : OptsT) (psi : Int → K) (GC : Int → K) (G : Int → K) (i : Int) :
    fdivCentre1 o (c1r L psi) (f1r L GC) (c1r L G) i = fdivCentre1 o psi GC G (L - i) := by
  simp only [fdivCentre1, gFac1_r, psiBarX1_r, c1r_at, f1r_at, rj1, rj2, rj3, rj4, rj5, rj6, rj7, rj8, rj9, rj10, abs_neg] <;>
  refl_close
theorem nfdiv1_r (L : Int) (o : OptsT) (tiny : K) (psi : Int → K) (GC : Int → K) (G : Int → K) (i : Int) :
    nfdiv1 o tiny (c1r L psi) (f1r L GC) (c1r L G) i = nfdiv1 o tiny psi GC G (L - 1 - i) := by
  simp only [nfdiv1, gBarX1_r, gc0BarX1_r, c1r_at, f1r_at, rj1, rj2, rj3, rj4, rj5, rj6, rj7, rj8, rj9, rj10, abs_neg] <;>
  refl_close
theorem nfdivFdiv1_r (L : Int) (o : OptsT) (tiny : K) (psi : Int → K) (GC : Int → K) (G : Int → K) (i : Int) :
    nfdivFdiv1 o tiny (c1r L psi) (f1r L GC) (c1r L G) i = nfdivFdiv1 o tiny psi GC G (L - 1 - i) := by
  simp only [nfdivFdiv1, gBarX1_r, gc0BarX1_r, fdivCentre1_r, c1r_at, f1r_at, rj1, rj2, rj3, rj4, rj5, rj6, rj7, rj8, rj9, rj10, abs_neg] <;>
  refl_close
theorem ndxFdiv1_r (L : Int) (o : OptsT) (tiny : K) (psi : Int → K) (GC : Int → K) (G : Int → K) (i : Int) :
    ndxFdiv1 o tiny (c1r L psi) (f1r L GC) (c1r L G) i = -ndxFdiv1 o tiny psi GC G (L - 1 - i) := by
  simp only [ndxFdiv1, fdivCentre1_r, c1r_at, f1r_at, rj1, rj2, rj3, rj4, rj5, rj6, rj7, rj8, rj9, rj10, abs_neg] <;>
  refl_close
theorem ndxxPsiCoeff1_r (L : Int) (o : OptsT) (GC : Int → K) (G : Int → K) (i : Int) :
    ndxxPsiCoeff1 o (f1r L GC) (c1r L G) i = -ndxxPsiCoeff1 o GC G (L - 1 - i) := by
  simp only [ndxxPsiCoeff1, gBarX1_r, c1r_at, f1r_at, rj1, rj2, rj3, rj4, rj5, rj6, rj7, rj8, rj9, rj10, abs_neg] <;>
  refl_close
theorem tot1_r (L : Int) (o : OptsT) (tiny : K) (psi : Int → K) (GC : Int → K) (G : Int → K) (i : Int) :
    tot1 o tiny (c1r L psi) (f1r L GC) (c1r L G) i = -tot1 o tiny psi GC G (L - 1 - i) := by
  simp only [tot1, ndxxPsi1_r, ndxxPsiCoeff1_r, c1r_at, f1r_at, rj1, rj2, rj3, rj4, rj5, rj6, rj7, rj8, rj9, rj10, abs_neg] <;>
  refl_close
theorem dfl1_r (L : Int) (o : OptsT) (psi : Int → K) (GC : Int → K) (G : Int → K) (i : Int) :
    dfl1 o (c1r L psi) (f1r L GC) (c1r L G) i = -dfl1 o psi GC G (L - 1 - i) := by
  simp only [dfl1, gFac1_r, c1r_at, f1r_at, rj1, rj2, rj3, rj4, rj5, rj6, rj7, rj8, rj9, rj10, abs_neg] <;>
  refl_close
theorem div2nd1_r (L : Int) (o : OptsT) (tiny : K) (psi : Int → K) (GC : Int → K) (G : Int → K) (i : Int) :
    div2nd1 o tiny (c1r L psi) (f1r L GC) (c1r L G) i = -div2nd1 o tiny psi GC G (L - 1 - i) := by
  simp only [div2nd1, ndxPsi1_r, nfdiv1_r, c1r_at, f1r_at, rj1, rj2, rj3, rj4, rj5, rj6, rj7, rj8, rj9, rj10, abs_neg] <;>
  refl_close
theorem div3rdUpwind1_r (L : Int) (o : OptsT) (tiny : K) (psi : Int → K) (GC : Int → K) (G : Int → K) (i : Int) :
    div3rdUpwind1 o tiny (c1r L psi) (f1r L GC) (c1r L G) i = -div3rdUpwind1 o tiny psi GC G (L - 1 - i) := by
  simp only [div3rdUpwind1, ndxPsi1_r, div2nd1_r, c1r_at, f1r_at, rj1, rj2, rj3, rj4, rj5, rj6, rj7, rj8, rj9, rj10, abs_neg] <;>
  refl_close
theorem div3rdTemporal1_r (L : Int) (o : OptsT) (te : TmprlExtrp) (psi : Int → K) (ndttGC : Int → K) (i : Int) :
    div3rdTemporal1 o te (c1r L psi) (f1r L ndttGC) i = -div3rdTemporal1 o te psi ndttGC (L - 1 - i) := by
  cases te <;> simp only [div3rdTemporal1, ndttGC01_r, rj6] <;> refl_close
theorem div3rdSpatialHelper1_r (L : Int) (o : OptsT) (si : SptlIntrp) (psi : Int → K) (GC : Int → K) (i : Int) :
    div3rdSpatialHelper1 o si (c1r L psi) (f1r L GC) i = -div3rdSpatialHelper1 o si psi GC (L - 1 - i) := by
  cases si <;> simp only [div3rdSpatialHelper1, ndxxGC01_r, rj6] <;> refl_close
theorem div3rdSpatial1_r (L : Int) (o : OptsT) (si : SptlIntrp) (tiny : K) (psi : Int → K) (GC : Int → K) (i : Int) :
    div3rdSpatial1 o si tiny (c1r L psi) (f1r L GC) i = -div3rdSpatial1 o si tiny psi GC (L - 1 - i) := by
  simp only [div3rdSpatial1, ndxGC01_r, ndxPsi1_r, ndxxPsi1_r, div3rdSpatialHelper1_r, c1r_at, f1r_at, rj1, rj2, rj3, rj4, rj5, rj6, rj7, rj8, rj9, rj10, abs_neg] <;>
  refl_close
theorem div3rd1_r (L : Int) (o : OptsT) (si : SptlIntrp) (te : TmprlExtrp) (tiny : K) (psi : Int → K) (GC : Int → K) (ndtGC : Int → K) (ndttGC : Int → K) (G : Int → K) (i : Int) :
    div3rd1 o si te tiny (c1r L psi) (f1r L GC) (f1r L ndtGC) (f1r L ndttGC) (c1r L G) i = -div3rd1 o si te tiny psi GC ndtGC ndttGC G (L - 1 - i) := by
  simp only [div3rd1, nfdiv1_r, nfdivFdiv1_r, ndxFdiv1_r, div3rdUpwind1_r, div3rdTemporal1_r, div3rdSpatial1_r, c1r_at, f1r_at, rj1, rj2, rj3, rj4, rj5, rj6, rj7, rj8, rj9, rj10, abs_neg] <;>
  refl_close
theorem antidiff1_r (L : Int) (o : OptsT) (si : SptlIntrp) (te : TmprlExtrp) (tiny : K) (psi : Int → K) (GC : Int → K) (ndtGC : Int → K) (ndttGC : Int → K) (G : Int → K) (i : Int) :
    antidiff1 o si te tiny (c1r L psi) (f1r L GC) (f1r L ndtGC) (f1r L ndttGC) (c1r L G) i = -antidiff1 o si te tiny psi GC ndtGC ndttGC G (L - 1 - i) := by
  simp only [antidiff1, gBarX1_r, ndxPsi1_r, tot1_r, dfl1_r, div2nd1_r, div3rd1_r, c1r_at, f1r_at, rj1, rj2, rj3, rj4, rj5, rj6, rj7, rj8, rj9, rj10, abs_neg] <;>
  refl_close
end Mpdata
