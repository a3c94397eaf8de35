import Verif.Model.Antidiff2
import Verif.Lemmas.Refl
/-! # Mirror symmetry of the 2-D antidiffusive velocities
Generated table: how each formula changes when its arguments are reflected in one direction. `c2x a` is the array `a` of cell values reflected about the face 1/2
in the direction of the velocity, `f2x` the reflected and negated array of face values; `c2y`, ... are reflections in transverse directions, about cell 0. -/
set_option linter.unusedSectionVars false
set_option linter.unusedSimpArgs false
set_option linter.unusedTactic false
set_option linter.unreachableTactic false
set_option linter.unnecessarySeqFocus false
namespace Mpdata
variable {K : Type} [Field K] [LinearOrder K]

def c2x (a : Ar2 K) : Ar2 K := fun i j => a (-i + 1) j
def f2x (a : Ar2 K) : Ar2 K := fun i j => -a (-i) j
theorem c2x_at (a : Ar2 K) (i j : Int) : c2x a i j = a (-i + 1) j := rfl
theorem f2x_at (a : Ar2 K) (i j : Int) : f2x a i j = -a (-i) j := rfl
def c2y (a : Ar2 K) : Ar2 K := fun i j => a i (-j)
def f2y (a : Ar2 K) : Ar2 K := fun i j => -a i (-j - 1)
theorem c2y_at (a : Ar2 K) (i j : Int) : c2y a i j = a i (-j) := rfl
theorem f2y_at (a : Ar2 K) (i j : Int) : f2y a i j = -a i (-j - 1) := rfl
theorem gF2_rx (o : OptsT) (G : Ar2 K) (i j : Int) :
    gF2 o (c2x G) i j = gF2 o G (-i + 1) j := by
  simp only [gF2, c2x_at, f2x_at, ri1, ri2, ri3, ri4, ri5, ri6, ri7, ri8, ri9, ri10, ri11, abs_neg] <;>
  refl_close
theorem gF2_ry (o : OptsT) (G : Ar2 K) (i j : Int) :
    gF2 o (c2y G) i j = gF2 o G i (-j) := by
  simp only [gF2, c2y_at, f2y_at, ri1, ri2, ri3, ri4, ri5, ri6, ri7, ri8, ri9, ri10, ri11, abs_neg] <;>
  refl_close
theorem gBarX2_rx (o : OptsT) (G : Ar2 K) (i j : Int) :
    gBarX2 o (c2x G) i j = gBarX2 o G (-i) j := by
  simp only [gBarX2, gF2_rx, c2x_at, f2x_at, ri1, ri2, ri3, ri4, ri5, ri6, ri7, ri8, ri9, ri10, ri11, abs_neg] <;>
  refl_close
theorem gBarX2_ry (o : OptsT) (G : Ar2 K) (i j : Int) :
    gBarX2 o (c2y G) i j = gBarX2 o G i (-j) := by
  simp only [gBarX2, gF2_ry, c2y_at, f2y_at, ri1, ri2, ri3, ri4, ri5, ri6, ri7, ri8, ri9, ri10, ri11, abs_neg] <;>
  refl_close
theorem gBarXY2_rx (o : OptsT) (G : Ar2 K) (i j : Int) :
    gBarXY2 o (c2x G) i j = gBarXY2 o G (-i) j := by
  simp only [gBarXY2, gF2_rx, c2x_at, f2x_at, ri1, ri2, ri3, ri4, ri5, ri6, ri7, ri8, ri9, ri10, ri11, abs_neg] <;>
  refl_close
theorem gBarXY2_ry (o : OptsT) (G : Ar2 K) (i j : Int) :
    gBarXY2 o (c2y G) i j = gBarXY2 o G i (-j - 1) := by
  simp only [gBarXY2, gF2_ry, c2y_at, f2y_at, ri1, ri2, ri3, ri4, ri5, ri6, ri7, ri8, ri9, ri10, ri11, abs_neg] <;>
  refl_close
theorem gc0BarX2_rx (ga : Ar2 K) (i j : Int) :
    gc0BarX2 (f2x ga) i j = -gc0BarX2 ga (-i + 1) j := by
  simp only [gc0BarX2, c2x_at, f2x_at, ri1, ri2, ri3, ri4, ri5, ri6, ri7, ri8, ri9, ri10, ri11, abs_neg] <;>
  refl_close
theorem gc0BarX2_ry (ga : Ar2 K) (i j : Int) :
    gc0BarX2 (c2y ga) i j = gc0BarX2 ga i (-j) := by
  simp only [gc0BarX2, c2y_at, f2y_at, ri1, ri2, ri3, ri4, ri5, ri6, ri7, ri8, ri9, ri10, ri11, abs_neg] <;>
  refl_close
theorem gc0BarXY2_rx (ga : Ar2 K) (i j : Int) :
    gc0BarXY2 (f2x ga) i j = -gc0BarXY2 ga (-i + 1) j := by
  simp only [gc0BarXY2, c2x_at, f2x_at, ri1, ri2, ri3, ri4, ri5, ri6, ri7, ri8, ri9, ri10, ri11, abs_neg] <;>
  refl_close
theorem gc0BarXY2_ry (ga : Ar2 K) (i j : Int) :
    gc0BarXY2 (c2y ga) i j = gc0BarXY2 ga i (-j - 1) := by
  simp only [gc0BarXY2, c2y_at, f2y_at, ri1, ri2, ri3, ri4, ri5, ri6, ri7, ri8, ri9, ri10, ri11, abs_neg] <;>
  refl_close
theorem gc1BarX2_rx (gb : Ar2 K) (i j : Int) :
    gc1BarX2 (c2x gb) i j = gc1BarX2 gb (-i) j := by
  simp only [gc1BarX2, c2x_at, f2x_at, ri1, ri2, ri3, ri4, ri5, ri6, ri7, ri8, ri9, ri10, ri11, abs_neg] <;>
  refl_close
theorem gc1BarX2_ry (gb : Ar2 K) (i j : Int) :
    gc1BarX2 (f2y gb) i j = -gc1BarX2 gb i (-j - 1) := by
  simp only [gc1BarX2, c2y_at, f2y_at, ri1, ri2, ri3, ri4, ri5, ri6, ri7, ri8, ri9, ri10, ri11, abs_neg] <;>
  refl_close
theorem gc1BarXY2_rx (gb : Ar2 K) (i j : Int) :
    gc1BarXY2 (c2x gb) i j = gc1BarXY2 gb (-i) j := by
  simp only [gc1BarXY2, c2x_at, f2x_at, ri1, ri2, ri3, ri4, ri5, ri6, ri7, ri8, ri9, ri10, ri11, abs_neg] <;>
  refl_close
theorem gc1BarXY2_ry (gb : Ar2 K) (i j : Int) :
    gc1BarXY2 (f2y gb) i j = -gc1BarXY2 gb i (-j) := by
  simp only [gc1BarXY2, c2y_at, f2y_at, ri1, ri2, ri3, ri4, ri5, ri6, ri7, ri8, ri9, ri10, ri11, abs_neg] <;>
  refl_close
theorem ndxGC02_rx (ga : Ar2 K) (i j : Int) :
    ndxGC02 (f2x ga) i j = ndxGC02 ga (-i) j := by
  simp only [ndxGC02, c2x_at, f2x_at, ri1, ri2, ri3, ri4, ri5, ri6, ri7, ri8, ri9, ri10, ri11, abs_neg] <;>
  refl_close
theorem ndxGC02_ry (ga : Ar2 K) (i j : Int) :
    ndxGC02 (c2y ga) i j = ndxGC02 ga i (-j) := by
  simp only [ndxGC02, c2y_at, f2y_at, ri1, ri2, ri3, ri4, ri5, ri6, ri7, ri8, ri9, ri10, ri11, abs_neg] <;>
  refl_close
theorem psiBarX2_rx (o : OptsT) (psi : Ar2 K) (i j : Int) :
    psiBarX2 o (c2x psi) i j = psiBarX2 o psi (-i) j := by
  simp only [psiBarX2, c2x_at, f2x_at, ri1, ri2, ri3, ri4, ri5, ri6, ri7, ri8, ri9, ri10, ri11, abs_neg] <;>
  refl_close
theorem psiBarX2_ry (o : OptsT) (psi : Ar2 K) (i j : Int) :
    psiBarX2 o (c2y psi) i j = psiBarX2 o psi i (-j) := by
  simp only [psiBarX2, c2y_at, f2y_at, ri1, ri2, ri3, ri4, ri5, ri6, ri7, ri8, ri9, ri10, ri11, abs_neg] <;>
  refl_close
theorem psiBarY2_rx (o : OptsT) (psi : Ar2 K) (i j : Int) :
    psiBarY2 o (c2x psi) i j = psiBarY2 o psi (-i + 1) j := by
  simp only [psiBarY2, c2x_at, f2x_at, ri1, ri2, ri3, ri4, ri5, ri6, ri7, ri8, ri9, ri10, ri11, abs_neg] <;>
  refl_close
theorem psiBarY2_ry (o : OptsT) (psi : Ar2 K) (i j : Int) :
    psiBarY2 o (c2y psi) i j = psiBarY2 o psi i (-j - 1) := by
  simp only [psiBarY2, c2y_at, f2y_at, ri1, ri2, ri3, ri4, ri5, ri6, ri7, ri8, ri9, ri10, ri11, abs_neg] <;>
  refl_close
theorem psiBarXY2_rx (o : OptsT) (psi : Ar2 K) (i j : Int) :
    psiBarXY2 o (c2x psi) i j = psiBarXY2 o psi (-i) j := by
  simp only [psiBarXY2, c2x_at, f2x_at, ri1, ri2, ri3, ri4, ri5, ri6, ri7, ri8, ri9, ri10, ri11, abs_neg] <;>
  refl_close
theorem psiBarXY2_ry (o : OptsT) (psi : Ar2 K) (i j : Int) :
    psiBarXY2 o (c2y psi) i j = psiBarXY2 o psi i (-j - 1) := by
  simp only [psiBarXY2, c2y_at, f2y_at, ri1, ri2, ri3, ri4, ri5, ri6, ri7, ri8, ri9, ri10, ri11, abs_neg] <;>
  refl_close
theorem ndxxGC02_rx (o : OptsT) (psi : Ar2 K) (ga : Ar2 K) (i j : Int) :
    ndxxGC02 o (c2x psi) (f2x ga) i j = -ndxxGC02 o psi ga (-i) j := by
  simp only [ndxxGC02, psiBarX2_rx, c2x_at, f2x_at, ri1, ri2, ri3, ri4, ri5, ri6, ri7, ri8, ri9, ri10, ri11, abs_neg] <;>
  refl_close
theorem ndxxGC02_ry (o : OptsT) (psi : Ar2 K) (ga : Ar2 K) (i j : Int) :
    ndxxGC02 o (c2y psi) (c2y ga) i j = ndxxGC02 o psi ga i (-j) := by
  simp only [ndxxGC02, psiBarX2_ry, c2y_at, f2y_at, ri1, ri2, ri3, ri4, ri5, ri6, ri7, ri8, ri9, ri10, ri11, abs_neg] <;>
  refl_close
theorem ndttGC02_rx (o : OptsT) (psi : Ar2 K) (ndtt : Ar2 K) (i j : Int) :
    ndttGC02 o (c2x psi) (f2x ndtt) i j = -ndttGC02 o psi ndtt (-i) j := by
  simp only [ndttGC02, psiBarX2_rx, c2x_at, f2x_at, ri1, ri2, ri3, ri4, ri5, ri6, ri7, ri8, ri9, ri10, ri11, abs_neg] <;>
  refl_close
theorem ndttGC02_ry (o : OptsT) (psi : Ar2 K) (ndtt : Ar2 K) (i j : Int) :
    ndttGC02 o (c2y psi) (c2y ndtt) i j = ndttGC02 o psi ndtt i (-j) := by
  simp only [ndttGC02, psiBarX2_ry, c2y_at, f2y_at, ri1, ri2, ri3, ri4, ri5, ri6, ri7, ri8, ri9, ri10, ri11, abs_neg] <;>
  refl_close
theorem ndxPsi2_rx (o : OptsT) (tiny : K) (psi : Ar2 K) (i j : Int) :
    ndxPsi2 o tiny (c2x psi) i j = -ndxPsi2 o tiny psi (-i) j := by
  simp only [ndxPsi2, c2x_at, f2x_at, ri1, ri2, ri3, ri4, ri5, ri6, ri7, ri8, ri9, ri10, ri11, abs_neg] <;>
  refl_close
theorem ndxPsi2_ry (o : OptsT) (tiny : K) (psi : Ar2 K) (i j : Int) :
    ndxPsi2 o tiny (c2y psi) i j = ndxPsi2 o tiny psi i (-j) := by
  simp only [ndxPsi2, c2y_at, f2y_at, ri1, ri2, ri3, ri4, ri5, ri6, ri7, ri8, ri9, ri10, ri11, abs_neg] <;>
  refl_close
theorem ndyPsi2_rx (o : OptsT) (tiny : K) (psi : Ar2 K) (i j : Int) :
    ndyPsi2 o tiny (c2x psi) i j = ndyPsi2 o tiny psi (-i) j := by
  simp only [ndyPsi2, c2x_at, f2x_at, ri1, ri2, ri3, ri4, ri5, ri6, ri7, ri8, ri9, ri10, ri11, abs_neg] <;>
  refl_close
theorem ndyPsi2_ry (o : OptsT) (tiny : K) (psi : Ar2 K) (i j : Int) :
    ndyPsi2 o tiny (c2y psi) i j = -ndyPsi2 o tiny psi i (-j) := by
  simp only [ndyPsi2, c2y_at, f2y_at, ri1, ri2, ri3, ri4, ri5, ri6, ri7, ri8, ri9, ri10, ri11, abs_neg] <;>
  refl_close
theorem ndxxPsi2_rx (o : OptsT) (tiny : K) (psi : Ar2 K) (i j : Int) :
    ndxxPsi2 o tiny (c2x psi) i j = ndxxPsi2 o tiny psi (-i) j := by
  simp only [ndxxPsi2, c2x_at, f2x_at, ri1, ri2, ri3, ri4, ri5, ri6, ri7, ri8, ri9, ri10, ri11, abs_neg] <;>
  refl_close
theorem ndxxPsi2_ry (o : OptsT) (tiny : K) (psi : Ar2 K) (i j : Int) :
    ndxxPsi2 o tiny (c2y psi) i j = ndxxPsi2 o tiny psi i (-j) := by
  simp only [ndxxPsi2, c2y_at, f2y_at, ri1, ri2, ri3, ri4, ri5, ri6, ri7, ri8, ri9, ri10, ri11, abs_neg] <;>
  refl_close
theorem ndxyPsi2_rx (o : OptsT) (tiny : K) (psi : Ar2 K) (i j : Int) :
    ndxyPsi2 o tiny (c2x psi) i j = -ndxyPsi2 o tiny psi (-i) j := by
  simp only [ndxyPsi2, c2x_at, f2x_at, ri1, ri2, ri3, ri4, ri5, ri6, ri7, ri8, ri9, ri10, ri11, abs_neg] <;>
  refl_close
theorem ndxyPsi2_ry (o : OptsT) (tiny : K) (psi : Ar2 K) (i j : Int) :
    ndxyPsi2 o tiny (c2y psi) i j = -ndxyPsi2 o tiny psi i (-j) := by
  simp only [ndxyPsi2, c2y_at, f2y_at, ri1, ri2, ri3, ri4, ri5, ri6, ri7, ri8, ri9, ri10, ri11, abs_neg] <;>
  refl_close
theorem ndxxxPsi2_rx (psi : Ar2 K) (i j : Int) :
    ndxxxPsi2 (c2x psi) i j = -ndxxxPsi2 psi (-i) j := by
  simp only [ndxxxPsi2, c2x_at, f2x_at, ri1, ri2, ri3, ri4, ri5, ri6, ri7, ri8, ri9, ri10, ri11, abs_neg] <;>
  refl_close
theorem ndxxxPsi2_ry (psi : Ar2 K) (i j : Int) :
    ndxxxPsi2 (c2y psi) i j = ndxxxPsi2 psi i (-j) := by
  simp only [ndxxxPsi2, c2y_at, f2y_at, ri1, ri2, ri3, ri4, ri5, ri6, ri7, ri8, ri9, ri10, ri11, abs_neg] <;>
  refl_close
theorem ndxxyPsi2_rx (psi : Ar2 K) (i j : Int) :
    ndxxyPsi2 (c2x psi) i j = ndxxyPsi2 psi (-i) j := by
  simp only [ndxxyPsi2, c2x_at, f2x_at, ri1, ri2, ri3, ri4, ri5, ri6, ri7, ri8, ri9, ri10, ri11, abs_neg] <;>
  refl_close
theorem ndxxyPsi2_ry (psi : Ar2 K) (i j : Int) :
    ndxxyPsi2 (c2y psi) i j = -ndxxyPsi2 psi i (-j) := by
  simp only [ndxxyPsi2, c2y_at, f2y_at, ri1, ri2, ri3, ri4, ri5, ri6, ri7, ri8, ri9, ri10, ri11, abs_neg] <;>
  refl_close
theorem ndxyyPsi2_rx (psi : Ar2 K) (i j : Int) :
    ndxyyPsi2 (c2x psi) i j = -ndxyyPsi2 psi (-i) j := by
  simp only [ndxyyPsi2, c2x_at, f2x_at, ri1, ri2, ri3, ri4, ri5, ri6, ri7, ri8, ri9, ri10, ri11, abs_neg] <;>
  refl_close
theorem ndxyyPsi2_ry (psi : Ar2 K) (i j : Int) :
    ndxyyPsi2 (c2y psi) i j = ndxyyPsi2 psi i (-j) := by
  simp only [ndxyyPsi2, c2y_at, f2y_at, ri1, ri2, ri3, ri4, ri5, ri6, ri7, ri8, ri9, ri10, ri11, abs_neg] <;>
  refl_close
theorem ndtxPsi2_rx (o : OptsT) (tiny : K) (psi : Ar2 K) (old : Ar2 K) (i j : Int) :
    ndtxPsi2 o tiny (c2x psi) (c2x old) i j = -ndtxPsi2 o tiny psi old (-i) j := by
  simp only [ndtxPsi2, c2x_at, f2x_at, ri1, ri2, ri3, ri4, ri5, ri6, ri7, ri8, ri9, ri10, ri11, abs_neg] <;>
  refl_close
theorem ndtxPsi2_ry (o : OptsT) (tiny : K) (psi : Ar2 K) (old : Ar2 K) (i j : Int) :
    ndtxPsi2 o tiny (c2y psi) (c2y old) i j = ndtxPsi2 o tiny psi old i (-j) := by
  simp only [ndtxPsi2, c2y_at, f2y_at, ri1, ri2, ri3, ri4, ri5, ri6, ri7, ri8, ri9, ri10, ri11, abs_neg] <;>
  refl_close
theorem ndtPsi2_rx (o : OptsT) (tiny : K) (psi : Ar2 K) (old : Ar2 K) (i j : Int) :
    ndtPsi2 o tiny (c2x psi) (c2x old) i j = ndtPsi2 o tiny psi old (-i) j := by
  simp only [ndtPsi2, c2x_at, f2x_at, ri1, ri2, ri3, ri4, ri5, ri6, ri7, ri8, ri9, ri10, ri11, abs_neg] <;>
  refl_close
theorem ndtPsi2_ry (o : OptsT) (tiny : K) (psi : Ar2 K) (old : Ar2 K) (i j : Int) :
    ndtPsi2 o tiny (c2y psi) (c2y old) i j = ndtPsi2 o tiny psi old i (-j) := by
  simp only [ndtPsi2, c2y_at, f2y_at, ri1, ri2, ri3, ri4, ri5, ri6, ri7, ri8, ri9, ri10, ri11, abs_neg] <;>
  refl_close
theorem fdivCentre2_rx (o : OptsT) (psi : Ar2 K) (ga : Ar2 K) (gb : Ar2 K) (G : Ar2 K) (i j : Int) :
    fdivCentre2 o (c2x psi) (f2x ga) (c2x gb) (c2x G) i j = fdivCentre2 o psi ga gb G (-i + 1) j := by
  simp only [fdivCentre2, gF2_rx, psiBarX2_rx, psiBarY2_rx, c2x_at, f2x_at, ri1, ri2, ri3, ri4, ri5, ri6, ri7, ri8, ri9, ri10, ri11, abs_neg] <;>
  refl_close
theorem fdivCentre2_ry (o : OptsT) (psi : Ar2 K) (ga : Ar2 K) (gb : Ar2 K) (G : Ar2 K) (i j : Int) :
    fdivCentre2 o (c2y psi) (c2y ga) (f2y gb) (c2y G) i j = fdivCentre2 o psi ga gb G i (-j) := by
  simp only [fdivCentre2, gF2_ry, psiBarX2_ry, psiBarY2_ry, c2y_at, f2y_at, ri1, ri2, ri3, ri4, ri5, ri6, ri7, ri8, ri9, ri10, ri11, abs_neg] <;>
  refl_close
theorem fdivCornerXY2_rx (o : OptsT) (psi : Ar2 K) (ga : Ar2 K) (gb : Ar2 K) (G : Ar2 K) (i j : Int) :
    fdivCornerXY2 o (c2x psi) (f2x ga) (c2x gb) (c2x G) i j = fdivCornerXY2 o psi ga gb G (-i) j := by
  simp only [fdivCornerXY2, gBarXY2_rx, gc0BarXY2_rx, gc1BarXY2_rx, psiBarX2_rx, psiBarY2_rx, c2x_at, f2x_at, ri1, ri2, ri3, ri4, ri5, ri6, ri7, ri8, ri9, ri10, ri11, abs_neg] <;>
  refl_close
theorem fdivCornerXY2_ry (o : OptsT) (psi : Ar2 K) (ga : Ar2 K) (gb : Ar2 K) (G : Ar2 K) (i j : Int) :
    fdivCornerXY2 o (c2y psi) (c2y ga) (f2y gb) (c2y G) i j = fdivCornerXY2 o psi ga gb G i (-j - 1) := by
  simp only [fdivCornerXY2, gBarXY2_ry, gc0BarXY2_ry, gc1BarXY2_ry, psiBarX2_ry, psiBarY2_ry, c2y_at, f2y_at, ri1, ri2, ri3, ri4, ri5, ri6, ri7, ri8, ri9, ri10, ri11, abs_neg] <;>
  refl_close
theorem nfdiv2_rx (o : OptsT) (tiny : K) (psi : Ar2 K) (ga : Ar2 K) (gb : Ar2 K) (G : Ar2 K) (i j : Int) :
    nfdiv2 o tiny (c2x psi) (f2x ga) (c2x gb) (c2x G) i j = nfdiv2 o tiny psi ga gb G (-i) j := by
  simp only [nfdiv2, gBarX2_rx, gc0BarX2_rx, gc1BarX2_rx, psiBarXY2_rx, c2x_at, f2x_at, ri1, ri2, ri3, ri4, ri5, ri6, ri7, ri8, ri9, ri10, ri11, abs_neg] <;>
  refl_close
theorem nfdiv2_ry (o : OptsT) (tiny : K) (psi : Ar2 K) (ga : Ar2 K) (gb : Ar2 K) (G : Ar2 K) (i j : Int) :
    nfdiv2 o tiny (c2y psi) (c2y ga) (f2y gb) (c2y G) i j = nfdiv2 o tiny psi ga gb G i (-j) := by
  simp only [nfdiv2, gBarX2_ry, gc0BarX2_ry, gc1BarX2_ry, psiBarXY2_ry, c2y_at, f2y_at, ri1, ri2, ri3, ri4, ri5, ri6, ri7, ri8, ri9, ri10, ri11, abs_neg] <;>
  refl_close
theorem sum8_2_rx (o : OptsT) (psi : Ar2 K) (i j : Int) :
    sum8_2 o (c2x psi) i j = sum8_2 o psi (-i) j := by
  simp only [sum8_2, c2x_at, f2x_at, ri1, ri2, ri3, ri4, ri5, ri6, ri7, ri8, ri9, ri10, ri11, abs_neg] <;>
  refl_close
theorem sum8_2_ry (o : OptsT) (psi : Ar2 K) (i j : Int) :
    sum8_2 o (c2y psi) i j = sum8_2 o psi i (-j) := by
  simp only [sum8_2, c2y_at, f2y_at, ri1, ri2, ri3, ri4, ri5, ri6, ri7, ri8, ri9, ri10, ri11, abs_neg] <;>
  refl_close
theorem nfdivFdiv2_rx (o : OptsT) (tiny : K) (psi : Ar2 K) (ga : Ar2 K) (gb : Ar2 K) (G : Ar2 K) (i j : Int) :
    nfdivFdiv2 o tiny (c2x psi) (f2x ga) (c2x gb) (c2x G) i j = nfdivFdiv2 o tiny psi ga gb G (-i) j := by
  simp only [nfdivFdiv2, gBarX2_rx, gc0BarX2_rx, gc1BarX2_rx, fdivCentre2_rx, fdivCornerXY2_rx, sum8_2_rx, c2x_at, f2x_at, ri1, ri2, ri3, ri4, ri5, ri6, ri7, ri8, ri9, ri10, ri11, abs_neg] <;>
  refl_close
theorem nfdivFdiv2_ry (o : OptsT) (tiny : K) (psi : Ar2 K) (ga : Ar2 K) (gb : Ar2 K) (G : Ar2 K) (i j : Int) :
    nfdivFdiv2 o tiny (c2y psi) (c2y ga) (f2y gb) (c2y G) i j = nfdivFdiv2 o tiny psi ga gb G i (-j) := by
  simp only [nfdivFdiv2, gBarX2_ry, gc0BarX2_ry, gc1BarX2_ry, fdivCentre2_ry, fdivCornerXY2_ry, sum8_2_ry, c2y_at, f2y_at, ri1, ri2, ri3, ri4, ri5, ri6, ri7, ri8, ri9, ri10, ri11, abs_neg] <;>
  refl_close
theorem ndxFdiv2_rx (o : OptsT) (tiny : K) (psi : Ar2 K) (ga : Ar2 K) (gb : Ar2 K) (G : Ar2 K) (i j : Int) :
    ndxFdiv2 o tiny (c2x psi) (f2x ga) (c2x gb) (c2x G) i j = -ndxFdiv2 o tiny psi ga gb G (-i) j := by
  simp only [ndxFdiv2, fdivCentre2_rx, sum8_2_rx, c2x_at, f2x_at, ri1, ri2, ri3, ri4, ri5, ri6, ri7, ri8, ri9, ri10, ri11, abs_neg] <;>
  refl_close
theorem ndxFdiv2_ry (o : OptsT) (tiny : K) (psi : Ar2 K) (ga : Ar2 K) (gb : Ar2 K) (G : Ar2 K) (i j : Int) :
    ndxFdiv2 o tiny (c2y psi) (c2y ga) (f2y gb) (c2y G) i j = ndxFdiv2 o tiny psi ga gb G i (-j) := by
  simp only [ndxFdiv2, fdivCentre2_ry, sum8_2_ry, c2y_at, f2y_at, ri1, ri2, ri3, ri4, ri5, ri6, ri7, ri8, ri9, ri10, ri11, abs_neg] <;>
  refl_close
theorem nfdivDt2_rx (o : OptsT) (tiny : K) (psi : Ar2 K) (old : Ar2 K) (ga : Ar2 K) (gb : Ar2 K) (G : Ar2 K) (i j : Int) :
    nfdivDt2 o tiny (c2x psi) (c2x old) (f2x ga) (c2x gb) (c2x G) i j = nfdivDt2 o tiny psi old ga gb G (-i) j := by
  simp only [nfdivDt2, gBarX2_rx, gc0BarX2_rx, gc1BarX2_rx, psiBarXY2_rx, c2x_at, f2x_at, ri1, ri2, ri3, ri4, ri5, ri6, ri7, ri8, ri9, ri10, ri11, abs_neg] <;>
  refl_close
theorem nfdivDt2_ry (o : OptsT) (tiny : K) (psi : Ar2 K) (old : Ar2 K) (ga : Ar2 K) (gb : Ar2 K) (G : Ar2 K) (i j : Int) :
    nfdivDt2 o tiny (c2y psi) (c2y old) (c2y ga) (f2y gb) (c2y G) i j = nfdivDt2 o tiny psi old ga gb G i (-j) := by
  simp only [nfdivDt2, gBarX2_ry, gc0BarX2_ry, gc1BarX2_ry, psiBarXY2_ry, c2y_at, f2y_at, ri1, ri2, ri3, ri4, ri5, ri6, ri7, ri8, ri9, ri10, ri11, abs_neg] <;>
  refl_close
theorem ndxxPsiCoeff2_rx (o : OptsT) (ga : Ar2 K) (G : Ar2 K) (i j : Int) :
    ndxxPsiCoeff2 o (f2x ga) (c2x G) i j = -ndxxPsiCoeff2 o ga G (-i) j := by
  simp only [ndxxPsiCoeff2, gBarX2_rx, c2x_at, f2x_at, ri1, ri2, ri3, ri4, ri5, ri6, ri7, ri8, ri9, ri10, ri11, abs_neg] <;>
  refl_close
theorem ndxxPsiCoeff2_ry (o : OptsT) (ga : Ar2 K) (G : Ar2 K) (i j : Int) :
    ndxxPsiCoeff2 o (c2y ga) (c2y G) i j = ndxxPsiCoeff2 o ga G i (-j) := by
  simp only [ndxxPsiCoeff2, gBarX2_ry, c2y_at, f2y_at, ri1, ri2, ri3, ri4, ri5, ri6, ri7, ri8, ri9, ri10, ri11, abs_neg] <;>
  refl_close
theorem ndxyPsiCoeff2_rx (o : OptsT) (ga : Ar2 K) (gb : Ar2 K) (G : Ar2 K) (i j : Int) :
    ndxyPsiCoeff2 o (f2x ga) (c2x gb) (c2x G) i j = ndxyPsiCoeff2 o ga gb G (-i) j := by
  simp only [ndxyPsiCoeff2, gBarX2_rx, gc1BarXY2_rx, c2x_at, f2x_at, ri1, ri2, ri3, ri4, ri5, ri6, ri7, ri8, ri9, ri10, ri11, abs_neg] <;>
  refl_close
theorem ndxyPsiCoeff2_ry (o : OptsT) (ga : Ar2 K) (gb : Ar2 K) (G : Ar2 K) (i j : Int) :
    ndxyPsiCoeff2 o (c2y ga) (f2y gb) (c2y G) i j = -ndxyPsiCoeff2 o ga gb G i (-j) := by
  simp only [ndxyPsiCoeff2, gBarX2_ry, gc1BarXY2_ry, c2y_at, f2y_at, ri1, ri2, ri3, ri4, ri5, ri6, ri7, ri8, ri9, ri10, ri11, abs_neg] <;>
  refl_close
theorem tot2_rx (o : OptsT) (tiny : K) (psi : Ar2 K) (ga : Ar2 K) (gb : Ar2 K) (G : Ar2 K) (i j : Int) :
    tot2 o tiny (c2x psi) (f2x ga) (c2x gb) (c2x G) i j = -tot2 o tiny psi ga gb G (-i) j := by
  simp only [tot2, ndxxPsi2_rx, ndxyPsi2_rx, ndxxPsiCoeff2_rx, ndxyPsiCoeff2_rx, c2x_at, f2x_at, ri1, ri2, ri3, ri4, ri5, ri6, ri7, ri8, ri9, ri10, ri11, abs_neg] <;>
  refl_close
theorem tot2_ry (o : OptsT) (tiny : K) (psi : Ar2 K) (ga : Ar2 K) (gb : Ar2 K) (G : Ar2 K) (i j : Int) :
    tot2 o tiny (c2y psi) (c2y ga) (f2y gb) (c2y G) i j = tot2 o tiny psi ga gb G i (-j) := by
  simp only [tot2, ndxxPsi2_ry, ndxyPsi2_ry, ndxxPsiCoeff2_ry, ndxyPsiCoeff2_ry, c2y_at, f2y_at, ri1, ri2, ri3, ri4, ri5, ri6, ri7, ri8, ri9, ri10, ri11, abs_neg] <;>
  refl_close
theorem ndxxxPsiCoeff2_rx (o : OptsT) (ga : Ar2 K) (G : Ar2 K) (i j : Int) :
    ndxxxPsiCoeff2 o (f2x ga) (c2x G) i j = ndxxxPsiCoeff2 o ga G (-i) j := by
  simp only [ndxxxPsiCoeff2, gBarX2_rx, c2x_at, f2x_at, ri1, ri2, ri3, ri4, ri5, ri6, ri7, ri8, ri9, ri10, ri11, abs_neg] <;>
  refl_close
theorem ndxxxPsiCoeff2_ry (o : OptsT) (ga : Ar2 K) (G : Ar2 K) (i j : Int) :
    ndxxxPsiCoeff2 o (c2y ga) (c2y G) i j = ndxxxPsiCoeff2 o ga G i (-j) := by
  simp only [ndxxxPsiCoeff2, gBarX2_ry, c2y_at, f2y_at, ri1, ri2, ri3, ri4, ri5, ri6, ri7, ri8, ri9, ri10, ri11, abs_neg] <;>
  refl_close
theorem ndxxyPsiCoeff2_rx (o : OptsT) (ga : Ar2 K) (gb : Ar2 K) (G : Ar2 K) (i j : Int) :
    ndxxyPsiCoeff2 o (f2x ga) (c2x gb) (c2x G) i j = -ndxxyPsiCoeff2 o ga gb G (-i) j := by
  simp only [ndxxyPsiCoeff2, gBarX2_rx, gc1BarXY2_rx, c2x_at, f2x_at, ri1, ri2, ri3, ri4, ri5, ri6, ri7, ri8, ri9, ri10, ri11, abs_neg] <;>
  refl_close
theorem ndxxyPsiCoeff2_ry (o : OptsT) (ga : Ar2 K) (gb : Ar2 K) (G : Ar2 K) (i j : Int) :
    ndxxyPsiCoeff2 o (c2y ga) (f2y gb) (c2y G) i j = -ndxxyPsiCoeff2 o ga gb G i (-j) := by
  simp only [ndxxyPsiCoeff2, gBarX2_ry, gc1BarXY2_ry, c2y_at, f2y_at, ri1, ri2, ri3, ri4, ri5, ri6, ri7, ri8, ri9, ri10, ri11, abs_neg] <;>
  refl_close
theorem ndxyyPsiCoeff2_rx (o : OptsT) (ga : Ar2 K) (gb : Ar2 K) (G : Ar2 K) (i j : Int) :
    ndxyyPsiCoeff2 o (f2x ga) (c2x gb) (c2x G) i j = ndxyyPsiCoeff2 o ga gb G (-i) j := by
  simp only [ndxyyPsiCoeff2, gBarX2_rx, gc1BarXY2_rx, c2x_at, f2x_at, ri1, ri2, ri3, ri4, ri5, ri6, ri7, ri8, ri9, ri10, ri11, abs_neg] <;>
  refl_close
theorem ndxyyPsiCoeff2_ry (o : OptsT) (ga : Ar2 K) (gb : Ar2 K) (G : Ar2 K) (i j : Int) :
    ndxyyPsiCoeff2 o (c2y ga) (f2y gb) (c2y G) i j = ndxyyPsiCoeff2 o ga gb G i (-j) := by
  simp only [ndxyyPsiCoeff2, gBarX2_ry, gc1BarXY2_ry, c2y_at, f2y_at, ri1, ri2, ri3, ri4, ri5, ri6, ri7, ri8, ri9, ri10, ri11, abs_neg] <;>
  refl_close
theorem fot2_rx (o : OptsT) (psi : Ar2 K) (ga : Ar2 K) (gb : Ar2 K) (G : Ar2 K) (i j : Int) :
    fot2 o (c2x psi) (f2x ga) (c2x gb) (c2x G) i j = -fot2 o psi ga gb G (-i) j := by
  simp only [fot2, ndxxxPsi2_rx, ndxxyPsi2_rx, ndxyyPsi2_rx, ndxxxPsiCoeff2_rx, ndxxyPsiCoeff2_rx, ndxyyPsiCoeff2_rx, c2x_at, f2x_at, ri1, ri2, ri3, ri4, ri5, ri6, ri7, ri8, ri9, ri10, ri11, abs_neg] <;>
  refl_close
theorem fot2_ry (o : OptsT) (psi : Ar2 K) (ga : Ar2 K) (gb : Ar2 K) (G : Ar2 K) (i j : Int) :
    fot2 o (c2y psi) (c2y ga) (f2y gb) (c2y G) i j = fot2 o psi ga gb G i (-j) := by
  simp only [fot2, ndxxxPsi2_ry, ndxxyPsi2_ry, ndxyyPsi2_ry, ndxxxPsiCoeff2_ry, ndxxyPsiCoeff2_ry, ndxyyPsiCoeff2_ry, c2y_at, f2y_at, ri1, ri2, ri3, ri4, ri5, ri6, ri7, ri8, ri9, ri10, ri11, abs_neg] <;>
  refl_close
theorem dfl2_rx (o : OptsT) (psi : Ar2 K) (ga : Ar2 K) (gb : Ar2 K) (G : Ar2 K) (i j : Int) :
    dfl2 o (c2x psi) (f2x ga) (c2x gb) (c2x G) i j = -dfl2 o psi ga gb G (-i) j := by
  simp only [dfl2, gBarX2_rx, psiBarX2_rx, c2x_at, f2x_at, ri1, ri2, ri3, ri4, ri5, ri6, ri7, ri8, ri9, ri10, ri11, abs_neg] <;>
  refl_close
theorem dfl2_ry (o : OptsT) (psi : Ar2 K) (ga : Ar2 K) (gb : Ar2 K) (G : Ar2 K) (i j : Int) :
    dfl2 o (c2y psi) (c2y ga) (f2y gb) (c2y G) i j = dfl2 o psi ga gb G i (-j) := by
  simp only [dfl2, gBarX2_ry, psiBarX2_ry, c2y_at, f2y_at, ri1, ri2, ri3, ri4, ri5, ri6, ri7, ri8, ri9, ri10, ri11, abs_neg] <;>
  refl_close
theorem div2nd2_rx (o : OptsT) (tiny : K) (psi : Ar2 K) (ga : Ar2 K) (gb : Ar2 K) (G : Ar2 K) (i j : Int) :
    div2nd2 o tiny (c2x psi) (f2x ga) (c2x gb) (c2x G) i j = -div2nd2 o tiny psi ga gb G (-i) j := by
  simp only [div2nd2, ndxPsi2_rx, nfdiv2_rx, c2x_at, f2x_at, ri1, ri2, ri3, ri4, ri5, ri6, ri7, ri8, ri9, ri10, ri11, abs_neg] <;>
  refl_close
theorem div2nd2_ry (o : OptsT) (tiny : K) (psi : Ar2 K) (ga : Ar2 K) (gb : Ar2 K) (G : Ar2 K) (i j : Int) :
    div2nd2 o tiny (c2y psi) (c2y ga) (f2y gb) (c2y G) i j = div2nd2 o tiny psi ga gb G i (-j) := by
  simp only [div2nd2, ndxPsi2_ry, nfdiv2_ry, c2y_at, f2y_at, ri1, ri2, ri3, ri4, ri5, ri6, ri7, ri8, ri9, ri10, ri11, abs_neg] <;>
  refl_close
theorem div3rdUpwind2_rx (o : OptsT) (tiny : K) (psi : Ar2 K) (ga : Ar2 K) (gb : Ar2 K) (G : Ar2 K) (i j : Int) :
    div3rdUpwind2 o tiny (c2x psi) (f2x ga) (c2x gb) (c2x G) i j = -div3rdUpwind2 o tiny psi ga gb G (-i) j := by
  simp only [div3rdUpwind2, ndxPsi2_rx, div2nd2_rx, c2x_at, f2x_at, ri1, ri2, ri3, ri4, ri5, ri6, ri7, ri8, ri9, ri10, ri11, abs_neg] <;>
  refl_close
theorem div3rdUpwind2_ry (o : OptsT) (tiny : K) (psi : Ar2 K) (ga : Ar2 K) (gb : Ar2 K) (G : Ar2 K) (i j : Int) :
    div3rdUpwind2 o tiny (c2y psi) (c2y ga) (f2y gb) (c2y G) i j = div3rdUpwind2 o tiny psi ga gb G i (-j) := by
  simp only [div3rdUpwind2, ndxPsi2_ry, div2nd2_ry, c2y_at, f2y_at, ri1, ri2, ri3, ri4, ri5, ri6, ri7, ri8, ri9, ri10, ri11, abs_neg] <;>
  refl_close
theorem div3rdTemporal2_rx (o : OptsT) (te : TmprlExtrp) (psi : Ar2 K) (ndtt : Ar2 K) (i j : Int) :
    div3rdTemporal2 o te (c2x psi) (f2x ndtt) i j = -div3rdTemporal2 o te psi ndtt (-i) j := by
  cases te <;> simp only [div3rdTemporal2, ndttGC02_rx] <;> refl_close
theorem div3rdTemporal2_ry (o : OptsT) (te : TmprlExtrp) (psi : Ar2 K) (ndtt : Ar2 K) (i j : Int) :
    div3rdTemporal2 o te (c2y psi) (c2y ndtt) i j = div3rdTemporal2 o te psi ndtt i (-j) := by
  cases te <;> simp only [div3rdTemporal2, ndttGC02_ry] <;> refl_close
theorem div3rdSpatialHelper2_rx (o : OptsT) (si : SptlIntrp) (psi : Ar2 K) (ga : Ar2 K) (i j : Int) :
    div3rdSpatialHelper2 o si (c2x psi) (f2x ga) i j = -div3rdSpatialHelper2 o si psi ga (-i) j := by
  cases si <;> simp only [div3rdSpatialHelper2, ndxxGC02_rx] <;> refl_close
theorem div3rdSpatialHelper2_ry (o : OptsT) (si : SptlIntrp) (psi : Ar2 K) (ga : Ar2 K) (i j : Int) :
    div3rdSpatialHelper2 o si (c2y psi) (c2y ga) i j = div3rdSpatialHelper2 o si psi ga i (-j) := by
  cases si <;> simp only [div3rdSpatialHelper2, ndxxGC02_ry] <;> refl_close
theorem div3rdSpatial2_rx (o : OptsT) (si : SptlIntrp) (tiny : K) (psi : Ar2 K) (ga : Ar2 K) (i j : Int) :
    div3rdSpatial2 o si tiny (c2x psi) (f2x ga) i j = -div3rdSpatial2 o si tiny psi ga (-i) j := by
  simp only [div3rdSpatial2, ndxGC02_rx, ndxPsi2_rx, ndxxPsi2_rx, div3rdSpatialHelper2_rx, c2x_at, f2x_at, ri1, ri2, ri3, ri4, ri5, ri6, ri7, ri8, ri9, ri10, ri11, abs_neg] <;>
  refl_close
theorem div3rdSpatial2_ry (o : OptsT) (si : SptlIntrp) (tiny : K) (psi : Ar2 K) (ga : Ar2 K) (i j : Int) :
    div3rdSpatial2 o si tiny (c2y psi) (c2y ga) i j = div3rdSpatial2 o si tiny psi ga i (-j) := by
  simp only [div3rdSpatial2, ndxGC02_ry, ndxPsi2_ry, ndxxPsi2_ry, div3rdSpatialHelper2_ry, c2y_at, f2y_at, ri1, ri2, ri3, ri4, ri5, ri6, ri7, ri8, ri9, ri10, ri11, abs_neg] <;>
  refl_close
theorem div3rd2_rx (o : OptsT) (si : SptlIntrp) (te : TmprlExtrp) (tiny : K) (psi : Ar2 K) (old : Ar2 K) (ga : Ar2 K) (gb : Ar2 K) (nda : Ar2 K) (ndb : Ar2 K) (ndtt : Ar2 K) (G : Ar2 K) (i j : Int) :
    div3rd2 o si te tiny (c2x psi) (c2x old) (f2x ga) (c2x gb) (f2x nda) (c2x ndb) (f2x ndtt) (c2x G) i j = -div3rd2 o si te tiny psi old ga gb nda ndb ndtt G (-i) j := by
  simp only [div3rd2, ndttGC02_rx, ndtxPsi2_rx, ndtPsi2_rx, nfdiv2_rx, nfdivFdiv2_rx, ndxFdiv2_rx, nfdivDt2_rx, div3rdUpwind2_rx, div3rdTemporal2_rx, div3rdSpatial2_rx, c2x_at, f2x_at, ri1, ri2, ri3, ri4, ri5, ri6, ri7, ri8, ri9, ri10, ri11, abs_neg] <;>
  refl_close
theorem div3rd2_ry (o : OptsT) (si : SptlIntrp) (te : TmprlExtrp) (tiny : K) (psi : Ar2 K) (old : Ar2 K) (ga : Ar2 K) (gb : Ar2 K) (nda : Ar2 K) (ndb : Ar2 K) (ndtt : Ar2 K) (G : Ar2 K) (i j : Int) :
    div3rd2 o si te tiny (c2y psi) (c2y old) (c2y ga) (f2y gb) (c2y nda) (f2y ndb) (c2y ndtt) (c2y G) i j = div3rd2 o si te tiny psi old ga gb nda ndb ndtt G i (-j) := by
  simp only [div3rd2, ndttGC02_ry, ndtxPsi2_ry, ndtPsi2_ry, nfdiv2_ry, nfdivFdiv2_ry, ndxFdiv2_ry, nfdivDt2_ry, div3rdUpwind2_ry, div3rdTemporal2_ry, div3rdSpatial2_ry, c2y_at, f2y_at, ri1, ri2, ri3, ri4, ri5, ri6, ri7, ri8, ri9, ri10, ri11, abs_neg] <;>
  refl_close
theorem antidiff2_rx (o : OptsT) (si : SptlIntrp) (te : TmprlExtrp) (tiny : K) (psi : Ar2 K) (old : Ar2 K) (ga : Ar2 K) (gb : Ar2 K) (nda : Ar2 K) (ndb : Ar2 K) (ndtt : Ar2 K) (G : Ar2 K) (i j : Int) :
    antidiff2 o si te tiny (c2x psi) (c2x old) (f2x ga) (c2x gb) (f2x nda) (c2x ndb) (f2x ndtt) (c2x G) i j = -antidiff2 o si te tiny psi old ga gb nda ndb ndtt G (-i) j := by
  simp only [antidiff2, gBarX2_rx, gc1BarXY2_rx, ndxPsi2_rx, ndyPsi2_rx, tot2_rx, fot2_rx, dfl2_rx, div2nd2_rx, div3rd2_rx, c2x_at, f2x_at, ri1, ri2, ri3, ri4, ri5, ri6, ri7, ri8, ri9, ri10, ri11, abs_neg] <;>
  refl_close
theorem antidiff2_ry (o : OptsT) (si : SptlIntrp) (te : TmprlExtrp) (tiny : K) (psi : Ar2 K) (old : Ar2 K) (ga : Ar2 K) (gb : Ar2 K) (nda : Ar2 K) (ndb : Ar2 K) (ndtt : Ar2 K) (G : Ar2 K) (i j : Int) :
    antidiff2 o si te tiny (c2y psi) (c2y old) (c2y ga) (f2y gb) (c2y nda) (f2y ndb) (c2y ndtt) (c2y G) i j = antidiff2 o si te tiny psi old ga gb nda ndb ndtt G i (-j) := by
  simp only [antidiff2, gBarX2_ry, gc1BarXY2_ry, ndxPsi2_ry, ndyPsi2_ry, tot2_ry, fot2_ry, dfl2_ry, div2nd2_ry, div3rd2_ry, c2y_at, f2y_at, ri1, ri2, ri3, ri4, ri5, ri6, ri7, ri8, ri9, ri10, ri11, abs_neg] <;>
  refl_close
end Mpdata
