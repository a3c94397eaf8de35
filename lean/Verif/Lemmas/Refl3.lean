import Verif.Model.Antidiff3
import Verif.Lemmas.Refl
/-! # Mirror symmetry of the 3-D antidiffusive velocities
Generated table: how each formula changes when its arguments are reflected in one direction. `c3x a` is the array `a` of cell values reflected about the face 1/2
in the direction of the velocity, `f3x` the reflected and negated array of face values; `c3y`, ... are reflections in transverse directions, about cell 0. -/
set_option linter.unusedSectionVars false
set_option linter.unusedSimpArgs false
set_option linter.unusedTactic false
set_option linter.unreachableTactic false
set_option linter.unnecessarySeqFocus false
namespace Mpdata
variable {K : Type} [Field K] [LinearOrder K]

def c3x (a : Ar3 K) : Ar3 K := fun i j k => a (-i + 1) j k
def f3x (a : Ar3 K) : Ar3 K := fun i j k => -a (-i) j k
theorem c3x_at (a : Ar3 K) (i j k : Int) : c3x a i j k = a (-i + 1) j k := rfl
theorem f3x_at (a : Ar3 K) (i j k : Int) : f3x a i j k = -a (-i) j k := rfl
def c3y (a : Ar3 K) : Ar3 K := fun i j k => a i (-j) k
def f3y (a : Ar3 K) : Ar3 K := fun i j k => -a i (-j - 1) k
theorem c3y_at (a : Ar3 K) (i j k : Int) : c3y a i j k = a i (-j) k := rfl
theorem f3y_at (a : Ar3 K) (i j k : Int) : f3y a i j k = -a i (-j - 1) k := rfl
def c3z (a : Ar3 K) : Ar3 K := fun i j k => a i j (-k)
def f3z (a : Ar3 K) : Ar3 K := fun i j k => -a i j (-k - 1)
theorem c3z_at (a : Ar3 K) (i j k : Int) : c3z a i j k = a i j (-k) := rfl
theorem f3z_at (a : Ar3 K) (i j k : Int) : f3z a i j k = -a i j (-k - 1) := rfl
theorem gF3_rx (o : OptsT) (G : Ar3 K) (i j k : Int) :
    gF3 o (c3x G) i j k = gF3 o G (-i + 1) j k := by
  simp only [gF3, c3x_at, f3x_at, ri1, ri2, ri3, ri4, ri5, ri6, ri7, ri8, ri9, ri10, ri11, abs_neg] <;>
  refl_close
theorem gF3_ry (o : OptsT) (G : Ar3 K) (i j k : Int) :
    gF3 o (c3y G) i j k = gF3 o G i (-j) k := by
  simp only [gF3, c3y_at, f3y_at, ri1, ri2, ri3, ri4, ri5, ri6, ri7, ri8, ri9, ri10, ri11, abs_neg] <;>
  refl_close
theorem gF3_rz (o : OptsT) (G : Ar3 K) (i j k : Int) :
    gF3 o (c3z G) i j k = gF3 o G i j (-k) := by
  simp only [gF3, c3z_at, f3z_at, ri1, ri2, ri3, ri4, ri5, ri6, ri7, ri8, ri9, ri10, ri11, abs_neg] <;>
  refl_close
theorem gBarX3_rx (o : OptsT) (G : Ar3 K) (i j k : Int) :
    gBarX3 o (c3x G) i j k = gBarX3 o G (-i) j k := by
  simp only [gBarX3, gF3_rx, c3x_at, f3x_at, ri1, ri2, ri3, ri4, ri5, ri6, ri7, ri8, ri9, ri10, ri11, abs_neg] <;>
  refl_close
theorem gBarX3_ry (o : OptsT) (G : Ar3 K) (i j k : Int) :
    gBarX3 o (c3y G) i j k = gBarX3 o G i (-j) k := by
  simp only [gBarX3, gF3_ry, c3y_at, f3y_at, ri1, ri2, ri3, ri4, ri5, ri6, ri7, ri8, ri9, ri10, ri11, abs_neg] <;>
  refl_close
theorem gBarX3_rz (o : OptsT) (G : Ar3 K) (i j k : Int) :
    gBarX3 o (c3z G) i j k = gBarX3 o G i j (-k) := by
  simp only [gBarX3, gF3_rz, c3z_at, f3z_at, ri1, ri2, ri3, ri4, ri5, ri6, ri7, ri8, ri9, ri10, ri11, abs_neg] <;>
  refl_close
theorem gBarXY3_rx (o : OptsT) (G : Ar3 K) (i j k : Int) :
    gBarXY3 o (c3x G) i j k = gBarXY3 o G (-i) j k := by
  simp only [gBarXY3, gF3_rx, c3x_at, f3x_at, ri1, ri2, ri3, ri4, ri5, ri6, ri7, ri8, ri9, ri10, ri11, abs_neg] <;>
  refl_close
theorem gBarXY3_ry (o : OptsT) (G : Ar3 K) (i j k : Int) :
    gBarXY3 o (c3y G) i j k = gBarXY3 o G i (-j - 1) k := by
  simp only [gBarXY3, gF3_ry, c3y_at, f3y_at, ri1, ri2, ri3, ri4, ri5, ri6, ri7, ri8, ri9, ri10, ri11, abs_neg] <;>
  refl_close
theorem gBarXY3_rz (o : OptsT) (G : Ar3 K) (i j k : Int) :
    gBarXY3 o (c3z G) i j k = gBarXY3 o G i j (-k) := by
  simp only [gBarXY3, gF3_rz, c3z_at, f3z_at, ri1, ri2, ri3, ri4, ri5, ri6, ri7, ri8, ri9, ri10, ri11, abs_neg] <;>
  refl_close
theorem gBarXZ3_rx (o : OptsT) (G : Ar3 K) (i j k : Int) :
    gBarXZ3 o (c3x G) i j k = gBarXZ3 o G (-i) j k := by
  simp only [gBarXZ3, gF3_rx, c3x_at, f3x_at, ri1, ri2, ri3, ri4, ri5, ri6, ri7, ri8, ri9, ri10, ri11, abs_neg] <;>
  refl_close
theorem gBarXZ3_ry (o : OptsT) (G : Ar3 K) (i j k : Int) :
    gBarXZ3 o (c3y G) i j k = gBarXZ3 o G i (-j) k := by
  simp only [gBarXZ3, gF3_ry, c3y_at, f3y_at, ri1, ri2, ri3, ri4, ri5, ri6, ri7, ri8, ri9, ri10, ri11, abs_neg] <;>
  refl_close
theorem gBarXZ3_rz (o : OptsT) (G : Ar3 K) (i j k : Int) :
    gBarXZ3 o (c3z G) i j k = gBarXZ3 o G i j (-k - 1) := by
  simp only [gBarXZ3, gF3_rz, c3z_at, f3z_at, ri1, ri2, ri3, ri4, ri5, ri6, ri7, ri8, ri9, ri10, ri11, abs_neg] <;>
  refl_close
theorem gc0BarX3_rx (ga : Ar3 K) (i j k : Int) :
    gc0BarX3 (f3x ga) i j k = -gc0BarX3 ga (-i + 1) j k := by
  simp only [gc0BarX3, c3x_at, f3x_at, ri1, ri2, ri3, ri4, ri5, ri6, ri7, ri8, ri9, ri10, ri11, abs_neg] <;>
  refl_close
theorem gc0BarX3_ry (ga : Ar3 K) (i j k : Int) :
    gc0BarX3 (c3y ga) i j k = gc0BarX3 ga i (-j) k := by
  simp only [gc0BarX3, c3y_at, f3y_at, ri1, ri2, ri3, ri4, ri5, ri6, ri7, ri8, ri9, ri10, ri11, abs_neg] <;>
  refl_close
theorem gc0BarX3_rz (ga : Ar3 K) (i j k : Int) :
    gc0BarX3 (c3z ga) i j k = gc0BarX3 ga i j (-k) := by
  simp only [gc0BarX3, c3z_at, f3z_at, ri1, ri2, ri3, ri4, ri5, ri6, ri7, ri8, ri9, ri10, ri11, abs_neg] <;>
  refl_close
theorem gc0BarXY3_rx (ga : Ar3 K) (i j k : Int) :
    gc0BarXY3 (f3x ga) i j k = -gc0BarXY3 ga (-i + 1) j k := by
  simp only [gc0BarXY3, c3x_at, f3x_at, ri1, ri2, ri3, ri4, ri5, ri6, ri7, ri8, ri9, ri10, ri11, abs_neg] <;>
  refl_close
theorem gc0BarXY3_ry (ga : Ar3 K) (i j k : Int) :
    gc0BarXY3 (c3y ga) i j k = gc0BarXY3 ga i (-j - 1) k := by
  simp only [gc0BarXY3, c3y_at, f3y_at, ri1, ri2, ri3, ri4, ri5, ri6, ri7, ri8, ri9, ri10, ri11, abs_neg] <;>
  refl_close
theorem gc0BarXY3_rz (ga : Ar3 K) (i j k : Int) :
    gc0BarXY3 (c3z ga) i j k = gc0BarXY3 ga i j (-k) := by
  simp only [gc0BarXY3, c3z_at, f3z_at, ri1, ri2, ri3, ri4, ri5, ri6, ri7, ri8, ri9, ri10, ri11, abs_neg] <;>
  refl_close
theorem gc0BarXZ3_rx (ga : Ar3 K) (i j k : Int) :
    gc0BarXZ3 (f3x ga) i j k = -gc0BarXZ3 ga (-i + 1) j k := by
  simp only [gc0BarXZ3, c3x_at, f3x_at, ri1, ri2, ri3, ri4, ri5, ri6, ri7, ri8, ri9, ri10, ri11, abs_neg] <;>
  refl_close
theorem gc0BarXZ3_ry (ga : Ar3 K) (i j k : Int) :
    gc0BarXZ3 (c3y ga) i j k = gc0BarXZ3 ga i (-j) k := by
  simp only [gc0BarXZ3, c3y_at, f3y_at, ri1, ri2, ri3, ri4, ri5, ri6, ri7, ri8, ri9, ri10, ri11, abs_neg] <;>
  refl_close
theorem gc0BarXZ3_rz (ga : Ar3 K) (i j k : Int) :
    gc0BarXZ3 (c3z ga) i j k = gc0BarXZ3 ga i j (-k - 1) := by
  simp only [gc0BarXZ3, c3z_at, f3z_at, ri1, ri2, ri3, ri4, ri5, ri6, ri7, ri8, ri9, ri10, ri11, abs_neg] <;>
  refl_close
theorem gc1BarX3_rx (gb : Ar3 K) (i j k : Int) :
    gc1BarX3 (c3x gb) i j k = gc1BarX3 gb (-i) j k := by
  simp only [gc1BarX3, c3x_at, f3x_at, ri1, ri2, ri3, ri4, ri5, ri6, ri7, ri8, ri9, ri10, ri11, abs_neg] <;>
  refl_close
theorem gc1BarX3_ry (gb : Ar3 K) (i j k : Int) :
    gc1BarX3 (f3y gb) i j k = -gc1BarX3 gb i (-j - 1) k := by
  simp only [gc1BarX3, c3y_at, f3y_at, ri1, ri2, ri3, ri4, ri5, ri6, ri7, ri8, ri9, ri10, ri11, abs_neg] <;>
  refl_close
theorem gc1BarX3_rz (gb : Ar3 K) (i j k : Int) :
    gc1BarX3 (c3z gb) i j k = gc1BarX3 gb i j (-k) := by
  simp only [gc1BarX3, c3z_at, f3z_at, ri1, ri2, ri3, ri4, ri5, ri6, ri7, ri8, ri9, ri10, ri11, abs_neg] <;>
  refl_close
theorem gc1BarXY3_rx (gb : Ar3 K) (i j k : Int) :
    gc1BarXY3 (c3x gb) i j k = gc1BarXY3 gb (-i) j k := by
  simp only [gc1BarXY3, c3x_at, f3x_at, ri1, ri2, ri3, ri4, ri5, ri6, ri7, ri8, ri9, ri10, ri11, abs_neg] <;>
  refl_close
theorem gc1BarXY3_ry (gb : Ar3 K) (i j k : Int) :
    gc1BarXY3 (f3y gb) i j k = -gc1BarXY3 gb i (-j) k := by
  simp only [gc1BarXY3, c3y_at, f3y_at, ri1, ri2, ri3, ri4, ri5, ri6, ri7, ri8, ri9, ri10, ri11, abs_neg] <;>
  refl_close
theorem gc1BarXY3_rz (gb : Ar3 K) (i j k : Int) :
    gc1BarXY3 (c3z gb) i j k = gc1BarXY3 gb i j (-k) := by
  simp only [gc1BarXY3, c3z_at, f3z_at, ri1, ri2, ri3, ri4, ri5, ri6, ri7, ri8, ri9, ri10, ri11, abs_neg] <;>
  refl_close
theorem gc1BarXZ3_rx (gb : Ar3 K) (i j k : Int) :
    gc1BarXZ3 (c3x gb) i j k = gc1BarXZ3 gb (-i) j k := by
  simp only [gc1BarXZ3, c3x_at, f3x_at, ri1, ri2, ri3, ri4, ri5, ri6, ri7, ri8, ri9, ri10, ri11, abs_neg] <;>
  refl_close
theorem gc1BarXZ3_ry (gb : Ar3 K) (i j k : Int) :
    gc1BarXZ3 (f3y gb) i j k = -gc1BarXZ3 gb i (-j - 1) k := by
  simp only [gc1BarXZ3, c3y_at, f3y_at, ri1, ri2, ri3, ri4, ri5, ri6, ri7, ri8, ri9, ri10, ri11, abs_neg] <;>
  refl_close
theorem gc1BarXZ3_rz (gb : Ar3 K) (i j k : Int) :
    gc1BarXZ3 (c3z gb) i j k = gc1BarXZ3 gb i j (-k - 1) := by
  simp only [gc1BarXZ3, c3z_at, f3z_at, ri1, ri2, ri3, ri4, ri5, ri6, ri7, ri8, ri9, ri10, ri11, abs_neg] <;>
  refl_close
theorem gc2BarX3_rx (gc : Ar3 K) (i j k : Int) :
    gc2BarX3 (c3x gc) i j k = gc2BarX3 gc (-i) j k := by
  simp only [gc2BarX3, c3x_at, f3x_at, ri1, ri2, ri3, ri4, ri5, ri6, ri7, ri8, ri9, ri10, ri11, abs_neg] <;>
  refl_close
theorem gc2BarX3_ry (gc : Ar3 K) (i j k : Int) :
    gc2BarX3 (c3y gc) i j k = gc2BarX3 gc i (-j) k := by
  simp only [gc2BarX3, c3y_at, f3y_at, ri1, ri2, ri3, ri4, ri5, ri6, ri7, ri8, ri9, ri10, ri11, abs_neg] <;>
  refl_close
theorem gc2BarX3_rz (gc : Ar3 K) (i j k : Int) :
    gc2BarX3 (f3z gc) i j k = -gc2BarX3 gc i j (-k - 1) := by
  simp only [gc2BarX3, c3z_at, f3z_at, ri1, ri2, ri3, ri4, ri5, ri6, ri7, ri8, ri9, ri10, ri11, abs_neg] <;>
  refl_close
theorem gc2BarXZ3_rx (gc : Ar3 K) (i j k : Int) :
    gc2BarXZ3 (c3x gc) i j k = gc2BarXZ3 gc (-i) j k := by
  simp only [gc2BarXZ3, c3x_at, f3x_at, ri1, ri2, ri3, ri4, ri5, ri6, ri7, ri8, ri9, ri10, ri11, abs_neg] <;>
  refl_close
theorem gc2BarXZ3_ry (gc : Ar3 K) (i j k : Int) :
    gc2BarXZ3 (c3y gc) i j k = gc2BarXZ3 gc i (-j) k := by
  simp only [gc2BarXZ3, c3y_at, f3y_at, ri1, ri2, ri3, ri4, ri5, ri6, ri7, ri8, ri9, ri10, ri11, abs_neg] <;>
  refl_close
theorem gc2BarXZ3_rz (gc : Ar3 K) (i j k : Int) :
    gc2BarXZ3 (f3z gc) i j k = -gc2BarXZ3 gc i j (-k) := by
  simp only [gc2BarXZ3, c3z_at, f3z_at, ri1, ri2, ri3, ri4, ri5, ri6, ri7, ri8, ri9, ri10, ri11, abs_neg] <;>
  refl_close
theorem gc2BarXY3_rx (gc : Ar3 K) (i j k : Int) :
    gc2BarXY3 (c3x gc) i j k = gc2BarXY3 gc (-i) j k := by
  simp only [gc2BarXY3, c3x_at, f3x_at, ri1, ri2, ri3, ri4, ri5, ri6, ri7, ri8, ri9, ri10, ri11, abs_neg] <;>
  refl_close
theorem gc2BarXY3_ry (gc : Ar3 K) (i j k : Int) :
    gc2BarXY3 (c3y gc) i j k = gc2BarXY3 gc i (-j - 1) k := by
  simp only [gc2BarXY3, c3y_at, f3y_at, ri1, ri2, ri3, ri4, ri5, ri6, ri7, ri8, ri9, ri10, ri11, abs_neg] <;>
  refl_close
theorem gc2BarXY3_rz (gc : Ar3 K) (i j k : Int) :
    gc2BarXY3 (f3z gc) i j k = -gc2BarXY3 gc i j (-k - 1) := by
  simp only [gc2BarXY3, c3z_at, f3z_at, ri1, ri2, ri3, ri4, ri5, ri6, ri7, ri8, ri9, ri10, ri11, abs_neg] <;>
  refl_close
theorem ndxGC03_rx (ga : Ar3 K) (i j k : Int) :
    ndxGC03 (f3x ga) i j k = ndxGC03 ga (-i) j k := by
  simp only [ndxGC03, c3x_at, f3x_at, ri1, ri2, ri3, ri4, ri5, ri6, ri7, ri8, ri9, ri10, ri11, abs_neg] <;>
  refl_close
theorem ndxGC03_ry (ga : Ar3 K) (i j k : Int) :
    ndxGC03 (c3y ga) i j k = ndxGC03 ga i (-j) k := by
  simp only [ndxGC03, c3y_at, f3y_at, ri1, ri2, ri3, ri4, ri5, ri6, ri7, ri8, ri9, ri10, ri11, abs_neg] <;>
  refl_close
theorem ndxGC03_rz (ga : Ar3 K) (i j k : Int) :
    ndxGC03 (c3z ga) i j k = ndxGC03 ga i j (-k) := by
  simp only [ndxGC03, c3z_at, f3z_at, ri1, ri2, ri3, ri4, ri5, ri6, ri7, ri8, ri9, ri10, ri11, abs_neg] <;>
  refl_close
theorem psiBarX3_rx (o : OptsT) (psi : Ar3 K) (i j k : Int) :
    psiBarX3 o (c3x psi) i j k = psiBarX3 o psi (-i) j k := by
  simp only [psiBarX3, c3x_at, f3x_at, ri1, ri2, ri3, ri4, ri5, ri6, ri7, ri8, ri9, ri10, ri11, abs_neg] <;>
  refl_close
theorem psiBarX3_ry (o : OptsT) (psi : Ar3 K) (i j k : Int) :
    psiBarX3 o (c3y psi) i j k = psiBarX3 o psi i (-j) k := by
  simp only [psiBarX3, c3y_at, f3y_at, ri1, ri2, ri3, ri4, ri5, ri6, ri7, ri8, ri9, ri10, ri11, abs_neg] <;>
  refl_close
theorem psiBarX3_rz (o : OptsT) (psi : Ar3 K) (i j k : Int) :
    psiBarX3 o (c3z psi) i j k = psiBarX3 o psi i j (-k) := by
  simp only [psiBarX3, c3z_at, f3z_at, ri1, ri2, ri3, ri4, ri5, ri6, ri7, ri8, ri9, ri10, ri11, abs_neg] <;>
  refl_close
theorem psiBarY3_rx (o : OptsT) (psi : Ar3 K) (i j k : Int) :
    psiBarY3 o (c3x psi) i j k = psiBarY3 o psi (-i + 1) j k := by
  simp only [psiBarY3, c3x_at, f3x_at, ri1, ri2, ri3, ri4, ri5, ri6, ri7, ri8, ri9, ri10, ri11, abs_neg] <;>
  refl_close
theorem psiBarY3_ry (o : OptsT) (psi : Ar3 K) (i j k : Int) :
    psiBarY3 o (c3y psi) i j k = psiBarY3 o psi i (-j - 1) k := by
  simp only [psiBarY3, c3y_at, f3y_at, ri1, ri2, ri3, ri4, ri5, ri6, ri7, ri8, ri9, ri10, ri11, abs_neg] <;>
  refl_close
theorem psiBarY3_rz (o : OptsT) (psi : Ar3 K) (i j k : Int) :
    psiBarY3 o (c3z psi) i j k = psiBarY3 o psi i j (-k) := by
  simp only [psiBarY3, c3z_at, f3z_at, ri1, ri2, ri3, ri4, ri5, ri6, ri7, ri8, ri9, ri10, ri11, abs_neg] <;>
  refl_close
theorem psiBarZ3_rx (o : OptsT) (psi : Ar3 K) (i j k : Int) :
    psiBarZ3 o (c3x psi) i j k = psiBarZ3 o psi (-i + 1) j k := by
  simp only [psiBarZ3, c3x_at, f3x_at, ri1, ri2, ri3, ri4, ri5, ri6, ri7, ri8, ri9, ri10, ri11, abs_neg] <;>
  refl_close
theorem psiBarZ3_ry (o : OptsT) (psi : Ar3 K) (i j k : Int) :
    psiBarZ3 o (c3y psi) i j k = psiBarZ3 o psi i (-j) k := by
  simp only [psiBarZ3, c3y_at, f3y_at, ri1, ri2, ri3, ri4, ri5, ri6, ri7, ri8, ri9, ri10, ri11, abs_neg] <;>
  refl_close
theorem psiBarZ3_rz (o : OptsT) (psi : Ar3 K) (i j k : Int) :
    psiBarZ3 o (c3z psi) i j k = psiBarZ3 o psi i j (-k - 1) := by
  simp only [psiBarZ3, c3z_at, f3z_at, ri1, ri2, ri3, ri4, ri5, ri6, ri7, ri8, ri9, ri10, ri11, abs_neg] <;>
  refl_close
theorem psiBarXY3_rx (o : OptsT) (psi : Ar3 K) (i j k : Int) :
    psiBarXY3 o (c3x psi) i j k = psiBarXY3 o psi (-i) j k := by
  simp only [psiBarXY3, c3x_at, f3x_at, ri1, ri2, ri3, ri4, ri5, ri6, ri7, ri8, ri9, ri10, ri11, abs_neg] <;>
  refl_close
theorem psiBarXY3_ry (o : OptsT) (psi : Ar3 K) (i j k : Int) :
    psiBarXY3 o (c3y psi) i j k = psiBarXY3 o psi i (-j - 1) k := by
  simp only [psiBarXY3, c3y_at, f3y_at, ri1, ri2, ri3, ri4, ri5, ri6, ri7, ri8, ri9, ri10, ri11, abs_neg] <;>
  refl_close
theorem psiBarXY3_rz (o : OptsT) (psi : Ar3 K) (i j k : Int) :
    psiBarXY3 o (c3z psi) i j k = psiBarXY3 o psi i j (-k) := by
  simp only [psiBarXY3, c3z_at, f3z_at, ri1, ri2, ri3, ri4, ri5, ri6, ri7, ri8, ri9, ri10, ri11, abs_neg] <;>
  refl_close
theorem psiBarXZ3_rx (o : OptsT) (psi : Ar3 K) (i j k : Int) :
    psiBarXZ3 o (c3x psi) i j k = psiBarXZ3 o psi (-i) j k := by
  simp only [psiBarXZ3, c3x_at, f3x_at, ri1, ri2, ri3, ri4, ri5, ri6, ri7, ri8, ri9, ri10, ri11, abs_neg] <;>
  refl_close
theorem psiBarXZ3_ry (o : OptsT) (psi : Ar3 K) (i j k : Int) :
    psiBarXZ3 o (c3y psi) i j k = psiBarXZ3 o psi i (-j) k := by
  simp only [psiBarXZ3, c3y_at, f3y_at, ri1, ri2, ri3, ri4, ri5, ri6, ri7, ri8, ri9, ri10, ri11, abs_neg] <;>
  refl_close
theorem psiBarXZ3_rz (o : OptsT) (psi : Ar3 K) (i j k : Int) :
    psiBarXZ3 o (c3z psi) i j k = psiBarXZ3 o psi i j (-k - 1) := by
  simp only [psiBarXZ3, c3z_at, f3z_at, ri1, ri2, ri3, ri4, ri5, ri6, ri7, ri8, ri9, ri10, ri11, abs_neg] <;>
  refl_close
theorem psiBarXYZ3_rx (o : OptsT) (psi : Ar3 K) (i j k : Int) :
    psiBarXYZ3 o (c3x psi) i j k = psiBarXYZ3 o psi (-i) j k := by
  simp only [psiBarXYZ3, c3x_at, f3x_at, ri1, ri2, ri3, ri4, ri5, ri6, ri7, ri8, ri9, ri10, ri11, abs_neg] <;>
  refl_close
theorem psiBarXYZ3_ry (o : OptsT) (psi : Ar3 K) (i j k : Int) :
    psiBarXYZ3 o (c3y psi) i j k = psiBarXYZ3 o psi i (-j - 1) k := by
  simp only [psiBarXYZ3, c3y_at, f3y_at, ri1, ri2, ri3, ri4, ri5, ri6, ri7, ri8, ri9, ri10, ri11, abs_neg] <;>
  refl_close
theorem psiBarXYZ3_rz (o : OptsT) (psi : Ar3 K) (i j k : Int) :
    psiBarXYZ3 o (c3z psi) i j k = psiBarXYZ3 o psi i j (-k - 1) := by
  simp only [psiBarXYZ3, c3z_at, f3z_at, ri1, ri2, ri3, ri4, ri5, ri6, ri7, ri8, ri9, ri10, ri11, abs_neg] <;>
  refl_close
theorem ndxxGC03_rx (o : OptsT) (psi : Ar3 K) (ga : Ar3 K) (i j k : Int) :
    ndxxGC03 o (c3x psi) (f3x ga) i j k = -ndxxGC03 o psi ga (-i) j k := by
  simp only [ndxxGC03, psiBarX3_rx, c3x_at, f3x_at, ri1, ri2, ri3, ri4, ri5, ri6, ri7, ri8, ri9, ri10, ri11, abs_neg] <;>
  refl_close
theorem ndxxGC03_ry (o : OptsT) (psi : Ar3 K) (ga : Ar3 K) (i j k : Int) :
    ndxxGC03 o (c3y psi) (c3y ga) i j k = ndxxGC03 o psi ga i (-j) k := by
  simp only [ndxxGC03, psiBarX3_ry, c3y_at, f3y_at, ri1, ri2, ri3, ri4, ri5, ri6, ri7, ri8, ri9, ri10, ri11, abs_neg] <;>
  refl_close
theorem ndxxGC03_rz (o : OptsT) (psi : Ar3 K) (ga : Ar3 K) (i j k : Int) :
    ndxxGC03 o (c3z psi) (c3z ga) i j k = ndxxGC03 o psi ga i j (-k) := by
  simp only [ndxxGC03, psiBarX3_rz, c3z_at, f3z_at, ri1, ri2, ri3, ri4, ri5, ri6, ri7, ri8, ri9, ri10, ri11, abs_neg] <;>
  refl_close
theorem ndttGC03_rx (o : OptsT) (psi : Ar3 K) (ndtt : Ar3 K) (i j k : Int) :
    ndttGC03 o (c3x psi) (f3x ndtt) i j k = -ndttGC03 o psi ndtt (-i) j k := by
  simp only [ndttGC03, psiBarX3_rx, c3x_at, f3x_at, ri1, ri2, ri3, ri4, ri5, ri6, ri7, ri8, ri9, ri10, ri11, abs_neg] <;>
  refl_close
theorem ndttGC03_ry (o : OptsT) (psi : Ar3 K) (ndtt : Ar3 K) (i j k : Int) :
    ndttGC03 o (c3y psi) (c3y ndtt) i j k = ndttGC03 o psi ndtt i (-j) k := by
  simp only [ndttGC03, psiBarX3_ry, c3y_at, f3y_at, ri1, ri2, ri3, ri4, ri5, ri6, ri7, ri8, ri9, ri10, ri11, abs_neg] <;>
  refl_close
theorem ndttGC03_rz (o : OptsT) (psi : Ar3 K) (ndtt : Ar3 K) (i j k : Int) :
    ndttGC03 o (c3z psi) (c3z ndtt) i j k = ndttGC03 o psi ndtt i j (-k) := by
  simp only [ndttGC03, psiBarX3_rz, c3z_at, f3z_at, ri1, ri2, ri3, ri4, ri5, ri6, ri7, ri8, ri9, ri10, ri11, abs_neg] <;>
  refl_close
theorem ndxPsi3_rx (o : OptsT) (tiny : K) (psi : Ar3 K) (i j k : Int) :
    ndxPsi3 o tiny (c3x psi) i j k = -ndxPsi3 o tiny psi (-i) j k := by
  simp only [ndxPsi3, c3x_at, f3x_at, ri1, ri2, ri3, ri4, ri5, ri6, ri7, ri8, ri9, ri10, ri11, abs_neg] <;>
  refl_close
theorem ndxPsi3_ry (o : OptsT) (tiny : K) (psi : Ar3 K) (i j k : Int) :
    ndxPsi3 o tiny (c3y psi) i j k = ndxPsi3 o tiny psi i (-j) k := by
  simp only [ndxPsi3, c3y_at, f3y_at, ri1, ri2, ri3, ri4, ri5, ri6, ri7, ri8, ri9, ri10, ri11, abs_neg] <;>
  refl_close
theorem ndxPsi3_rz (o : OptsT) (tiny : K) (psi : Ar3 K) (i j k : Int) :
    ndxPsi3 o tiny (c3z psi) i j k = ndxPsi3 o tiny psi i j (-k) := by
  simp only [ndxPsi3, c3z_at, f3z_at, ri1, ri2, ri3, ri4, ri5, ri6, ri7, ri8, ri9, ri10, ri11, abs_neg] <;>
  refl_close
theorem ndyPsi3_rx (o : OptsT) (tiny : K) (psi : Ar3 K) (i j k : Int) :
    ndyPsi3 o tiny (c3x psi) i j k = ndyPsi3 o tiny psi (-i) j k := by
  simp only [ndyPsi3, c3x_at, f3x_at, ri1, ri2, ri3, ri4, ri5, ri6, ri7, ri8, ri9, ri10, ri11, abs_neg] <;>
  refl_close
theorem ndyPsi3_ry (o : OptsT) (tiny : K) (psi : Ar3 K) (i j k : Int) :
    ndyPsi3 o tiny (c3y psi) i j k = -ndyPsi3 o tiny psi i (-j) k := by
  simp only [ndyPsi3, c3y_at, f3y_at, ri1, ri2, ri3, ri4, ri5, ri6, ri7, ri8, ri9, ri10, ri11, abs_neg] <;>
  refl_close
theorem ndyPsi3_rz (o : OptsT) (tiny : K) (psi : Ar3 K) (i j k : Int) :
    ndyPsi3 o tiny (c3z psi) i j k = ndyPsi3 o tiny psi i j (-k) := by
  simp only [ndyPsi3, c3z_at, f3z_at, ri1, ri2, ri3, ri4, ri5, ri6, ri7, ri8, ri9, ri10, ri11, abs_neg] <;>
  refl_close
theorem ndzPsi3_rx (o : OptsT) (tiny : K) (psi : Ar3 K) (i j k : Int) :
    ndzPsi3 o tiny (c3x psi) i j k = ndzPsi3 o tiny psi (-i) j k := by
  simp only [ndzPsi3, c3x_at, f3x_at, ri1, ri2, ri3, ri4, ri5, ri6, ri7, ri8, ri9, ri10, ri11, abs_neg] <;>
  refl_close
theorem ndzPsi3_ry (o : OptsT) (tiny : K) (psi : Ar3 K) (i j k : Int) :
    ndzPsi3 o tiny (c3y psi) i j k = ndzPsi3 o tiny psi i (-j) k := by
  simp only [ndzPsi3, c3y_at, f3y_at, ri1, ri2, ri3, ri4, ri5, ri6, ri7, ri8, ri9, ri10, ri11, abs_neg] <;>
  refl_close
theorem ndzPsi3_rz (o : OptsT) (tiny : K) (psi : Ar3 K) (i j k : Int) :
    ndzPsi3 o tiny (c3z psi) i j k = -ndzPsi3 o tiny psi i j (-k) := by
  simp only [ndzPsi3, c3z_at, f3z_at, ri1, ri2, ri3, ri4, ri5, ri6, ri7, ri8, ri9, ri10, ri11, abs_neg] <;>
  refl_close
theorem ndxxPsi3_rx (o : OptsT) (tiny : K) (psi : Ar3 K) (i j k : Int) :
    ndxxPsi3 o tiny (c3x psi) i j k = ndxxPsi3 o tiny psi (-i) j k := by
  simp only [ndxxPsi3, c3x_at, f3x_at, ri1, ri2, ri3, ri4, ri5, ri6, ri7, ri8, ri9, ri10, ri11, abs_neg] <;>
  refl_close
theorem ndxxPsi3_ry (o : OptsT) (tiny : K) (psi : Ar3 K) (i j k : Int) :
    ndxxPsi3 o tiny (c3y psi) i j k = ndxxPsi3 o tiny psi i (-j) k := by
  simp only [ndxxPsi3, c3y_at, f3y_at, ri1, ri2, ri3, ri4, ri5, ri6, ri7, ri8, ri9, ri10, ri11, abs_neg] <;>
  refl_close
theorem ndxxPsi3_rz (o : OptsT) (tiny : K) (psi : Ar3 K) (i j k : Int) :
    ndxxPsi3 o tiny (c3z psi) i j k = ndxxPsi3 o tiny psi i j (-k) := by
  simp only [ndxxPsi3, c3z_at, f3z_at, ri1, ri2, ri3, ri4, ri5, ri6, ri7, ri8, ri9, ri10, ri11, abs_neg] <;>
  refl_close
theorem ndxyPsi3_rx (o : OptsT) (tiny : K) (psi : Ar3 K) (i j k : Int) :
    ndxyPsi3 o tiny (c3x psi) i j k = -ndxyPsi3 o tiny psi (-i) j k := by
  simp only [ndxyPsi3, c3x_at, f3x_at, ri1, ri2, ri3, ri4, ri5, ri6, ri7, ri8, ri9, ri10, ri11, abs_neg] <;>
  refl_close
theorem ndxyPsi3_ry (o : OptsT) (tiny : K) (psi : Ar3 K) (i j k : Int) :
    ndxyPsi3 o tiny (c3y psi) i j k = -ndxyPsi3 o tiny psi i (-j) k := by
  simp only [ndxyPsi3, c3y_at, f3y_at, ri1, ri2, ri3, ri4, ri5, ri6, ri7, ri8, ri9, ri10, ri11, abs_neg] <;>
  refl_close
theorem ndxyPsi3_rz (o : OptsT) (tiny : K) (psi : Ar3 K) (i j k : Int) :
    ndxyPsi3 o tiny (c3z psi) i j k = ndxyPsi3 o tiny psi i j (-k) := by
  simp only [ndxyPsi3, c3z_at, f3z_at, ri1, ri2, ri3, ri4, ri5, ri6, ri7, ri8, ri9, ri10, ri11, abs_neg] <;>
  refl_close
theorem ndxzPsi3_rx (o : OptsT) (tiny : K) (psi : Ar3 K) (i j k : Int) :
    ndxzPsi3 o tiny (c3x psi) i j k = -ndxzPsi3 o tiny psi (-i) j k := by
  simp only [ndxzPsi3, c3x_at, f3x_at, ri1, ri2, ri3, ri4, ri5, ri6, ri7, ri8, ri9, ri10, ri11, abs_neg] <;>
  refl_close
theorem ndxzPsi3_ry (o : OptsT) (tiny : K) (psi : Ar3 K) (i j k : Int) :
    ndxzPsi3 o tiny (c3y psi) i j k = ndxzPsi3 o tiny psi i (-j) k := by
  simp only [ndxzPsi3, c3y_at, f3y_at, ri1, ri2, ri3, ri4, ri5, ri6, ri7, ri8, ri9, ri10, ri11, abs_neg] <;>
  refl_close
theorem ndxzPsi3_rz (o : OptsT) (tiny : K) (psi : Ar3 K) (i j k : Int) :
    ndxzPsi3 o tiny (c3z psi) i j k = -ndxzPsi3 o tiny psi i j (-k) := by
  simp only [ndxzPsi3, c3z_at, f3z_at, ri1, ri2, ri3, ri4, ri5, ri6, ri7, ri8, ri9, ri10, ri11, abs_neg] <;>
  refl_close
theorem ndyzPsi3_rx (o : OptsT) (tiny : K) (psi : Ar3 K) (i j k : Int) :
    ndyzPsi3 o tiny (c3x psi) i j k = ndyzPsi3 o tiny psi (-i) j k := by
  simp only [ndyzPsi3, c3x_at, f3x_at, ri1, ri2, ri3, ri4, ri5, ri6, ri7, ri8, ri9, ri10, ri11, abs_neg] <;>
  refl_close
theorem ndyzPsi3_ry (o : OptsT) (tiny : K) (psi : Ar3 K) (i j k : Int) :
    ndyzPsi3 o tiny (c3y psi) i j k = -ndyzPsi3 o tiny psi i (-j) k := by
  simp only [ndyzPsi3, c3y_at, f3y_at, ri1, ri2, ri3, ri4, ri5, ri6, ri7, ri8, ri9, ri10, ri11, abs_neg] <;>
  refl_close
theorem ndyzPsi3_rz (o : OptsT) (tiny : K) (psi : Ar3 K) (i j k : Int) :
    ndyzPsi3 o tiny (c3z psi) i j k = -ndyzPsi3 o tiny psi i j (-k) := by
  simp only [ndyzPsi3, c3z_at, f3z_at, ri1, ri2, ri3, ri4, ri5, ri6, ri7, ri8, ri9, ri10, ri11, abs_neg] <;>
  refl_close
theorem ndtxPsi3_rx (o : OptsT) (tiny : K) (psi : Ar3 K) (old : Ar3 K) (i j k : Int) :
    ndtxPsi3 o tiny (c3x psi) (c3x old) i j k = -ndtxPsi3 o tiny psi old (-i) j k := by
  simp only [ndtxPsi3, c3x_at, f3x_at, ri1, ri2, ri3, ri4, ri5, ri6, ri7, ri8, ri9, ri10, ri11, abs_neg] <;>
  refl_close
theorem ndtxPsi3_ry (o : OptsT) (tiny : K) (psi : Ar3 K) (old : Ar3 K) (i j k : Int) :
    ndtxPsi3 o tiny (c3y psi) (c3y old) i j k = ndtxPsi3 o tiny psi old i (-j) k := by
  simp only [ndtxPsi3, c3y_at, f3y_at, ri1, ri2, ri3, ri4, ri5, ri6, ri7, ri8, ri9, ri10, ri11, abs_neg] <;>
  refl_close
theorem ndtxPsi3_rz (o : OptsT) (tiny : K) (psi : Ar3 K) (old : Ar3 K) (i j k : Int) :
    ndtxPsi3 o tiny (c3z psi) (c3z old) i j k = ndtxPsi3 o tiny psi old i j (-k) := by
  simp only [ndtxPsi3, c3z_at, f3z_at, ri1, ri2, ri3, ri4, ri5, ri6, ri7, ri8, ri9, ri10, ri11, abs_neg] <;>
  refl_close
theorem ndtPsi3_rx (o : OptsT) (tiny : K) (psi : Ar3 K) (old : Ar3 K) (i j k : Int) :
    ndtPsi3 o tiny (c3x psi) (c3x old) i j k = ndtPsi3 o tiny psi old (-i) j k := by
  simp only [ndtPsi3, c3x_at, f3x_at, ri1, ri2, ri3, ri4, ri5, ri6, ri7, ri8, ri9, ri10, ri11, abs_neg] <;>
  refl_close
theorem ndtPsi3_ry (o : OptsT) (tiny : K) (psi : Ar3 K) (old : Ar3 K) (i j k : Int) :
    ndtPsi3 o tiny (c3y psi) (c3y old) i j k = ndtPsi3 o tiny psi old i (-j) k := by
  simp only [ndtPsi3, c3y_at, f3y_at, ri1, ri2, ri3, ri4, ri5, ri6, ri7, ri8, ri9, ri10, ri11, abs_neg] <;>
  refl_close
theorem ndtPsi3_rz (o : OptsT) (tiny : K) (psi : Ar3 K) (old : Ar3 K) (i j k : Int) :
    ndtPsi3 o tiny (c3z psi) (c3z old) i j k = ndtPsi3 o tiny psi old i j (-k) := by
  simp only [ndtPsi3, c3z_at, f3z_at, ri1, ri2, ri3, ri4, ri5, ri6, ri7, ri8, ri9, ri10, ri11, abs_neg] <;>
  refl_close
theorem fdivCentre3_rx (o : OptsT) (psi : Ar3 K) (ga : Ar3 K) (gb : Ar3 K) (gc : Ar3 K) (G : Ar3 K) (i j k : Int) :
    fdivCentre3 o (c3x psi) (f3x ga) (c3x gb) (c3x gc) (c3x G) i j k = fdivCentre3 o psi ga gb gc G (-i + 1) j k := by
  simp only [fdivCentre3, gF3_rx, psiBarX3_rx, psiBarY3_rx, psiBarZ3_rx, c3x_at, f3x_at, ri1, ri2, ri3, ri4, ri5, ri6, ri7, ri8, ri9, ri10, ri11, abs_neg] <;>
  refl_close
theorem fdivCentre3_ry (o : OptsT) (psi : Ar3 K) (ga : Ar3 K) (gb : Ar3 K) (gc : Ar3 K) (G : Ar3 K) (i j k : Int) :
    fdivCentre3 o (c3y psi) (c3y ga) (f3y gb) (c3y gc) (c3y G) i j k = fdivCentre3 o psi ga gb gc G i (-j) k := by
  simp only [fdivCentre3, gF3_ry, psiBarX3_ry, psiBarY3_ry, psiBarZ3_ry, c3y_at, f3y_at, ri1, ri2, ri3, ri4, ri5, ri6, ri7, ri8, ri9, ri10, ri11, abs_neg] <;>
  refl_close
theorem fdivCentre3_rz (o : OptsT) (psi : Ar3 K) (ga : Ar3 K) (gb : Ar3 K) (gc : Ar3 K) (G : Ar3 K) (i j k : Int) :
    fdivCentre3 o (c3z psi) (c3z ga) (c3z gb) (f3z gc) (c3z G) i j k = fdivCentre3 o psi ga gb gc G i j (-k) := by
  simp only [fdivCentre3, gF3_rz, psiBarX3_rz, psiBarY3_rz, psiBarZ3_rz, c3z_at, f3z_at, ri1, ri2, ri3, ri4, ri5, ri6, ri7, ri8, ri9, ri10, ri11, abs_neg] <;>
  refl_close
theorem fdivCornerXY3_rx (o : OptsT) (psi : Ar3 K) (ga : Ar3 K) (gb : Ar3 K) (gc : Ar3 K) (G : Ar3 K) (i j k : Int) :
    fdivCornerXY3 o (c3x psi) (f3x ga) (c3x gb) (c3x gc) (c3x G) i j k = fdivCornerXY3 o psi ga gb gc G (-i) j k := by
  simp only [fdivCornerXY3, gBarXY3_rx, gc0BarXY3_rx, gc1BarXY3_rx, gc2BarXY3_rx, psiBarX3_rx, psiBarY3_rx, psiBarXYZ3_rx, c3x_at, f3x_at, ri1, ri2, ri3, ri4, ri5, ri6, ri7, ri8, ri9, ri10, ri11, abs_neg] <;>
  refl_close
theorem fdivCornerXY3_ry (o : OptsT) (psi : Ar3 K) (ga : Ar3 K) (gb : Ar3 K) (gc : Ar3 K) (G : Ar3 K) (i j k : Int) :
    fdivCornerXY3 o (c3y psi) (c3y ga) (f3y gb) (c3y gc) (c3y G) i j k = fdivCornerXY3 o psi ga gb gc G i (-j - 1) k := by
  simp only [fdivCornerXY3, gBarXY3_ry, gc0BarXY3_ry, gc1BarXY3_ry, gc2BarXY3_ry, psiBarX3_ry, psiBarY3_ry, psiBarXYZ3_ry, c3y_at, f3y_at, ri1, ri2, ri3, ri4, ri5, ri6, ri7, ri8, ri9, ri10, ri11, abs_neg] <;>
  refl_close
theorem fdivCornerXY3_rz (o : OptsT) (psi : Ar3 K) (ga : Ar3 K) (gb : Ar3 K) (gc : Ar3 K) (G : Ar3 K) (i j k : Int) :
    fdivCornerXY3 o (c3z psi) (c3z ga) (c3z gb) (f3z gc) (c3z G) i j k = fdivCornerXY3 o psi ga gb gc G i j (-k) := by
  simp only [fdivCornerXY3, gBarXY3_rz, gc0BarXY3_rz, gc1BarXY3_rz, gc2BarXY3_rz, psiBarX3_rz, psiBarY3_rz, psiBarXYZ3_rz, c3z_at, f3z_at, ri1, ri2, ri3, ri4, ri5, ri6, ri7, ri8, ri9, ri10, ri11, abs_neg] <;>
  refl_close
theorem fdivCornerXZ3_rx (o : OptsT) (psi : Ar3 K) (ga : Ar3 K) (gb : Ar3 K) (gc : Ar3 K) (G : Ar3 K) (i j k : Int) :
    fdivCornerXZ3 o (c3x psi) (f3x ga) (c3x gb) (c3x gc) (c3x G) i j k = fdivCornerXZ3 o psi ga gb gc G (-i) j k := by
  simp only [fdivCornerXZ3, gBarXZ3_rx, gc0BarXZ3_rx, gc1BarXZ3_rx, gc2BarXZ3_rx, psiBarX3_rx, psiBarZ3_rx, psiBarXYZ3_rx, c3x_at, f3x_at, ri1, ri2, ri3, ri4, ri5, ri6, ri7, ri8, ri9, ri10, ri11, abs_neg] <;>
  refl_close
theorem fdivCornerXZ3_ry (o : OptsT) (psi : Ar3 K) (ga : Ar3 K) (gb : Ar3 K) (gc : Ar3 K) (G : Ar3 K) (i j k : Int) :
    fdivCornerXZ3 o (c3y psi) (c3y ga) (f3y gb) (c3y gc) (c3y G) i j k = fdivCornerXZ3 o psi ga gb gc G i (-j) k := by
  simp only [fdivCornerXZ3, gBarXZ3_ry, gc0BarXZ3_ry, gc1BarXZ3_ry, gc2BarXZ3_ry, psiBarX3_ry, psiBarZ3_ry, psiBarXYZ3_ry, c3y_at, f3y_at, ri1, ri2, ri3, ri4, ri5, ri6, ri7, ri8, ri9, ri10, ri11, abs_neg] <;>
  refl_close
theorem fdivCornerXZ3_rz (o : OptsT) (psi : Ar3 K) (ga : Ar3 K) (gb : Ar3 K) (gc : Ar3 K) (G : Ar3 K) (i j k : Int) :
    fdivCornerXZ3 o (c3z psi) (c3z ga) (c3z gb) (f3z gc) (c3z G) i j k = fdivCornerXZ3 o psi ga gb gc G i j (-k - 1) := by
  simp only [fdivCornerXZ3, gBarXZ3_rz, gc0BarXZ3_rz, gc1BarXZ3_rz, gc2BarXZ3_rz, psiBarX3_rz, psiBarZ3_rz, psiBarXYZ3_rz, c3z_at, f3z_at, ri1, ri2, ri3, ri4, ri5, ri6, ri7, ri8, ri9, ri10, ri11, abs_neg] <;>
  refl_close
theorem sum10_3_rx (o : OptsT) (psi : Ar3 K) (i j k : Int) :
    sum10_3 o (c3x psi) i j k = sum10_3 o psi (-i) j k := by
  simp only [sum10_3, c3x_at, f3x_at, ri1, ri2, ri3, ri4, ri5, ri6, ri7, ri8, ri9, ri10, ri11, abs_neg] <;>
  refl_close
theorem sum10_3_ry (o : OptsT) (psi : Ar3 K) (i j k : Int) :
    sum10_3 o (c3y psi) i j k = sum10_3 o psi i (-j) k := by
  simp only [sum10_3, c3y_at, f3y_at, ri1, ri2, ri3, ri4, ri5, ri6, ri7, ri8, ri9, ri10, ri11, abs_neg] <;>
  refl_close
theorem sum10_3_rz (o : OptsT) (psi : Ar3 K) (i j k : Int) :
    sum10_3 o (c3z psi) i j k = sum10_3 o psi i j (-k) := by
  simp only [sum10_3, c3z_at, f3z_at, ri1, ri2, ri3, ri4, ri5, ri6, ri7, ri8, ri9, ri10, ri11, abs_neg] <;>
  refl_close
theorem nfdiv3_rx (o : OptsT) (tiny : K) (psi : Ar3 K) (ga : Ar3 K) (gb : Ar3 K) (gc : Ar3 K) (G : Ar3 K) (i j k : Int) :
    nfdiv3 o tiny (c3x psi) (f3x ga) (c3x gb) (c3x gc) (c3x G) i j k = nfdiv3 o tiny psi ga gb gc G (-i) j k := by
  simp only [nfdiv3, gBarX3_rx, gc0BarX3_rx, gc1BarX3_rx, gc2BarX3_rx, psiBarXY3_rx, psiBarXZ3_rx, sum10_3_rx, c3x_at, f3x_at, ri1, ri2, ri3, ri4, ri5, ri6, ri7, ri8, ri9, ri10, ri11, abs_neg] <;>
  refl_close
theorem nfdiv3_ry (o : OptsT) (tiny : K) (psi : Ar3 K) (ga : Ar3 K) (gb : Ar3 K) (gc : Ar3 K) (G : Ar3 K) (i j k : Int) :
    nfdiv3 o tiny (c3y psi) (c3y ga) (f3y gb) (c3y gc) (c3y G) i j k = nfdiv3 o tiny psi ga gb gc G i (-j) k := by
  simp only [nfdiv3, gBarX3_ry, gc0BarX3_ry, gc1BarX3_ry, gc2BarX3_ry, psiBarXY3_ry, psiBarXZ3_ry, sum10_3_ry, c3y_at, f3y_at, ri1, ri2, ri3, ri4, ri5, ri6, ri7, ri8, ri9, ri10, ri11, abs_neg] <;>
  refl_close
theorem nfdiv3_rz (o : OptsT) (tiny : K) (psi : Ar3 K) (ga : Ar3 K) (gb : Ar3 K) (gc : Ar3 K) (G : Ar3 K) (i j k : Int) :
    nfdiv3 o tiny (c3z psi) (c3z ga) (c3z gb) (f3z gc) (c3z G) i j k = nfdiv3 o tiny psi ga gb gc G i j (-k) := by
  simp only [nfdiv3, gBarX3_rz, gc0BarX3_rz, gc1BarX3_rz, gc2BarX3_rz, psiBarXY3_rz, psiBarXZ3_rz, sum10_3_rz, c3z_at, f3z_at, ri1, ri2, ri3, ri4, ri5, ri6, ri7, ri8, ri9, ri10, ri11, abs_neg] <;>
  refl_close
theorem sum12_3_rx (o : OptsT) (psi : Ar3 K) (i j k : Int) :
    sum12_3 o (c3x psi) i j k = sum12_3 o psi (-i) j k := by
  simp only [sum12_3, c3x_at, f3x_at, ri1, ri2, ri3, ri4, ri5, ri6, ri7, ri8, ri9, ri10, ri11, abs_neg] <;>
  refl_close
theorem sum12_3_ry (o : OptsT) (psi : Ar3 K) (i j k : Int) :
    sum12_3 o (c3y psi) i j k = sum12_3 o psi i (-j) k := by
  simp only [sum12_3, c3y_at, f3y_at, ri1, ri2, ri3, ri4, ri5, ri6, ri7, ri8, ri9, ri10, ri11, abs_neg] <;>
  refl_close
theorem sum12_3_rz (o : OptsT) (psi : Ar3 K) (i j k : Int) :
    sum12_3 o (c3z psi) i j k = sum12_3 o psi i j (-k) := by
  simp only [sum12_3, c3z_at, f3z_at, ri1, ri2, ri3, ri4, ri5, ri6, ri7, ri8, ri9, ri10, ri11, abs_neg] <;>
  refl_close
theorem nfdivFdiv3_rx (o : OptsT) (tiny : K) (psi : Ar3 K) (ga : Ar3 K) (gb : Ar3 K) (gc : Ar3 K) (G : Ar3 K) (i j k : Int) :
    nfdivFdiv3 o tiny (c3x psi) (f3x ga) (c3x gb) (c3x gc) (c3x G) i j k = nfdivFdiv3 o tiny psi ga gb gc G (-i) j k := by
  simp only [nfdivFdiv3, gBarX3_rx, gc0BarX3_rx, gc1BarX3_rx, gc2BarX3_rx, fdivCentre3_rx, fdivCornerXY3_rx, fdivCornerXZ3_rx, sum12_3_rx, c3x_at, f3x_at, ri1, ri2, ri3, ri4, ri5, ri6, ri7, ri8, ri9, ri10, ri11, abs_neg] <;>
  refl_close
theorem nfdivFdiv3_ry (o : OptsT) (tiny : K) (psi : Ar3 K) (ga : Ar3 K) (gb : Ar3 K) (gc : Ar3 K) (G : Ar3 K) (i j k : Int) :
    nfdivFdiv3 o tiny (c3y psi) (c3y ga) (f3y gb) (c3y gc) (c3y G) i j k = nfdivFdiv3 o tiny psi ga gb gc G i (-j) k := by
  simp only [nfdivFdiv3, gBarX3_ry, gc0BarX3_ry, gc1BarX3_ry, gc2BarX3_ry, fdivCentre3_ry, fdivCornerXY3_ry, fdivCornerXZ3_ry, sum12_3_ry, c3y_at, f3y_at, ri1, ri2, ri3, ri4, ri5, ri6, ri7, ri8, ri9, ri10, ri11, abs_neg] <;>
  refl_close
theorem nfdivFdiv3_rz (o : OptsT) (tiny : K) (psi : Ar3 K) (ga : Ar3 K) (gb : Ar3 K) (gc : Ar3 K) (G : Ar3 K) (i j k : Int) :
    nfdivFdiv3 o tiny (c3z psi) (c3z ga) (c3z gb) (f3z gc) (c3z G) i j k = nfdivFdiv3 o tiny psi ga gb gc G i j (-k) := by
  simp only [nfdivFdiv3, gBarX3_rz, gc0BarX3_rz, gc1BarX3_rz, gc2BarX3_rz, fdivCentre3_rz, fdivCornerXY3_rz, fdivCornerXZ3_rz, sum12_3_rz, c3z_at, f3z_at, ri1, ri2, ri3, ri4, ri5, ri6, ri7, ri8, ri9, ri10, ri11, abs_neg] <;>
  refl_close
theorem ndxFdiv3_rx (o : OptsT) (tiny : K) (psi : Ar3 K) (ga : Ar3 K) (gb : Ar3 K) (gc : Ar3 K) (G : Ar3 K) (i j k : Int) :
    ndxFdiv3 o tiny (c3x psi) (f3x ga) (c3x gb) (c3x gc) (c3x G) i j k = -ndxFdiv3 o tiny psi ga gb gc G (-i) j k := by
  simp only [ndxFdiv3, fdivCentre3_rx, sum12_3_rx, c3x_at, f3x_at, ri1, ri2, ri3, ri4, ri5, ri6, ri7, ri8, ri9, ri10, ri11, abs_neg] <;>
  refl_close
theorem ndxFdiv3_ry (o : OptsT) (tiny : K) (psi : Ar3 K) (ga : Ar3 K) (gb : Ar3 K) (gc : Ar3 K) (G : Ar3 K) (i j k : Int) :
    ndxFdiv3 o tiny (c3y psi) (c3y ga) (f3y gb) (c3y gc) (c3y G) i j k = ndxFdiv3 o tiny psi ga gb gc G i (-j) k := by
  simp only [ndxFdiv3, fdivCentre3_ry, sum12_3_ry, c3y_at, f3y_at, ri1, ri2, ri3, ri4, ri5, ri6, ri7, ri8, ri9, ri10, ri11, abs_neg] <;>
  refl_close
theorem ndxFdiv3_rz (o : OptsT) (tiny : K) (psi : Ar3 K) (ga : Ar3 K) (gb : Ar3 K) (gc : Ar3 K) (G : Ar3 K) (i j k : Int) :
    ndxFdiv3 o tiny (c3z psi) (c3z ga) (c3z gb) (f3z gc) (c3z G) i j k = ndxFdiv3 o tiny psi ga gb gc G i j (-k) := by
  simp only [ndxFdiv3, fdivCentre3_rz, sum12_3_rz, c3z_at, f3z_at, ri1, ri2, ri3, ri4, ri5, ri6, ri7, ri8, ri9, ri10, ri11, abs_neg] <;>
  refl_close
theorem nfdivDt3_rx (o : OptsT) (tiny : K) (psi : Ar3 K) (old : Ar3 K) (ga : Ar3 K) (gb : Ar3 K) (gc : Ar3 K) (G : Ar3 K) (i j k : Int) :
    nfdivDt3 o tiny (c3x psi) (c3x old) (f3x ga) (c3x gb) (c3x gc) (c3x G) i j k = nfdivDt3 o tiny psi old ga gb gc G (-i) j k := by
  simp only [nfdivDt3, gBarX3_rx, gc0BarX3_rx, gc1BarX3_rx, gc2BarX3_rx, psiBarXY3_rx, psiBarXZ3_rx, sum10_3_rx, c3x_at, f3x_at, ri1, ri2, ri3, ri4, ri5, ri6, ri7, ri8, ri9, ri10, ri11, abs_neg] <;>
  refl_close
theorem nfdivDt3_ry (o : OptsT) (tiny : K) (psi : Ar3 K) (old : Ar3 K) (ga : Ar3 K) (gb : Ar3 K) (gc : Ar3 K) (G : Ar3 K) (i j k : Int) :
    nfdivDt3 o tiny (c3y psi) (c3y old) (c3y ga) (f3y gb) (c3y gc) (c3y G) i j k = nfdivDt3 o tiny psi old ga gb gc G i (-j) k := by
  simp only [nfdivDt3, gBarX3_ry, gc0BarX3_ry, gc1BarX3_ry, gc2BarX3_ry, psiBarXY3_ry, psiBarXZ3_ry, sum10_3_ry, c3y_at, f3y_at, ri1, ri2, ri3, ri4, ri5, ri6, ri7, ri8, ri9, ri10, ri11, abs_neg] <;>
  refl_close
theorem nfdivDt3_rz (o : OptsT) (tiny : K) (psi : Ar3 K) (old : Ar3 K) (ga : Ar3 K) (gb : Ar3 K) (gc : Ar3 K) (G : Ar3 K) (i j k : Int) :
    nfdivDt3 o tiny (c3z psi) (c3z old) (c3z ga) (c3z gb) (f3z gc) (c3z G) i j k = nfdivDt3 o tiny psi old ga gb gc G i j (-k) := by
  simp only [nfdivDt3, gBarX3_rz, gc0BarX3_rz, gc1BarX3_rz, gc2BarX3_rz, psiBarXY3_rz, psiBarXZ3_rz, sum10_3_rz, c3z_at, f3z_at, ri1, ri2, ri3, ri4, ri5, ri6, ri7, ri8, ri9, ri10, ri11, abs_neg] <;>
  refl_close
theorem ndxxPsiCoeff3_rx (o : OptsT) (ga : Ar3 K) (G : Ar3 K) (i j k : Int) :
    ndxxPsiCoeff3 o (f3x ga) (c3x G) i j k = -ndxxPsiCoeff3 o ga G (-i) j k := by
  simp only [ndxxPsiCoeff3, gBarX3_rx, c3x_at, f3x_at, ri1, ri2, ri3, ri4, ri5, ri6, ri7, ri8, ri9, ri10, ri11, abs_neg] <;>
  refl_close
theorem ndxxPsiCoeff3_ry (o : OptsT) (ga : Ar3 K) (G : Ar3 K) (i j k : Int) :
    ndxxPsiCoeff3 o (c3y ga) (c3y G) i j k = ndxxPsiCoeff3 o ga G i (-j) k := by
  simp only [ndxxPsiCoeff3, gBarX3_ry, c3y_at, f3y_at, ri1, ri2, ri3, ri4, ri5, ri6, ri7, ri8, ri9, ri10, ri11, abs_neg] <;>
  refl_close
theorem ndxxPsiCoeff3_rz (o : OptsT) (ga : Ar3 K) (G : Ar3 K) (i j k : Int) :
    ndxxPsiCoeff3 o (c3z ga) (c3z G) i j k = ndxxPsiCoeff3 o ga G i j (-k) := by
  simp only [ndxxPsiCoeff3, gBarX3_rz, c3z_at, f3z_at, ri1, ri2, ri3, ri4, ri5, ri6, ri7, ri8, ri9, ri10, ri11, abs_neg] <;>
  refl_close
theorem ndxyPsiCoeff3_rx (o : OptsT) (ga : Ar3 K) (gb : Ar3 K) (G : Ar3 K) (i j k : Int) :
    ndxyPsiCoeff3 o (f3x ga) (c3x gb) (c3x G) i j k = ndxyPsiCoeff3 o ga gb G (-i) j k := by
  simp only [ndxyPsiCoeff3, gBarX3_rx, gc1BarXY3_rx, c3x_at, f3x_at, ri1, ri2, ri3, ri4, ri5, ri6, ri7, ri8, ri9, ri10, ri11, abs_neg] <;>
  refl_close
theorem ndxyPsiCoeff3_ry (o : OptsT) (ga : Ar3 K) (gb : Ar3 K) (G : Ar3 K) (i j k : Int) :
    ndxyPsiCoeff3 o (c3y ga) (f3y gb) (c3y G) i j k = -ndxyPsiCoeff3 o ga gb G i (-j) k := by
  simp only [ndxyPsiCoeff3, gBarX3_ry, gc1BarXY3_ry, c3y_at, f3y_at, ri1, ri2, ri3, ri4, ri5, ri6, ri7, ri8, ri9, ri10, ri11, abs_neg] <;>
  refl_close
theorem ndxyPsiCoeff3_rz (o : OptsT) (ga : Ar3 K) (gb : Ar3 K) (G : Ar3 K) (i j k : Int) :
    ndxyPsiCoeff3 o (c3z ga) (c3z gb) (c3z G) i j k = ndxyPsiCoeff3 o ga gb G i j (-k) := by
  simp only [ndxyPsiCoeff3, gBarX3_rz, gc1BarXY3_rz, c3z_at, f3z_at, ri1, ri2, ri3, ri4, ri5, ri6, ri7, ri8, ri9, ri10, ri11, abs_neg] <;>
  refl_close
theorem ndxzPsiCoeff3_rx (o : OptsT) (ga : Ar3 K) (gc : Ar3 K) (G : Ar3 K) (i j k : Int) :
    ndxzPsiCoeff3 o (f3x ga) (c3x gc) (c3x G) i j k = ndxzPsiCoeff3 o ga gc G (-i) j k := by
  simp only [ndxzPsiCoeff3, gBarX3_rx, gc2BarXZ3_rx, c3x_at, f3x_at, ri1, ri2, ri3, ri4, ri5, ri6, ri7, ri8, ri9, ri10, ri11, abs_neg] <;>
  refl_close
theorem ndxzPsiCoeff3_ry (o : OptsT) (ga : Ar3 K) (gc : Ar3 K) (G : Ar3 K) (i j k : Int) :
    ndxzPsiCoeff3 o (c3y ga) (c3y gc) (c3y G) i j k = ndxzPsiCoeff3 o ga gc G i (-j) k := by
  simp only [ndxzPsiCoeff3, gBarX3_ry, gc2BarXZ3_ry, c3y_at, f3y_at, ri1, ri2, ri3, ri4, ri5, ri6, ri7, ri8, ri9, ri10, ri11, abs_neg] <;>
  refl_close
theorem ndxzPsiCoeff3_rz (o : OptsT) (ga : Ar3 K) (gc : Ar3 K) (G : Ar3 K) (i j k : Int) :
    ndxzPsiCoeff3 o (c3z ga) (f3z gc) (c3z G) i j k = -ndxzPsiCoeff3 o ga gc G i j (-k) := by
  simp only [ndxzPsiCoeff3, gBarX3_rz, gc2BarXZ3_rz, c3z_at, f3z_at, ri1, ri2, ri3, ri4, ri5, ri6, ri7, ri8, ri9, ri10, ri11, abs_neg] <;>
  refl_close
theorem ndyzPsiCoeff3_rx (o : OptsT) (ga : Ar3 K) (gb : Ar3 K) (gc : Ar3 K) (G : Ar3 K) (i j k : Int) :
    ndyzPsiCoeff3 o (f3x ga) (c3x gb) (c3x gc) (c3x G) i j k = -ndyzPsiCoeff3 o ga gb gc G (-i) j k := by
  simp only [ndyzPsiCoeff3, gBarX3_rx, gc1BarXY3_rx, gc2BarXZ3_rx, c3x_at, f3x_at, ri1, ri2, ri3, ri4, ri5, ri6, ri7, ri8, ri9, ri10, ri11, abs_neg] <;>
  refl_close
theorem ndyzPsiCoeff3_ry (o : OptsT) (ga : Ar3 K) (gb : Ar3 K) (gc : Ar3 K) (G : Ar3 K) (i j k : Int) :
    ndyzPsiCoeff3 o (c3y ga) (f3y gb) (c3y gc) (c3y G) i j k = -ndyzPsiCoeff3 o ga gb gc G i (-j) k := by
  simp only [ndyzPsiCoeff3, gBarX3_ry, gc1BarXY3_ry, gc2BarXZ3_ry, c3y_at, f3y_at, ri1, ri2, ri3, ri4, ri5, ri6, ri7, ri8, ri9, ri10, ri11, abs_neg] <;>
  refl_close
theorem ndyzPsiCoeff3_rz (o : OptsT) (ga : Ar3 K) (gb : Ar3 K) (gc : Ar3 K) (G : Ar3 K) (i j k : Int) :
    ndyzPsiCoeff3 o (c3z ga) (c3z gb) (f3z gc) (c3z G) i j k = -ndyzPsiCoeff3 o ga gb gc G i j (-k) := by
  simp only [ndyzPsiCoeff3, gBarX3_rz, gc1BarXY3_rz, gc2BarXZ3_rz, c3z_at, f3z_at, ri1, ri2, ri3, ri4, ri5, ri6, ri7, ri8, ri9, ri10, ri11, abs_neg] <;>
  refl_close
theorem tot3_rx (o : OptsT) (tiny : K) (psi : Ar3 K) (ga : Ar3 K) (gb : Ar3 K) (gc : Ar3 K) (G : Ar3 K) (i j k : Int) :
    tot3 o tiny (c3x psi) (f3x ga) (c3x gb) (c3x gc) (c3x G) i j k = -tot3 o tiny psi ga gb gc G (-i) j k := by
  simp only [tot3, ndxxPsi3_rx, ndxyPsi3_rx, ndxzPsi3_rx, ndyzPsi3_rx, ndxxPsiCoeff3_rx, ndxyPsiCoeff3_rx, ndxzPsiCoeff3_rx, ndyzPsiCoeff3_rx, c3x_at, f3x_at, ri1, ri2, ri3, ri4, ri5, ri6, ri7, ri8, ri9, ri10, ri11, abs_neg] <;>
  refl_close
theorem tot3_ry (o : OptsT) (tiny : K) (psi : Ar3 K) (ga : Ar3 K) (gb : Ar3 K) (gc : Ar3 K) (G : Ar3 K) (i j k : Int) :
    tot3 o tiny (c3y psi) (c3y ga) (f3y gb) (c3y gc) (c3y G) i j k = tot3 o tiny psi ga gb gc G i (-j) k := by
  simp only [tot3, ndxxPsi3_ry, ndxyPsi3_ry, ndxzPsi3_ry, ndyzPsi3_ry, ndxxPsiCoeff3_ry, ndxyPsiCoeff3_ry, ndxzPsiCoeff3_ry, ndyzPsiCoeff3_ry, c3y_at, f3y_at, ri1, ri2, ri3, ri4, ri5, ri6, ri7, ri8, ri9, ri10, ri11, abs_neg] <;>
  refl_close
theorem tot3_rz (o : OptsT) (tiny : K) (psi : Ar3 K) (ga : Ar3 K) (gb : Ar3 K) (gc : Ar3 K) (G : Ar3 K) (i j k : Int) :
    tot3 o tiny (c3z psi) (c3z ga) (c3z gb) (f3z gc) (c3z G) i j k = tot3 o tiny psi ga gb gc G i j (-k) := by
  simp only [tot3, ndxxPsi3_rz, ndxyPsi3_rz, ndxzPsi3_rz, ndyzPsi3_rz, ndxxPsiCoeff3_rz, ndxyPsiCoeff3_rz, ndxzPsiCoeff3_rz, ndyzPsiCoeff3_rz, c3z_at, f3z_at, ri1, ri2, ri3, ri4, ri5, ri6, ri7, ri8, ri9, ri10, ri11, abs_neg] <;>
  refl_close
theorem dfl3_rx (o : OptsT) (psi : Ar3 K) (ga : Ar3 K) (gb : Ar3 K) (gc : Ar3 K) (G : Ar3 K) (i j k : Int) :
    dfl3 o (c3x psi) (f3x ga) (c3x gb) (c3x gc) (c3x G) i j k = -dfl3 o psi ga gb gc G (-i) j k := by
  simp only [dfl3, gBarX3_rx, psiBarX3_rx, c3x_at, f3x_at, ri1, ri2, ri3, ri4, ri5, ri6, ri7, ri8, ri9, ri10, ri11, abs_neg] <;>
  refl_close
theorem dfl3_ry (o : OptsT) (psi : Ar3 K) (ga : Ar3 K) (gb : Ar3 K) (gc : Ar3 K) (G : Ar3 K) (i j k : Int) :
    dfl3 o (c3y psi) (c3y ga) (f3y gb) (c3y gc) (c3y G) i j k = dfl3 o psi ga gb gc G i (-j) k := by
  simp only [dfl3, gBarX3_ry, psiBarX3_ry, c3y_at, f3y_at, ri1, ri2, ri3, ri4, ri5, ri6, ri7, ri8, ri9, ri10, ri11, abs_neg] <;>
  refl_close
theorem dfl3_rz (o : OptsT) (psi : Ar3 K) (ga : Ar3 K) (gb : Ar3 K) (gc : Ar3 K) (G : Ar3 K) (i j k : Int) :
    dfl3 o (c3z psi) (c3z ga) (c3z gb) (f3z gc) (c3z G) i j k = dfl3 o psi ga gb gc G i j (-k) := by
  simp only [dfl3, gBarX3_rz, psiBarX3_rz, c3z_at, f3z_at, ri1, ri2, ri3, ri4, ri5, ri6, ri7, ri8, ri9, ri10, ri11, abs_neg] <;>
  refl_close
theorem div2nd3_rx (o : OptsT) (tiny : K) (psi : Ar3 K) (ga : Ar3 K) (gb : Ar3 K) (gc : Ar3 K) (G : Ar3 K) (i j k : Int) :
    div2nd3 o tiny (c3x psi) (f3x ga) (c3x gb) (c3x gc) (c3x G) i j k = -div2nd3 o tiny psi ga gb gc G (-i) j k := by
  simp only [div2nd3, ndxPsi3_rx, nfdiv3_rx, c3x_at, f3x_at, ri1, ri2, ri3, ri4, ri5, ri6, ri7, ri8, ri9, ri10, ri11, abs_neg] <;>
  refl_close
theorem div2nd3_ry (o : OptsT) (tiny : K) (psi : Ar3 K) (ga : Ar3 K) (gb : Ar3 K) (gc : Ar3 K) (G : Ar3 K) (i j k : Int) :
    div2nd3 o tiny (c3y psi) (c3y ga) (f3y gb) (c3y gc) (c3y G) i j k = div2nd3 o tiny psi ga gb gc G i (-j) k := by
  simp only [div2nd3, ndxPsi3_ry, nfdiv3_ry, c3y_at, f3y_at, ri1, ri2, ri3, ri4, ri5, ri6, ri7, ri8, ri9, ri10, ri11, abs_neg] <;>
  refl_close
theorem div2nd3_rz (o : OptsT) (tiny : K) (psi : Ar3 K) (ga : Ar3 K) (gb : Ar3 K) (gc : Ar3 K) (G : Ar3 K) (i j k : Int) :
    div2nd3 o tiny (c3z psi) (c3z ga) (c3z gb) (f3z gc) (c3z G) i j k = div2nd3 o tiny psi ga gb gc G i j (-k) := by
  simp only [div2nd3, ndxPsi3_rz, nfdiv3_rz, c3z_at, f3z_at, ri1, ri2, ri3, ri4, ri5, ri6, ri7, ri8, ri9, ri10, ri11, abs_neg] <;>
  refl_close
theorem div3rdUpwind3_rx (o : OptsT) (tiny : K) (psi : Ar3 K) (ga : Ar3 K) (gb : Ar3 K) (gc : Ar3 K) (G : Ar3 K) (i j k : Int) :
    div3rdUpwind3 o tiny (c3x psi) (f3x ga) (c3x gb) (c3x gc) (c3x G) i j k = -div3rdUpwind3 o tiny psi ga gb gc G (-i) j k := by
  simp only [div3rdUpwind3, ndxPsi3_rx, div2nd3_rx, c3x_at, f3x_at, ri1, ri2, ri3, ri4, ri5, ri6, ri7, ri8, ri9, ri10, ri11, abs_neg] <;>
  refl_close
theorem div3rdUpwind3_ry (o : OptsT) (tiny : K) (psi : Ar3 K) (ga : Ar3 K) (gb : Ar3 K) (gc : Ar3 K) (G : Ar3 K) (i j k : Int) :
    div3rdUpwind3 o tiny (c3y psi) (c3y ga) (f3y gb) (c3y gc) (c3y G) i j k = div3rdUpwind3 o tiny psi ga gb gc G i (-j) k := by
  simp only [div3rdUpwind3, ndxPsi3_ry, div2nd3_ry, c3y_at, f3y_at, ri1, ri2, ri3, ri4, ri5, ri6, ri7, ri8, ri9, ri10, ri11, abs_neg] <;>
  refl_close
theorem div3rdUpwind3_rz (o : OptsT) (tiny : K) (psi : Ar3 K) (ga : Ar3 K) (gb : Ar3 K) (gc : Ar3 K) (G : Ar3 K) (i j k : Int) :
    div3rdUpwind3 o tiny (c3z psi) (c3z ga) (c3z gb) (f3z gc) (c3z G) i j k = div3rdUpwind3 o tiny psi ga gb gc G i j (-k) := by
  simp only [div3rdUpwind3, ndxPsi3_rz, div2nd3_rz, c3z_at, f3z_at, ri1, ri2, ri3, ri4, ri5, ri6, ri7, ri8, ri9, ri10, ri11, abs_neg] <;>
  refl_close
theorem div3rdTemporal3_rx (o : OptsT) (te : TmprlExtrp) (psi : Ar3 K) (ndtt : Ar3 K) (i j k : Int) :
    div3rdTemporal3 o te (c3x psi) (f3x ndtt) i j k = -div3rdTemporal3 o te psi ndtt (-i) j k := by
  cases te <;> simp only [div3rdTemporal3, ndttGC03_rx] <;> refl_close
theorem div3rdTemporal3_ry (o : OptsT) (te : TmprlExtrp) (psi : Ar3 K) (ndtt : Ar3 K) (i j k : Int) :
    div3rdTemporal3 o te (c3y psi) (c3y ndtt) i j k = div3rdTemporal3 o te psi ndtt i (-j) k := by
  cases te <;> simp only [div3rdTemporal3, ndttGC03_ry] <;> refl_close
theorem div3rdTemporal3_rz (o : OptsT) (te : TmprlExtrp) (psi : Ar3 K) (ndtt : Ar3 K) (i j k : Int) :
    div3rdTemporal3 o te (c3z psi) (c3z ndtt) i j k = div3rdTemporal3 o te psi ndtt i j (-k) := by
  cases te <;> simp only [div3rdTemporal3, ndttGC03_rz] <;> refl_close
theorem div3rdSpatialHelper3_rx (o : OptsT) (si : SptlIntrp) (psi : Ar3 K) (ga : Ar3 K) (i j k : Int) :
    div3rdSpatialHelper3 o si (c3x psi) (f3x ga) i j k = -div3rdSpatialHelper3 o si psi ga (-i) j k := by
  cases si <;> simp only [div3rdSpatialHelper3, ndxxGC03_rx] <;> refl_close
theorem div3rdSpatialHelper3_ry (o : OptsT) (si : SptlIntrp) (psi : Ar3 K) (ga : Ar3 K) (i j k : Int) :
    div3rdSpatialHelper3 o si (c3y psi) (c3y ga) i j k = div3rdSpatialHelper3 o si psi ga i (-j) k := by
  cases si <;> simp only [div3rdSpatialHelper3, ndxxGC03_ry] <;> refl_close
theorem div3rdSpatialHelper3_rz (o : OptsT) (si : SptlIntrp) (psi : Ar3 K) (ga : Ar3 K) (i j k : Int) :
    div3rdSpatialHelper3 o si (c3z psi) (c3z ga) i j k = div3rdSpatialHelper3 o si psi ga i j (-k) := by
  cases si <;> simp only [div3rdSpatialHelper3, ndxxGC03_rz] <;> refl_close
theorem div3rdSpatial3_rx (o : OptsT) (si : SptlIntrp) (tiny : K) (psi : Ar3 K) (ga : Ar3 K) (i j k : Int) :
    div3rdSpatial3 o si tiny (c3x psi) (f3x ga) i j k = -div3rdSpatial3 o si tiny psi ga (-i) j k := by
  simp only [div3rdSpatial3, ndxGC03_rx, ndxPsi3_rx, ndxxPsi3_rx, div3rdSpatialHelper3_rx, c3x_at, f3x_at, ri1, ri2, ri3, ri4, ri5, ri6, ri7, ri8, ri9, ri10, ri11, abs_neg] <;>
  refl_close
theorem div3rdSpatial3_ry (o : OptsT) (si : SptlIntrp) (tiny : K) (psi : Ar3 K) (ga : Ar3 K) (i j k : Int) :
    div3rdSpatial3 o si tiny (c3y psi) (c3y ga) i j k = div3rdSpatial3 o si tiny psi ga i (-j) k := by
  simp only [div3rdSpatial3, ndxGC03_ry, ndxPsi3_ry, ndxxPsi3_ry, div3rdSpatialHelper3_ry, c3y_at, f3y_at, ri1, ri2, ri3, ri4, ri5, ri6, ri7, ri8, ri9, ri10, ri11, abs_neg] <;>
  refl_close
theorem div3rdSpatial3_rz (o : OptsT) (si : SptlIntrp) (tiny : K) (psi : Ar3 K) (ga : Ar3 K) (i j k : Int) :
    div3rdSpatial3 o si tiny (c3z psi) (c3z ga) i j k = div3rdSpatial3 o si tiny psi ga i j (-k) := by
  simp only [div3rdSpatial3, ndxGC03_rz, ndxPsi3_rz, ndxxPsi3_rz, div3rdSpatialHelper3_rz, c3z_at, f3z_at, ri1, ri2, ri3, ri4, ri5, ri6, ri7, ri8, ri9, ri10, ri11, abs_neg] <;>
  refl_close
theorem div3rd3_rx (o : OptsT) (si : SptlIntrp) (te : TmprlExtrp) (tiny : K) (psi : Ar3 K) (old : Ar3 K) (ga : Ar3 K) (gb : Ar3 K) (gc : Ar3 K) (nda : Ar3 K) (ndb : Ar3 K) (ndc : Ar3 K) (ndtt : Ar3 K) (G : Ar3 K) (i j k : Int) :
    div3rd3 o si te tiny (c3x psi) (c3x old) (f3x ga) (c3x gb) (c3x gc) (f3x nda) (c3x ndb) (c3x ndc) (f3x ndtt) (c3x G) i j k = -div3rd3 o si te tiny psi old ga gb gc nda ndb ndc ndtt G (-i) j k := by
  simp only [div3rd3, ndtxPsi3_rx, ndtPsi3_rx, nfdiv3_rx, nfdivFdiv3_rx, ndxFdiv3_rx, nfdivDt3_rx, div3rdUpwind3_rx, div3rdTemporal3_rx, div3rdSpatial3_rx, c3x_at, f3x_at, ri1, ri2, ri3, ri4, ri5, ri6, ri7, ri8, ri9, ri10, ri11, abs_neg] <;>
  refl_close
theorem div3rd3_ry (o : OptsT) (si : SptlIntrp) (te : TmprlExtrp) (tiny : K) (psi : Ar3 K) (old : Ar3 K) (ga : Ar3 K) (gb : Ar3 K) (gc : Ar3 K) (nda : Ar3 K) (ndb : Ar3 K) (ndc : Ar3 K) (ndtt : Ar3 K) (G : Ar3 K) (i j k : Int) :
    div3rd3 o si te tiny (c3y psi) (c3y old) (c3y ga) (f3y gb) (c3y gc) (c3y nda) (f3y ndb) (c3y ndc) (c3y ndtt) (c3y G) i j k = div3rd3 o si te tiny psi old ga gb gc nda ndb ndc ndtt G i (-j) k := by
  simp only [div3rd3, ndtxPsi3_ry, ndtPsi3_ry, nfdiv3_ry, nfdivFdiv3_ry, ndxFdiv3_ry, nfdivDt3_ry, div3rdUpwind3_ry, div3rdTemporal3_ry, div3rdSpatial3_ry, c3y_at, f3y_at, ri1, ri2, ri3, ri4, ri5, ri6, ri7, ri8, ri9, ri10, ri11, abs_neg] <;>
  refl_close
theorem div3rd3_rz (o : OptsT) (si : SptlIntrp) (te : TmprlExtrp) (tiny : K) (psi : Ar3 K) (old : Ar3 K) (ga : Ar3 K) (gb : Ar3 K) (gc : Ar3 K) (nda : Ar3 K) (ndb : Ar3 K) (ndc : Ar3 K) (ndtt : Ar3 K) (G : Ar3 K) (i j k : Int) :
    div3rd3 o si te tiny (c3z psi) (c3z old) (c3z ga) (c3z gb) (f3z gc) (c3z nda) (c3z ndb) (f3z ndc) (c3z ndtt) (c3z G) i j k = div3rd3 o si te tiny psi old ga gb gc nda ndb ndc ndtt G i j (-k) := by
  simp only [div3rd3, ndtxPsi3_rz, ndtPsi3_rz, nfdiv3_rz, nfdivFdiv3_rz, ndxFdiv3_rz, nfdivDt3_rz, div3rdUpwind3_rz, div3rdTemporal3_rz, div3rdSpatial3_rz, c3z_at, f3z_at, ri1, ri2, ri3, ri4, ri5, ri6, ri7, ri8, ri9, ri10, ri11, abs_neg] <;>
  refl_close
theorem antidiff3_rx (o : OptsT) (si : SptlIntrp) (te : TmprlExtrp) (tiny : K) (psi : Ar3 K) (old : Ar3 K) (ga : Ar3 K) (gb : Ar3 K) (gc : Ar3 K) (nda : Ar3 K) (ndb : Ar3 K) (ndc : Ar3 K) (ndtt : Ar3 K) (G : Ar3 K) (i j k : Int) :
    antidiff3 o si te tiny (c3x psi) (c3x old) (f3x ga) (c3x gb) (c3x gc) (f3x nda) (c3x ndb) (c3x ndc) (f3x ndtt) (c3x G) i j k = -antidiff3 o si te tiny psi old ga gb gc nda ndb ndc ndtt G (-i) j k := by
  simp only [antidiff3, gBarX3_rx, gc1BarXY3_rx, gc2BarXZ3_rx, ndxPsi3_rx, ndyPsi3_rx, ndzPsi3_rx, tot3_rx, dfl3_rx, div2nd3_rx, div3rd3_rx, c3x_at, f3x_at, ri1, ri2, ri3, ri4, ri5, ri6, ri7, ri8, ri9, ri10, ri11, abs_neg] <;>
  refl_close
theorem antidiff3_ry (o : OptsT) (si : SptlIntrp) (te : TmprlExtrp) (tiny : K) (psi : Ar3 K) (old : Ar3 K) (ga : Ar3 K) (gb : Ar3 K) (gc : Ar3 K) (nda : Ar3 K) (ndb : Ar3 K) (ndc : Ar3 K) (ndtt : Ar3 K) (G : Ar3 K) (i j k : Int) :
    antidiff3 o si te tiny (c3y psi) (c3y old) (c3y ga) (f3y gb) (c3y gc) (c3y nda) (f3y ndb) (c3y ndc) (c3y ndtt) (c3y G) i j k = antidiff3 o si te tiny psi old ga gb gc nda ndb ndc ndtt G i (-j) k := by
  simp only [antidiff3, gBarX3_ry, gc1BarXY3_ry, gc2BarXZ3_ry, ndxPsi3_ry, ndyPsi3_ry, ndzPsi3_ry, tot3_ry, dfl3_ry, div2nd3_ry, div3rd3_ry, c3y_at, f3y_at, ri1, ri2, ri3, ri4, ri5, ri6, ri7, ri8, ri9, ri10, ri11, abs_neg] <;>
  refl_close
theorem antidiff3_rz (o : OptsT) (si : SptlIntrp) (te : TmprlExtrp) (tiny : K) (psi : Ar3 K) (old : Ar3 K) (ga : Ar3 K) (gb : Ar3 K) (gc : Ar3 K) (nda : Ar3 K) (ndb : Ar3 K) (ndc : Ar3 K) (ndtt : Ar3 K) (G : Ar3 K) (i j k : Int) :
    antidiff3 o si te tiny (c3z psi) (c3z old) (c3z ga) (c3z gb) (f3z gc) (c3z nda) (c3z ndb) (f3z ndc) (c3z ndtt) (c3z G) i j k = antidiff3 o si te tiny psi old ga gb gc nda ndb ndc ndtt G i j (-k) := by
  simp only [antidiff3, gBarX3_rz, gc1BarXY3_rz, gc2BarXZ3_rz, ndxPsi3_rz, ndyPsi3_rz, ndzPsi3_rz, tot3_rz, dfl3_rz, div2nd3_rz, div3rd3_rz, c3z_at, f3z_at, ri1, ri2, ri3, ri4, ri5, ri6, ri7, ri8, ri9, ri10, ri11, abs_neg] <;>
  refl_close
end Mpdata
