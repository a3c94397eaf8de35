import Verif.Lemmas.Gauge2
/-! # 3-D antidiffusive velocity on a large background -/
set_option linter.unusedSectionVars false
set_option linter.unusedSimpArgs false
namespace Mpdata
open Filter Topology

/-- point values with the background taken off -/
noncomputable def Zv3 (o : OptsT) (y : ℝ → Ar3 ℝ) (a : ℝ) : Ar3 ℝ := fun k l m => vabs o (y a k l m) - a

section
variable {o o' : OptsT} (go : GaugeOpts o o') (tiny tiny' : ℝ) {y w : ℝ → Ar3 ℝ} {ψ ω : Ar3 ℝ}
  (hy : ∀ k l m, Tendsto (fun a => y a k l m - a) atTop (𝓝 (ψ k l m))) (hw : ∀ k l m, Tendsto (fun a => w a k l m - a) atTop (𝓝 (ω k l m)))
  (ga gb gc nda ndb ndc ndtt G : Ar3 ℝ) (hG : ∀ i j k, 0 < gF3 o G i j k) (i j k : Int)

theorem vz3 (o : OptsT) (y : ℝ → Ar3 ℝ) (a : ℝ) (k l m : Int) : vabs o (y a k l m) = Zv3 o y a k l m + a := by unfold Zv3; ring
include hy in
theorem hz3 (o : OptsT) : Tendsto (Zv3 o y) atTop (𝓝 ψ) := by
  refine tendsto_pi_nhds.2 fun k => tendsto_pi_nhds.2 fun l => tendsto_pi_nhds.2 fun m => ?_
  exact near_vabs o (hy k l m)
include go hG in
theorem gBarX3_pos (i j k : Int) : 0 < gBarX3 o G i j k := by
  unfold gBarX3; split
  · have := hG i j k; have := hG (i + 1) j k; positivity
  · exact one_pos
include go in
theorem gF3_same (i j k : Int) : gF3 o' G i j k = gF3 o G i j k := by unfold gF3; rw [go.nug]
include go in
theorem gBarX3_same (i j k : Int) : gBarX3 o' G i j k = gBarX3 o G i j k := by unfold gBarX3; simp only [gF3_same go, go.nug]
include go in
theorem gBarXY3_same (i j k : Int) : gBarXY3 o' G i j k = gBarXY3 o G i j k := by unfold gBarXY3; simp only [gF3_same go, go.nug]
include go in
theorem gBarXZ3_same (i j k : Int) : gBarXZ3 o' G i j k = gBarXZ3 o G i j k := by unfold gBarXZ3; simp only [gF3_same go, go.nug]

include go hy in
theorem ndxPsi3_lim : Lim (fun a => ndxPsi3 o tiny (y a) i j k) (ndxPsi3 o' tiny' ψ i j k) := by
  refine lim_frac (hz3 hy o) o tiny 2 2 (by norm_num) (fun z => z (i + 1) j k - z i j k) (fun z => z (i + 1) j k + z i j k) (by fun_prop) (by fun_prop) (fun a => ?_) ?_
  · simp only [ndxPsi3, go.iga, Bool.false_eq_true, if_false, vz3]; congr 2 <;> ring
  · simp only [ndxPsi3, go.iga', if_true]; ring

include go hy in
theorem ndyPsi3_lim : Lim (fun a => ndyPsi3 o tiny (y a) i j k) (ndyPsi3 o' tiny' ψ i j k) := by
  refine lim_frac (hz3 hy o) o tiny 1 4 (by norm_num) (fun z => z (i + 1) (j + 1) k + z i (j + 1) k - z (i + 1) (j - 1) k - z i (j - 1) k)
    (fun z => z (i + 1) (j + 1) k + z i (j + 1) k + z (i + 1) (j - 1) k + z i (j - 1) k) (by fun_prop) (by fun_prop) (fun a => ?_) ?_
  · simp only [ndyPsi3, go.iga, Bool.false_eq_true, if_false, vz3, one_mul]; congr 1 <;> ring
  · simp only [ndyPsi3, go.iga', if_true]; ring

include go hy in
theorem ndzPsi3_lim : Lim (fun a => ndzPsi3 o tiny (y a) i j k) (ndzPsi3 o' tiny' ψ i j k) := by
  refine lim_frac (hz3 hy o) o tiny 1 4 (by norm_num) (fun z => z (i + 1) j (k + 1) + z i j (k + 1) - z (i + 1) j (k - 1) - z i j (k - 1))
    (fun z => z (i + 1) j (k + 1) + z i j (k + 1) + z (i + 1) j (k - 1) + z i j (k - 1)) (by fun_prop) (by fun_prop) (fun a => ?_) ?_
  · simp only [ndzPsi3, go.iga, Bool.false_eq_true, if_false, vz3, one_mul]; congr 1 <;> ring
  · simp only [ndzPsi3, go.iga', if_true]; ring

include go hy in
theorem ndxxPsi3_lim : Lim (fun a => ndxxPsi3 o tiny (y a) i j k) (ndxxPsi3 o' tiny' ψ i j k) := by
  refine lim_frac (hz3 hy o) o tiny 2 4 (by norm_num) (fun z => z (i + 2) j k - z (i + 1) j k - z i j k + z (i - 1) j k)
    (fun z => z (i + 2) j k + z (i + 1) j k + z i j k + z (i - 1) j k) (by fun_prop) (by fun_prop) (fun a => ?_) ?_
  · simp only [ndxxPsi3, go.iga, Bool.false_eq_true, if_false, vz3]; congr 2 <;> ring
  · simp only [ndxxPsi3, go.iga', if_true]; ring

include go hy in
theorem ndxyPsi3_lim : Lim (fun a => ndxyPsi3 o tiny (y a) i j k) (ndxyPsi3 o' tiny' ψ i j k) := by
  refine lim_frac (hz3 hy o) o tiny 2 4 (by norm_num) (fun z => z (i + 1) (j + 1) k - z i (j + 1) k - z (i + 1) (j - 1) k + z i (j - 1) k)
    (fun z => z (i + 1) (j + 1) k + z i (j + 1) k + z (i + 1) (j - 1) k + z i (j - 1) k) (by fun_prop) (by fun_prop) (fun a => ?_) ?_
  · simp only [ndxyPsi3, go.iga, Bool.false_eq_true, if_false, vz3]; congr 2 <;> ring
  · simp only [ndxyPsi3, go.iga', if_true]; ring

include go hy in
theorem ndxzPsi3_lim : Lim (fun a => ndxzPsi3 o tiny (y a) i j k) (ndxzPsi3 o' tiny' ψ i j k) := by
  refine lim_frac (hz3 hy o) o tiny 2 4 (by norm_num) (fun z => z (i + 1) j (k + 1) - z i j (k + 1) - z (i + 1) j (k - 1) + z i j (k - 1))
    (fun z => z (i + 1) j (k + 1) + z i j (k + 1) + z (i + 1) j (k - 1) + z i j (k - 1)) (by fun_prop) (by fun_prop) (fun a => ?_) ?_
  · simp only [ndxzPsi3, go.iga, Bool.false_eq_true, if_false, vz3]; congr 2 <;> ring
  · simp only [ndxzPsi3, go.iga', if_true]; ring

include go hy in
theorem ndyzPsi3_lim : Lim (fun a => ndyzPsi3 o tiny (y a) i j k) (ndyzPsi3 o' tiny' ψ i j k) := by
  refine lim_frac (hz3 hy o) o tiny 1 8 (by norm_num)
    (fun z => z (i + 1) (j + 1) (k + 1) + z (i + 1) (j - 1) (k - 1) - z (i + 1) (j + 1) (k - 1) - z (i + 1) (j - 1) (k + 1)
      + z i (j + 1) (k + 1) + z i (j - 1) (k - 1) - z i (j + 1) (k - 1) - z i (j - 1) (k + 1))
    (fun z => z (i + 1) (j + 1) (k + 1) + z (i + 1) (j - 1) (k - 1) + z (i + 1) (j + 1) (k - 1) + z (i + 1) (j - 1) (k + 1)
      + z i (j + 1) (k + 1) + z i (j - 1) (k - 1) + z i (j + 1) (k - 1) + z i (j - 1) (k + 1)) (by fun_prop) (by fun_prop) (fun a => ?_) ?_
  · simp only [ndyzPsi3, go.iga, Bool.false_eq_true, if_false, vz3, one_mul]; congr 1 <;> ring
  · simp only [ndyzPsi3, go.iga', if_true]; ring

include go hy hw in
theorem ndtxPsi3_lim : Lim (fun a => ndtxPsi3 o tiny (y a) (w a) i j k) (ndtxPsi3 o' tiny' ψ ω i j k) := by
  refine lim_frac ((hz3 hy o).prodMk_nhds (hz3 hw o)) o tiny 4 4 (by norm_num) (fun z => z.1 (i + 1) j k - z.2 (i + 1) j k - z.1 i j k + z.2 i j k)
    (fun z => z.1 (i + 1) j k + z.2 (i + 1) j k + z.1 i j k + z.2 i j k) (by fun_prop) (by fun_prop) (fun a => ?_) ?_
  · simp only [ndtxPsi3, go.iga, Bool.false_eq_true, if_false, vz3]; congr 2 <;> ring
  · simp only [ndtxPsi3, go.iga', if_true]; ring

include go hy hw in
theorem ndtPsi3_lim : Lim (fun a => ndtPsi3 o tiny (y a) (w a) i j k) (ndtPsi3 o' tiny' ψ ω i j k) := by
  refine lim_frac ((hz3 hy o).prodMk_nhds (hz3 hw o)) o tiny 2 4 (by norm_num) (fun z => z.1 (i + 1) j k - z.2 (i + 1) j k + z.1 i j k - z.2 i j k)
    (fun z => z.1 (i + 1) j k + z.2 (i + 1) j k + z.1 i j k + z.2 i j k) (by fun_prop) (by fun_prop) (fun a => ?_) ?_
  · simp only [ndtPsi3, go.iga, Bool.false_eq_true, if_false, vz3]; congr 2 <;> ring
  · simp only [ndtPsi3, go.iga', if_true]; ring

/-- divergence-free in the permuted coordinates -/
def DivFree3 (ga gb gc : Ar3 ℝ) : Prop := ∀ i j k, ga i j k - ga (i - 1) j k + (gb i j k - gb i (j - 1) k) + (gc i j k - gc i j (k - 1)) = 0

include go hy hG in
theorem nfdiv3_lim (hd : DivFree3 ga gb gc) : Lim (fun a => nfdiv3 o tiny (y a) ga gb gc G i j k) (nfdiv3 o' tiny' ψ ga gb gc G i j k) := by
  have hg := gBarX3_pos go G hG i j k
  have h1 := hd i j k
  have h2 := hd (i + 1) j k
  rw [add_sub_cancel_right] at h2
  refine lim_frac (hz3 hy o) o tiny 10 (gBarX3 o G i j k * 10) (by positivity)
    (fun z => gc0BarX3 ga (i + 1) j k * z (i + 1) j k - gc0BarX3 ga i j k * z i j k
      + gc1BarX3 gb i j k * ((z (i + 1) j k + z i j k + z i (j + 1) k + z (i + 1) (j + 1) k) / 4)
      - gc1BarX3 gb i (j - 1) k * ((z (i + 1) (j - 1) k + z i (j - 1) k + z i j k + z (i + 1) j k) / 4)
      + gc2BarX3 gc i j k * ((z (i + 1) j k + z i j k + z i j (k + 1) + z (i + 1) j (k + 1)) / 4)
      - gc2BarX3 gc i j (k - 1) * ((z (i + 1) j (k - 1) + z i j (k - 1) + z i j k + z (i + 1) j k) / 4))
    (fun z => gBarX3 o G i j k * (z (i + 1) j k + z i j k + z i (j + 1) k + z (i + 1) (j + 1) k + z i (j - 1) k + z (i + 1) (j - 1) k
      + z (i + 1) j (k + 1) + z (i + 1) j (k - 1) + z i j (k - 1) + z i j (k + 1))) (by fun_prop) (by fun_prop) (fun a => ?_) ?_
  · simp only [nfdiv3, go.iga, Bool.false_eq_true, if_false, psiBarXY3, psiBarXZ3, sum10_3, vz3, sub_add_cancel]
    congr 2
    · simp only [gc0BarX3, gc1BarX3, gc2BarX3, add_sub_cancel_right]
      linear_combination a / 2 * h1 + a / 2 * h2
    · ring
  · simp only [nfdiv3, go.iga', if_true, psiBarXY3, psiBarXZ3, vabs_iga' go, sub_add_cancel, gBarX3_same go]
    field_simp

include go hy hw hG in
theorem nfdivDt3_lim : Lim (fun a => nfdivDt3 o tiny (y a) (w a) ga gb gc G i j k) (nfdivDt3 o' tiny' ψ ω ga gb gc G i j k) := by
  have hg := gBarX3_pos go G hG i j k
  refine lim_frac ((hz3 hy o).prodMk_nhds (hz3 hw o)) o tiny 20 (gBarX3 o G i j k * 20) (by positivity)
    (fun z => gc0BarX3 ga (i + 1) j k * (z.1 (i + 1) j k - z.2 (i + 1) j k) - gc0BarX3 ga i j k * (z.1 i j k - z.2 i j k)
      + gc1BarX3 gb i j k * ((z.1 (i + 1) j k + z.1 i j k + z.1 i (j + 1) k + z.1 (i + 1) (j + 1) k) / 4
        - (z.2 (i + 1) j k + z.2 i j k + z.2 i (j + 1) k + z.2 (i + 1) (j + 1) k) / 4)
      - gc1BarX3 gb i (j - 1) k * ((z.1 (i + 1) (j - 1) k + z.1 i (j - 1) k + z.1 i j k + z.1 (i + 1) j k) / 4
        - (z.2 (i + 1) (j - 1) k + z.2 i (j - 1) k + z.2 i j k + z.2 (i + 1) j k) / 4)
      + gc2BarX3 gc i j k * ((z.1 (i + 1) j k + z.1 i j k + z.1 i j (k + 1) + z.1 (i + 1) j (k + 1)) / 4
        - (z.2 (i + 1) j k + z.2 i j k + z.2 i j (k + 1) + z.2 (i + 1) j (k + 1)) / 4)
      - gc2BarX3 gc i j (k - 1) * ((z.1 (i + 1) j (k - 1) + z.1 i j (k - 1) + z.1 i j k + z.1 (i + 1) j k) / 4
        - (z.2 (i + 1) j (k - 1) + z.2 i j (k - 1) + z.2 i j k + z.2 (i + 1) j k) / 4))
    (fun z => gBarX3 o G i j k * (z.1 (i + 1) j k + z.1 i j k + z.1 i (j + 1) k + z.1 (i + 1) (j + 1) k + z.1 i (j - 1) k + z.1 (i + 1) (j - 1) k
      + z.1 (i + 1) j (k + 1) + z.1 (i + 1) j (k - 1) + z.1 i j (k - 1) + z.1 i j (k + 1)
      + (z.2 (i + 1) j k + z.2 i j k + z.2 i (j + 1) k + z.2 (i + 1) (j + 1) k + z.2 i (j - 1) k + z.2 (i + 1) (j - 1) k
      + z.2 (i + 1) j (k + 1) + z.2 (i + 1) j (k - 1) + z.2 i j (k - 1) + z.2 i j (k + 1)))) (by fun_prop) (by fun_prop) (fun a => ?_) ?_
  · simp only [nfdivDt3, go.iga, Bool.false_eq_true, if_false, psiBarXY3, psiBarXZ3, sum10_3, vz3, sub_add_cancel]
    congr 2 <;> ring
  · simp only [nfdivDt3, go.iga', if_true, psiBarXY3, psiBarXZ3, vabs_iga' go, sub_add_cancel, gBarX3_same go]
    field_simp

include go in
theorem fdivCentre3_z (hd : DivFree3 ga gb gc) (a : ℝ) (i j k : Int) : fdivCentre3 o (y a) ga gb gc G i j k = fdivCentre3 o' (Zv3 o y a) ga gb gc G i j k := by
  have h1 := hd i j k
  simp only [fdivCentre3, psiBarX3, psiBarY3, psiBarZ3, vz3 o, vabs_iga' go, gF3_same go]
  congr 1
  linear_combination a * h1

include go in
theorem fdivCornerXY3_z (hd : DivFree3 ga gb gc) (a : ℝ) (i j k : Int) : fdivCornerXY3 o (y a) ga gb gc G i j k = fdivCornerXY3 o' (Zv3 o y a) ga gb gc G i j k := by
  have h1 := hd i j k
  have h2 := hd (i + 1) j k
  have h3 := hd i (j + 1) k
  have h4 := hd (i + 1) (j + 1) k
  simp only [add_sub_cancel_right] at h2 h3 h4
  simp only [fdivCornerXY3, psiBarX3, psiBarY3, psiBarXYZ3, vz3 o, vabs_iga' go, gBarXY3_same go, gc0BarXY3, gc1BarXY3, gc2BarXY3, add_sub_cancel_right]
  congr 1
  linear_combination a / 4 * (h1 + h2 + h3 + h4)

include go in
theorem fdivCornerXZ3_z (hd : DivFree3 ga gb gc) (a : ℝ) (i j k : Int) : fdivCornerXZ3 o (y a) ga gb gc G i j k = fdivCornerXZ3 o' (Zv3 o y a) ga gb gc G i j k := by
  have h1 := hd i j k
  have h2 := hd (i + 1) j k
  have h3 := hd i j (k + 1)
  have h4 := hd (i + 1) j (k + 1)
  simp only [add_sub_cancel_right] at h2 h3 h4
  simp only [fdivCornerXZ3, psiBarX3, psiBarZ3, psiBarXYZ3, vz3 o, vabs_iga' go, gBarXZ3_same go, gc0BarXZ3, gc1BarXZ3, gc2BarXZ3, add_sub_cancel_right]
  congr 1
  linear_combination a / 4 * (h1 + h2 + h3 + h4)

include go in
theorem fdivCentre3_cont (i j k : Int) : Continuous fun z : Ar3 ℝ => fdivCentre3 o' z ga gb gc G i j k := by
  simp only [fdivCentre3, psiBarX3, psiBarY3, psiBarZ3, vabs_iga' go, div_eq_mul_inv]; fun_prop
include go in
theorem fdivCornerXY3_cont (i j k : Int) : Continuous fun z : Ar3 ℝ => fdivCornerXY3 o' z ga gb gc G i j k := by
  simp only [fdivCornerXY3, psiBarX3, psiBarY3, psiBarXYZ3, vabs_iga' go, div_eq_mul_inv]; fun_prop
include go in
theorem fdivCornerXZ3_cont (i j k : Int) : Continuous fun z : Ar3 ℝ => fdivCornerXZ3 o' z ga gb gc G i j k := by
  simp only [fdivCornerXZ3, psiBarX3, psiBarZ3, psiBarXYZ3, vabs_iga' go, div_eq_mul_inv]; fun_prop

/-- the points of the twelve-point sum -/
noncomputable def pts12 (z : Ar3 ℝ) (i j k : Int) : ℝ := z (i + 2) j k + z (i + 1) j k + z i j k + z (i - 1) j k
  + z i (j + 1) k + z i (j - 1) k + z (i + 1) (j + 1) k + z (i + 1) (j - 1) k + z i j (k + 1) + z i j (k - 1) + z (i + 1) j (k + 1) + z (i + 1) j (k - 1)
theorem pts12_cont (i j k : Int) : Continuous fun z : Ar3 ℝ => pts12 z i j k := by unfold pts12; fun_prop
theorem sum12_z (o : OptsT) (y : ℝ → Ar3 ℝ) (a : ℝ) (i j k : Int) : sum12_3 o (y a) i j k = pts12 (Zv3 o y a) i j k + 12 * a := by
  simp only [sum12_3, pts12, vz3]; ring

include go hy in
theorem ndxFdiv3_lim (hd : DivFree3 ga gb gc) : Lim (fun a => ndxFdiv3 o tiny (y a) ga gb gc G i j k) (ndxFdiv3 o' tiny' ψ ga gb gc G i j k) := by
  refine lim_frac (hz3 hy o) o tiny 12 12 (by norm_num) (fun z => fdivCentre3 o' z ga gb gc G (i + 1) j k - fdivCentre3 o' z ga gb gc G i j k)
    (fun z => pts12 z i j k) ((fdivCentre3_cont go ga gb gc G _ _ _).sub (fdivCentre3_cont go ga gb gc G _ _ _)) (pts12_cont i j k) (fun a => ?_) ?_
  · simp only [ndxFdiv3, go.iga, Bool.false_eq_true, if_false, sum12_z, fdivCentre3_z go ga gb gc G hd]
  · simp only [ndxFdiv3, go.iga', if_true]; ring

include go hy hG in
theorem nfdivFdiv3_lim (hd : DivFree3 ga gb gc) : Lim (fun a => nfdivFdiv3 o tiny (y a) ga gb gc G i j k) (nfdivFdiv3 o' tiny' ψ ga gb gc G i j k) := by
  have hg := gBarX3_pos go G hG i j k
  refine lim_frac (hz3 hy o) o tiny 12 (gBarX3 o G i j k * 12) (by positivity)
    (fun z => gc0BarX3 ga (i + 1) j k * fdivCentre3 o' z ga gb gc G (i + 1) j k - gc0BarX3 ga i j k * fdivCentre3 o' z ga gb gc G i j k
      + gc1BarX3 gb i j k * fdivCornerXY3 o' z ga gb gc G i j k - gc1BarX3 gb i (j - 1) k * fdivCornerXY3 o' z ga gb gc G i (j - 1) k
      + gc2BarX3 gc i j k * fdivCornerXZ3 o' z ga gb gc G i j k - gc2BarX3 gc i j (k - 1) * fdivCornerXZ3 o' z ga gb gc G i j (k - 1))
    (fun z => gBarX3 o G i j k * pts12 z i j k) ?_ ((pts12_cont i j k).const_mul _) (fun a => ?_) ?_
  · have c1 := fdivCentre3_cont go ga gb gc G
    have c2 := fdivCornerXY3_cont go ga gb gc G
    have c3 := fdivCornerXZ3_cont go ga gb gc G
    exact ((((((c1 _ _ _).const_mul _).sub ((c1 _ _ _).const_mul _)).add ((c2 _ _ _).const_mul _)).sub ((c2 _ _ _).const_mul _)).add ((c3 _ _ _).const_mul _)).sub
      ((c3 _ _ _).const_mul _)
  · simp only [nfdivFdiv3, go.iga, Bool.false_eq_true, if_false, sum12_z, fdivCentre3_z go ga gb gc G hd, fdivCornerXY3_z go ga gb gc G hd, fdivCornerXZ3_z go ga gb gc G hd]
    congr 2; ring
  · simp only [nfdivFdiv3, go.iga', if_true, gBarX3_same go]; field_simp

include go hy hw hG in
/-- on a large background the antidiffusive velocity times the background tends to the infinite-gauge flux -/
theorem antidiff3_lim (si : SptlIntrp) (te : TmprlExtrp) (hd : DivFree3 ga gb gc)
    (h3 : isset o oDiv3 = true ∨ isset o oDiv3dt = true → DivFree3 nda ndb ndc ∧ (∀ i j k, ndtt i j k = 0)
      ∧ (si = .aver4 ∨ ∀ i j k, ga (i + 1) j k + ga (i - 1) j k - 2 * ga i j k = 0)) :
    Lim (fun a => antidiff3 o si te tiny (y a) (w a) ga gb gc nda ndb ndc ndtt G i j k) (antidiff3 o' si te tiny' ψ ω ga gb gc nda ndb ndc ndtt G i j k) := by
  have p1 := ndxPsi3_lim go tiny tiny' hy i j k
  have p2 := ndyPsi3_lim go tiny tiny' hy i j k
  have p2' := ndzPsi3_lim go tiny tiny' hy i j k
  have p3 := ndxxPsi3_lim go tiny tiny' hy i j k
  have p4 := ndxyPsi3_lim go tiny tiny' hy i j k
  have p4' := ndxzPsi3_lim go tiny tiny' hy i j k
  have p4'' := ndyzPsi3_lim go tiny tiny' hy i j k
  have p5 := ndtxPsi3_lim go tiny tiny' hy hw i j k
  have p6 := ndtPsi3_lim go tiny tiny' hy hw i j k
  have n1 := nfdiv3_lim go tiny tiny' hy ga gb gc G hG i j k hd
  have d2 : Lim (fun a => div2nd3 o tiny (y a) ga gb gc G i j k) (div2nd3 o' tiny' ψ ga gb gc G i j k) := (p1.cmul _).sub (n1.cmul _)
  have up : Lim (fun a => div3rdUpwind3 o tiny (y a) ga gb gc G i j k) (div3rdUpwind3 o' tiny' ψ ga gb gc G i j k) := by
    simp only [div3rdUpwind3, go.iga, go.iga', if_true, Bool.false_eq_true, if_false]
    exact d2.absmul p1
  have sp : isset o oDiv3 = true ∨ isset o oDiv3dt = true → Lim (fun a => div3rdSpatial3 o si tiny (y a) ga i j k) (div3rdSpatial3 o' si tiny' ψ ga i j k) := by
    intro h
    obtain ⟨-, -, h3⟩ := h3 h
    have : ∀ (o : OptsT) f, div3rdSpatialHelper3 o si f ga i j k = 0 := by
      intro o f
      rcases h3 with h3 | h3
      · subst h3; rfl
      · have h4 := h3 i j k
        cases si <;> simp only [div3rdSpatialHelper3, ndxxGC03, h4, zero_mul, mul_zero, ite_self]
    simp only [div3rdSpatial3, this]
    exact (((p3.cmul _).add ((p1.cmul 2).mulc _)).add lim_zero).cmul _
  have t0 : isset o oDiv3 = true ∨ isset o oDiv3dt = true → ∀ (o : OptsT) f, div3rdTemporal3 o te f ndtt i j k = 0 := by
    intro h o f; cases te <;> simp [div3rdTemporal3, ndttGC03, (h3 h).2.1]
  have dv3 : Lim (fun a => div3rd3 o si te tiny (y a) (w a) ga gb gc nda ndb ndc ndtt G i j k) (div3rd3 o' si te tiny' ψ ω ga gb gc nda ndb ndc ndtt G i j k) := by
    unfold div3rd3
    rw [go.div3, go.div3dt]
    by_cases h : isset o oDiv3 = true
    · have n2 := nfdiv3_lim go tiny tiny' hy nda ndb ndc G hG i j k (h3 (.inl h)).1
      simp only [h, if_true, t0 (.inl h)]
      exact ((up.add (sp (.inl h))).add ((ndxFdiv3_lim go tiny tiny' hy ga gb gc G i j k hd).cmul _)).add
        (((((nfdivFdiv3_lim go tiny tiny' hy ga gb gc G hG i j k hd).cmul _).add lim_zero).add (n2.cmul _)).sub (n1.cmul _) |>.cmul _)
    · by_cases h' : isset o oDiv3dt = true
      · have n2 := nfdiv3_lim go tiny tiny' hy nda ndb ndc G hG i j k (h3 (.inr h')).1
        simp only [h, h', if_true, Bool.false_eq_true, if_false, t0 (.inr h')]
        exact ((up.add (sp (.inr h'))).sub (p5.cmul _)).add
          (((((nfdivDt3_lim go tiny tiny' hy hw ga gb gc G hG i j k).cmul _).add lim_zero).add (n2.cmul _)).add (p6.cmul _) |>.cmul _)
      · simp only [h, h', Bool.false_eq_true, if_false]; exact lim_zero
  have t : Lim (fun a => tot3 o tiny (y a) ga gb gc G i j k) (tot3 o' tiny' ψ ga gb gc G i j k) := by
    unfold tot3
    have e1 : ndxxPsiCoeff3 o' ga G i j k = ndxxPsiCoeff3 o ga G i j k := by unfold ndxxPsiCoeff3; rw [gBarX3_same go]
    have e2 : ndxyPsiCoeff3 o' ga gb G i j k = ndxyPsiCoeff3 o ga gb G i j k := by unfold ndxyPsiCoeff3; rw [gBarX3_same go]
    have e3 : ndxzPsiCoeff3 o' ga gc G i j k = ndxzPsiCoeff3 o ga gc G i j k := by unfold ndxzPsiCoeff3; rw [gBarX3_same go]
    have e4 : ndyzPsiCoeff3 o' ga gb gc G i j k = ndyzPsiCoeff3 o ga gb gc G i j k := by unfold ndyzPsiCoeff3; rw [gBarX3_same go]
    rw [go.tot, e1, e2, e3, e4]
    by_cases h : isset o oTot = true
    · simp only [h, if_true]; exact (((p3.mulc _).add (p4.mulc _)).add (p4'.mulc _)).add (p4''.mulc _)
    · simp only [h, Bool.false_eq_true, if_false]; exact lim_zero
  have df : ∀ (o : OptsT) f, dfl3 o f ga gb gc G i j k = 0 := by
    intro o f
    have h1 := hd i j k
    have h2 := hd (i + 1) j k
    rw [add_sub_cancel_right] at h2
    have : (ga (i + 1) j k - ga (i - 1) j k) + (gb (i + 1) j k + gb i j k - gb (i + 1) (j - 1) k - gb i (j - 1) k)
        + (gc (i + 1) j k + gc i j k - gc (i + 1) j (k - 1) - gc i j (k - 1)) = 0 := by linear_combination h1 + h2
    simp [dfl3, this]
  unfold antidiff3
  rw [go.div2, go.div3]
  by_cases h : (isset o oDiv2 || isset o oDiv3) = true
  · simp only [h, if_true]; exact d2.add dv3
  · simp only [h, Bool.false_eq_true, if_false, df, gBarX3_same go]
    exact (((p1.cmul _).sub ((((p2.cmul _).add (p2'.cmul _)).cmul _).divc _)).add t).add lim_zero
end
end Mpdata
