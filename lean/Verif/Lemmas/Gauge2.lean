import Verif.Lemmas.Gauge
/-! # 2-D antidiffusive velocity on a large background -/
set_option linter.unusedSectionVars false
set_option linter.unusedSimpArgs false
namespace Mpdata
open Filter Topology

/-- the option set `o'` is the option set `o` with infinite gauge -/
structure GaugeOpts (o o' : OptsT) : Prop where
  iga : isset o oIga = false
  iga' : isset o' oIga = true
  abs' : isset o' oAbs = false
  nug : isset o' oNug = isset o oNug
  tot : isset o' oTot = isset o oTot
  fot : isset o oFot = false
  fot' : isset o' oFot = false
  dfl : isset o' oDfl = isset o oDfl
  div2 : isset o' oDiv2 = isset o oDiv2
  div3 : isset o' oDiv3 = isset o oDiv3
  div3dt : isset o' oDiv3dt = isset o oDiv3dt
  fct : isset o oFct = false
  fct' : isset o' oFct = false

/-- point values with the background taken off -/
noncomputable def Zv2 (o : OptsT) (y : ℝ → Ar2 ℝ) (a : ℝ) : Ar2 ℝ := fun k l => vabs o (y a k l) - a

section
variable {o o' : OptsT} (go : GaugeOpts o o') (tiny tiny' : ℝ) {y w : ℝ → Ar2 ℝ} {ψ ω : Ar2 ℝ}
  (hy : ∀ k l, Tendsto (fun a => y a k l - a) atTop (𝓝 (ψ k l))) (hw : ∀ k l, Tendsto (fun a => w a k l - a) atTop (𝓝 (ω k l)))
  (ga gb nda ndb ndtt G : Ar2 ℝ) (hG : ∀ i j, 0 < gF2 o G i j) (i j : Int)

theorem vz2 (o : OptsT) (y : ℝ → Ar2 ℝ) (a : ℝ) (k l : Int) : vabs o (y a k l) = Zv2 o y a k l + a := by unfold Zv2; ring
theorem vabs_iga' {o o' : OptsT} (go : GaugeOpts o o') (x : ℝ) : vabs o' x = x := by unfold vabs; rw [go.abs']; rfl
include hy in
theorem hz2 (o : OptsT) : Tendsto (Zv2 o y) atTop (𝓝 ψ) := by
  refine tendsto_pi_nhds.2 fun k => tendsto_pi_nhds.2 fun l => ?_
  exact near_vabs o (hy k l)
include go hG in
theorem gBarX2_pos (i j : Int) : 0 < gBarX2 o G i j := by
  unfold gBarX2; split
  · have := hG i j; have := hG (i + 1) j; positivity
  · exact one_pos
include go in
theorem gF2_same (i j : Int) : gF2 o' G i j = gF2 o G i j := by unfold gF2; rw [go.nug]
include go in
theorem gBarX2_same (i j : Int) : gBarX2 o' G i j = gBarX2 o G i j := by unfold gBarX2; simp only [gF2_same go, go.nug]
include go in
theorem gBarXY2_same (i j : Int) : gBarXY2 o' G i j = gBarXY2 o G i j := by unfold gBarXY2; simp only [gF2_same go, go.nug]

include go hy in
theorem ndxPsi2_lim : Lim (fun a => ndxPsi2 o tiny (y a) i j) (ndxPsi2 o' tiny' ψ i j) := by
  refine lim_frac (hz2 hy o) o tiny 2 2 (by norm_num) (fun z => z (i + 1) j - z i j) (fun z => z (i + 1) j + z i j) (by fun_prop) (by fun_prop) (fun a => ?_) ?_
  · simp only [ndxPsi2, go.iga, Bool.false_eq_true, if_false, vz2]; congr 2 <;> ring
  · simp only [ndxPsi2, go.iga', if_true]; ring

include go hy in
theorem ndyPsi2_lim : Lim (fun a => ndyPsi2 o tiny (y a) i j) (ndyPsi2 o' tiny' ψ i j) := by
  refine lim_frac (hz2 hy o) o tiny 1 4 (by norm_num) (fun z => z (i + 1) (j + 1) + z i (j + 1) - z (i + 1) (j - 1) - z i (j - 1))
    (fun z => z (i + 1) (j + 1) + z i (j + 1) + z (i + 1) (j - 1) + z i (j - 1)) (by fun_prop) (by fun_prop) (fun a => ?_) ?_
  · simp only [ndyPsi2, go.iga, Bool.false_eq_true, if_false, vz2, one_mul]; congr 1 <;> ring
  · simp only [ndyPsi2, go.iga', if_true]; ring

include go hy in
theorem ndxxPsi2_lim : Lim (fun a => ndxxPsi2 o tiny (y a) i j) (ndxxPsi2 o' tiny' ψ i j) := by
  refine lim_frac (hz2 hy o) o tiny 2 4 (by norm_num) (fun z => z (i + 2) j - z (i + 1) j - z i j + z (i - 1) j)
    (fun z => z (i + 2) j + z (i + 1) j + z i j + z (i - 1) j) (by fun_prop) (by fun_prop) (fun a => ?_) ?_
  · simp only [ndxxPsi2, go.iga, Bool.false_eq_true, if_false, vz2]; congr 2 <;> ring
  · simp only [ndxxPsi2, go.iga', if_true]; ring

include go hy in
theorem ndxyPsi2_lim : Lim (fun a => ndxyPsi2 o tiny (y a) i j) (ndxyPsi2 o' tiny' ψ i j) := by
  refine lim_frac (hz2 hy o) o tiny 2 4 (by norm_num) (fun z => z (i + 1) (j + 1) - z i (j + 1) - z (i + 1) (j - 1) + z i (j - 1))
    (fun z => z (i + 1) (j + 1) + z i (j + 1) + z (i + 1) (j - 1) + z i (j - 1)) (by fun_prop) (by fun_prop) (fun a => ?_) ?_
  · simp only [ndxyPsi2, go.iga, Bool.false_eq_true, if_false, vz2]; congr 2 <;> ring
  · simp only [ndxyPsi2, go.iga', if_true]; ring

include go hy hw in
theorem ndtxPsi2_lim : Lim (fun a => ndtxPsi2 o tiny (y a) (w a) i j) (ndtxPsi2 o' tiny' ψ ω i j) := by
  refine lim_frac ((hz2 hy o).prodMk_nhds (hz2 hw o)) o tiny 4 4 (by norm_num) (fun z => z.1 (i + 1) j - z.2 (i + 1) j - z.1 i j + z.2 i j)
    (fun z => z.1 (i + 1) j + z.2 (i + 1) j + z.1 i j + z.2 i j) (by fun_prop) (by fun_prop) (fun a => ?_) ?_
  · simp only [ndtxPsi2, go.iga, Bool.false_eq_true, if_false, vz2]; congr 2 <;> ring
  · simp only [ndtxPsi2, go.iga', if_true]; ring

include go hy hw in
theorem ndtPsi2_lim : Lim (fun a => ndtPsi2 o tiny (y a) (w a) i j) (ndtPsi2 o' tiny' ψ ω i j) := by
  refine lim_frac ((hz2 hy o).prodMk_nhds (hz2 hw o)) o tiny 2 4 (by norm_num) (fun z => z.1 (i + 1) j - z.2 (i + 1) j + z.1 i j - z.2 i j)
    (fun z => z.1 (i + 1) j + z.2 (i + 1) j + z.1 i j + z.2 i j) (by fun_prop) (by fun_prop) (fun a => ?_) ?_
  · simp only [ndtPsi2, go.iga, Bool.false_eq_true, if_false, vz2]; congr 2 <;> ring
  · simp only [ndtPsi2, go.iga', if_true]; ring

/-- divergence-free in the permuted coordinates -/
def DivFree2 (ga gb : Ar2 ℝ) : Prop := ∀ i j, ga i j - ga (i - 1) j + (gb i j - gb i (j - 1)) = 0

include go hy hG in
theorem nfdiv2_lim (hd : DivFree2 ga gb) : Lim (fun a => nfdiv2 o tiny (y a) ga gb G i j) (nfdiv2 o' tiny' ψ ga gb G i j) := by
  have hg := gBarX2_pos go G hG i j
  have h1 := hd i j
  have h2 := hd (i + 1) j
  rw [add_sub_cancel_right] at h2
  refine lim_frac (hz2 hy o) o tiny 6 (gBarX2 o G i j * 6) (by positivity)
    (fun z => gc0BarX2 ga (i + 1) j * z (i + 1) j - gc0BarX2 ga i j * z i j + gc1BarX2 gb i j * ((z (i + 1) j + z i j + z i (j + 1) + z (i + 1) (j + 1)) / 4)
      - gc1BarX2 gb i (j - 1) * ((z (i + 1) (j - 1) + z i (j - 1) + z i j + z (i + 1) j) / 4))
    (fun z => gBarX2 o G i j * (z (i + 1) j + z i j + z i (j + 1) + z (i + 1) (j + 1) + z i (j - 1) + z (i + 1) (j - 1))) (by fun_prop) (by fun_prop) (fun a => ?_) ?_
  · simp only [nfdiv2, go.iga, Bool.false_eq_true, if_false, psiBarXY2, vz2, sub_add_cancel]
    congr 2
    · simp only [gc0BarX2, gc1BarX2, add_sub_cancel_right]
      linear_combination a / 2 * h1 + a / 2 * h2
    · ring
  · simp only [nfdiv2, go.iga', if_true, psiBarXY2, vabs_iga' go, sub_add_cancel, gBarX2_same go]
    field_simp


include go hy hw hG in
theorem nfdivDt2_lim : Lim (fun a => nfdivDt2 o tiny (y a) (w a) ga gb G i j) (nfdivDt2 o' tiny' ψ ω ga gb G i j) := by
  have hg := gBarX2_pos go G hG i j
  refine lim_frac ((hz2 hy o).prodMk_nhds (hz2 hw o)) o tiny 12 (gBarX2 o G i j * 12) (by positivity)
    (fun z => gc0BarX2 ga (i + 1) j * (z.1 (i + 1) j - z.2 (i + 1) j) - gc0BarX2 ga i j * (z.1 i j - z.2 i j)
      + gc1BarX2 gb i j * ((z.1 (i + 1) j + z.1 i j + z.1 i (j + 1) + z.1 (i + 1) (j + 1)) / 4 - (z.2 (i + 1) j + z.2 i j + z.2 i (j + 1) + z.2 (i + 1) (j + 1)) / 4)
      - gc1BarX2 gb i (j - 1) * ((z.1 (i + 1) (j - 1) + z.1 i (j - 1) + z.1 i j + z.1 (i + 1) j) / 4 - (z.2 (i + 1) (j - 1) + z.2 i (j - 1) + z.2 i j + z.2 (i + 1) j) / 4))
    (fun z => gBarX2 o G i j * (z.1 (i + 1) j + z.1 i j + z.1 i (j + 1) + z.1 (i + 1) (j + 1) + z.1 i (j - 1) + z.1 (i + 1) (j - 1)
      + z.2 (i + 1) j + z.2 i j + z.2 i (j + 1) + z.2 (i + 1) (j + 1) + z.2 i (j - 1) + z.2 (i + 1) (j - 1))) (by fun_prop) (by fun_prop) (fun a => ?_) ?_
  · simp only [nfdivDt2, go.iga, Bool.false_eq_true, if_false, psiBarXY2, vz2, sub_add_cancel]
    congr 2 <;> ring
  · simp only [nfdivDt2, go.iga', if_true, psiBarXY2, vabs_iga' go, sub_add_cancel, gBarX2_same go]
    field_simp

include go in
theorem fdivCentre2_z (hd : DivFree2 ga gb) (a : ℝ) (i j : Int) : fdivCentre2 o (y a) ga gb G i j = fdivCentre2 o' (Zv2 o y a) ga gb G i j := by
  have h1 := hd i j
  simp only [fdivCentre2, psiBarX2, psiBarY2, vz2 o, vabs_iga' go, gF2_same go]
  congr 1
  linear_combination a * h1

include go in
theorem fdivCornerXY2_z (hd : DivFree2 ga gb) (a : ℝ) (i j : Int) : fdivCornerXY2 o (y a) ga gb G i j = fdivCornerXY2 o' (Zv2 o y a) ga gb G i j := by
  have h1 := hd i j
  have h2 := hd (i + 1) j
  have h3 := hd i (j + 1)
  have h4 := hd (i + 1) (j + 1)
  simp only [add_sub_cancel_right] at h2 h3 h4
  simp only [fdivCornerXY2, psiBarX2, psiBarY2, vz2 o, vabs_iga' go, gBarXY2_same go, gc0BarXY2, gc1BarXY2, add_sub_cancel_right]
  congr 1
  linear_combination a / 4 * (h1 + h2 + h3 + h4)

include go in
theorem fdivCentre2_cont (i j : Int) : Continuous fun z : Ar2 ℝ => fdivCentre2 o' z ga gb G i j := by
  simp only [fdivCentre2, psiBarX2, psiBarY2, vabs_iga' go, div_eq_mul_inv]; fun_prop
include go in
theorem fdivCornerXY2_cont (i j : Int) : Continuous fun z : Ar2 ℝ => fdivCornerXY2 o' z ga gb G i j := by
  simp only [fdivCornerXY2, psiBarX2, psiBarY2, vabs_iga' go, div_eq_mul_inv]; fun_prop

include go hy in
theorem ndxFdiv2_lim (hd : DivFree2 ga gb) : Lim (fun a => ndxFdiv2 o tiny (y a) ga gb G i j) (ndxFdiv2 o' tiny' ψ ga gb G i j) := by
  refine lim_frac (hz2 hy o) o tiny 8 8 (by norm_num) (fun z => fdivCentre2 o' z ga gb G (i + 1) j - fdivCentre2 o' z ga gb G i j)
    (fun z => z (i + 2) j + z (i + 1) j + z i j + z (i - 1) j + z i (j + 1) + z i (j - 1) + z (i + 1) (j + 1) + z (i + 1) (j - 1))
    ((fdivCentre2_cont go ga gb G _ _).sub (fdivCentre2_cont go ga gb G _ _)) (by fun_prop) (fun a => ?_) ?_
  · simp only [ndxFdiv2, go.iga, Bool.false_eq_true, if_false, sum8_2, vz2, fdivCentre2_z go ga gb G hd]; congr 2; ring
  · simp only [ndxFdiv2, go.iga', if_true]; ring

include go hy hG in
theorem nfdivFdiv2_lim (hd : DivFree2 ga gb) : Lim (fun a => nfdivFdiv2 o tiny (y a) ga gb G i j) (nfdivFdiv2 o' tiny' ψ ga gb G i j) := by
  have hg := gBarX2_pos go G hG i j
  refine lim_frac (hz2 hy o) o tiny 8 (gBarX2 o G i j * 8) (by positivity)
    (fun z => gc0BarX2 ga (i + 1) j * fdivCentre2 o' z ga gb G (i + 1) j - gc0BarX2 ga i j * fdivCentre2 o' z ga gb G i j
      + gc1BarX2 gb i j * fdivCornerXY2 o' z ga gb G i j - gc1BarX2 gb i (j - 1) * fdivCornerXY2 o' z ga gb G i (j - 1))
    (fun z => gBarX2 o G i j * (z (i + 2) j + z (i + 1) j + z i j + z (i - 1) j + z i (j + 1) + z i (j - 1) + z (i + 1) (j + 1) + z (i + 1) (j - 1)))
    ?_ (by fun_prop) (fun a => ?_) ?_
  · have c1 := fdivCentre2_cont go ga gb G
    have c2 := fdivCornerXY2_cont go ga gb G
    exact ((((c1 _ _).const_mul _).sub ((c1 _ _).const_mul _)).add ((c2 _ _).const_mul _)).sub ((c2 _ _).const_mul _)
  · simp only [nfdivFdiv2, go.iga, Bool.false_eq_true, if_false, sum8_2, vz2, fdivCentre2_z go ga gb G hd, fdivCornerXY2_z go ga gb G hd]; congr 2; ring
  · simp only [nfdivFdiv2, go.iga', if_true, gBarX2_same go]; field_simp

include go hy hw hG in
/-- on a large background the antidiffusive velocity times the background tends to the infinite-gauge flux -/
theorem antidiff2_lim (si : SptlIntrp) (te : TmprlExtrp) (hd : DivFree2 ga gb)
    (h3 : isset o oDiv3 = true ∨ isset o oDiv3dt = true → DivFree2 nda ndb ∧ (∀ i j, ndtt i j = 0) ∧ (si = .aver4 ∨ ∀ i j, ga (i + 1) j + ga (i - 1) j - 2 * ga i j = 0)) :
    Lim (fun a => antidiff2 o si te tiny (y a) (w a) ga gb nda ndb ndtt G i j) (antidiff2 o' si te tiny' ψ ω ga gb nda ndb ndtt G i j) := by
  have p1 := ndxPsi2_lim go tiny tiny' hy i j
  have p2 := ndyPsi2_lim go tiny tiny' hy i j
  have p3 := ndxxPsi2_lim go tiny tiny' hy i j
  have p4 := ndxyPsi2_lim go tiny tiny' hy i j
  have p5 := ndtxPsi2_lim go tiny tiny' hy hw i j
  have p6 := ndtPsi2_lim go tiny tiny' hy hw i j
  have n1 := nfdiv2_lim go tiny tiny' hy ga gb G hG i j hd
  have d2 : Lim (fun a => div2nd2 o tiny (y a) ga gb G i j) (div2nd2 o' tiny' ψ ga gb G i j) := (p1.cmul _).sub (n1.cmul _)
  have up : Lim (fun a => div3rdUpwind2 o tiny (y a) ga gb G i j) (div3rdUpwind2 o' tiny' ψ ga gb G i j) := by
    simp only [div3rdUpwind2, go.iga, go.iga', if_true, Bool.false_eq_true, if_false]
    exact d2.absmul p1
  have sp : isset o oDiv3 = true ∨ isset o oDiv3dt = true → Lim (fun a => div3rdSpatial2 o si tiny (y a) ga i j) (div3rdSpatial2 o' si tiny' ψ ga i j) := by
    intro h
    obtain ⟨-, -, h3⟩ := h3 h
    have : ∀ (o : OptsT) f, div3rdSpatialHelper2 o si f ga i j = 0 := by
      intro o f
      rcases h3 with h3 | h3
      · subst h3; rfl
      · have h4 := h3 i j
        cases si <;> simp only [div3rdSpatialHelper2, ndxxGC02, h4, zero_mul, mul_zero, ite_self]
    simp only [div3rdSpatial2, this]
    exact (((p3.cmul _).add ((p1.cmul 2).mulc _)).add lim_zero).cmul _
  have tt : isset o oDiv3 = true ∨ isset o oDiv3dt = true → ∀ (o : OptsT) f, ndttGC02 o f ndtt i j = 0 := by
    intro h o f; simp [ndttGC02, (h3 h).2.1]
  have dv3 : Lim (fun a => div3rd2 o si te tiny (y a) (w a) ga gb nda ndb ndtt G i j) (div3rd2 o' si te tiny' ψ ω ga gb nda ndb ndtt G i j) := by
    unfold div3rd2
    rw [go.div3, go.div3dt]
    by_cases h : isset o oDiv3 = true
    · have n2 := nfdiv2_lim go tiny tiny' hy nda ndb G hG i j (h3 (.inl h)).1
      have t0 : ∀ (o : OptsT) f, div3rdTemporal2 o te f ndtt i j = 0 := by intro o f; cases te <;> simp [div3rdTemporal2, tt (.inl h)]
      simp only [h, if_true, t0]
      exact ((up.add (sp (.inl h))).add ((ndxFdiv2_lim go tiny tiny' hy ga gb G i j hd).cmul _)).add
        (((((nfdivFdiv2_lim go tiny tiny' hy ga gb G hG i j hd).cmul _).add lim_zero).add (n2.cmul _)).sub (n1.cmul _) |>.cmul _)
    · by_cases h' : isset o oDiv3dt = true
      · have n2 := nfdiv2_lim go tiny tiny' hy nda ndb G hG i j (h3 (.inr h')).1
        simp only [h, h', if_true, Bool.false_eq_true, if_false, tt (.inr h'), mul_zero]
        exact ((up.add (sp (.inr h'))).sub (p5.cmul _)).add
          (((((nfdivDt2_lim go tiny tiny' hy hw ga gb G hG i j).cmul _).add lim_zero).add (n2.cmul _)).add (p6.cmul _) |>.cmul _)
      · simp only [h, h', Bool.false_eq_true, if_false]; exact lim_zero
  have f0 : ∀ f, fot2 o f ga gb G i j = 0 := fun f => by unfold fot2; rw [go.fot]; rfl
  have f0' : ∀ f, fot2 o' f ga gb G i j = 0 := fun f => by unfold fot2; rw [go.fot']; rfl
  have t : Lim (fun a => tot2 o tiny (y a) ga gb G i j) (tot2 o' tiny' ψ ga gb G i j) := by
    unfold tot2
    have e1 : ndxxPsiCoeff2 o' ga G i j = ndxxPsiCoeff2 o ga G i j := by unfold ndxxPsiCoeff2; rw [gBarX2_same go]
    have e2 : ndxyPsiCoeff2 o' ga gb G i j = ndxyPsiCoeff2 o ga gb G i j := by unfold ndxyPsiCoeff2; rw [gBarX2_same go]
    rw [go.tot, e1, e2]
    by_cases h : isset o oTot = true
    · simp only [h, if_true]; exact (p3.mulc _).add (p4.mulc _)
    · simp only [h, Bool.false_eq_true, if_false]; exact lim_zero
  have df : ∀ (o : OptsT) f, dfl2 o f ga gb G i j = 0 := by
    intro o f
    have h1 := hd i j
    have h2 := hd (i + 1) j
    rw [add_sub_cancel_right] at h2
    have : (ga (i + 1) j - ga (i - 1) j) + (gb (i + 1) j + gb i j - gb (i + 1) (j - 1) - gb i (j - 1)) = 0 := by linear_combination h1 + h2
    simp [dfl2, this]
  unfold antidiff2
  rw [go.div2, go.div3]
  by_cases h : (isset o oDiv2 || isset o oDiv3) = true
  · simp only [h, if_true, f0, f0']; exact (d2.add dv3).add lim_zero
  · simp only [h, Bool.false_eq_true, if_false, f0, f0', df, gBarX2_same go]
    exact ((((p1.cmul _).sub (p2.cmul _)).add t).add lim_zero).add lim_zero
end
end Mpdata
