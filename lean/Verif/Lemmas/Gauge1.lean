import Verif.Lemmas.Gauge2
/-! # 1-D antidiffusive velocity on a large background -/
set_option linter.unusedSectionVars false
set_option linter.unusedSimpArgs false
namespace Mpdata
open Filter Topology

/-- point values with the background taken off -/
noncomputable def Zv1 (o : OptsT) (y : ℝ → Int → ℝ) (a : ℝ) : Int → ℝ := fun k => vabs o (y a k) - a

section
variable {o o' : OptsT} (go : GaugeOpts o o') (tiny tiny' : ℝ) {y : ℝ → Int → ℝ} {ψ : Int → ℝ}
  (hy : ∀ k, Tendsto (fun a => y a k - a) atTop (𝓝 (ψ k)))
  (GC nd ndtt G : Int → ℝ) (hG : ∀ i, 0 < gFac1 o G i) (i : Int)

theorem vz1 (o : OptsT) (y : ℝ → Int → ℝ) (a : ℝ) (k : Int) : vabs o (y a k) = Zv1 o y a k + a := by unfold Zv1; ring
include hy in
theorem hz1 (o : OptsT) : Tendsto (Zv1 o y) atTop (𝓝 ψ) := tendsto_pi_nhds.2 fun k => near_vabs o (hy k)
include go hG in
theorem gBarX1_pos (i : Int) : 0 < gBarX1 o G i := by
  unfold gBarX1; split
  · have := hG i; have := hG (i + 1); positivity
  · exact one_pos
include go in
theorem gFac1_same (i : Int) : gFac1 o' G i = gFac1 o G i := by unfold gFac1; rw [go.nug]
include go in
theorem gBarX1_same (i : Int) : gBarX1 o' G i = gBarX1 o G i := by unfold gBarX1; simp only [gFac1_same go, go.nug]

theorem psiBarX1_v (o : OptsT) (f : Int → ℝ) (i : Int) : psiBarX1 o f i = (vabs o (f (i + 1)) + vabs o (f i)) / 2 := by unfold psiBarX1 vabs; split_ifs <;> rfl

include go hy in
theorem ndxPsi1_lim : Lim (fun a => ndxPsi1 o tiny (y a) i) (ndxPsi1 o' tiny' ψ i) := by
  have e : ∀ f, ndxPsi1 o tiny f i = 2 * frac o tiny (vabs o (f (i + 1)) - vabs o (f i)) (vabs o (f (i + 1)) + vabs o (f i)) := by
    intro f; unfold ndxPsi1 vabs; simp only [go.iga, Bool.false_eq_true, if_false]; split_ifs <;> rfl
  refine lim_frac (hz1 hy o) o tiny 2 2 (by norm_num) (fun z => z (i + 1) - z i) (fun z => z (i + 1) + z i) (by fun_prop) (by fun_prop) (fun a => ?_) ?_
  · rw [e]; simp only [vz1]; congr 2 <;> ring
  · simp only [ndxPsi1, go.iga', if_true]; ring

include go hy in
theorem ndxxPsi1_lim : Lim (fun a => ndxxPsi1 o tiny (y a) i) (ndxxPsi1 o' tiny' ψ i) := by
  have e : ∀ f, ndxxPsi1 o tiny f i = 2 * frac o tiny (vabs o (f (i + 2)) - vabs o (f (i + 1)) - vabs o (f i) + vabs o (f (i - 1)))
      (vabs o (f (i + 2)) + vabs o (f (i + 1)) + vabs o (f i) + vabs o (f (i - 1))) := by
    intro f; unfold ndxxPsi1 vabs; simp only [go.iga, Bool.false_eq_true, if_false]; split_ifs <;> rfl
  refine lim_frac (hz1 hy o) o tiny 2 4 (by norm_num) (fun z => z (i + 2) - z (i + 1) - z i + z (i - 1)) (fun z => z (i + 2) + z (i + 1) + z i + z (i - 1))
    (by fun_prop) (by fun_prop) (fun a => ?_) ?_
  · rw [e]; simp only [vz1]; congr 2 <;> ring
  · simp only [ndxxPsi1, go.iga', if_true]; ring

include go hy hG in
theorem nfdiv1_lim (hd : ∀ i, GC i = GC (i - 1)) : Lim (fun a => nfdiv1 o tiny (y a) GC G i) (nfdiv1 o' tiny' ψ GC G i) := by
  have hg := gBarX1_pos go G hG i
  have h1 := hd i
  have h2 := hd (i + 1)
  rw [add_sub_cancel_right] at h2
  have e : ∀ f, nfdiv1 o tiny f GC G i = 2 * frac o tiny (gc0BarX1 GC (i + 1) * vabs o (f (i + 1)) - gc0BarX1 GC i * vabs o (f i))
      (gBarX1 o G i * (vabs o (f (i + 1)) + vabs o (f i))) := by
    intro f; unfold nfdiv1 vabs; simp only [go.iga, Bool.false_eq_true, if_false]; split_ifs <;> rfl
  refine lim_frac (hz1 hy o) o tiny 2 (gBarX1 o G i * 2) (by positivity) (fun z => gc0BarX1 GC (i + 1) * z (i + 1) - gc0BarX1 GC i * z i)
    (fun z => gBarX1 o G i * (z (i + 1) + z i)) (by fun_prop) (by fun_prop) (fun a => ?_) ?_
  · rw [e]; simp only [vz1]; congr 2
    · simp only [gc0BarX1, add_sub_cancel_right]
      linear_combination a / 2 * h1 + a / 2 * h2
    · ring
  · simp only [nfdiv1, go.iga', if_true, gBarX1_same go]; field_simp

include go in
theorem fdivCentre1_z (hd : ∀ i, GC i = GC (i - 1)) (a : ℝ) (i : Int) : fdivCentre1 o (y a) GC G i = fdivCentre1 o' (Zv1 o y a) GC G i := by
  have h1 := hd i
  simp only [fdivCentre1, psiBarX1_v, vz1 o, vabs_iga' go, gFac1_same go]
  congr 1
  linear_combination a * h1
include go in
theorem fdivCentre1_cont (i : Int) : Continuous fun z : Int → ℝ => fdivCentre1 o' z GC G i := by
  simp only [fdivCentre1, psiBarX1_v, vabs_iga' go, div_eq_mul_inv]; fun_prop

include go hy in
theorem ndxFdiv1_lim (hd : ∀ i, GC i = GC (i - 1)) : Lim (fun a => ndxFdiv1 o tiny (y a) GC G i) (ndxFdiv1 o' tiny' ψ GC G i) := by
  have e : ∀ f, ndxFdiv1 o tiny f GC G i = 4 * frac o tiny (fdivCentre1 o f GC G (i + 1) - fdivCentre1 o f GC G i)
      (vabs o (f (i + 2)) + vabs o (f (i + 1)) + vabs o (f i) + vabs o (f (i - 1))) := by
    intro f; unfold ndxFdiv1 vabs; simp only [go.iga, Bool.false_eq_true, if_false]; split_ifs <;> rfl
  refine lim_frac (hz1 hy o) o tiny 4 4 (by norm_num) (fun z => fdivCentre1 o' z GC G (i + 1) - fdivCentre1 o' z GC G i)
    (fun z => z (i + 2) + z (i + 1) + z i + z (i - 1)) ((fdivCentre1_cont go GC G _).sub (fdivCentre1_cont go GC G _)) (by fun_prop) (fun a => ?_) ?_
  · rw [e]; simp only [vz1, fdivCentre1_z go GC G hd]; congr 2; ring
  · simp only [ndxFdiv1, go.iga', if_true]; ring

include go hy hG in
theorem nfdivFdiv1_lim (hd : ∀ i, GC i = GC (i - 1)) : Lim (fun a => nfdivFdiv1 o tiny (y a) GC G i) (nfdivFdiv1 o' tiny' ψ GC G i) := by
  have hg := gBarX1_pos go G hG i
  have e : ∀ f, nfdivFdiv1 o tiny f GC G i = 4 * frac o tiny (gc0BarX1 GC (i + 1) * fdivCentre1 o f GC G (i + 1) - gc0BarX1 GC i * fdivCentre1 o f GC G i)
      (gBarX1 o G i * (vabs o (f (i + 2)) + vabs o (f (i + 1)) + vabs o (f i) + vabs o (f (i - 1)))) := by
    intro f; unfold nfdivFdiv1 vabs; simp only [go.iga, Bool.false_eq_true, if_false]; split_ifs <;> rfl
  refine lim_frac (hz1 hy o) o tiny 4 (gBarX1 o G i * 4) (by positivity)
    (fun z => gc0BarX1 GC (i + 1) * fdivCentre1 o' z GC G (i + 1) - gc0BarX1 GC i * fdivCentre1 o' z GC G i)
    (fun z => gBarX1 o G i * (z (i + 2) + z (i + 1) + z i + z (i - 1)))
    (((fdivCentre1_cont go GC G _).const_mul _).sub ((fdivCentre1_cont go GC G _).const_mul _)) (by fun_prop) (fun a => ?_) ?_
  · rw [e]; simp only [vz1, fdivCentre1_z go GC G hd]; congr 2; ring
  · simp only [nfdivFdiv1, go.iga', if_true, gBarX1_same go]; field_simp

include go hy hG in
/-- on a large background the antidiffusive velocity times the background tends to the infinite-gauge flux -/
theorem antidiff1_lim (si : SptlIntrp) (te : TmprlExtrp) (hd : ∀ i, GC i = GC (i - 1))
    (h3 : isset o oDiv3 = true → (∀ i, nd i = nd (i - 1)) ∧ (∀ i, ndtt i = 0)) :
    Lim (fun a => antidiff1 o si te tiny (y a) GC nd ndtt G i) (antidiff1 o' si te tiny' ψ GC nd ndtt G i) := by
  have p1 := ndxPsi1_lim go tiny tiny' hy i
  have p3 := ndxxPsi1_lim go tiny tiny' hy i
  have n1 := nfdiv1_lim go tiny tiny' hy GC G hG i hd
  have hu : GC (i + 1) = GC i := by have := hd (i + 1); rwa [add_sub_cancel_right] at this
  have hl : GC (i - 1) = GC i := (hd i).symm
  have d2 : Lim (fun a => div2nd1 o tiny (y a) GC G i) (div2nd1 o' tiny' ψ GC G i) := (p1.cmul _).sub (n1.cmul _)
  have up : Lim (fun a => div3rdUpwind1 o tiny (y a) GC G i) (div3rdUpwind1 o' tiny' ψ GC G i) := by
    simp only [div3rdUpwind1, go.iga, go.iga', if_true, Bool.false_eq_true, if_false]
    exact d2.absmul p1
  have sp : Lim (fun a => div3rdSpatial1 o si tiny (y a) GC i) (div3rdSpatial1 o' si tiny' ψ GC i) := by
    have h4 : GC i + GC i - 2 * GC i = 0 := by ring
    have : ∀ (o : OptsT) f, div3rdSpatialHelper1 o si f GC i = 0 := by
      intro o f
      cases si <;> simp only [div3rdSpatialHelper1, ndxxGC01, hu, hl, h4, zero_mul, mul_zero, ite_self]
    simp only [div3rdSpatial1, this]
    exact (((p3.cmul _).add ((p1.cmul 2).mulc _)).add lim_zero).cmul _
  have dv3 : Lim (fun a => div3rd1 o si te tiny (y a) GC nd ndtt G i) (div3rd1 o' si te tiny' ψ GC nd ndtt G i) := by
    unfold div3rd1
    rw [go.div3]
    by_cases h : isset o oDiv3 = true
    · have n2 := nfdiv1_lim go tiny tiny' hy nd G hG i (h3 h).1
      have t0 : ∀ (o : OptsT) f, div3rdTemporal1 o te f ndtt i = 0 := by intro o f; cases te <;> simp [div3rdTemporal1, ndttGC01, (h3 h).2]
      simp only [h, if_true, t0]
      exact ((up.add sp).add ((ndxFdiv1_lim go tiny tiny' hy GC G i hd).cmul _)).add
        (((((nfdivFdiv1_lim go tiny tiny' hy GC G hG i hd).cmul _).add lim_zero).add (n2.cmul _)).sub (n1.cmul _) |>.cmul _)
    · simp only [h, Bool.false_eq_true, if_false]; exact lim_zero
  have t : Lim (fun a => tot1 o tiny (y a) GC G i) (tot1 o' tiny' ψ GC G i) := by
    unfold tot1
    have e1 : ndxxPsiCoeff1 o' GC G i = ndxxPsiCoeff1 o GC G i := by unfold ndxxPsiCoeff1; rw [gBarX1_same go]
    rw [go.tot, e1]
    by_cases h : isset o oTot = true
    · simp only [h, if_true]; exact p3.mulc _
    · simp only [h, Bool.false_eq_true, if_false]; exact lim_zero
  have df : ∀ (o : OptsT) f, dfl1 o f GC G i = 0 := by intro o f; simp [dfl1, hu, hl]
  unfold antidiff1
  rw [go.div2, go.div3]
  by_cases h : (isset o oDiv2 || isset o oDiv3) = true
  · simp only [h, if_true]; exact d2.add dv3
  · simp only [h, Bool.false_eq_true, if_false, df, gBarX1_same go]
    exact ((p1.cmul _).add t).add lim_zero
end
end Mpdata
