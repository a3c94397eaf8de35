import Verif.Lemmas.Series1
import Verif.Spec.Accuracy1
import Verif.Props.Order1
/-! # Expansion of one 1-D step in powers of the grid spacing -/
set_option linter.unusedSectionVars false
set_option linter.unusedVariables false
set_option linter.unusedSimpArgs false
namespace Mpdata
variable {K : Type} [Field K] [LinearOrder K] [IsStrictOrderedRing K]
open Spec1

theorem pospart_half (o : OptsT) (x : K) : pospart o x = (x + |x|) / 2 := by
  rcases le_total 0 x with h | h
  · rw [pospart_pos_eq o h, abs_of_nonneg h]; ring
  · rw [pospart_neg_eq o h, abs_of_nonpos h]; ring
theorem negpart_half (o : OptsT) (x : K) : negpart o x = (x - |x|) / 2 := by
  rcases le_total 0 x with h | h
  · rw [negpart_pos_eq o h, abs_of_nonneg h]; ring
  · rw [negpart_neg_eq o h, abs_of_nonpos h]; ring

/-- G-factor as used, when the option `nug` is set or G is one -/
theorem gFac1_eq {o : OptsT} {G : Int → K} (hG : isset o oNug = true ∨ ∀ k, G k = 1) (k : Int) : gFac1 o G k = G k := by
  unfold gFac1; rcases hG with h | h
  · rw [if_pos h]
  · split_ifs <;> simp [h]
theorem gBarX1_eq {o : OptsT} {G : Int → K} (hG : isset o oNug = true ∨ ∀ k, G k = 1) (k : Int) : gBarX1 o G k = (G (k + 1) + G k) / 2 := by
  unfold gBarX1
  rw [gFac1_eq hG, gFac1_eq hG]
  rcases hG with h | h
  · rw [if_pos h]
  · split_ifs <;> simp [h]

/-- expansion of the Courant numbers -/
def sFace1 (si : SptlIntrp) (u : Ser2 K) (t : K) : Ser2 K := fun m n =>
  match si with
  | .exact => u m n * t ^ n
  | .aver2 => Ser2.av (fun m n => u m n * t ^ n) m n
  | .aver4 => (4 * (u m n * t ^ n) - Ser2.av (fun m n => u m n * t ^ n) m n) / 3
def sCourant1 (si : SptlIntrp) (te : TmprlExtrp) (u : Ser2 K) (lam : K) : Ser2 K :=
  match te with
  | .noextrp => (sFace1 si u (1 / 2 * lam)).smul lam
  | .linear2 => (((sFace1 si u 0).smul 3).sub (sFace1 si u (-1 * lam))).smul (lam / 2)

theorem gcSample1_gr {U : K → K → K} {u : Ser2 K} (hu : Taylor2 U u) (si te) (lam : K) :
    Gr (1 / 2) (fun h k => gcSample1 si te U lam h k) (sCourant1 si te u lam) := by
  have hf : ∀ t : K, Gr (1 / 2) (fun h (k : Int) => match si with
      | .exact => U ((k + 1 / 2) * h) (t * h)
      | .aver2 => (U (k * h) (t * h) + U ((k + 1) * h) (t * h)) / 2
      | .aver4 => (7 * (U (k * h) (t * h) + U ((k + 1) * h) (t * h)) - (U ((k - 1) * h) (t * h) + U ((k + 2) * h) (t * h))) / 12)
      (sFace1 si u t) := by
    intro t
    cases si
    · exact fun k => hu.fj _ _
    · have hn : Gr 0 (fun h (k : Int) => U (k * h) (t * h)) (fun m n => u m n * t ^ n) := fun k => by simpa using hu.fj (k : K) t
      refine hn.avN.congr' fun h k => ?_
      push_cast; ring
    · intro k
      have hj : ∀ x : K, Jet (fun h => U (x * h) (t * h)) (jSer2 (fun m n => u m n * t ^ n) x 1) := fun x => hu.fj x t
      have h12 : (J4.C (12 : K)).a ≠ 0 := by simp
      refine Jet.rfl' ((((Jet.const 7).mul ((hj k).add (hj (k + 1)))).sub ((hj (k - 1)).add (hj (k + 2)))).div (Jet.const 12) h12) ?_
      ext <;> simp [jSer2, sFace1, Ser2.av] <;> ring
  cases te
  · exact (hf _).smul lam
  · refine ((((hf 0).smul 3).sub (hf _)).smul (lam / 2)).congr' fun h k => ?_
    cases si <;> simp only [gcSample1] <;> ring

theorem av00 (g : Ser2 K) : g.av 0 0 = g 0 0 := by simp [Ser2.av]
theorem sCourant1_00 (si te) (u : Ser2 K) (lam : K) : sCourant1 si te u lam 0 0 = lam * u 0 0 := by
  cases si <;> cases te <;> simp only [sCourant1, sFace1, Ser2.smul, Ser2.sub, av00] <;> ring

section
variable {o : OptsT} {f c G n1 n2 : K → Int → K} {q γ g ν1 ν2 : Ser2 K} {s : K}

/-- expansion of an upwind flux -/
def sFlux1 (s : K) (γ q : Ser2 K) : Ser2 K := (γ.mul q.av).sub (((γ.smul s).mul q.dif).smul (1 / 2))
def sFirst1 (s : K) (q γ g : Ser2 K) : Ser2 K := q.sub ((sFlux1 s γ q).dif.mul g.inv)

theorem flux_gr (o : OptsT) (hc : Gr (1 / 2) c γ) (hf : Gr 0 f q) (hca : Gr (1 / 2) (fun h k => |c h k|) (γ.smul s)) :
    Gr (1 / 2) (fun h k => makeFlux1 o (f h) (c h) k) (sFlux1 s γ q) := by
  refine ((hc.mul hf.avN).sub ((hca.mul hf.difN).smul (1 / 2))).congr' fun h k => ?_
  simp only [makeFlux1, donorF, pospart_half, negpart_half]; ring

theorem first_gr (p : K → Par K) (o : OptsT) (ho : ∀ h, (p h).o = o) (hn : ∀ h, isset o oNug = true ∨ ∀ k, (p h).G k = 1)
    (hf : Gr 0 f q) (hc : Gr (1 / 2) c γ) (hca : Gr (1 / 2) (fun h k => |c h k|) (γ.smul s)) (hG : Gr 0 (fun h k => (p h).G k) g) (hg0 : g 0 0 ≠ 0) :
    Gr 0 (fun h k => first (p h) (f h) (c h) k) (sFirst1 s q γ g) := by
  refine (hf.sub ((flux_gr o hc hf hca).difF.div hG hg0)).congr' fun h k => ?_
  simp only [first, donorStep1, donorSum1_eq, ho, gFac1_eq (hn h), makeFlux1, sub_add_cancel]; ring

theorem gBar_gr (hn : ∀ h, isset o oNug = true ∨ ∀ k, G h k = 1) (hG : Gr 0 G g) : Gr (1 / 2) (fun h k => gBarX1 o (G h) k) g.av :=
  hG.avN.congr' fun h k => gBarX1_eq (hn h) k

/-- factors of the spatial and temporal corrections -/
def siFac (si : SptlIntrp) : K := match si with | .exact => 1 | .aver2 => 4 | .aver4 => 0
def teFac (te : TmprlExtrp) : K := match te with | .noextrp => 1 | .linear2 => 10

/-- normalising sums of the basic scheme over two and four points (one in the infinite-gauge scheme), and the mean field by which only the infinite-gauge scheme multiplies -/
def w2 (ig : Bool) (q : Ser2 K) : Ser2 K := if ig then Ser2.C 1 else q.av
def w4 (ig : Bool) (q : Ser2 K) : Ser2 K := if ig then Ser2.C 1 else (q.av.av.av.smul 2).sub q.av
def wb (ig : Bool) (q : Ser2 K) : Ser2 K := if ig then q.av else Ser2.C 1

/-- corrective velocities -/
def sNdx1 (ig : Bool) (q : Ser2 K) : Ser2 K := q.dif.mul (w2 ig q).inv
def sNdxx1 (ig : Bool) (q : Ser2 K) : Ser2 K := q.dif.av.dif.mul (w4 ig q).inv
def sNfdiv1 (ig : Bool) (q γ g : Ser2 K) : Ser2 K := (γ.av.mul q).dif.mul (g.av.mul (w2 ig q)).inv
def sDiv2 (ig : Bool) (s : K) (q γ g : Ser2 K) : Ser2 K := (((γ.smul s).mul (sNdx1 ig q)).sub (γ.mul (sNfdiv1 ig q γ g))).smul (1 / 2)
def sFdivC1 (q γ g : Ser2 K) : Ser2 K := (γ.mul q.av).dif.mul g.inv
def sNfdivFdiv1 (ig : Bool) (q γ g : Ser2 K) : Ser2 K := (γ.av.mul (sFdivC1 q γ g)).dif.mul (g.av.mul (w4 ig q)).inv
def sNdxFdiv1 (ig : Bool) (q γ g : Ser2 K) : Ser2 K := (sFdivC1 q γ g).dif.mul (w4 ig q).inv
def sHelp1 (ig : Bool) (a : K) (q γ : Ser2 K) : Ser2 K := (γ.dif.dif.mul (wb ig q)).smul a
def sTemp1 (ig : Bool) (b : K) (q ν2 : Ser2 K) : Ser2 K := (ν2.mul (wb ig q)).smul b
def sSpat1 (ig : Bool) (a : K) (q γ : Ser2 K) : Ser2 K := (((γ.mul (sNdxx1 ig q)).smul 4).add ((((sNdx1 ig q).mul γ.av.dif).smul 2).add (sHelp1 ig a q γ))).smul (-(1 / 24))
def sUpw1 (ig : Bool) (z : K) (q v : Ser2 K) : Ser2 K := if ig then Ser2.C 0 else ((v.smul z).mul (sNdx1 ig q)).smul (1 / 2)
/-- `z` is the sign of the second-order velocity -/
def sDiv3 (ig : Bool) (a b s z : K) (q γ ν1 ν2 g : Ser2 K) : Ser2 K :=
  (sUpw1 ig z q (sDiv2 ig s q γ g)).add ((sSpat1 ig a q γ).add ((((γ.smul s).mul (sNdxFdiv1 ig q γ g)).smul (1 / 2)).add
    (((((γ.mul (sNfdivFdiv1 ig q γ g)).smul (-8)).add (sTemp1 ig b q ν2)).add (((γ.mul (sNfdiv1 ig q ν1 g)).sub (ν1.mul (sNfdiv1 ig q γ g))).smul 2)).smul (1 / 24))))
def sTot1 (ig : Bool) (s : K) (q γ g : Ser2 K) : Ser2 K :=
  (sNdxx1 ig q).mul ((((((γ.mul (γ.smul s)).smul 3).mul g.av.inv).sub (((γ.mul (γ.mul γ)).smul 2).mul (g.av.mul g.av).inv)).sub γ).smul (1 / 6))
def sDfl1 (ig : Bool) (q γ g : Ser2 K) : Ser2 K := (((γ.mul γ.av.dif).mul g.av.inv).mul (wb ig q)).smul (-(1 / 2))
def sStd1 (ig : Bool) (s : K) (q γ g : Ser2 K) : Ser2 K := (((γ.smul s).mul (sNdx1 ig q)).mul ((Ser2.C 1).sub ((γ.smul s).mul g.av.inv))).smul (1 / 2)

theorem mul00 (a b : Ser2 K) : a.mul b 0 0 = a 0 0 * b 0 0 := by simp [Ser2.mul]
theorem w2_00 {ig : Bool} (h : ig = true ∨ q 0 0 ≠ 0) : w2 ig q 0 0 ≠ 0 := by
  cases ig
  · rcases h with h | h
    · cases h
    · simpa [w2, av00] using h
  · simp [w2, Ser2.C]
theorem w4_00 {ig : Bool} (h : ig = true ∨ q 0 0 ≠ 0) : w4 ig q 0 0 ≠ 0 := by
  cases ig
  · rcases h with h | h
    · cases h
    · have : 2 * q 0 0 - q 0 0 ≠ 0 := by rw [show 2 * q 0 0 - q 0 0 = q 0 0 by ring]; exact h
      simpa [w4, av00, Ser2.sub, Ser2.smul] using this
  · simp [w4, Ser2.C]

/-- the regularised fraction is the fraction: with the option `pfc`, or when the regularising constant vanishes -/
theorem frac_eq {tiny : K} (h : isset o oPfc = true ∨ tiny = 0) (x y : K) : frac o tiny x y = x / y := by
  unfold frac
  split_ifs with h1 h2
  · rfl
  · push Not at h2; rw [h2, div_zero]
  · rcases h with h | h
    · exact absurd h h1
    · rw [h, add_zero]

/-- assumptions on the options: no `abs`; in the basic scheme, exact fractions -/
structure AccOpts (o : OptsT) (tiny : K) : Prop where
  ha : isset o oAbs = false
  hp : isset o oIga = true ∨ isset o oPfc = true ∨ tiny = 0

theorem psiBar_gr (ha : isset o oAbs = false) (hf : Gr 0 f q) : Gr (1 / 2) (fun h k => psiBarX1 o (f h) k) q.av :=
  hf.avN.congr' fun h k => by simp only [psiBarX1, ha, Bool.false_eq_true, if_false]

theorem w2_gr (o : OptsT) (hf : Gr 0 f q) : Gr (1 / 2) (fun h k => if isset o oIga = true then 1 else (f h (k + 1) + f h k) / 2) (w2 (isset o oIga) q) := by
  cases isset o oIga
  · simpa [w2] using hf.avN
  · simpa [w2] using Gr.const 1
theorem wb_gr (ha : isset o oAbs = false) (hf : Gr 0 f q) : Gr (1 / 2) (fun h k => if isset o oIga = true then psiBarX1 o (f h) k else 1) (wb (isset o oIga) q) := by
  cases isset o oIga
  · simpa [wb] using Gr.const 1
  · simpa [wb] using psiBar_gr ha hf
theorem w4_gr (o : OptsT) (hf : Gr 0 f q) :
    Gr (1 / 2) (fun h k => if isset o oIga = true then 1 else (f h (k + 2) + f h (k + 1) + f h k + f h (k - 1)) / 4) (w4 (isset o oIga) q) := by
  cases isset o oIga
  · refine ((hf.avN.avF.avN.smul 2).sub hf.avN).congr' fun h k => ?_
    simp only [Bool.false_eq_true, if_false, add_sub_cancel_right, sub_add_cancel, add_assoc]; norm_num; ring
  · simpa [w4] using Gr.const 1

theorem ndx_gr {tiny : K} (H : AccOpts o tiny) (hf : Gr 0 f q) (h0 : isset o oIga = true ∨ q 0 0 ≠ 0) :
    Gr (1 / 2) (fun h k => ndxPsi1 o tiny (f h) k) (sNdx1 (isset o oIga) q) := by
  refine (hf.difN.div (w2_gr o hf) (w2_00 h0)).congr' fun h k => ?_
  cases hi : isset o oIga
  · simp only [ndxPsi1, hi, H.ha, Bool.false_eq_true, if_false, frac_eq (H.hp.resolve_left (by simp [hi]))]; rw [div_div_eq_mul_div]; ring
  · simp only [ndxPsi1, hi, if_true]; ring

theorem ndxx_gr {tiny : K} (H : AccOpts o tiny) (hf : Gr 0 f q) (h0 : isset o oIga = true ∨ q 0 0 ≠ 0) :
    Gr (1 / 2) (fun h k => ndxxPsi1 o tiny (f h) k) (sNdxx1 (isset o oIga) q) := by
  refine (hf.difN.avF.difN.div (w4_gr o hf) (w4_00 h0)).congr' fun h k => ?_
  cases hi : isset o oIga
  · simp only [ndxxPsi1, hi, H.ha, Bool.false_eq_true, if_false, frac_eq (H.hp.resolve_left (by simp [hi])), add_sub_cancel_right, sub_add_cancel, add_assoc]; norm_num
    rw [div_div_eq_mul_div]; ring
  · simp only [ndxxPsi1, hi, if_true, add_sub_cancel_right, sub_add_cancel, add_assoc]; norm_num; ring

theorem ndxGC_gr (hc : Gr (1 / 2) c γ) : Gr (1 / 2) (fun h k => ndxGC01 (c h) k) γ.av.dif :=
  hc.avF.difN.congr' fun h k => by simp only [ndxGC01, add_sub_cancel_right]; ring

theorem nfdiv_gr {tiny : K} (H : AccOpts o tiny) (hn : ∀ h, isset o oNug = true ∨ ∀ k, G h k = 1) (hf : Gr 0 f q) (h0 : isset o oIga = true ∨ q 0 0 ≠ 0) (hc : Gr (1 / 2) c γ)
    (hG : Gr 0 G g) (hg0 : g 0 0 ≠ 0) : Gr (1 / 2) (fun h k => nfdiv1 o tiny (f h) (c h) (G h) k) (sNfdiv1 (isset o oIga) q γ g) := by
  refine ((hc.avF.mul hf).difN.div ((gBar_gr hn hG).mul (w2_gr o hf)) (by rw [mul00, av00]; exact mul_ne_zero hg0 (w2_00 h0))).congr' fun h k => ?_
  cases hi : isset o oIga
  · simp only [nfdiv1, hi, H.ha, Bool.false_eq_true, if_false, frac_eq (H.hp.resolve_left (by simp [hi])), gc0BarX1]; rw [← mul_div_assoc (gBarX1 o (G h) k), div_div_eq_mul_div]; ring
  · simp only [nfdiv1, hi, if_true, gc0BarX1, mul_one]

theorem div2_gr {tiny : K} (H : AccOpts o tiny) (hn : ∀ h, isset o oNug = true ∨ ∀ k, G h k = 1) (hf : Gr 0 f q) (h0 : isset o oIga = true ∨ q 0 0 ≠ 0) (hc : Gr (1 / 2) c γ)
    (hca : Gr (1 / 2) (fun h k => |c h k|) (γ.smul s)) (hG : Gr 0 G g) (hg0 : g 0 0 ≠ 0) :
    Gr (1 / 2) (fun h k => div2nd1 o tiny (f h) (c h) (G h) k) (sDiv2 (isset o oIga) s q γ g) :=
  (((hca.mul (ndx_gr H hf h0)).sub (hc.mul (nfdiv_gr H hn hf h0 hc hG hg0))).smul (1 / 2)).congr' fun h k => by simp only [div2nd1]; ring

theorem fdivC_gr (ha : isset o oAbs = false) (hn : ∀ h, isset o oNug = true ∨ ∀ k, G h k = 1) (hf : Gr 0 f q) (hc : Gr (1 / 2) c γ) (hG : Gr 0 G g) (hg0 : g 0 0 ≠ 0) :
    Gr 0 (fun h k => fdivCentre1 o (f h) (c h) (G h) k) (sFdivC1 q γ g) :=
  ((hc.mul (psiBar_gr ha hf)).difF.div hG hg0).congr' fun h k => by simp only [fdivCentre1, gFac1_eq (hn h)]

theorem div3_gr {tiny z : K} (H : AccOpts o tiny) (h3 : isset o oDiv3 = true) (hn : ∀ h, isset o oNug = true ∨ ∀ k, G h k = 1) (si te)
    (hf : Gr 0 f q) (h0 : isset o oIga = true ∨ q 0 0 ≠ 0) (hc : Gr (1 / 2) c γ) (hca : Gr (1 / 2) (fun h k => |c h k|) (γ.smul s)) (hG : Gr 0 G g) (hg0 : g 0 0 ≠ 0)
    (h1 : Gr (1 / 2) n1 ν1) (h2 : Gr (1 / 2) n2 ν2)
    (hz : isset o oIga = true ∨ Gr (1 / 2) (fun h k => |div2nd1 o tiny (f h) (c h) (G h) k|) ((sDiv2 (isset o oIga) s q γ g).smul z)) :
    Gr (1 / 2) (fun h k => div3rd1 o si te tiny (f h) (c h) (n1 h) (n2 h) (G h) k) (sDiv3 (isset o oIga) (siFac si) (teFac te) s z q γ ν1 ν2 g) := by
  have hF := fdivC_gr H.ha hn hf hc hG hg0
  have hb := wb_gr H.ha hf
  have b1 : Gr (1 / 2) (fun h k => nfdivFdiv1 o tiny (f h) (c h) (G h) k) (sNfdivFdiv1 (isset o oIga) q γ g) := by
    refine ((hc.avF.mul hF).difN.div ((gBar_gr hn hG).mul (w4_gr o hf)) (by rw [mul00, av00]; exact mul_ne_zero hg0 (w4_00 h0))).congr' fun h k => ?_
    cases hi : isset o oIga
    · simp only [nfdivFdiv1, hi, H.ha, Bool.false_eq_true, if_false, frac_eq (H.hp.resolve_left (by simp [hi])), gc0BarX1]; rw [← mul_div_assoc (gBarX1 o (G h) k), div_div_eq_mul_div]; ring
    · simp only [nfdivFdiv1, hi, if_true, gc0BarX1, mul_one]
  have b2 : Gr (1 / 2) (fun h k => ndxFdiv1 o tiny (f h) (c h) (G h) k) (sNdxFdiv1 (isset o oIga) q γ g) := by
    refine (hF.difN.div (w4_gr o hf) (w4_00 h0)).congr' fun h k => ?_
    cases hi : isset o oIga
    · simp only [ndxFdiv1, hi, H.ha, Bool.false_eq_true, if_false, frac_eq (H.hp.resolve_left (by simp [hi]))]; rw [div_div_eq_mul_div]; ring
    · simp only [ndxFdiv1, hi, if_true, div_one]
  have b3 : Gr (1 / 2) (fun h k => div3rdTemporal1 o te (f h) (n2 h) k) (sTemp1 (isset o oIga) (teFac te) q ν2) :=
    ((h2.mul hb).smul _).congr' fun h k => by cases te <;> simp only [div3rdTemporal1, ndttGC01, one_mul, teFac] <;> split_ifs <;> simp
  have b4 : Gr (1 / 2) (fun h k => div3rdSpatialHelper1 o si (f h) (c h) k) (sHelp1 (isset o oIga) (siFac si) q γ) :=
    ((hc.difF.difN.mul hb).smul _).congr' fun h k => by
      cases si <;> simp only [siFac, div3rdSpatialHelper1, ndxxGC01, one_mul, zero_mul, add_sub_cancel_right] <;> split_ifs <;> ring
  have b5 : Gr (1 / 2) (fun h k => div3rdSpatial1 o si tiny (f h) (c h) k) (sSpat1 (isset o oIga) (siFac si) q γ) :=
    (((((hc.mul (ndxx_gr H hf h0)).smul 4).add ((((ndx_gr H hf h0).mul (ndxGC_gr hc)).smul 2).add b4))).smul (-(1 / 24))).congr' fun h k => by
      simp only [div3rdSpatial1]; ring
  have b6 : Gr (1 / 2) (fun h k => div3rdUpwind1 o tiny (f h) (c h) (G h) k) (sUpw1 (isset o oIga) z q (sDiv2 (isset o oIga) s q γ g)) := by
    cases hi : isset o oIga
    · rw [hi] at hz
      have hz := hz.resolve_left (by simp)
      have hx := ndx_gr H hf h0
      rw [hi] at hx
      refine ((hz.mul hx).smul (1 / 2)).congr' fun h k => ?_
      simp only [div3rdUpwind1, hi, Bool.false_eq_true, if_false]; ring
    · refine (Gr.const 0).congr' fun h k => ?_
      unfold div3rdUpwind1; rw [if_pos hi]
  refine (b6.add (b5.add (((hca.mul b2).smul (1 / 2)).add (((((hc.mul b1).smul (-8)).add b3).add
    (((hc.mul (nfdiv_gr H hn hf h0 h1 hG hg0)).sub (h1.mul (nfdiv_gr H hn hf h0 hc hG hg0))).smul 2)).smul (1 / 24))))).congr' fun h k => ?_
  simp only [div3rd1, h3, if_true]; ring

theorem std_gr {tiny : K} (H : AccOpts o tiny) (hn : ∀ h, isset o oNug = true ∨ ∀ k, G h k = 1) (hf : Gr 0 f q) (h0 : isset o oIga = true ∨ q 0 0 ≠ 0)
    (hca : Gr (1 / 2) (fun h k => |c h k|) (γ.smul s)) (hG : Gr 0 G g) (hg0 : g 0 0 ≠ 0) :
    Gr (1 / 2) (fun h k => |c h k| / 2 * (1 - |c h k| / gBarX1 o (G h) k) * ndxPsi1 o tiny (f h) k) (sStd1 (isset o oIga) s q γ g) :=
  (((hca.mul (ndx_gr H hf h0)).mul ((Gr.const 1).sub (hca.div (gBar_gr hn hG) (by rwa [av00])))).smul (1 / 2)).congr' fun h k => by ring

theorem tot_gr {tiny : K} (H : AccOpts o tiny) (hn : ∀ h, isset o oNug = true ∨ ∀ k, G h k = 1) (hf : Gr 0 f q) (h0 : isset o oIga = true ∨ q 0 0 ≠ 0) (hc : Gr (1 / 2) c γ)
    (hca : Gr (1 / 2) (fun h k => |c h k|) (γ.smul s)) (hG : Gr 0 G g) (hg0 : g 0 0 ≠ 0) :
    Gr (1 / 2) (fun h k => tot1 o tiny (f h) (c h) (G h) k) (if isset o oTot = true then sTot1 (isset o oIga) s q γ g else Ser2.C 0) := by
  have hb := gBar_gr hn hG
  by_cases ht : isset o oTot = true
  · rw [if_pos ht]
    refine ((ndxx_gr H hf h0).mul ((((((hc.mul hca).smul 3).div hb (by rwa [av00])).sub (((hc.mul (hc.mul hc)).smul 2).div (hb.mul hb) ?_)).sub hc).smul (1 / 6))).congr' fun h k => ?_
    · rw [mul00, av00]; exact mul_ne_zero hg0 hg0
    · simp only [tot1, ht, if_true, ndxxPsiCoeff1]; ring
  · rw [if_neg ht]
    exact (Gr.const 0).congr' fun h k => by unfold tot1; rw [if_neg ht]

theorem dfl_gr {tiny : K} (H : AccOpts o tiny) (hd : isset o oDfl = true) (hn : ∀ h, isset o oNug = true ∨ ∀ k, G h k = 1)
    (hf : Gr 0 f q) (hc : Gr (1 / 2) c γ) (hG : Gr 0 G g) (hg0 : g 0 0 ≠ 0) :
    Gr (1 / 2) (fun h k => dfl1 o (f h) (c h) (G h) k) (sDfl1 (isset o oIga) q γ g) := by
  refine ((((hc.mul hc.avF.difN).div hG.avN (by rwa [av00])).mul (wb_gr H.ha hf)).smul (-(1 / 2))).congr' fun h k => ?_
  cases hi : isset o oIga <;>
  simp only [dfl1, hd, hi, if_true, Bool.false_eq_true, if_false, gFac1_eq (hn h), add_sub_cancel_right, psiBarX1, H.ha] <;>
  rw [div_div_eq_mul_div] <;> ring
end
end Mpdata
