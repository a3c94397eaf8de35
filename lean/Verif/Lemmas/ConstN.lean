import Verif.Lemmas.BoundsN
import Mathlib.Tactic.LinearCombination
/-! # Antidiffusive velocities of a constant field in 2-D and 3-D -/
set_option linter.unusedSectionVars false
namespace Mpdata
variable {K : Type} [Field K] [LinearOrder K] [IsStrictOrderedRing K]

theorem frac_zero' (o : OptsT) (tiny x : K) : frac o tiny 0 x = 0 := by unfold frac; split <;> simp

section
variable (o : OptsT) (tiny v : K)

theorem nfdiv2_const (hab : isset o oIga = true → isset o oAbs = false) (ga gb G : Ar2 K)
    (hd : ∀ i j, ga i j - ga (i - 1) j + (gb i j - gb i (j - 1)) = 0) (i j : Int) : nfdiv2 o tiny (fun _ _ => v) ga gb G i j = 0 := by
  have h1 := hd i j
  have h2 := hd (i + 1) j
  rw [add_sub_cancel_right] at h2
  by_cases h : isset o oIga = true
  · simp only [nfdiv2, gc0BarX2, gc1BarX2, psiBarXY2, vabs, h, hab h, if_true, Bool.false_eq_true, if_false, add_sub_cancel_right]
    have : (ga (i + 1) j + ga i j) / 2 * v - (ga i j + ga (i - 1) j) / 2 * v + (gb (i + 1) j + gb i j) / 2 * ((v + v + v + v) / 4)
      - (gb (i + 1) (j - 1) + gb i (j - 1)) / 2 * ((v + v + v + v) / 4) = 0 := by linear_combination v / 2 * h1 + v / 2 * h2
    rw [this, zero_div]
  · simp only [nfdiv2, gc0BarX2, gc1BarX2, psiBarXY2, h, if_false, add_sub_cancel_right]
    generalize vabs o v = w
    have : (ga (i + 1) j + ga i j) / 2 * w - (ga i j + ga (i - 1) j) / 2 * w + (gb (i + 1) j + gb i j) / 2 * ((w + w + w + w) / 4)
      - (gb (i + 1) (j - 1) + gb i (j - 1)) / 2 * ((w + w + w + w) / 4) = 0 := by linear_combination w / 2 * h1 + w / 2 * h2
    simp only [Bool.false_eq_true, if_false, this, frac_zero', mul_zero]

theorem fdivCentre2_const (ga gb G : Ar2 K) (hd : ∀ i j, ga i j - ga (i - 1) j + (gb i j - gb i (j - 1)) = 0) (i j : Int) :
    fdivCentre2 o (fun _ _ => v) ga gb G i j = 0 := by
  have h1 := hd i j
  simp only [fdivCentre2, psiBarX2, psiBarY2]
  generalize vabs o v = w
  rw [show ga i j * ((w + w) / 2) - ga (i - 1) j * ((w + w) / 2) + gb i j * ((w + w) / 2) - gb i (j - 1) * ((w + w) / 2) = 0 by linear_combination w * h1, zero_div]

theorem fdivCornerXY2_const (ga gb G : Ar2 K) (hd : ∀ i j, ga i j - ga (i - 1) j + (gb i j - gb i (j - 1)) = 0) (i j : Int) :
    fdivCornerXY2 o (fun _ _ => v) ga gb G i j = 0 := by
  have h1 := hd i j
  have h2 := hd (i + 1) j
  have h3 := hd i (j + 1)
  have h4 := hd (i + 1) (j + 1)
  simp only [add_sub_cancel_right] at h2 h3 h4
  simp only [fdivCornerXY2, gc0BarXY2, gc1BarXY2, psiBarX2, psiBarY2, add_sub_cancel_right]
  generalize vabs o v = w
  rw [div_eq_zero_iff]; left
  linear_combination w / 4 * (h1 + h2 + h3 + h4)

theorem psi2_const (i j : Int) : ndxPsi2 o tiny (fun _ _ => v) i j = 0 ∧ ndyPsi2 o tiny (fun _ _ => v) i j = 0 ∧ ndxxPsi2 o tiny (fun _ _ => v) i j = 0
    ∧ ndxyPsi2 o tiny (fun _ _ => v) i j = 0 ∧ ndxxxPsi2 (fun _ _ => v) i j = 0 ∧ ndxxyPsi2 (fun _ _ => v) i j = 0 ∧ ndxyyPsi2 (fun _ _ => v) i j = 0
    ∧ ndtxPsi2 o tiny (fun _ _ => v) (fun _ _ => v) i j = 0 ∧ ndtPsi2 o tiny (fun _ _ => v) (fun _ _ => v) i j = 0 := by
  have e : ∀ w : K, w + w - w - w = 0 := fun w => by ring
  refine ⟨?_, ?_, ?_, ?_, ?_, ?_, ?_, ?_, ?_⟩ <;> simp only [ndxPsi2, ndyPsi2, ndxxPsi2, ndxyPsi2, ndxxxPsi2, ndxxyPsi2, ndxyyPsi2, ndtxPsi2, ndtPsi2] <;>
    simp [frac_zero', e]

theorem antidiff2_const (hab : isset o oIga = true → isset o oAbs = false) (si : SptlIntrp) (te : TmprlExtrp) (ga gb nda ndb ndtt G : Ar2 K)
    (hd : ∀ i j, ga i j - ga (i - 1) j + (gb i j - gb i (j - 1)) = 0)
    (h3 : isset o oDiv3 = true ∨ isset o oDiv3dt = true → (∀ i j, nda i j - nda (i - 1) j + (ndb i j - ndb i (j - 1)) = 0) ∧ (∀ i j, ndtt i j = 0)
      ∧ (si = .aver4 ∨ ∀ i j, ga (i + 1) j + ga (i - 1) j - 2 * ga i j = 0)) (i j : Int) :
    antidiff2 o si te tiny (fun _ _ => v) (fun _ _ => v) ga gb nda ndb ndtt G i j = 0 := by
  obtain ⟨p1, p2, p3, p4, p5, p6, p7, p8, p9⟩ := psi2_const o tiny v i j
  have n1 := nfdiv2_const o tiny v hab ga gb G hd i j
  have hfot : fot2 o (fun _ _ => v) ga gb G i j = 0 := by simp [fot2, p5, p6, p7]
  have hu : div3rdUpwind2 o tiny (fun _ _ => v) ga gb G i j = 0 := by simp [div3rdUpwind2, p1]
  have h2 : div2nd2 o tiny (fun _ _ => v) ga gb G i j = 0 := by simp [div2nd2, p1, n1]
  have hsp : isset o oDiv3 = true ∨ isset o oDiv3dt = true → div3rdSpatial2 o si tiny (fun _ _ => v) ga i j = 0 := by
    intro h
    obtain ⟨-, -, h3⟩ := h3 h
    have : div3rdSpatialHelper2 o si (fun _ _ => v) ga i j = 0 := by
      rcases h3 with h3 | h3
      · subst h3; rfl
      · have h4 := h3 i j
        cases si <;> simp only [div3rdSpatialHelper2, ndxxGC02, h4, zero_mul, mul_zero, ite_self]
    simp [div3rdSpatial2, p1, p3, this]
  have ht : isset o oDiv3 = true ∨ isset o oDiv3dt = true → ndttGC02 o (fun _ _ => v) ndtt i j = 0 := by
    intro h; simp [ndttGC02, (h3 h).2.1]
  have hn2 : isset o oDiv3 = true ∨ isset o oDiv3dt = true → nfdiv2 o tiny (fun _ _ => v) nda ndb G i j = 0 := by
    intro h; exact nfdiv2_const o tiny v hab nda ndb G (h3 h).1 i j
  have hdiv3 : div3rd2 o si te tiny (fun _ _ => v) (fun _ _ => v) ga gb nda ndb ndtt G i j = 0 := by
    unfold div3rd2
    split
    · rename_i h
      have a1 : ndxFdiv2 o tiny (fun _ _ => v) ga gb G i j = 0 := by simp [ndxFdiv2, fdivCentre2_const o v ga gb G hd, frac_zero']
      have a2 : nfdivFdiv2 o tiny (fun _ _ => v) ga gb G i j = 0 := by
        simp [nfdivFdiv2, fdivCentre2_const o v ga gb G hd, fdivCornerXY2_const o v ga gb G hd, frac_zero']
      have a3 : div3rdTemporal2 o te (fun _ _ => v) ndtt i j = 0 := by cases te <;> simp [div3rdTemporal2, ht (.inl h)]
      rw [hu, hsp (.inl h), a1, a2, a3, n1, hn2 (.inl h)]; ring
    · split
      · rename_i h
        have a1 : nfdivDt2 o tiny (fun _ _ => v) (fun _ _ => v) ga gb G i j = 0 := by simp [nfdivDt2, frac_zero']
        rw [hu, hsp (.inr h), p8, a1, ht (.inr h), hn2 (.inr h), p9]; ring
      · rfl
  unfold antidiff2
  split
  · rw [h2, hdiv3, hfot]; ring
  · have h4 : dfl2 o (fun _ _ => v) ga gb G i j = 0 := by
      unfold dfl2
      have h1 := hd i j
      have h2 := hd (i + 1) j
      rw [add_sub_cancel_right] at h2
      have : (ga (i + 1) j - ga (i - 1) j) + (gb (i + 1) j + gb i j - gb (i + 1) (j - 1) - gb i (j - 1)) = 0 := by linear_combination h1 + h2
      simp [this]
    simp [tot2, p1, p2, p3, p4, hfot, h4]
end

section
variable (o : OptsT) (tiny v : K)

theorem nfdiv3_const (hab : isset o oIga = true → isset o oAbs = false) (ga gb gc G : Ar3 K)
    (hd : ∀ i j k, ga i j k - ga (i - 1) j k + (gb i j k - gb i (j - 1) k) + (gc i j k - gc i j (k - 1)) = 0) (i j k : Int) :
    nfdiv3 o tiny (fun _ _ _ => v) ga gb gc G i j k = 0 := by
  have h1 := hd i j k
  have h2 := hd (i + 1) j k
  rw [add_sub_cancel_right] at h2
  by_cases h : isset o oIga = true
  · simp only [nfdiv3, gc0BarX3, gc1BarX3, gc2BarX3, psiBarXY3, psiBarXZ3, vabs, h, hab h, if_true, Bool.false_eq_true, if_false, add_sub_cancel_right]
    rw [div_eq_zero_iff]; left
    linear_combination v / 2 * h1 + v / 2 * h2
  · simp only [nfdiv3, gc0BarX3, gc1BarX3, gc2BarX3, psiBarXY3, psiBarXZ3, h, if_false, add_sub_cancel_right]
    generalize vabs o v = w
    have : (ga (i + 1) j k + ga i j k) / 2 * w - (ga i j k + ga (i - 1) j k) / 2 * w + (gb (i + 1) j k + gb i j k) / 2 * ((w + w + w + w) / 4)
      - (gb (i + 1) (j - 1) k + gb i (j - 1) k) / 2 * ((w + w + w + w) / 4) + (gc (i + 1) j k + gc i j k) / 2 * ((w + w + w + w) / 4)
      - (gc (i + 1) j (k - 1) + gc i j (k - 1)) / 2 * ((w + w + w + w) / 4) = 0 := by linear_combination w / 2 * h1 + w / 2 * h2
    simp only [Bool.false_eq_true, if_false, this, frac_zero', mul_zero]

theorem fdivCentre3_const (ga gb gc G : Ar3 K)
    (hd : ∀ i j k, ga i j k - ga (i - 1) j k + (gb i j k - gb i (j - 1) k) + (gc i j k - gc i j (k - 1)) = 0) (i j k : Int) :
    fdivCentre3 o (fun _ _ _ => v) ga gb gc G i j k = 0 := by
  have h1 := hd i j k
  simp only [fdivCentre3, psiBarX3, psiBarY3, psiBarZ3]
  generalize vabs o v = w
  rw [div_eq_zero_iff]; left
  linear_combination w * h1

theorem fdivCornerXY3_const (ga gb gc G : Ar3 K)
    (hd : ∀ i j k, ga i j k - ga (i - 1) j k + (gb i j k - gb i (j - 1) k) + (gc i j k - gc i j (k - 1)) = 0) (i j k : Int) :
    fdivCornerXY3 o (fun _ _ _ => v) ga gb gc G i j k = 0 := by
  have h1 := hd i j k
  have h2 := hd (i + 1) j k
  have h3 := hd i (j + 1) k
  have h4 := hd (i + 1) (j + 1) k
  simp only [add_sub_cancel_right] at h2 h3 h4
  simp only [fdivCornerXY3, gc0BarXY3, gc1BarXY3, gc2BarXY3, psiBarX3, psiBarY3, psiBarXYZ3, add_sub_cancel_right]
  generalize vabs o v = w
  rw [div_eq_zero_iff]; left
  linear_combination w / 4 * (h1 + h2 + h3 + h4)

theorem fdivCornerXZ3_const (ga gb gc G : Ar3 K)
    (hd : ∀ i j k, ga i j k - ga (i - 1) j k + (gb i j k - gb i (j - 1) k) + (gc i j k - gc i j (k - 1)) = 0) (i j k : Int) :
    fdivCornerXZ3 o (fun _ _ _ => v) ga gb gc G i j k = 0 := by
  have h1 := hd i j k
  have h2 := hd (i + 1) j k
  have h3 := hd i j (k + 1)
  have h4 := hd (i + 1) j (k + 1)
  simp only [add_sub_cancel_right] at h2 h3 h4
  simp only [fdivCornerXZ3, gc0BarXZ3, gc1BarXZ3, gc2BarXZ3, psiBarX3, psiBarZ3, psiBarXYZ3, add_sub_cancel_right]
  generalize vabs o v = w
  rw [div_eq_zero_iff]; left
  linear_combination w / 4 * (h1 + h2 + h3 + h4)

theorem psi3_const (i j k : Int) : ndxPsi3 o tiny (fun _ _ _ => v) i j k = 0 ∧ ndyPsi3 o tiny (fun _ _ _ => v) i j k = 0 ∧ ndzPsi3 o tiny (fun _ _ _ => v) i j k = 0
    ∧ ndxxPsi3 o tiny (fun _ _ _ => v) i j k = 0 ∧ ndxyPsi3 o tiny (fun _ _ _ => v) i j k = 0 ∧ ndxzPsi3 o tiny (fun _ _ _ => v) i j k = 0
    ∧ ndyzPsi3 o tiny (fun _ _ _ => v) i j k = 0
    ∧ ndtxPsi3 o tiny (fun _ _ _ => v) (fun _ _ _ => v) i j k = 0 ∧ ndtPsi3 o tiny (fun _ _ _ => v) (fun _ _ _ => v) i j k = 0 := by
  have e : ∀ w : K, w + w - w - w = 0 := fun w => by ring
  have e' : ∀ w : K, w + w - w - w + w + w - w - w = 0 := fun w => by ring
  refine ⟨?_, ?_, ?_, ?_, ?_, ?_, ?_, ?_, ?_⟩ <;> simp only [ndxPsi3, ndyPsi3, ndzPsi3, ndxxPsi3, ndxyPsi3, ndxzPsi3, ndyzPsi3, ndtxPsi3, ndtPsi3] <;>
    simp [frac_zero', e, e']

theorem antidiff3_const (hab : isset o oIga = true → isset o oAbs = false) (si : SptlIntrp) (te : TmprlExtrp) (ga gb gc nda ndb ndc ndtt G : Ar3 K)
    (hd : ∀ i j k, ga i j k - ga (i - 1) j k + (gb i j k - gb i (j - 1) k) + (gc i j k - gc i j (k - 1)) = 0)
    (h3 : isset o oDiv3 = true ∨ isset o oDiv3dt = true →
      (∀ i j k, nda i j k - nda (i - 1) j k + (ndb i j k - ndb i (j - 1) k) + (ndc i j k - ndc i j (k - 1)) = 0) ∧ (∀ i j k, ndtt i j k = 0)
      ∧ (si = .aver4 ∨ ∀ i j k, ga (i + 1) j k + ga (i - 1) j k - 2 * ga i j k = 0)) (i j k : Int) :
    antidiff3 o si te tiny (fun _ _ _ => v) (fun _ _ _ => v) ga gb gc nda ndb ndc ndtt G i j k = 0 := by
  obtain ⟨p1, p2, p3, p4, p5, p6, p7, p8, p9⟩ := psi3_const o tiny v i j k
  have n1 := nfdiv3_const o tiny v hab ga gb gc G hd i j k
  have hu : div3rdUpwind3 o tiny (fun _ _ _ => v) ga gb gc G i j k = 0 := by simp [div3rdUpwind3, p1]
  have h2 : div2nd3 o tiny (fun _ _ _ => v) ga gb gc G i j k = 0 := by simp [div2nd3, p1, n1]
  have hsp : isset o oDiv3 = true ∨ isset o oDiv3dt = true → div3rdSpatial3 o si tiny (fun _ _ _ => v) ga i j k = 0 := by
    intro h
    obtain ⟨-, -, h3⟩ := h3 h
    have : div3rdSpatialHelper3 o si (fun _ _ _ => v) ga i j k = 0 := by
      rcases h3 with h3 | h3
      · subst h3; rfl
      · have h4 := h3 i j k
        cases si <;> simp only [div3rdSpatialHelper3, ndxxGC03, h4, zero_mul, mul_zero, ite_self]
    simp [div3rdSpatial3, p1, p4, this]
  have ht : isset o oDiv3 = true ∨ isset o oDiv3dt = true → div3rdTemporal3 o te (fun _ _ _ => v) ndtt i j k = 0 := by
    intro h; cases te <;> simp [div3rdTemporal3, ndttGC03, (h3 h).2.1]
  have hn2 : isset o oDiv3 = true ∨ isset o oDiv3dt = true → nfdiv3 o tiny (fun _ _ _ => v) nda ndb ndc G i j k = 0 := by
    intro h; exact nfdiv3_const o tiny v hab nda ndb ndc G (h3 h).1 i j k
  have hdiv3 : div3rd3 o si te tiny (fun _ _ _ => v) (fun _ _ _ => v) ga gb gc nda ndb ndc ndtt G i j k = 0 := by
    unfold div3rd3
    split
    · rename_i h
      have a1 : ndxFdiv3 o tiny (fun _ _ _ => v) ga gb gc G i j k = 0 := by simp [ndxFdiv3, fdivCentre3_const o v ga gb gc G hd, frac_zero']
      have a2 : nfdivFdiv3 o tiny (fun _ _ _ => v) ga gb gc G i j k = 0 := by
        simp [nfdivFdiv3, fdivCentre3_const o v ga gb gc G hd, fdivCornerXY3_const o v ga gb gc G hd, fdivCornerXZ3_const o v ga gb gc G hd, frac_zero']
      rw [hu, hsp (.inl h), a1, a2, ht (.inl h), n1, hn2 (.inl h)]; ring
    · split
      · rename_i h
        have a1 : nfdivDt3 o tiny (fun _ _ _ => v) (fun _ _ _ => v) ga gb gc G i j k = 0 := by simp [nfdivDt3, frac_zero']
        rw [hu, hsp (.inr h), p8, a1, ht (.inr h), hn2 (.inr h), p9]; ring
      · rfl
  unfold antidiff3
  split
  · rw [h2, hdiv3]; ring
  · have h4 : dfl3 o (fun _ _ _ => v) ga gb gc G i j k = 0 := by
      unfold dfl3
      have h1 := hd i j k
      have h2 := hd (i + 1) j k
      rw [add_sub_cancel_right] at h2
      have : (ga (i + 1) j k - ga (i - 1) j k) + (gb (i + 1) j k + gb i j k - gb (i + 1) (j - 1) k - gb i (j - 1) k)
        + (gc (i + 1) j k + gc i j k - gc (i + 1) j (k - 1) - gc i j (k - 1)) = 0 := by linear_combination h1 + h2
      simp [this]
    simp [tot3, p1, p2, p3, p4, p5, p6, p7, h4]
end

end Mpdata
