import Verif.Model.Antidiff3
/-! # Footprint of the 3-D antidiffusive velocity -/
set_option linter.unusedSectionVars false
namespace Mpdata
variable {K : Type} [Field K] [LinearOrder K]

/-- two arrays agree on a box -/
abbrev Ag3 (a b c d e f : Int) (u v : Ar3 K) : Prop := ∀ i j k : Int, a ≤ i → i ≤ b → c ≤ j → j ≤ d → e ≤ k → k ≤ f → u i j k = v i j k

theorem Ag3.mono {a b c d e f a' b' c' d' e' f' : Int} {u v : Ar3 K} (h : Ag3 a b c d e f u v)
    (h1 : a ≤ a' ∧ b' ≤ b ∧ c ≤ c' ∧ d' ≤ d ∧ e ≤ e' ∧ f' ≤ f) :
    Ag3 a' b' c' d' e' f' u v := fun i j k _ _ _ _ _ _ => h i j k (by omega) (by omega) (by omega) (by omega) (by omega) (by omega)

theorem Ag3.at {a b c d e f : Int} {u v : Ar3 K} (h : Ag3 a b c d e f u v) {i j k : Int}
    (h1 : a ≤ i ∧ i ≤ b ∧ c ≤ j ∧ j ≤ d ∧ e ≤ k ∧ k ≤ f) : u i j k = v i j k := h i j k h1.1 h1.2.1 h1.2.2.1 h1.2.2.2.1 h1.2.2.2.2.1 h1.2.2.2.2.2

section
variable {psi psi' old old' ga ga' gb gb' gc gc' nda nda' ndb ndb' ndc ndc' ndtt ndtt' G G' : Ar3 K} {i j k : Int}

theorem gBarX3_congr (o : OptsT) (hG : Ag3 i (i+1) (j-1) (j+1) (k-1) (k+1) G G') : gBarX3 o G i j k = gBarX3 o G' i j k := by
  simp (disch := omega) only [gBarX3, gF3, hG]
theorem psiBarX3_congr (o : OptsT) (h : Ag3 i (i+1) (j-1) (j+1) (k-1) (k+1) psi psi') : psiBarX3 o psi i j k = psiBarX3 o psi' i j k := by
  simp (disch := omega) only [psiBarX3, h]
theorem gc1BarXY3_congr (h : Ag3 i (i+1) (j-1) j k k gb gb') : gc1BarXY3 gb i j k = gc1BarXY3 gb' i j k := by
  simp (disch := omega) only [gc1BarXY3, h]
theorem gc2BarXZ3_congr (h : Ag3 i (i+1) j j (k-1) k gc gc') : gc2BarXZ3 gc i j k = gc2BarXZ3 gc' i j k := by
  simp (disch := omega) only [gc2BarXZ3, h]
theorem gc0BarX3_congr (h : Ag3 (i-1) i j j k k ga ga') : gc0BarX3 ga i j k = gc0BarX3 ga' i j k := by
  simp (disch := omega) only [gc0BarX3, h]
theorem gc1BarX3_congr (h : Ag3 i (i+1) j j k k gb gb') : gc1BarX3 gb i j k = gc1BarX3 gb' i j k := by
  simp (disch := omega) only [gc1BarX3, h]
theorem gc2BarX3_congr (h : Ag3 i (i+1) j j k k gc gc') : gc2BarX3 gc i j k = gc2BarX3 gc' i j k := by
  simp (disch := omega) only [gc2BarX3, h]
theorem ndxPsi3_congr (o : OptsT) (tiny : K) (h : Ag3 i (i+1) (j-1) (j+1) (k-1) (k+1) psi psi') : ndxPsi3 o tiny psi i j k = ndxPsi3 o tiny psi' i j k := by
  simp (disch := omega) only [ndxPsi3, h]
theorem ndyPsi3_congr (o : OptsT) (tiny : K) (h : Ag3 i (i+1) (j-1) (j+1) (k-1) (k+1) psi psi') : ndyPsi3 o tiny psi i j k = ndyPsi3 o tiny psi' i j k := by
  simp (disch := omega) only [ndyPsi3, h]
theorem ndzPsi3_congr (o : OptsT) (tiny : K) (h : Ag3 i (i+1) (j-1) (j+1) (k-1) (k+1) psi psi') : ndzPsi3 o tiny psi i j k = ndzPsi3 o tiny psi' i j k := by
  simp (disch := omega) only [ndzPsi3, h]
theorem ndxxPsi3_congr (o : OptsT) (tiny : K) (h : Ag3 (i-1) (i+2) (j-1) (j+1) (k-1) (k+1) psi psi') : ndxxPsi3 o tiny psi i j k = ndxxPsi3 o tiny psi' i j k := by
  simp (disch := omega) only [ndxxPsi3, h]
theorem ndxyPsi3_congr (o : OptsT) (tiny : K) (h : Ag3 i (i+1) (j-1) (j+1) (k-1) (k+1) psi psi') : ndxyPsi3 o tiny psi i j k = ndxyPsi3 o tiny psi' i j k := by
  simp (disch := omega) only [ndxyPsi3, h]
theorem ndxzPsi3_congr (o : OptsT) (tiny : K) (h : Ag3 i (i+1) (j-1) (j+1) (k-1) (k+1) psi psi') : ndxzPsi3 o tiny psi i j k = ndxzPsi3 o tiny psi' i j k := by
  simp (disch := omega) only [ndxzPsi3, h]
theorem ndyzPsi3_congr (o : OptsT) (tiny : K) (h : Ag3 i (i+1) (j-1) (j+1) (k-1) (k+1) psi psi') : ndyzPsi3 o tiny psi i j k = ndyzPsi3 o tiny psi' i j k := by
  simp (disch := omega) only [ndyzPsi3, h]
theorem fdivCentre3_congr (o : OptsT) (h : Ag3 (i-1) (i+1) (j-1) (j+1) (k-1) (k+1) psi psi') (ha : Ag3 (i-1) i j j k k ga ga') (hb : Ag3 i i (j-1) j k k gb gb')
    (hc : Ag3 i i j j (k-1) k gc gc') (hG : Ag3 i i j j k k G G') :
    fdivCentre3 o psi ga gb gc G i j k = fdivCentre3 o psi' ga' gb' gc' G' i j k := by
  simp (disch := omega) only [fdivCentre3, gF3, psiBarX3, psiBarY3, psiBarZ3, h, ha, hb, hc, hG]
theorem fdivCornerXY3_congr (o : OptsT) (h : Ag3 i (i+1) j (j+1) (k-1) (k+1) psi psi') (ha : Ag3 (i-1) (i+1) j (j+1) k k ga ga')
    (hb : Ag3 i (i+1) (j-1) (j+1) k k gb gb') (hc : Ag3 i (i+1) j (j+1) (k-1) k gc gc') (hG : Ag3 i (i+1) j (j+1) k k G G') :
    fdivCornerXY3 o psi ga gb gc G i j k = fdivCornerXY3 o psi' ga' gb' gc' G' i j k := by
  simp (disch := omega) only [fdivCornerXY3, gBarXY3, gF3, gc0BarXY3, gc1BarXY3, gc2BarXY3, psiBarX3, psiBarY3, psiBarXYZ3, h, ha, hb, hc, hG]
theorem fdivCornerXZ3_congr (o : OptsT) (h : Ag3 i (i+1) (j-1) (j+1) k (k+1) psi psi') (ha : Ag3 (i-1) (i+1) j j k (k+1) ga ga')
    (hb : Ag3 i (i+1) (j-1) j k (k+1) gb gb') (hc : Ag3 i (i+1) j j (k-1) (k+1) gc gc') (hG : Ag3 i (i+1) j j k (k+1) G G') :
    fdivCornerXZ3 o psi ga gb gc G i j k = fdivCornerXZ3 o psi' ga' gb' gc' G' i j k := by
  simp (disch := omega) only [fdivCornerXZ3, gBarXZ3, gF3, gc0BarXZ3, gc1BarXZ3, gc2BarXZ3, psiBarX3, psiBarZ3, psiBarXYZ3, h, ha, hb, hc, hG]
theorem sum10_3_congr (o : OptsT) (h : Ag3 i (i+1) (j-1) (j+1) (k-1) (k+1) psi psi') : sum10_3 o psi i j k = sum10_3 o psi' i j k := by
  simp (disch := omega) only [sum10_3, h]
theorem nfdiv3_congr (o : OptsT) (tiny : K) (h : Ag3 i (i+1) (j-1) (j+1) (k-1) (k+1) psi psi') (ha : Ag3 (i-1) (i+1) j j k k ga ga')
    (hb : Ag3 i (i+1) (j-1) j k k gb gb') (hc : Ag3 i (i+1) j j (k-1) k gc gc') (hG : Ag3 i (i+1) (j-1) (j+1) (k-1) (k+1) G G') :
    nfdiv3 o tiny psi ga gb gc G i j k = nfdiv3 o tiny psi' ga' gb' gc' G' i j k := by
  simp (disch := omega) only [nfdiv3, gBarX3_congr o hG, sum10_3_congr o h, gc0BarX3, gc1BarX3, gc2BarX3, psiBarXY3, psiBarXZ3, h, ha, hb, hc]
theorem sum12_3_congr (o : OptsT) (h : Ag3 (i-1) (i+2) (j-1) (j+1) (k-1) (k+1) psi psi') : sum12_3 o psi i j k = sum12_3 o psi' i j k := by
  simp (disch := omega) only [sum12_3, h]

theorem nfdivFdiv3_congr (o : OptsT) (tiny : K) (h : Ag3 (i-1) (i+2) (j-1) (j+1) (k-1) (k+1) psi psi') (ha : Ag3 (i-1) (i+1) (j-1) (j+1) (k-1) (k+1) ga ga')
    (hb : Ag3 i (i+1) (j-1) j (k-1) (k+1) gb gb') (hb2 : Ag3 i (i+1) (j-2) (j+1) k k gb gb') (hc : Ag3 i (i+1) (j-1) (j+1) (k-1) k gc gc') (hc2 : Ag3 i (i+1) j j (k-2) (k+1) gc gc') (hG : Ag3 i (i+1) (j-1) (j+1) (k-1) (k+1) G G') :
    nfdivFdiv3 o tiny psi ga gb gc G i j k = nfdivFdiv3 o tiny psi' ga' gb' gc' G' i j k := by
  have e1 := gc0BarX3_congr (i := i + 1) (j := j) (k := k) (ha.mono (by omega))
  have e2 := gc0BarX3_congr (i := i) (j := j) (k := k) (ha.mono (by omega))
  have e3 := gc1BarX3_congr (i := i) (j := j) (k := k) (hb.mono (by omega))
  have e4 := gc1BarX3_congr (i := i) (j := j - 1) (k := k) (hb.mono (by omega))
  have e3' := gc2BarX3_congr (i := i) (j := j) (k := k) (hc.mono (by omega))
  have e4' := gc2BarX3_congr (i := i) (j := j) (k := k - 1) (hc.mono (by omega))
  have e5 := fdivCentre3_congr o (i := i + 1) (j := j) (k := k) (h.mono (by omega)) (ha.mono (by omega)) (hb.mono (by omega)) (hc.mono (by omega)) (hG.mono (by omega))
  have e6 := fdivCentre3_congr o (i := i) (j := j) (k := k) (h.mono (by omega)) (ha.mono (by omega)) (hb.mono (by omega)) (hc.mono (by omega)) (hG.mono (by omega))
  have e7 := fdivCornerXY3_congr o (i := i) (j := j) (k := k) (h.mono (by omega)) (ha.mono (by omega)) (hb2.mono (by omega)) (hc.mono (by omega)) (hG.mono (by omega))
  have e8 := fdivCornerXY3_congr o (i := i) (j := j - 1) (k := k) (h.mono (by omega)) (ha.mono (by omega)) (hb2.mono (by omega)) (hc.mono (by omega)) (hG.mono (by omega))
  have e9 := fdivCornerXZ3_congr o (i := i) (j := j) (k := k) (h.mono (by omega)) (ha.mono (by omega)) (hb.mono (by omega)) (hc2.mono (by omega)) (hG.mono (by omega))
  have e10 := fdivCornerXZ3_congr o (i := i) (j := j) (k := k - 1) (h.mono (by omega)) (ha.mono (by omega)) (hb.mono (by omega)) (hc2.mono (by omega)) (hG.mono (by omega))
  simp only [nfdivFdiv3, e1, e2, e3, e4, e3', e4', e5, e6, e7, e8, e9, e10, gBarX3_congr o hG, sum12_3_congr o h]

theorem ndxFdiv3_congr (o : OptsT) (tiny : K) (h : Ag3 (i-1) (i+2) (j-1) (j+1) (k-1) (k+1) psi psi') (ha : Ag3 (i-1) (i+1) (j-1) (j+1) (k-1) (k+1) ga ga')
    (hb : Ag3 i (i+1) (j-1) j (k-1) (k+1) gb gb') (hc : Ag3 i (i+1) (j-1) (j+1) (k-1) k gc gc') (hG : Ag3 i (i+1) (j-1) (j+1) (k-1) (k+1) G G') :
    ndxFdiv3 o tiny psi ga gb gc G i j k = ndxFdiv3 o tiny psi' ga' gb' gc' G' i j k := by
  have e5 := fdivCentre3_congr o (i := i + 1) (j := j) (k := k) (h.mono (by omega)) (ha.mono (by omega)) (hb.mono (by omega)) (hc.mono (by omega)) (hG.mono (by omega))
  have e6 := fdivCentre3_congr o (i := i) (j := j) (k := k) (h.mono (by omega)) (ha.mono (by omega)) (hb.mono (by omega)) (hc.mono (by omega)) (hG.mono (by omega))
  simp only [ndxFdiv3, e5, e6, sum12_3_congr o h]

theorem nfdivDt3_congr (o : OptsT) (tiny : K) (h : Ag3 i (i+1) (j-1) (j+1) (k-1) (k+1) psi psi') (ho : Ag3 i (i+1) (j-1) (j+1) (k-1) (k+1) old old')
    (ha : Ag3 (i-1) (i+1) j j k k ga ga') (hb : Ag3 i (i+1) (j-1) j k k gb gb') (hc : Ag3 i (i+1) j j (k-1) k gc gc')
    (hG : Ag3 i (i+1) (j-1) (j+1) (k-1) (k+1) G G') :
    nfdivDt3 o tiny psi old ga gb gc G i j k = nfdivDt3 o tiny psi' old' ga' gb' gc' G' i j k := by
  simp (disch := omega) only [nfdivDt3, gBarX3_congr o hG, sum10_3_congr o h, sum10_3_congr o ho, gc0BarX3, gc1BarX3, gc2BarX3, psiBarXY3, psiBarXZ3, h, ho, ha, hb, hc]

theorem div2nd3_congr (o : OptsT) (tiny : K) (h : Ag3 i (i+1) (j-1) (j+1) (k-1) (k+1) psi psi') (ha : Ag3 (i-1) (i+1) j j k k ga ga')
    (hb : Ag3 i (i+1) (j-1) j k k gb gb') (hc : Ag3 i (i+1) j j (k-1) k gc gc') (hG : Ag3 i (i+1) (j-1) (j+1) (k-1) (k+1) G G') :
    div2nd3 o tiny psi ga gb gc G i j k = div2nd3 o tiny psi' ga' gb' gc' G' i j k := by
  simp only [div2nd3, ndxPsi3_congr o tiny h, nfdiv3_congr o tiny h ha hb hc hG, ha.at (show _ ≤ i ∧ i ≤ _ ∧ _ ≤ j ∧ j ≤ _ ∧ _ ≤ k ∧ k ≤ _ by omega)]

theorem tot3_congr (o : OptsT) (tiny : K) (h : Ag3 i (i+1) (j-1) (j+1) (k-1) (k+1) psi psi')
    (hw : isset o oTot = true → Ag3 (i-1) (i+2) (j-1) (j+1) (k-1) (k+1) psi psi')
    (ha : ga i j k = ga' i j k) (hb : Ag3 i (i+1) (j-1) j k k gb gb') (hc : Ag3 i (i+1) j j (k-1) k gc gc') (hG : Ag3 i (i+1) (j-1) (j+1) (k-1) (k+1) G G') :
    tot3 o tiny psi ga gb gc G i j k = tot3 o tiny psi' ga' gb' gc' G' i j k := by
  unfold tot3
  by_cases ht : isset o oTot = true
  · simp only [ht, if_true, ndxxPsi3_congr o tiny (hw ht), ndxyPsi3_congr o tiny h, ndxzPsi3_congr o tiny h, ndyzPsi3_congr o tiny h, ndxxPsiCoeff3, ndxyPsiCoeff3,
      ndxzPsiCoeff3, ndyzPsiCoeff3, gBarX3_congr o hG, gc1BarXY3_congr hb, gc2BarXZ3_congr hc, ha]
  · rw [if_neg ht, if_neg ht]

theorem dfl3_congr (o : OptsT) (h : Ag3 i (i+1) (j-1) (j+1) (k-1) (k+1) psi psi') (ha : isset o oDfl = true → Ag3 (i-1) (i+1) j j k k ga ga')
    (hb : Ag3 i (i+1) (j-1) j k k gb gb') (hc : Ag3 i (i+1) j j (k-1) k gc gc') (hG : Ag3 i (i+1) (j-1) (j+1) (k-1) (k+1) G G') :
    dfl3 o psi ga gb gc G i j k = dfl3 o psi' ga' gb' gc' G' i j k := by
  unfold dfl3
  by_cases ht : isset o oDfl = true
  · have ha' := ha ht
    simp (disch := omega) only [ht, if_true, gBarX3_congr o hG, ha', hb, hc, psiBarX3_congr o h]
  · rw [if_neg ht, if_neg ht]

theorem div3rdSpatial3_congr (o : OptsT) (si : SptlIntrp) (tiny : K) (h : Ag3 (i-1) (i+2) (j-1) (j+1) (k-1) (k+1) psi psi') (ha : Ag3 (i-1) (i+1) j j k k ga ga') :
    div3rdSpatial3 o si tiny psi ga i j k = div3rdSpatial3 o si tiny psi' ga' i j k := by
  have e := psiBarX3_congr o (i := i) (j := j) (k := k) (h.mono (by omega))
  have e1 := ndxPsi3_congr o tiny (i := i) (j := j) (k := k) (h.mono (by omega))
  unfold div3rdSpatial3 div3rdSpatialHelper3 ndxxGC03 ndxGC03
  rw [e, e1, ndxxPsi3_congr o tiny h, ha.at (show _ ≤ i ∧ i ≤ _ ∧ _ ≤ j ∧ j ≤ _ ∧ _ ≤ k ∧ k ≤ _ by omega),
    ha.at (show _ ≤ i+1 ∧ i+1 ≤ _ ∧ _ ≤ j ∧ j ≤ _ ∧ _ ≤ k ∧ k ≤ _ by omega), ha.at (show _ ≤ i-1 ∧ i-1 ≤ _ ∧ _ ≤ j ∧ j ≤ _ ∧ _ ≤ k ∧ k ≤ _ by omega)]

/-- everything that the antidiffusive velocity of a face reads -/
theorem antidiff3_congr (o : OptsT) (si : SptlIntrp) (te : TmprlExtrp) (tiny : K)
    (h : Ag3 i (i+1) (j-1) (j+1) (k-1) (k+1) psi psi') (hw : mpdataHalo o = 2 → Ag3 (i-1) (i+2) (j-1) (j+1) (k-1) (k+1) psi psi')
    (hold : Ag3 i (i+1) (j-1) (j+1) (k-1) (k+1) old old')
    (ha0 : ga i j k = ga' i j k) (haw : mpdataHalo o = 2 → (isset o oDfl || isset o oDiv2 || isset o oDiv3) = true → Ag3 (i-1) (i+1) j j k k ga ga')
    (had : isset o oDiv3 = true → Ag3 (i-1) (i+1) (j-1) (j+1) (k-1) (k+1) ga ga')
    (hb : Ag3 i (i+1) (j-1) j k k gb gb') (hbd : isset o oDiv3 = true → Ag3 i (i+1) (j-1) j (k-1) (k+1) gb gb')
    (hbd2 : isset o oDiv3 = true → Ag3 i (i+1) (j-2) (j+1) k k gb gb')
    (hc : Ag3 i (i+1) j j (k-1) k gc gc') (hcd : isset o oDiv3 = true → Ag3 i (i+1) (j-1) (j+1) (k-1) k gc gc')
    (hcd2 : isset o oDiv3 = true → Ag3 i (i+1) j j (k-2) (k+1) gc gc')
    (hna : (isset o oDiv3 || isset o oDiv3dt) = true → Ag3 (i-1) (i+1) j j k k nda nda')
    (hnb : (isset o oDiv3 || isset o oDiv3dt) = true → Ag3 i (i+1) (j-1) j k k ndb ndb')
    (hnc : (isset o oDiv3 || isset o oDiv3dt) = true → Ag3 i (i+1) j j (k-1) k ndc ndc')
    (hnt : (isset o oDiv3 || isset o oDiv3dt) = true → ndtt i j k = ndtt' i j k) (hG : Ag3 i (i+1) (j-1) (j+1) (k-1) (k+1) G G') :
    antidiff3 o si te tiny psi old ga gb gc nda ndb ndc ndtt G i j k = antidiff3 o si te tiny psi' old' ga' gb' gc' nda' ndb' ndc' ndtt' G' i j k := by
  have hwt : isset o oTot = true → Ag3 (i-1) (i+2) (j-1) (j+1) (k-1) (k+1) psi psi' := by
    intro hf; apply hw; simp [mpdataHalo, hf]
  unfold antidiff3
  by_cases hd : (isset o oDiv2 || isset o oDiv3) = true
  · have hh : mpdataHalo o = 2 := by
      rw [Bool.or_eq_true] at hd
      rcases hd with h | h <;> simp [mpdataHalo, h]
    have hw' := hw hh
    have ha : Ag3 (i-1) (i+1) j j k k ga ga' := haw hh (by rw [Bool.or_assoc, hd, Bool.or_true])
    rw [if_pos hd, if_pos hd, div2nd3_congr o tiny h ha hb hc hG]
    congr 1
    unfold div3rd3
    have eup : div3rdUpwind3 o tiny psi ga gb gc G i j k = div3rdUpwind3 o tiny psi' ga' gb' gc' G' i j k := by
      unfold div3rdUpwind3; rw [div2nd3_congr o tiny h ha hb hc hG, ndxPsi3_congr o tiny h]
    have ex := psiBarX3_congr o h
    by_cases h3 : isset o oDiv3 = true
    · have h34 : (isset o oDiv3 || isset o oDiv3dt) = true := by rw [h3]; rfl
      have et : div3rdTemporal3 o te psi ndtt i j k = div3rdTemporal3 o te psi' ndtt' i j k := by
        unfold div3rdTemporal3 ndttGC03; rw [ex, hnt h34]
      rw [if_pos h3, if_pos h3, eup, div3rdSpatial3_congr o si tiny hw' ha, ha0, ndxFdiv3_congr o tiny hw' (had h3) (hbd h3) (hcd h3) hG,
        nfdivFdiv3_congr o tiny hw' (had h3) (hbd h3) (hbd2 h3) (hcd h3) (hcd2 h3) hG, et, nfdiv3_congr o tiny h (hna h34) (hnb h34) (hnc h34) hG, nfdiv3_congr o tiny h ha hb hc hG,
        (hna h34).at (show _ ≤ i ∧ i ≤ _ ∧ _ ≤ j ∧ j ≤ _ ∧ _ ≤ k ∧ k ≤ _ by omega)]
    · rw [if_neg h3, if_neg h3]
      by_cases h4 : isset o oDiv3dt = true
      · have h34 : (isset o oDiv3 || isset o oDiv3dt) = true := by rw [h4]; simp
        have et : div3rdTemporal3 o te psi ndtt i j k = div3rdTemporal3 o te psi' ndtt' i j k := by
          unfold div3rdTemporal3 ndttGC03; rw [ex, hnt h34]
        have e1 : ndtxPsi3 o tiny psi old i j k = ndtxPsi3 o tiny psi' old' i j k := by
          simp (disch := omega) only [ndtxPsi3, h, hold]
        have e2 : ndtPsi3 o tiny psi old i j k = ndtPsi3 o tiny psi' old' i j k := by
          simp (disch := omega) only [ndtPsi3, h, hold]
        rw [if_pos h4, if_pos h4, eup, div3rdSpatial3_congr o si tiny hw' ha, ha0, e1, e2, nfdivDt3_congr o tiny h hold ha hb hc hG, et,
          nfdiv3_congr o tiny h (hna h34) (hnb h34) (hnc h34) hG, (hna h34).at (show _ ≤ i ∧ i ≤ _ ∧ _ ≤ j ∧ j ≤ _ ∧ _ ≤ k ∧ k ≤ _ by omega)]
      · rw [if_neg h4, if_neg h4]
  · rw [if_neg hd, if_neg hd, ha0, gBarX3_congr o hG, ndxPsi3_congr o tiny h, gc1BarXY3_congr hb, gc2BarXZ3_congr hc, ndyPsi3_congr o tiny h, ndzPsi3_congr o tiny h,
      tot3_congr o tiny h hwt ha0 hb hc hG, dfl3_congr o h (fun hdf => haw (by simp [mpdataHalo, hdf]) (by simp [hdf])) hb hc hG]

end
end Mpdata
