import Verif.Model.Antidiff2
/-! # Footprint of the 2-D antidiffusive velocity -/
set_option linter.unusedSectionVars false
namespace Mpdata
variable {K : Type} [Field K] [LinearOrder K]

/-- two arrays agree on a rectangle -/
abbrev Ag2 (a b c d : Int) (f g : Ar2 K) : Prop := ∀ i j : Int, a ≤ i → i ≤ b → c ≤ j → j ≤ d → f i j = g i j

section
variable {psi psi' old old' ga ga' gb gb' nda nda' ndb ndb' ndtt ndtt' G G' : Ar2 K} {i j : Int}

theorem gBarX2_congr (o : OptsT) (hG : Ag2 i (i+1) (j-1) (j+1) G G') : gBarX2 o G i j = gBarX2 o G' i j := by
  simp (disch := omega) only [gBarX2, gF2, hG]
theorem gBarXY2_congr (o : OptsT) (hG : Ag2 i (i+1) j (j+1) G G') : gBarXY2 o G i j = gBarXY2 o G' i j := by
  simp (disch := omega) only [gBarXY2, gF2, hG]
theorem psiBarX2_congr (o : OptsT) (h : Ag2 i (i+1) j j psi psi') : psiBarX2 o psi i j = psiBarX2 o psi' i j := by
  simp (disch := omega) only [psiBarX2, h]
theorem psiBarY2_congr (o : OptsT) (h : Ag2 i i j (j+1) psi psi') : psiBarY2 o psi i j = psiBarY2 o psi' i j := by
  simp (disch := omega) only [psiBarY2, h]
theorem psiBarXY2_congr (o : OptsT) (h : Ag2 i (i+1) j (j+1) psi psi') : psiBarXY2 o psi i j = psiBarXY2 o psi' i j := by
  simp (disch := omega) only [psiBarXY2, h]
theorem gc1BarXY2_congr (h : Ag2 i (i+1) (j-1) j gb gb') : gc1BarXY2 gb i j = gc1BarXY2 gb' i j := by
  simp (disch := omega) only [gc1BarXY2, h]
theorem gc0BarXY2_congr (h : Ag2 (i-1) i j (j+1) ga ga') : gc0BarXY2 ga i j = gc0BarXY2 ga' i j := by
  simp (disch := omega) only [gc0BarXY2, h]
theorem gc0BarX2_congr (h : Ag2 (i-1) i j j ga ga') : gc0BarX2 ga i j = gc0BarX2 ga' i j := by
  simp (disch := omega) only [gc0BarX2, h]
theorem gc1BarX2_congr (h : Ag2 i (i+1) j j gb gb') : gc1BarX2 gb i j = gc1BarX2 gb' i j := by
  simp (disch := omega) only [gc1BarX2, h]
theorem ndxPsi2_congr (o : OptsT) (tiny : K) (h : Ag2 i (i+1) (j-1) (j+1) psi psi') : ndxPsi2 o tiny psi i j = ndxPsi2 o tiny psi' i j := by
  simp (disch := omega) only [ndxPsi2, h]
theorem ndyPsi2_congr (o : OptsT) (tiny : K) (h : Ag2 i (i+1) (j-1) (j+1) psi psi') : ndyPsi2 o tiny psi i j = ndyPsi2 o tiny psi' i j := by
  simp (disch := omega) only [ndyPsi2, h]
theorem ndxxPsi2_congr (o : OptsT) (tiny : K) (h : Ag2 (i-1) (i+2) (j-1) (j+1) psi psi') : ndxxPsi2 o tiny psi i j = ndxxPsi2 o tiny psi' i j := by
  simp (disch := omega) only [ndxxPsi2, h]
theorem ndxyPsi2_congr (o : OptsT) (tiny : K) (h : Ag2 i (i+1) (j-1) (j+1) psi psi') : ndxyPsi2 o tiny psi i j = ndxyPsi2 o tiny psi' i j := by
  simp (disch := omega) only [ndxyPsi2, h]
theorem fdivCentre2_congr (o : OptsT) (h : Ag2 (i-1) (i+1) (j-1) (j+1) psi psi') (ha : Ag2 (i-1) i j j ga ga') (hb : Ag2 i i (j-1) j gb gb') (hG : Ag2 i i j j G G') :
    fdivCentre2 o psi ga gb G i j = fdivCentre2 o psi' ga' gb' G' i j := by
  simp (disch := omega) only [fdivCentre2, gF2, psiBarX2, psiBarY2, h, ha, hb, hG]
theorem fdivCornerXY2_congr (o : OptsT) (h : Ag2 i (i+1) j (j+1) psi psi') (ha : Ag2 (i-1) (i+1) j (j+1) ga ga') (hb : Ag2 i (i+1) (j-1) (j+1) gb gb')
    (hG : Ag2 i (i+1) j (j+1) G G') :
    fdivCornerXY2 o psi ga gb G i j = fdivCornerXY2 o psi' ga' gb' G' i j := by
  simp (disch := omega) only [fdivCornerXY2, gBarXY2, gF2, gc0BarXY2, gc1BarXY2, psiBarX2, psiBarY2, h, ha, hb, hG]
theorem nfdiv2_congr (o : OptsT) (tiny : K) (h : Ag2 i (i+1) (j-1) (j+1) psi psi') (ha : Ag2 (i-1) (i+1) j j ga ga') (hb : Ag2 i (i+1) (j-1) j gb gb')
    (hG : Ag2 i (i+1) (j-1) (j+1) G G') :
    nfdiv2 o tiny psi ga gb G i j = nfdiv2 o tiny psi' ga' gb' G' i j := by
  simp (disch := omega) only [nfdiv2, gBarX2, gF2, gc0BarX2, gc1BarX2, psiBarXY2, h, ha, hb, hG]
theorem sum8_2_congr (o : OptsT) (h : Ag2 (i-1) (i+2) (j-1) (j+1) psi psi') : sum8_2 o psi i j = sum8_2 o psi' i j := by
  simp (disch := omega) only [sum8_2, h]

theorem Ag2.mono {a b c d a' b' c' d' : Int} {f g : Ar2 K} (h : Ag2 a b c d f g) (h1 : a ≤ a') (h2 : b' ≤ b) (h3 : c ≤ c') (h4 : d' ≤ d) :
    Ag2 a' b' c' d' f g := fun i j e1 e2 e3 e4 => h i j (by omega) (by omega) (by omega) (by omega)

theorem nfdivFdiv2_congr (o : OptsT) (tiny : K) (h : Ag2 (i-1) (i+2) (j-1) (j+1) psi psi') (ha : Ag2 (i-1) (i+1) (j-1) (j+1) ga ga')
    (hb : Ag2 i (i+1) (j-2) (j+1) gb gb') (hG : Ag2 i (i+1) (j-1) (j+1) G G') :
    nfdivFdiv2 o tiny psi ga gb G i j = nfdivFdiv2 o tiny psi' ga' gb' G' i j := by
  have e1 := gc0BarX2_congr (i := i + 1) (j := j) (ha.mono (by omega) (by omega) (by omega) (by omega))
  have e2 := gc0BarX2_congr (i := i) (j := j) (ha.mono (by omega) (by omega) (by omega) (by omega))
  have e3 := gc1BarX2_congr (i := i) (j := j) (hb.mono (by omega) (by omega) (by omega) (by omega))
  have e4 := gc1BarX2_congr (i := i) (j := j - 1) (hb.mono (by omega) (by omega) (by omega) (by omega))
  have e5 := fdivCentre2_congr o (i := i + 1) (j := j) (h.mono (by omega) (by omega) (by omega) (by omega)) (ha.mono (by omega) (by omega) (by omega) (by omega))
    (hb.mono (by omega) (by omega) (by omega) (by omega)) (hG.mono (by omega) (by omega) (by omega) (by omega))
  have e6 := fdivCentre2_congr o (i := i) (j := j) (h.mono (by omega) (by omega) (by omega) (by omega)) (ha.mono (by omega) (by omega) (by omega) (by omega))
    (hb.mono (by omega) (by omega) (by omega) (by omega)) (hG.mono (by omega) (by omega) (by omega) (by omega))
  have e7 := fdivCornerXY2_congr o (i := i) (j := j) (h.mono (by omega) (by omega) (by omega) (by omega)) (ha.mono (by omega) (by omega) (by omega) (by omega))
    (hb.mono (by omega) (by omega) (by omega) (by omega)) (hG.mono (by omega) (by omega) (by omega) (by omega))
  have e8 := fdivCornerXY2_congr o (i := i) (j := j - 1) (h.mono (by omega) (by omega) (by omega) (by omega)) (ha.mono (by omega) (by omega) (by omega) (by omega))
    (hb.mono (by omega) (by omega) (by omega) (by omega)) (hG.mono (by omega) (by omega) (by omega) (by omega))
  simp only [nfdivFdiv2, e1, e2, e3, e4, e5, e6, e7, e8, gBarX2_congr o hG, sum8_2_congr o h]

theorem ndxFdiv2_congr (o : OptsT) (tiny : K) (h : Ag2 (i-1) (i+2) (j-1) (j+1) psi psi') (ha : Ag2 (i-1) (i+1) (j-1) (j+1) ga ga')
    (hb : Ag2 i (i+1) (j-2) (j+1) gb gb') (hG : Ag2 i (i+1) (j-1) (j+1) G G') :
    ndxFdiv2 o tiny psi ga gb G i j = ndxFdiv2 o tiny psi' ga' gb' G' i j := by
  have e5 := fdivCentre2_congr o (i := i + 1) (j := j) (h.mono (by omega) (by omega) (by omega) (by omega)) (ha.mono (by omega) (by omega) (by omega) (by omega))
    (hb.mono (by omega) (by omega) (by omega) (by omega)) (hG.mono (by omega) (by omega) (by omega) (by omega))
  have e6 := fdivCentre2_congr o (i := i) (j := j) (h.mono (by omega) (by omega) (by omega) (by omega)) (ha.mono (by omega) (by omega) (by omega) (by omega))
    (hb.mono (by omega) (by omega) (by omega) (by omega)) (hG.mono (by omega) (by omega) (by omega) (by omega))
  simp only [ndxFdiv2, e5, e6, sum8_2_congr o h]

theorem nfdivDt2_congr (o : OptsT) (tiny : K) (h : Ag2 i (i+1) (j-1) (j+1) psi psi') (ho : Ag2 i (i+1) (j-1) (j+1) old old')
    (ha : Ag2 (i-1) (i+1) j j ga ga') (hb : Ag2 i (i+1) (j-1) j gb gb') (hG : Ag2 i (i+1) (j-1) (j+1) G G') :
    nfdivDt2 o tiny psi old ga gb G i j = nfdivDt2 o tiny psi' old' ga' gb' G' i j := by
  simp (disch := omega) only [nfdivDt2, gBarX2, gF2, gc0BarX2, gc1BarX2, psiBarXY2, h, ho, ha, hb, hG]

theorem div2nd2_congr (o : OptsT) (tiny : K) (h : Ag2 i (i+1) (j-1) (j+1) psi psi') (ha : Ag2 (i-1) (i+1) j j ga ga') (hb : Ag2 i (i+1) (j-1) j gb gb')
    (hG : Ag2 i (i+1) (j-1) (j+1) G G') :
    div2nd2 o tiny psi ga gb G i j = div2nd2 o tiny psi' ga' gb' G' i j := by
  simp only [div2nd2, ndxPsi2_congr o tiny h, nfdiv2_congr o tiny h ha hb hG, ha i j (by omega) (by omega) (by omega) (by omega)]

theorem tot2_congr (o : OptsT) (tiny : K) (h : Ag2 i (i+1) (j-1) (j+1) psi psi') (hw : isset o oTot = true → Ag2 (i-1) (i+2) (j-1) (j+1) psi psi')
    (ha : ga i j = ga' i j) (hb : Ag2 i (i+1) (j-1) j gb gb') (hG : Ag2 i (i+1) (j-1) (j+1) G G') :
    tot2 o tiny psi ga gb G i j = tot2 o tiny psi' ga' gb' G' i j := by
  unfold tot2
  by_cases ht : isset o oTot = true
  · simp only [ht, if_true, ndxxPsi2_congr o tiny (hw ht), ndxyPsi2_congr o tiny h, ndxxPsiCoeff2, ndxyPsiCoeff2, gBarX2_congr o hG, gc1BarXY2_congr hb, ha]
  · rw [if_neg ht, if_neg ht]

theorem fot2_congr (o : OptsT) (h : isset o oFot = true → Ag2 (i-1) (i+2) (j-1) (j+1) psi psi')
    (ha : ga i j = ga' i j) (hb : Ag2 i (i+1) (j-1) j gb gb') (hG : Ag2 i (i+1) (j-1) (j+1) G G') :
    fot2 o psi ga gb G i j = fot2 o psi' ga' gb' G' i j := by
  unfold fot2
  by_cases ht : isset o oFot = true
  · have h' := h ht
    simp (disch := omega) only [ht, if_true, ndxxxPsi2, ndxxyPsi2, ndxyyPsi2, ndxxxPsiCoeff2, ndxxyPsiCoeff2, ndxyyPsiCoeff2, gBarX2_congr o hG, gc1BarXY2_congr hb, ha, h']
  · rw [if_neg ht, if_neg ht]

theorem dfl2_congr (o : OptsT) (h : Ag2 i (i+1) (j-1) (j+1) psi psi') (ha : isset o oDfl = true → Ag2 (i-1) (i+1) j j ga ga') (hb : Ag2 i (i+1) (j-1) j gb gb')
    (hG : Ag2 i (i+1) (j-1) (j+1) G G') :
    dfl2 o psi ga gb G i j = dfl2 o psi' ga' gb' G' i j := by
  unfold dfl2
  by_cases ht : isset o oDfl = true
  · have ha' := ha ht
    have e := psiBarX2_congr o (i := i) (j := j) (h.mono (by omega) (by omega) (by omega) (by omega))
    simp (disch := omega) only [ht, if_true, gBarX2_congr o hG, ha', hb, e]
  · rw [if_neg ht, if_neg ht]

theorem div3rdSpatial2_congr (o : OptsT) (si : SptlIntrp) (tiny : K) (h : Ag2 (i-1) (i+2) (j-1) (j+1) psi psi') (ha : Ag2 (i-1) (i+1) j j ga ga') :
    div3rdSpatial2 o si tiny psi ga i j = div3rdSpatial2 o si tiny psi' ga' i j := by
  have e := psiBarX2_congr o (i := i) (j := j) (h.mono (by omega) (by omega) (by omega) (by omega))
  have e1 := ndxPsi2_congr o tiny (i := i) (j := j) (h.mono (by omega) (by omega) (by omega) (by omega))
  unfold div3rdSpatial2 div3rdSpatialHelper2 ndxxGC02 ndxGC02
  rw [e, e1, ndxxPsi2_congr o tiny h, ha i j (by omega) (by omega) (by omega) (by omega), ha (i+1) j (by omega) (by omega) (by omega) (by omega),
    ha (i-1) j (by omega) (by omega) (by omega) (by omega)]

/-- everything that the antidiffusive velocity of a face reads -/
theorem antidiff2_congr (o : OptsT) (si : SptlIntrp) (te : TmprlExtrp) (tiny : K)
    (hfot : isset o oFot = true → isset o oTot = true ∨ isset o oDiv3 = true)
    (h : Ag2 i (i+1) (j-1) (j+1) psi psi') (hw : mpdataHalo o = 2 → Ag2 (i-1) (i+2) (j-1) (j+1) psi psi')
    (hold : Ag2 i (i+1) (j-1) (j+1) old old')
    (ha0 : ga i j = ga' i j) (haw : mpdataHalo o = 2 → (isset o oDfl || isset o oDiv2 || isset o oDiv3) = true → Ag2 (i-1) (i+1) j j ga ga')
    (had : isset o oDiv3 = true → Ag2 (i-1) (i+1) (j-1) (j+1) ga ga')
    (hb : Ag2 i (i+1) (j-1) j gb gb') (hbd : isset o oDiv3 = true → Ag2 i (i+1) (j-2) (j+1) gb gb')
    (hna : (isset o oDiv3 || isset o oDiv3dt) = true → Ag2 (i-1) (i+1) j j nda nda')
    (hnb : (isset o oDiv3 || isset o oDiv3dt) = true → Ag2 i (i+1) (j-1) j ndb ndb')
    (hnt : (isset o oDiv3 || isset o oDiv3dt) = true → ndtt i j = ndtt' i j) (hG : Ag2 i (i+1) (j-1) (j+1) G G') :
    antidiff2 o si te tiny psi old ga gb nda ndb ndtt G i j = antidiff2 o si te tiny psi' old' ga' gb' nda' ndb' ndtt' G' i j := by
  have hwf : isset o oFot = true → Ag2 (i-1) (i+2) (j-1) (j+1) psi psi' := by
    intro hf; apply hw
    rcases hfot hf with h | h <;> simp [mpdataHalo, h]
  have hwt : isset o oTot = true → Ag2 (i-1) (i+2) (j-1) (j+1) psi psi' := by
    intro hf; apply hw; simp [mpdataHalo, hf]
  unfold antidiff2
  by_cases hd : (isset o oDiv2 || isset o oDiv3) = true
  · have hh : mpdataHalo o = 2 := by
      rw [Bool.or_eq_true] at hd
      rcases hd with h | h <;> simp [mpdataHalo, h]
    have hw' := hw hh
    have ha : Ag2 (i-1) (i+1) j j ga ga' := haw hh (by rw [Bool.or_assoc, hd, Bool.or_true])
    rw [if_pos hd, if_pos hd, div2nd2_congr o tiny h ha hb hG, fot2_congr o hwf ha0 hb hG]
    congr 2
    unfold div3rd2
    have eup : div3rdUpwind2 o tiny psi ga gb G i j = div3rdUpwind2 o tiny psi' ga' gb' G' i j := by
      unfold div3rdUpwind2; rw [div2nd2_congr o tiny h ha hb hG, ndxPsi2_congr o tiny h]
    have ex := psiBarX2_congr o (i := i) (j := j) (h.mono (by omega) (by omega) (by omega) (by omega))
    by_cases h3 : isset o oDiv3 = true
    · have h34 : (isset o oDiv3 || isset o oDiv3dt) = true := by rw [h3]; rfl
      have et : div3rdTemporal2 o te psi ndtt i j = div3rdTemporal2 o te psi' ndtt' i j := by
        unfold div3rdTemporal2 ndttGC02; rw [ex, hnt h34]
      rw [if_pos h3, if_pos h3, eup, div3rdSpatial2_congr o si tiny hw' ha, ha0, ndxFdiv2_congr o tiny hw' (had h3) (hbd h3) hG,
        nfdivFdiv2_congr o tiny hw' (had h3) (hbd h3) hG, et, nfdiv2_congr o tiny h (hna h34) (hnb h34) hG, nfdiv2_congr o tiny h ha hb hG,
        hna h34 i j (by omega) (by omega) (by omega) (by omega)]
    · rw [if_neg h3, if_neg h3]
      by_cases h4 : isset o oDiv3dt = true
      · have h34 : (isset o oDiv3 || isset o oDiv3dt) = true := by rw [h4]; simp
        have et : ndttGC02 o psi ndtt i j = ndttGC02 o psi' ndtt' i j := by
          unfold ndttGC02; rw [ex, hnt h34]
        have e1 : ndtxPsi2 o tiny psi old i j = ndtxPsi2 o tiny psi' old' i j := by
          simp (disch := omega) only [ndtxPsi2, h, hold]
        have e2 : ndtPsi2 o tiny psi old i j = ndtPsi2 o tiny psi' old' i j := by
          simp (disch := omega) only [ndtPsi2, h, hold]
        rw [if_pos h4, if_pos h4, eup, div3rdSpatial2_congr o si tiny hw' ha, ha0, e1, e2, nfdivDt2_congr o tiny h hold ha hb hG, et,
          nfdiv2_congr o tiny h (hna h34) (hnb h34) hG, hna h34 i j (by omega) (by omega) (by omega) (by omega)]
      · rw [if_neg h4, if_neg h4]
  · rw [if_neg hd, if_neg hd, ha0, gBarX2_congr o hG, ndxPsi2_congr o tiny h, gc1BarXY2_congr hb, ndyPsi2_congr o tiny h,
      tot2_congr o tiny h hwt ha0 hb hG, fot2_congr o hwf ha0 hb hG, dfl2_congr o h (fun hdf => haw (by simp [mpdataHalo, hdf]) (by simp [hdf])) hb hG]

end
end Mpdata
