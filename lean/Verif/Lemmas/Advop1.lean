import Verif.Model.Advop1
import Verif.Spec.Periodic1
/-! Footprints of the 1-D formulae and the refinement invariant. -/
set_option linter.unusedSectionVars false
namespace Mpdata
variable {K : Type} [Field K] [LinearOrder K]

/-- two arrays agree on `[lo, hi]` -/
def Agree (lo hi : Int) (a b : Int → K) : Prop := ∀ i, lo ≤ i → i ≤ hi → a i = b i

theorem Agree.mono {lo hi lo' hi' : Int} {a b : Int → K} (h : Agree lo hi a b)
    (h1 : lo ≤ lo') (h2 : hi' ≤ hi) : Agree lo' hi' a b := fun i a1 a2 => h i (by omega) (by omega)

theorem asg_agree {r : Rng} {e a b : Int → K} (h : Agree r.first r.last e b) :
    Agree r.first r.last (asg r e a) b := by
  intro i h1 h2
  unfold asg
  rw [if_pos ⟨h1, h2⟩]
  exact h i h1 h2

theorem asg_mem {r : Rng} {e a : Int → K} {i : Int} (h : r.Mem i) : asg r e a i = e i := by simp [asg, h]
theorem asg_not_mem {r : Rng} {e a : Int → K} {i : Int} (h : ¬ r.Mem i) : asg r e a i = a i := by simp [asg, h]

theorem asg_ite (r : Rng) (e a : Int → K) (i : Int) :
    asg r e a i = if r.first ≤ i ∧ i ≤ r.last then e i else a i := by
  by_cases h : r.Mem i
  · have h' : r.first ≤ i ∧ i ≤ r.last := h
    rw [asg_mem h, if_pos h']
  · have h' : ¬ (r.first ≤ i ∧ i ≤ r.last) := h
    rw [asg_not_mem h, if_neg h']

section congr
variable {psi psi' GC GC' G G' ndt ndt' ndtt ndtt' : Int → K} {i : Int}

theorem gBarX1_congr (o : OptsT) (h : Agree i (i + 1) G G') : gBarX1 o G i = gBarX1 o G' i := by
  simp only [gBarX1, gFac1, h i (by omega) (by omega), h (i + 1) (by omega) (by omega)]

theorem gc0BarX1_congr (h : Agree (i - 1) i GC GC') : gc0BarX1 GC i = gc0BarX1 GC' i := by
  simp only [gc0BarX1, h i (by omega) (by omega), h (i - 1) (by omega) (by omega)]

theorem psiBarX1_congr (o : OptsT) (h : Agree i (i + 1) psi psi') : psiBarX1 o psi i = psiBarX1 o psi' i := by
  simp only [psiBarX1, h i (by omega) (by omega), h (i + 1) (by omega) (by omega)]

theorem ndxPsi1_congr (o : OptsT) (tiny : K) (h : Agree i (i + 1) psi psi') :
    ndxPsi1 o tiny psi i = ndxPsi1 o tiny psi' i := by
  simp only [ndxPsi1, h i (by omega) (by omega), h (i + 1) (by omega) (by omega)]

theorem ndxxPsi1_congr (o : OptsT) (tiny : K) (h : Agree (i - 1) (i + 2) psi psi') :
    ndxxPsi1 o tiny psi i = ndxxPsi1 o tiny psi' i := by
  simp only [ndxxPsi1, h i (by omega) (by omega), h (i + 1) (by omega) (by omega),
    h (i - 1) (by omega) (by omega), h (i + 2) (by omega) (by omega)]

theorem fdivCentre1_congr (o : OptsT) (h : Agree (i - 1) (i + 1) psi psi') (hG : G i = G' i)
    (hGC : Agree (i - 1) i GC GC') :
    fdivCentre1 o psi GC G i = fdivCentre1 o psi' GC' G' i := by
  have h1 := psiBarX1_congr o (h.mono (by omega) (by omega) : Agree i (i + 1) psi psi')
  have h2 := psiBarX1_congr (i := i - 1) o (h.mono (by omega) (by omega) : Agree (i - 1) (i - 1 + 1) psi psi')
  simp only [fdivCentre1, gFac1, h1, h2, hG, hGC i (by omega) (by omega), hGC (i - 1) (by omega) (by omega)]

theorem nfdiv1_congr (o : OptsT) (tiny : K) (h : Agree i (i + 1) psi psi') (hG : Agree i (i + 1) G G')
    (hGC : Agree (i - 1) (i + 1) GC GC') :
    nfdiv1 o tiny psi GC G i = nfdiv1 o tiny psi' GC' G' i := by
  have h1 := gc0BarX1_congr (i := i) (hGC.mono (by omega) (by omega))
  have h2 := gc0BarX1_congr (i := i + 1) (hGC.mono (by omega) (by omega))
  simp only [nfdiv1, gBarX1_congr o hG, h1, h2, h i (by omega) (by omega), h (i + 1) (by omega) (by omega)]

theorem nfdivFdiv1_congr (o : OptsT) (tiny : K) (h : Agree (i - 1) (i + 2) psi psi') (hG : Agree i (i + 1) G G')
    (hGC : Agree (i - 1) (i + 1) GC GC') :
    nfdivFdiv1 o tiny psi GC G i = nfdivFdiv1 o tiny psi' GC' G' i := by
  have h1 := gc0BarX1_congr (i := i) (hGC.mono (by omega) (by omega))
  have h2 := gc0BarX1_congr (i := i + 1) (hGC.mono (by omega) (by omega))
  have h3 := fdivCentre1_congr (i := i) o (h.mono (by omega) (by omega)) (hG i (by omega) (by omega))
    (hGC.mono (by omega) (by omega))
  have h4 := fdivCentre1_congr (i := i + 1) o (h.mono (by omega) (by omega)) (hG (i + 1) (by omega) (by omega))
    (hGC.mono (by omega) (by omega))
  simp only [nfdivFdiv1, gBarX1_congr o hG, h1, h2, h3, h4, h i (by omega) (by omega), h (i + 1) (by omega) (by omega),
    h (i - 1) (by omega) (by omega), h (i + 2) (by omega) (by omega)]

theorem ndxFdiv1_congr (o : OptsT) (tiny : K) (h : Agree (i - 1) (i + 2) psi psi') (hG : Agree i (i + 1) G G')
    (hGC : Agree (i - 1) (i + 1) GC GC') :
    ndxFdiv1 o tiny psi GC G i = ndxFdiv1 o tiny psi' GC' G' i := by
  have h3 := fdivCentre1_congr (i := i) o (h.mono (by omega) (by omega)) (hG i (by omega) (by omega))
    (hGC.mono (by omega) (by omega))
  have h4 := fdivCentre1_congr (i := i + 1) o (h.mono (by omega) (by omega)) (hG (i + 1) (by omega) (by omega))
    (hGC.mono (by omega) (by omega))
  simp only [ndxFdiv1, h3, h4, h i (by omega) (by omega), h (i + 1) (by omega) (by omega),
    h (i - 1) (by omega) (by omega), h (i + 2) (by omega) (by omega)]

/-- how far beyond its own face the antidiffusive velocity reads the velocity to be corrected -/
def gcReach (o : OptsT) : Int := if isset o oDfl || isset o oDiv2 || isset o oDiv3 then 1 else 0

theorem gcReach_cases (o : OptsT) : (gcReach o = 0 ∧ isset o oDfl = false ∧ isset o oDiv2 = false ∧ isset o oDiv3 = false) ∨
    (gcReach o = 1 ∧ mpdataHalo o = 2) := by
  unfold gcReach mpdataHalo
  cases h1 : isset o oDfl <;> cases h2 : isset o oDiv2 <;> cases h3 : isset o oDiv3 <;> simp

theorem mpdataHalo_cases (o : OptsT) : mpdataHalo o = 2 ∨ (mpdataHalo o = 1 ∧ isset o oTot = false ∧
    isset o oDfl = false ∧ isset o oDiv2 = false ∧ isset o oDiv3 = false ∧ isset o oDiv3dt = false) := by
  unfold mpdataHalo
  cases isset o oTot <;> cases isset o oDfl <;> cases isset o oDiv2 <;> cases isset o oDiv3 <;>
    cases isset o oDiv3dt <;> simp

/-- footprint of the antidiffusive velocity -/
theorem antidiff1_congr (o : OptsT) (si : SptlIntrp) (te : TmprlExtrp) (tiny : K)
    (h : Agree (i - (mpdataHalo o - 1)) (i + mpdataHalo o) psi psi')
    (hG : Agree i (i + 1) G G')
    (hGC : Agree (i - gcReach o) (i + gcReach o) GC GC')
    (hndt : isset o oDiv3 = true → Agree (i - 1) (i + 1) ndt ndt')
    (hndtt : isset o oDiv3 = true → ndtt i = ndtt' i) :
    antidiff1 o si te tiny psi GC ndt ndtt G i = antidiff1 o si te tiny psi' GC' ndt' ndtt' G' i := by
  have hp1 : Agree i (i + 1) psi psi' := by
    rcases mpdataHalo_cases o with h' | ⟨h', _⟩ <;> rw [h'] at h <;> exact h.mono (by omega) (by omega)
  have e1 := ndxPsi1_congr o tiny hp1
  have e2 := gBarX1_congr o hG
  have eGC : GC i = GC' i := by
    rcases gcReach_cases o with ⟨h', _⟩ | ⟨h', _⟩ <;> rw [h'] at hGC <;> exact hGC i (by omega) (by omega)
  rcases mpdataHalo_cases o with hh | ⟨hh, h1, h2, h3, h4, h5⟩
  · rw [hh] at h
    have hp2 : Agree (i - 1) (i + 2) psi psi' := h.mono (by simp) (by simp)
    have e3 := ndxxPsi1_congr o tiny hp2
    have e4 : tot1 o tiny psi GC G i = tot1 o tiny psi' GC' G' i := by
      simp only [tot1, ndxxPsiCoeff1, e2, e3, eGC]
    unfold antidiff1
    rcases gcReach_cases o with ⟨hw, d1, d2, d3⟩ | ⟨hw, hmh⟩
    · simp only [d2, d3, Bool.or_self, Bool.false_eq_true, if_false, e1, e2, e4, eGC, dfl1, d1]
    · rw [hw] at hGC
      have eGC1 := hGC (i + 1) (by omega) (by omega)
      have eGC2 := hGC (i - 1) (by omega) (by omega)
      have e5 := nfdiv1_congr o tiny hp1 hG hGC
      have e6 : div2nd1 o tiny psi GC G i = div2nd1 o tiny psi' GC' G' i := by
        simp only [div2nd1, e1, e5, eGC]
      have e7 : dfl1 o psi GC G i = dfl1 o psi' GC' G' i := by
        simp only [dfl1, gFac1, eGC, eGC1, eGC2, hG i (by omega) (by omega), hG (i + 1) (by omega) (by omega),
          hp1 i (by omega) (by omega), hp1 (i + 1) (by omega) (by omega)]
      have e8 : div3rd1 o si te tiny psi GC ndt ndtt G i = div3rd1 o si te tiny psi' GC' ndt' ndtt' G' i := by
        unfold div3rd1
        by_cases hd : isset o oDiv3 = true
        · have f1 := nfdivFdiv1_congr o tiny hp2 hG hGC
          have f2 := ndxFdiv1_congr o tiny hp2 hG hGC
          have f3 := nfdiv1_congr o tiny hp1 hG (hndt hd)
          have f4 := psiBarX1_congr o hp1
          have f5 := hndt hd i (by omega) (by omega)
          have f6 := hndtt hd
          have f7 : div3rdTemporal1 o te psi ndtt i = div3rdTemporal1 o te psi' ndtt' i := by
            unfold div3rdTemporal1 ndttGC01; rw [f4, f6]
          have f8 : div3rdSpatial1 o si tiny psi GC i = div3rdSpatial1 o si tiny psi' GC' i := by
            unfold div3rdSpatial1 div3rdSpatialHelper1 ndxxGC01 ndxGC01
            rw [e1, e3, f4, eGC, eGC1, eGC2]
          have f9 : div3rdUpwind1 o tiny psi GC G i = div3rdUpwind1 o tiny psi' GC' G' i := by
            unfold div3rdUpwind1; rw [e6, e1]
          rw [f1, f2, f3, f5, f7, f8, f9, e5, eGC]
        · simp only [hd, if_false, Bool.false_eq_true]
      rw [e1, e2, e4, e6, e7, e8, eGC]
  · simp only [antidiff1, h3, h4, Bool.or_self, Bool.false_eq_true, if_false, tot1, h1, dfl1, h2, e1, e2, eGC]

theorem makeFlux1_congr (o : OptsT) (h : Agree i (i + 1) psi psi') (hGC : GC i = GC' i) :
    makeFlux1 o psi GC i = makeFlux1 o psi' GC' i := by
  simp only [makeFlux1, hGC, h i (by omega) (by omega), h (i + 1) (by omega) (by omega)]

theorem donorStep1_congr (o : OptsT) {flx flx' : Int → K} (h : psi i = psi' i) (hf : Agree (i - 1) i flx flx')
    (hG : G i = G' i) : donorStep1 o psi flx G i = donorStep1 o psi' flx' G' i := by
  simp only [donorStep1, gFac1, h, hG, hf i (by omega) (by omega), hf (i - 1) (by omega) (by omega)]

theorem betaUp1_congr (o : OptsT) (eps : K) {flx flx' mx mx' : Int → K} (h : Agree (i - 1) (i + 1) psi psi')
    (hm : mx i = mx' i) (hf : Agree (i - 1) i flx flx') (hG : G i = G' i) :
    betaUp1 o eps psi mx flx G i = betaUp1 o eps psi' mx' flx' G' i := by
  simp only [betaUp1, gFac1, hm, hG, hf i (by omega) (by omega), hf (i - 1) (by omega) (by omega),
    h i (by omega) (by omega), h (i - 1) (by omega) (by omega), h (i + 1) (by omega) (by omega)]

theorem betaDn1_congr (o : OptsT) (eps : K) {flx flx' mn mn' : Int → K} (h : Agree (i - 1) (i + 1) psi psi')
    (hm : mn i = mn' i) (hf : Agree (i - 1) i flx flx') (hG : G i = G' i) :
    betaDn1 o eps psi mn flx G i = betaDn1 o eps psi' mn' flx' G' i := by
  simp only [betaDn1, gFac1, hm, hG, hf i (by omega) (by omega), hf (i - 1) (by omega) (by omega),
    h i (by omega) (by omega), h (i - 1) (by omega) (by omega), h (i + 1) (by omega) (by omega)]

theorem gcMono1_congr (o : OptsT) {bu bu' bd bd' : Int → K} (h : Agree i (i + 1) psi psi')
    (hu : Agree i (i + 1) bu bu') (hd : Agree i (i + 1) bd bd') (hGC : GC i = GC' i) :
    gcMono1 o psi bu bd GC i = gcMono1 o psi' bu' bd' GC' i := by
  simp only [gcMono1, hGC, h i (by omega) (by omega), h (i + 1) (by omega) (by omega),
    hu i (by omega) (by omega), hu (i + 1) (by omega) (by omega),
    hd i (by omega) (by omega), hd (i + 1) (by omega) (by omega)]

end congr
end Mpdata
