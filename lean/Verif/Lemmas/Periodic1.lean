import Verif.Lemmas.Refine1
/-! Periodic fields: cyclic halos implement periodic extension and every pass preserves periodicity. -/
set_option linter.unusedSectionVars false
namespace Mpdata
variable {K : Type} [Field K] [LinearOrder K]
open Spec1

theorem cycFillS_periodic {r : Rng} {N halo : Int} (hN : r.last - r.first = N) (hh : halo ≤ N)
    {a b : Int → K} (hb : Periodic N b) (hab : Agree r.first r.last a b) :
    Agree (r.first - halo) (r.last + halo) (cycFillS r halo a) b := by
  intro i h1 h2
  have hb' : ∀ i, b (i - N) = b i := fun i => by have := hb (i - N); rw [sub_add_cancel] at this; exact this.symm
  simp only [cycFillS, hN]
  by_cases hR : r.last + 1 ≤ i
  · rw [asg_mem ⟨hR, h2⟩]
    by_cases hL : (Rng.mk (r.first - halo) (r.first - 1)).Mem (i - N)
    · exact absurd hL.2 (by simp only; omega)
    · rw [asg_not_mem hL, hab _ (by omega) (by omega), hb']
  · rw [asg_not_mem (by simp only [Rng.Mem]; omega)]
    by_cases hL : i ≤ r.first - 1
    · rw [asg_mem ⟨h1, hL⟩, hab _ (by omega) (by omega), hb]
    · rw [asg_not_mem (by simp only [Rng.Mem]; omega)]
      exact hab _ (by omega) (by omega)

theorem cycFillV_periodic {r : Rng} {N halo : Int} (hN : r.last - r.first = N) (hh : halo ≤ N)
    {a b : Int → K} (hb : Periodic N b) (hab : Agree r.first (r.last - 1) a b) :
    Agree (r.first - halo) (r.last + halo - 1) (cycFillV r halo a) b := by
  intro i h1 h2
  have hb' : ∀ i, b (i - N) = b i := fun i => by have := hb (i - N); rw [sub_add_cancel] at this; exact this.symm
  simp only [cycFillV, hN]
  by_cases hR : r.last ≤ i
  · rw [asg_mem ⟨hR, h2⟩]
    by_cases hL : (Rng.mk (r.first - halo) (r.first - 1)).Mem (i - N)
    · exact absurd hL.2 (by simp only; omega)
    · rw [asg_not_mem hL, hab _ (by omega) (by omega), hb']
  · rw [asg_not_mem (by simp only [Rng.Mem]; omega)]
    by_cases hL : i ≤ r.first - 1
    · rw [asg_mem ⟨h1, hL⟩, hab _ (by omega) (by omega), hb]
    · rw [asg_not_mem (by simp only [Rng.Mem]; omega)]
      exact hab _ (by omega) (by omega)

section shift
variable {N : Int} {psi GC G ndt ndtt : Int → K}

theorem Spec1.Periodic.p1 {a : Int → K} (h : Periodic N a) (i : Int) : a (i + N + 1) = a (i + 1) := by
  rw [show i + N + 1 = i + 1 + N by ring]; exact h _
theorem Spec1.Periodic.m1 {a : Int → K} (h : Periodic N a) (i : Int) : a (i + N - 1) = a (i - 1) := by
  rw [show i + N - 1 = i - 1 + N by ring]; exact h _
theorem Spec1.Periodic.p2 {a : Int → K} (h : Periodic N a) (i : Int) : a (i + N + 2) = a (i + 2) := by
  rw [show i + N + 2 = i + 2 + N by ring]; exact h _

theorem gFac1_periodic (o : OptsT) (hG : Periodic N G) : Periodic N (gFac1 o G) := by
  intro i; simp only [gFac1, hG i]
theorem gBarX1_periodic (o : OptsT) (hG : Periodic N G) : Periodic N (gBarX1 o G) := by
  intro i; simp only [gBarX1, gFac1, hG i, hG.p1 i]
theorem gc0BarX1_periodic (h : Periodic N GC) : Periodic N (gc0BarX1 GC) := by
  intro i; simp only [gc0BarX1, h i, h.m1 i]
theorem ndxGC01_periodic (h : Periodic N GC) : Periodic N (ndxGC01 GC) := by
  intro i; simp only [ndxGC01, h.p1 i, h.m1 i]
theorem psiBarX1_periodic (o : OptsT) (h : Periodic N psi) : Periodic N (psiBarX1 o psi) := by
  intro i; simp only [psiBarX1, h i, h.p1 i]
theorem ndxPsi1_periodic (o : OptsT) (tiny : K) (h : Periodic N psi) : Periodic N (ndxPsi1 o tiny psi) := by
  intro i; simp only [ndxPsi1, h i, h.p1 i]
theorem ndxxPsi1_periodic (o : OptsT) (tiny : K) (h : Periodic N psi) : Periodic N (ndxxPsi1 o tiny psi) := by
  intro i; simp only [ndxxPsi1, h i, h.p1 i, h.m1 i, h.p2 i]
theorem fdivCentre1_periodic (o : OptsT) (h : Periodic N psi) (hg : Periodic N GC) (hG : Periodic N G) :
    Periodic N (fdivCentre1 o psi GC G) := by
  intro i
  have := psiBarX1_periodic o h
  simp only [fdivCentre1, hg i, hg.m1 i, this i, this.m1 i, gFac1_periodic o hG i]
theorem nfdiv1_periodic (o : OptsT) (tiny : K) (h : Periodic N psi) (hg : Periodic N GC) (hG : Periodic N G) :
    Periodic N (nfdiv1 o tiny psi GC G) := by
  intro i
  have := gc0BarX1_periodic hg
  simp only [nfdiv1, this i, this.p1 i, h i, h.p1 i, gBarX1_periodic o hG i]
theorem nfdivFdiv1_periodic (o : OptsT) (tiny : K) (h : Periodic N psi) (hg : Periodic N GC) (hG : Periodic N G) :
    Periodic N (nfdivFdiv1 o tiny psi GC G) := by
  intro i
  have h1 := gc0BarX1_periodic hg
  have h2 := fdivCentre1_periodic o h hg hG
  simp only [nfdivFdiv1, h1 i, h1.p1 i, h2 i, h2.p1 i, h i, h.p1 i, h.p2 i, h.m1 i, gBarX1_periodic o hG i]
theorem ndxFdiv1_periodic (o : OptsT) (tiny : K) (h : Periodic N psi) (hg : Periodic N GC) (hG : Periodic N G) :
    Periodic N (ndxFdiv1 o tiny psi GC G) := by
  intro i
  have h2 := fdivCentre1_periodic o h hg hG
  simp only [ndxFdiv1, h2 i, h2.p1 i, h i, h.p1 i, h.p2 i, h.m1 i]
theorem div2nd1_periodic (o : OptsT) (tiny : K) (h : Periodic N psi) (hg : Periodic N GC) (hG : Periodic N G) :
    Periodic N (div2nd1 o tiny psi GC G) := by
  intro i
  simp only [div2nd1, hg i, ndxPsi1_periodic o tiny h i, nfdiv1_periodic o tiny h hg hG i]

theorem antidiff1_periodic (o : OptsT) (si : SptlIntrp) (te : TmprlExtrp) (tiny : K) (h : Periodic N psi)
    (hg : Periodic N GC) (hG : Periodic N G) (h1 : Periodic N ndt) (h2 : Periodic N ndtt) :
    Periodic N (antidiff1 o si te tiny psi GC ndt ndtt G) := by
  intro i
  have e1 : tot1 o tiny psi GC G (i + N) = tot1 o tiny psi GC G i := by
    simp only [tot1, ndxxPsiCoeff1, ndxxPsi1_periodic o tiny h i, gBarX1_periodic o hG i, hg i]
  have e2 : dfl1 o psi GC G (i + N) = dfl1 o psi GC G i := by
    have := gFac1_periodic o hG
    simp only [dfl1, this i, this.p1 i, hg i, hg.p1 i, hg.m1 i, h i, h.p1 i]
  have e3 : div3rd1 o si te tiny psi GC ndt ndtt G (i + N) = div3rd1 o si te tiny psi GC ndt ndtt G i := by
    have f1 : div3rdTemporal1 o te psi ndtt (i + N) = div3rdTemporal1 o te psi ndtt i := by
      simp only [div3rdTemporal1, ndttGC01, psiBarX1_periodic o h i, h2 i]
    have f2 : div3rdSpatial1 o si tiny psi GC (i + N) = div3rdSpatial1 o si tiny psi GC i := by
      simp only [div3rdSpatial1, div3rdSpatialHelper1, ndxxGC01, psiBarX1_periodic o h i, hg i, hg.p1 i, hg.m1 i,
        ndxPsi1_periodic o tiny h i, ndxxPsi1_periodic o tiny h i, ndxGC01_periodic hg i]
    simp only [div3rd1, div3rdUpwind1, div2nd1_periodic o tiny h hg hG i, ndxPsi1_periodic o tiny h i, f1, f2,
      hg i, h1 i, ndxFdiv1_periodic o tiny h hg hG i, nfdivFdiv1_periodic o tiny h hg hG i,
      nfdiv1_periodic o tiny h hg hG i, nfdiv1_periodic o tiny h h1 hG i]
  simp only [antidiff1, e1, e2, e3, div2nd1_periodic o tiny h hg hG i, hg i, gBarX1_periodic o hG i,
    ndxPsi1_periodic o tiny h i]

theorem makeFlux1_periodic (o : OptsT) (h : Periodic N psi) (hg : Periodic N GC) : Periodic N (makeFlux1 o psi GC) := by
  intro i; simp only [makeFlux1, h i, h.p1 i, hg i]

theorem donorStep1_periodic (o : OptsT) {flx : Int → K} (h : Periodic N psi) (hf : Periodic N flx) (hG : Periodic N G) :
    Periodic N (donorStep1 o psi flx G) := by
  intro i; simp only [donorStep1, h i, hf i, hf.m1 i, gFac1_periodic o hG i]

theorem limited_periodic (p : Par K) {psi0 A : Int → K} (h0 : Periodic N psi0) (h : Periodic N psi)
    (hA : Periodic N A) (hG : Periodic N p.G) : Periodic N (limited p psi0 psi A) := by
  have hflx : Periodic N (if isset p.o oIga = true then A else makeFlux1 p.o psi A) := by
    split
    · exact hA
    · exact makeFlux1_periodic _ h hA
  unfold limited
  generalize (if isset p.o oIga = true then A else makeFlux1 p.o psi A) = flx at *
  have hmx : Periodic N (fun i => max (max (psi0 (i - 1)) (psi0 i)) (psi0 (i + 1))) := by
    intro i; simp only [h0 i, h0.p1 i, h0.m1 i]
  have hmn : Periodic N (fun i => min (min (psi0 (i - 1)) (psi0 i)) (psi0 (i + 1))) := by
    intro i; simp only [h0 i, h0.p1 i, h0.m1 i]
  have hu : Periodic N (betaUp1 p.o p.eps psi (fun i => max (max (psi0 (i - 1)) (psi0 i)) (psi0 (i + 1))) flx p.G) := by
    intro i
    simp only [betaUp1, h i, h.p1 i, h.m1 i, hflx i, hflx.m1 i, gFac1_periodic p.o hG i, hmx i]
  have hd : Periodic N (betaDn1 p.o p.eps psi (fun i => min (min (psi0 (i - 1)) (psi0 i)) (psi0 (i + 1))) flx p.G) := by
    intro i
    simp only [betaDn1, h i, h.p1 i, h.m1 i, hflx i, hflx.m1 i, gFac1_periodic p.o hG i, hmn i]
  intro i
  simp only [gcMono1, h i, h.p1 i, hu i, hu.p1 i, hd i, hd.p1 i, hA i]

/-- parameters are periodic -/
structure ParPeriodic (p : Par K) (N : Int) : Prop where
  G : Spec1.Periodic N p.G
  ndt : Spec1.Periodic N p.ndtGC
  ndtt : Spec1.Periodic N p.ndttGC

theorem passes_periodic (p : Par K) (hp : ParPeriodic p N) {psi0 GC : Int → K} (h0 : Periodic N psi0)
    (hg : Periodic N GC) (k : Nat) :
    Periodic N (passes p psi0 GC k).1 ∧ Periodic N (passes p psi0 GC k).2 := by
  induction k with
  | zero => exact ⟨donorStep1_periodic _ h0 (makeFlux1_periodic _ h0 hg) hp.G, hg⟩
  | succ k ih =>
    obtain ⟨i1, i2⟩ := ih
    have hA := antidiff1_periodic p.o p.si p.te p.tiny i1 i2 hp.G hp.ndt hp.ndtt
    refine ⟨?_, hA⟩
    show Periodic N (corrective p psi0 _ _)
    unfold corrective
    refine donorStep1_periodic _ i1 ?_ hp.G
    have hC : Periodic N (if isset p.o oFct = true then limited p psi0 (passes p psi0 GC k).1
        (velocity p (passes p psi0 GC k).1 (passes p psi0 GC k).2)
        else velocity p (passes p psi0 GC k).1 (passes p psi0 GC k).2) := by
      split
      · exact limited_periodic p h0 i1 hA hp.G
      · exact hA
    split
    · exact hC
    · exact makeFlux1_periodic _ i1 hC
end shift

/-- the reference program with identity extensions is the specification -/
theorem ref_id_passes (p : Par K) (n : Nat) (psi0 GC : Int → K) (k : Nat) :
    Ref1.passes ⟨p, id, fun _ => id⟩ n psi0 GC k = Spec1.passes p psi0 GC k := by
  induction k with
  | zero => rfl
  | succ k ih =>
    simp only [Ref1.passes, Spec1.passes, ih, Ref1.vel, id_eq]
    congr 1 <;> [congr 1; skip]
    all_goals split <;> [rfl; (split <;> rfl)]

end Mpdata
