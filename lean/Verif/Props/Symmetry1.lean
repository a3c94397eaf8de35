import Verif.Props.Fct1
import Mathlib.Tactic.LinearCombination
import Mathlib.Algebra.Order.Group.MinMax
/-! # C19: symmetries of the 1-D scheme -/
set_option linter.unusedSectionVars false
namespace Mpdata
variable {K : Type} [Field K] [LinearOrder K]
open Spec1

/-! ## Translation -/

/-- translated array -/
def sh (s : Int) (a : Int → K) : Int → K := fun i => a (i + s)

section
variable (o : OptsT) (si : SptlIntrp) (te : TmprlExtrp) (tiny eps : K) (psi GC ndt ndtt G flx : Int → K) (s i : Int)

theorem gFac1_sh : gFac1 o (sh s G) i = gFac1 o G (i + s) := rfl
theorem gBarX1_sh : gBarX1 o (sh s G) i = gBarX1 o G (i + s) := by
  simp only [gBarX1, gFac1, sh, add_right_comm]
theorem gc0BarX1_sh : gc0BarX1 (sh s GC) i = gc0BarX1 GC (i + s) := by
  simp only [gc0BarX1, sh, sub_add_eq_add_sub]
theorem ndxGC01_sh : ndxGC01 (sh s GC) i = ndxGC01 GC (i + s) := by
  simp only [ndxGC01, sh, sub_add_eq_add_sub, add_right_comm]
theorem psiBarX1_sh : psiBarX1 o (sh s psi) i = psiBarX1 o psi (i + s) := by
  simp only [psiBarX1, sh, add_right_comm]
theorem ndxxGC01_sh : ndxxGC01 o (sh s psi) (sh s GC) i = ndxxGC01 o psi GC (i + s) := by
  simp only [ndxxGC01, psiBarX1_sh]; simp only [sh, sub_add_eq_add_sub, add_right_comm]
theorem ndttGC01_sh : ndttGC01 o (sh s psi) (sh s ndtt) i = ndttGC01 o psi ndtt (i + s) := by
  simp only [ndttGC01, psiBarX1_sh]; simp only [sh]
theorem ndxPsi1_sh : ndxPsi1 o tiny (sh s psi) i = ndxPsi1 o tiny psi (i + s) := by
  simp only [ndxPsi1, sh, add_right_comm]
theorem ndxxPsi1_sh : ndxxPsi1 o tiny (sh s psi) i = ndxxPsi1 o tiny psi (i + s) := by
  simp only [ndxxPsi1, sh, sub_add_eq_add_sub, add_right_comm]
theorem fdivCentre1_sh : fdivCentre1 o (sh s psi) (sh s GC) (sh s G) i = fdivCentre1 o psi GC G (i + s) := by
  simp only [fdivCentre1, psiBarX1_sh, gFac1_sh]; simp only [sh, sub_add_eq_add_sub]
theorem nfdiv1_sh : nfdiv1 o tiny (sh s psi) (sh s GC) (sh s G) i = nfdiv1 o tiny psi GC G (i + s) := by
  simp only [nfdiv1, gc0BarX1_sh, gBarX1_sh]; simp only [sh, add_right_comm]
theorem nfdivFdiv1_sh : nfdivFdiv1 o tiny (sh s psi) (sh s GC) (sh s G) i = nfdivFdiv1 o tiny psi GC G (i + s) := by
  simp only [nfdivFdiv1, gc0BarX1_sh, gBarX1_sh, fdivCentre1_sh]; simp only [sh, add_right_comm, sub_add_eq_add_sub]
theorem ndxFdiv1_sh : ndxFdiv1 o tiny (sh s psi) (sh s GC) (sh s G) i = ndxFdiv1 o tiny psi GC G (i + s) := by
  simp only [ndxFdiv1, fdivCentre1_sh]; simp only [sh, add_right_comm, sub_add_eq_add_sub]
theorem div2nd1_sh : div2nd1 o tiny (sh s psi) (sh s GC) (sh s G) i = div2nd1 o tiny psi GC G (i + s) := by
  simp only [div2nd1, nfdiv1_sh, ndxPsi1_sh]; simp only [sh]

theorem antidiff1_sh : antidiff1 o si te tiny (sh s psi) (sh s GC) (sh s ndt) (sh s ndtt) (sh s G) i
    = antidiff1 o si te tiny psi GC ndt ndtt G (i + s) := by
  have h1 : div3rdTemporal1 o te (sh s psi) (sh s ndtt) i = div3rdTemporal1 o te psi ndtt (i + s) := by
    simp only [div3rdTemporal1, ndttGC01_sh]
  have h2 : div3rdSpatial1 o si tiny (sh s psi) (sh s GC) i = div3rdSpatial1 o si tiny psi GC (i + s) := by
    simp only [div3rdSpatial1, div3rdSpatialHelper1, ndxxGC01_sh, ndxPsi1_sh, ndxxPsi1_sh, ndxGC01_sh]; simp only [sh]
  have h3 : dfl1 o (sh s psi) (sh s GC) (sh s G) i = dfl1 o psi GC G (i + s) := by
    simp only [dfl1, gFac1_sh]; simp only [sh, add_right_comm, sub_add_eq_add_sub]
  simp only [antidiff1, div2nd1_sh, div3rd1, div3rdUpwind1, h1, h2, h3, ndxPsi1_sh, ndxFdiv1_sh, nfdivFdiv1_sh, nfdiv1_sh,
    tot1, ndxxPsi1_sh, ndxxPsiCoeff1, gBarX1_sh]
  simp only [sh]

theorem makeFlux1_sh : makeFlux1 o (sh s psi) (sh s GC) = sh s (makeFlux1 o psi GC) := by
  funext i; simp only [makeFlux1, sh, add_right_comm]
theorem donorStep1_sh : donorStep1 o (sh s psi) (sh s flx) (sh s G) = sh s (donorStep1 o psi flx G) := by
  funext i; simp only [donorStep1, gFac1_sh, sh, sub_add_eq_add_sub]
end

/-- translated parameters -/
def Spec1.Par.shift (p : Par K) (s : Int) : Par K :=
  { p with G := sh s p.G, ndtGC := sh s p.ndtGC, ndttGC := sh s p.ndttGC }

theorem limited_sh (p : Par K) (psi0 psi A : Int → K) (s : Int) :
    limited (p.shift s) (sh s psi0) (sh s psi) (sh s A) = sh s (limited p psi0 psi A) := by
  funext i
  unfold limited
  simp only [Spec1.Par.shift, makeFlux1_sh]
  have hflx : (if isset p.o oIga = true then sh s A else sh s (makeFlux1 p.o psi A))
      = sh s (if isset p.o oIga = true then A else makeFlux1 p.o psi A) := by split <;> rfl
  rw [hflx]
  generalize (if isset p.o oIga = true then A else makeFlux1 p.o psi A) = F
  have hu : betaUp1 p.o p.eps (sh s psi) (fun i => max (max (sh s psi0 (i - 1)) (sh s psi0 i)) (sh s psi0 (i + 1))) (sh s F) (sh s p.G)
      = sh s (betaUp1 p.o p.eps psi (fun i => max (max (psi0 (i - 1)) (psi0 i)) (psi0 (i + 1))) F p.G) := by
    funext i; show _ = betaUp1 _ _ _ _ _ _ (i + s); simp only [betaUp1, gFac1_sh]; simp only [sh, add_right_comm, sub_add_eq_add_sub]
  have hd : betaDn1 p.o p.eps (sh s psi) (fun i => min (min (sh s psi0 (i - 1)) (sh s psi0 i)) (sh s psi0 (i + 1))) (sh s F) (sh s p.G)
      = sh s (betaDn1 p.o p.eps psi (fun i => min (min (psi0 (i - 1)) (psi0 i)) (psi0 (i + 1))) F p.G) := by
    funext i; show _ = betaDn1 _ _ _ _ _ _ (i + s); simp only [betaDn1, gFac1_sh]; simp only [sh, add_right_comm, sub_add_eq_add_sub]
  rw [hu, hd]
  simp only [gcMono1, sh, add_right_comm]

theorem passes_sh (p : Par K) (psi0 GC : Int → K) (s : Int) (k : Nat) :
    passes (p.shift s) (sh s psi0) (sh s GC) k = (sh s (passes p psi0 GC k).1, sh s (passes p psi0 GC k).2) := by
  induction k with
  | zero =>
    simp only [passes, first, makeFlux1_sh, Spec1.Par.shift, donorStep1_sh]
  | succ k ih =>
    simp only [passes, ih]
    have hv : velocity (p.shift s) (sh s (passes p psi0 GC k).1) (sh s (passes p psi0 GC k).2)
        = sh s (velocity p (passes p psi0 GC k).1 (passes p psi0 GC k).2) := by
      funext i; exact antidiff1_sh _ _ _ _ _ _ _ _ _ _ _
    rw [hv]
    simp only [Prod.mk.injEq, and_true]
    generalize velocity p (passes p psi0 GC k).1 (passes p psi0 GC k).2 = A
    unfold corrective
    rw [limited_sh]
    have e1 : (if isset (p.shift s).o oFct = true then sh s (limited p psi0 (passes p psi0 GC k).1 A) else sh s A)
        = sh s (if isset p.o oFct = true then limited p psi0 (passes p psi0 GC k).1 A else A) := by
      by_cases h : isset p.o oFct = true <;> simp [Spec1.Par.shift, h]
    simp only [e1, makeFlux1_sh]
    generalize (if isset p.o oFct = true then limited p psi0 (passes p psi0 GC k).1 A else A) = C
    have e2 : (if isset (p.shift s).o oIga = true then sh s C else sh s (makeFlux1 (p.shift s).o (passes p psi0 GC k).1 C))
        = sh s (if isset p.o oIga = true then C else makeFlux1 p.o (passes p psi0 GC k).1 C) := by
      by_cases h : isset p.o oIga = true <;> simp [Spec1.Par.shift, h]
    rw [e2]
    exact donorStep1_sh _ _ _ _ _

theorem run_sh (p : Par K) (n : Nat) (filt : Nat → Bool) (psi0 GC : Int → K) (s : Int) (t : Nat) :
    Spec1.run (p.shift s) n filt (sh s GC) t (sh s psi0) = sh s (Spec1.run p n filt GC t psi0) := by
  induction t with
  | zero => rfl
  | succ t ih => unfold Spec1.run step; rw [ih, passes_sh]

/-- C19 (translation), about the program: on a cyclic domain, starting from a field, advector and G translated by `s` cells
(with wrap-around) gives the translated result, for every option set covered by the halo exchanges, any number of passes and steps.
`perExt f N a` is the periodic extension of the array `a` from its first period. -/
theorem C19_translation_1d (c c' : Cfg1 K) (p : Par K) (N : Nat) (s : Int) (hN : 0 < N)
    (h : CyclicSetup c p N) (h' : CyclicSetup c' (p.shift s) N) (hf : c'.ijk = c.ijk) (hni : c'.nIters = c.nIters)
    (hn : 1 ≤ c.nIters) (hx : HaloCovered c.o c.nIters) (filt : Nat → Bool) (m m' : Mem1 K)
    (hper : m.psi c.ijk.last = m.psi c.ijk.first)
    (hpsi : ∀ i, c.ijk.first ≤ i → i ≤ c.ijk.last → m'.psi i = perExt c.ijk.first N m.psi (i + s))
    (hGC : ∀ i, c.ijk.first ≤ i → i < c.ijk.last → m'.GC i = perExt c.ijk.first N m.GC (i + s)) (t : Nat) :
    ∀ i, c.ijk.first ≤ i → i ≤ c.ijk.last →
      (runProg1 c' filt t { m' with GC := c'.fillV false m'.GC }).psi i
      = perExt c.ijk.first N (runProg1 c filt t { m with GC := c.fillV false m.GC }).psi (i + s) := by
  have hl : c.ijk.last = c.ijk.first + N := by have := h.hN; omega
  have hN' : (0 : Int) < N := by exact_mod_cast hN
  have P0 := perExt_periodic c.ijk.first N m.psi
  have G0 := perExt_periodic c.ijk.first N m.GC
  have hr := cyc_run h hn hx filt P0 G0 m (by rw [hl]; exact perExt_agree' _ _ _ (by rw [← hl]; exact hper))
    (by rw [hl]; exact perExt_agree _ _ _) t
  have P1 : Periodic (N : Int) (sh s (perExt c.ijk.first N m.psi)) := by
    intro i; unfold sh; rw [add_right_comm]; exact P0 _
  have G1 : Periodic (N : Int) (sh s (perExt c.ijk.first N m.GC)) := by
    intro i; unfold sh; rw [add_right_comm]; exact G0 _
  have ho : c'.o = c.o := by rw [h'.ho, h.ho]; rfl
  have hr' := cyc_run h' (by rw [hni]; exact hn) (by rw [hni, ho]; exact hx) filt P1 G1 m'
    (by rw [hf]; exact hpsi) (by rw [hf]; intro i a b; exact hGC i a (by omega)) t
  intro i a b
  rw [hr' i (by rw [hf]; exact a) (by rw [hf]; exact b), hni, run_sh]
  have e1 := Int.emod_nonneg (i + s - c.ijk.first) hN'.ne'
  have e2 := Int.emod_lt_of_pos (i + s - c.ijk.first) hN'
  unfold perExt sh
  rw [hr _ (by omega) (by omega)]
  have hp := run_periodic p h.per c.nIters filt P0 G0 t
  have hk : ∀ (k : Nat) (a : Int → K), Periodic (N : Int) a → ∀ j, a (j + N * k) = a j := by
    intro k a ha j
    induction k with
    | zero => simp
    | succ k ih => rw [← ih, ← ha (j + N * k)]; congr 1; push_cast; ring
  have hz : ∀ (z : Int) (a : Int → K), Periodic (N : Int) a → ∀ j, a (j + N * z) = a j := by
    intro z a ha j
    obtain ⟨k, hk' | hk'⟩ := z.eq_nat_or_neg
    · rw [hk']; exact hk k a ha j
    · rw [hk', ← hk k a ha (j + N * -(k : Int))]; congr 1; ring
  have := Int.emod_add_mul_ediv (i + s - c.ijk.first) N
  rw [← hz ((i + s - c.ijk.first) / N) _ hp (c.ijk.first + _)]
  congr 1
  linear_combination -this

/-! ## Sign: the variable-sign version is antisymmetric -/
section sign
variable [IsStrictOrderedRing K]

theorem donorF_neg (o : OptsT) (pL pR C : K) : donorF o (-pL) (-pR) C = -donorF o pL pR C := by
  unfold donorF; ring

theorem makeFlux1_neg (o : OptsT) (psi C : Int → K) : makeFlux1 o (fun i => -psi i) C = fun i => -makeFlux1 o psi C i := by
  funext i; exact donorF_neg _ _ _ _

theorem donorStep1_neg (o : OptsT) (psi F G : Int → K) :
    donorStep1 o (fun i => -psi i) (fun i => -F i) G = fun i => -donorStep1 o psi F G i := by
  funext i; unfold donorStep1; rw [donorSum1_eq, donorSum1_eq]; ring

theorem velocity_neg (p : Par K) (ha : isset p.o oAbs = true) (higa : isset p.o oIga = false) (psi U : Int → K) :
    velocity p (fun i => -psi i) U = velocity p psi U := by
  funext i
  simp only [velocity, antidiff1, div2nd1, div3rd1, div3rdUpwind1, div3rdSpatial1, div3rdSpatialHelper1, div3rdTemporal1,
    ndxPsi1, ndxxPsi1, nfdiv1, nfdivFdiv1, ndxFdiv1, fdivCentre1, psiBarX1, ndxxGC01, ndttGC01, tot1, dfl1, ha, higa, abs_neg,
    if_true, Bool.false_eq_true, if_false]

theorem mono_neg (o : OptsT) (ha : isset o oAbs = true) (higa : isset o oIga = false) (pL pR uL dL uR dR C : K) :
    donorF o (-pL) (-pR) (C * monoCoef o (-pL) (-pR) dL uL dR uR C)
      = -donorF o pL pR (C * monoCoef o pL pR uL dL uR dR C) ∨
    ¬ (0 ≤ uL ∧ 0 ≤ dL ∧ 0 ≤ uR ∧ 0 ≤ dR) := by
  by_cases hb : 0 ≤ uL ∧ 0 ≤ dL ∧ 0 ≤ uR ∧ 0 ≤ dR
  · left
    obtain ⟨h1, h2, h3, h4⟩ := hb
    have r1 := (monoCoef_range o pL pR uL dL uR dR C h1 h2 h3 h4).1
    have r2 := (monoCoef_range o (-pL) (-pR) dL uL dR uR C h2 h1 h4 h3).1
    rw [donorF_smul _ _ _ _ _ r1, donorF_smul _ _ _ _ _ r2, donorF_neg]
    by_cases hC : 0 < C
    · have hn : negpart o C = 0 := by rw [negpart_eq, min_eq_left hC.le]
      rcases lt_trichotomy pL 0 with h | h | h
      · simp [monoCoef, ha, higa, hC, h, h.le]
      · subst h; simp [donorF, hn]
      · simp [monoCoef, ha, higa, hC, h, h.le]
    · have hp : pospart o C = 0 := by rw [pospart_eq, max_eq_left (not_lt.1 hC)]
      rcases lt_trichotomy pR 0 with h | h | h
      · simp [monoCoef, ha, higa, hC, h, h.le]
      · subst h; simp [donorF, hp]
      · simp [monoCoef, ha, higa, hC, h, h.le]
  · exact .inr hb

theorem corrective_neg (p : Par K) (ha : isset p.o oAbs = true) (higa : isset p.o oIga = false)
    (hg : ∀ i, 0 < gFac1 p.o p.G i) (he : 0 ≤ p.eps) (psi0 psi A : Int → K) :
    corrective p (fun i => -psi0 i) (fun i => -psi i) A = fun i => -corrective p psi0 psi A i := by
  unfold corrective
  simp only [higa, Bool.false_eq_true, if_false]
  by_cases hf : isset p.o oFct = true
  · simp only [hf, if_true]
    rw [← donorStep1_neg]
    congr 1
    funext i
    unfold limited
    simp only [higa, Bool.false_eq_true, if_false]
    show donorF _ _ _ _ = -donorF _ _ _ _
    rw [gcMono1_eq, gcMono1_eq]
    have eu : ∀ j, betaUp1 p.o p.eps (fun i => -psi i) (fun i => max (max (-psi0 (i - 1)) (-psi0 i)) (-psi0 (i + 1)))
        (makeFlux1 p.o (fun i => -psi i) A) p.G j = betaDn1 p.o p.eps psi (min3 psi0) (makeFlux1 p.o psi A) p.G j := by
      intro j
      unfold betaUp1 betaDn1
      rw [makeFlux1_neg]
      simp only [pospart_eq, negpart_eq, max_neg_neg]
      congr 1
      · simp only [min3]; ring
      · have e1 : ∀ x : K, max 0 (-x) = -min 0 x := fun x => by rw [← max_neg_neg, neg_zero]
        have e2 : ∀ x : K, min 0 (-x) = -max 0 x := fun x => by rw [← min_neg_neg, neg_zero]
        rw [e1, e2]; ring
    have ed : ∀ j, betaDn1 p.o p.eps (fun i => -psi i) (fun i => min (min (-psi0 (i - 1)) (-psi0 i)) (-psi0 (i + 1)))
        (makeFlux1 p.o (fun i => -psi i) A) p.G j = betaUp1 p.o p.eps psi (max3 psi0) (makeFlux1 p.o psi A) p.G j := by
      intro j
      unfold betaUp1 betaDn1
      rw [makeFlux1_neg]
      simp only [pospart_eq, negpart_eq, min_neg_neg]
      congr 1
      · simp only [max3]; ring
      · have e1 : ∀ x : K, max 0 (-x) = -min 0 x := fun x => by rw [← max_neg_neg, neg_zero]
        have e2 : ∀ x : K, min 0 (-x) = -max 0 x := fun x => by rw [← min_neg_neg, neg_zero]
        rw [e1, e2]; ring
    rw [eu, eu, ed, ed]
    rcases mono_neg p.o ha higa (psi i) (psi (i + 1)) (betaUp1 p.o p.eps psi (max3 psi0) (makeFlux1 p.o psi A) p.G i)
      (betaDn1 p.o p.eps psi (min3 psi0) (makeFlux1 p.o psi A) p.G i)
      (betaUp1 p.o p.eps psi (max3 psi0) (makeFlux1 p.o psi A) p.G (i + 1))
      (betaDn1 p.o p.eps psi (min3 psi0) (makeFlux1 p.o psi A) p.G (i + 1)) (A i) with h | h
    · exact h
    · exact absurd ⟨betaUp_nonneg p _ _ _ _ (hg _) he, betaDn_nonneg p _ _ _ _ (hg _) he,
        betaUp_nonneg p _ _ _ _ (hg _) he, betaDn_nonneg p _ _ _ _ (hg _) he⟩ h
  · simp only [hf]
    rw [makeFlux1_neg, donorStep1_neg]; rfl

theorem passes_neg (p : Par K) (ha : isset p.o oAbs = true) (higa : isset p.o oIga = false)
    (hg : ∀ i, 0 < gFac1 p.o p.G i) (he : 0 ≤ p.eps) (psi0 GC : Int → K) (k : Nat) :
    passes p (fun i => -psi0 i) GC k = ((fun i => -(passes p psi0 GC k).1 i), (passes p psi0 GC k).2) := by
  induction k with
  | zero =>
    simp only [passes, first, makeFlux1_neg, donorStep1_neg]
  | succ k ih =>
    simp only [passes, ih]
    rw [velocity_neg p ha higa, corrective_neg p ha higa hg he]

/-- C19 (sign), about the program: with the variable-sign option (and no infinite gauge) the cyclic run started from the negated
field gives the negated result, with or without fct, tot, dfl, divergence-form options, for any number of passes and steps. -/
theorem C19_sign_1d (c : Cfg1 K) (p : Par K) (N : Nat) (h : CyclicSetup c p N)
    (ha : isset c.o oAbs = true) (higa : isset c.o oIga = false) (hg : ∀ i, 0 < gFac1 p.o p.G i) (he : 0 ≤ c.eps)
    (hn : 1 ≤ c.nIters) (hx : HaloCovered c.o c.nIters) (filt : Nat → Bool) (m m' : Mem1 K)
    (hper : m.psi c.ijk.last = m.psi c.ijk.first)
    (hpsi : ∀ i, c.ijk.first ≤ i → i ≤ c.ijk.last → m'.psi i = -m.psi i)
    (hGC : ∀ i, c.ijk.first ≤ i → i < c.ijk.last → m'.GC i = m.GC i) (t : Nat) :
    ∀ i, c.ijk.first ≤ i → i ≤ c.ijk.last →
      (runProg1 c filt t { m' with GC := c.fillV false m'.GC }).psi i
      = -(runProg1 c filt t { m with GC := c.fillV false m.GC }).psi i := by
  have hl : c.ijk.last = c.ijk.first + N := by have := h.hN; omega
  have P0 := perExt_periodic c.ijk.first N m.psi
  have G0 := perExt_periodic c.ijk.first N m.GC
  have A0 := perExt_agree' c.ijk.first N m.psi (by rw [← hl]; exact hper)
  have hr := cyc_run h hn hx filt P0 G0 m (by rw [hl]; exact A0) (by rw [hl]; exact perExt_agree _ _ _) t
  have hr' := cyc_run h hn hx filt (psi0 := fun i => -perExt c.ijk.first N m.psi i) (fun i => by simp only; rw [P0 i]) G0 m'
    (fun i a b => by rw [hpsi i a b, A0 i a (by omega)])
    (fun i a b => by rw [hGC i a (by omega), perExt_agree c.ijk.first N m.GC i a (by omega)]) t
  intro i a b
  rw [hr i a b, hr' i a b]
  have : ∀ t, Spec1.run p c.nIters filt (perExt c.ijk.first N m.GC) t (fun i => -perExt c.ijk.first N m.psi i)
      = fun i => -Spec1.run p c.nIters filt (perExt c.ijk.first N m.GC) t (perExt c.ijk.first N m.psi) i := by
    intro t
    induction t with
    | zero => rfl
    | succ t ih =>
      unfold Spec1.run step
      rw [ih, passes_neg p (by rw [← h.ho]; exact ha) (by rw [← h.ho]; exact higa) hg (by rw [← h.heps]; exact he)]
  rw [this]

/-- without the option the scheme is not antisymmetric, so the hypothesis matters -/
theorem C19_sign_needs_abs :
    (advance1 (demo1 0 2) { demoMem 7 with psi := fun i => if i % 4 = 0 then -1 else -2 }).psi 0
    ≠ -(advance1 (demo1 0 2) { demoMem 7 with psi := fun i => if i % 4 = 0 then 1 else 2 }).psi 0 := by
  decide +kernel

/-! ## Infinite gauge: linearity and shift by a constant -/

/-- C19 (linearity): an infinite-gauge step of one or two passes without fct is linear in the field. Two passes is
all the program allows with that option (`assert(iter == 1)`, solvers/detail/mpdata_osc_1d.hpp:106). -/
theorem C19_iga_linear_1d (p : Par K) (higa : isset p.o oIga = true) (ha : isset p.o oAbs = false) (hf : isset p.o oFct = false)
    (n : Nat) (hn : n ≤ 2) (a b : K) (x y GC : Int → K) (i : Int) :
    step p n (fun i => a * x i + b * y i) GC i = a * step p n x GC i + b * step p n y GC i := by
  have hfirst : ∀ i, first p (fun i => a * x i + b * y i) GC i = a * first p x GC i + b * first p y GC i := by
    intro i
    simp only [first, donorStep1, makeFlux1, donorF, donorSum1_eq]
    ring
  rcases Nat.lt_or_ge n 2 with h | h
  · have : n - 1 = 0 := by omega
    unfold step; rw [this]; exact hfirst i
  · have : n - 1 = 1 := by omega
    unfold step; rw [this]
    have hp1 : ∀ z, (passes p z GC 1).1 = corrective p z (first p z GC) (velocity p (first p z GC) GC) := fun z => rfl
    rw [hp1, hp1, hp1]
    have hfe : first p (fun i => a * x i + b * y i) GC = fun i => a * first p x GC i + b * first p y GC i := funext hfirst
    rw [hfe]
    generalize first p x GC = X
    generalize first p y GC = Y
    simp only [corrective, hf, Bool.false_eq_true, if_false, higa, if_true, donorStep1, donorSum1_eq]
    have hv : ∀ i, velocity p (fun i => a * X i + b * Y i) GC i = a * velocity p X GC i + b * velocity p Y GC i := by
      intro i
      simp only [velocity, antidiff1, div2nd1, div3rd1, div3rdUpwind1, div3rdSpatial1, div3rdSpatialHelper1, div3rdTemporal1,
        ndxPsi1, ndxxPsi1, nfdiv1, nfdivFdiv1, ndxFdiv1, fdivCentre1, psiBarX1, ndxxGC01, ndttGC01, tot1, dfl1, ha, higa,
        if_true, Bool.false_eq_true, if_false]
      cases p.si <;> cases p.te <;> simp only <;> split_ifs <;> ring
    rw [hv, hv]
    ring

/-- C19 (gauge): in uniform flow an infinite-gauge step of one or two passes, with or without fct, commutes with adding a constant. -/
theorem C19_iga_shift_1d (p : Par K) (higa : isset p.o oIga = true) (ha : isset p.o oAbs = false)
    (d0 : K) (hndt : ∀ i, p.ndtGC i = d0) (hndtt : isset p.o oDiv3 = true → ∀ i, p.ndttGC i = 0)
    (n : Nat) (hn : n ≤ 2) (s C : K) (x : Int → K) (i : Int) :
    step p n (fun i => x i + s) (fun _ => C) i = step p n x (fun _ => C) i + s := by
  have hfirst : ∀ i, first p (fun i => x i + s) (fun _ => C) i = first p x (fun _ => C) i + s := by
    intro i
    simp only [first, donorStep1, makeFlux1, donorF, donorSum1_eq]
    ring
  rcases Nat.lt_or_ge n 2 with h | h
  · have : n - 1 = 0 := by omega
    unfold step; rw [this]; exact hfirst i
  · have : n - 1 = 1 := by omega
    unfold step; rw [this]
    have hp1 : ∀ z, (passes p z (fun _ => C) 1).1 = corrective p z (first p z fun _ => C) (velocity p (first p z fun _ => C) fun _ => C) :=
      fun z => rfl
    rw [hp1, hp1]
    have hfe : first p (fun i => x i + s) (fun _ => C) = fun i => first p x (fun _ => C) i + s := funext hfirst
    rw [hfe]
    generalize first p x (fun _ => C) = X
    have hv : velocity p (fun i => X i + s) (fun _ => C) = velocity p X (fun _ => C) := by
      funext i
      simp only [velocity, antidiff1, div2nd1, div3rd1, div3rdUpwind1, div3rdSpatial1, div3rdSpatialHelper1, div3rdTemporal1,
        ndxPsi1, ndxxPsi1, nfdiv1, nfdivFdiv1, ndxFdiv1, fdivCentre1, psiBarX1, ndxxGC01, ndttGC01, tot1, dfl1, ha, higa,
        if_true, Bool.false_eq_true, if_false, gc0BarX1, ndxGC01, hndt]
      by_cases h3 : isset p.o oDiv3 = true
      · simp only [hndtt h3]
        cases p.si <;> cases p.te <;> simp only <;> split_ifs <;> ring
      · simp only [h3, Bool.not_eq_true] at h3 ⊢
        simp only [Bool.or_false, Bool.false_eq_true, if_false]
        split_ifs <;> ring
    rw [hv]
    generalize velocity p X (fun _ => C) = A
    have hl : limited p (fun i => x i + s) (fun i => X i + s) A = limited p x X A := by
      funext i
      simp only [limited, higa, if_true, gcMono1, Bool.not_true, Bool.false_and, Bool.false_eq_true, if_false]
      have eu : ∀ j, betaUp1 p.o p.eps (fun i => X i + s) (fun i => max (max (x (i - 1) + s) (x i + s)) (x (i + 1) + s)) A p.G j
          = betaUp1 p.o p.eps X (fun i => max (max (x (i - 1)) (x i)) (x (i + 1))) A p.G j := by
        intro j; simp only [betaUp1, max_add_add_right, add_sub_add_right_eq_sub]
      have ed : ∀ j, betaDn1 p.o p.eps (fun i => X i + s) (fun i => min (min (x (i - 1) + s) (x i + s)) (x (i + 1) + s)) A p.G j
          = betaDn1 p.o p.eps X (fun i => min (min (x (i - 1)) (x i)) (x (i + 1))) A p.G j := by
        intro j; simp only [betaDn1, min_add_add_right, add_sub_add_right_eq_sub]
      rw [eu, eu, ed, ed]
    simp only [corrective, hl, higa, if_true, donorStep1, donorSum1_eq]
    ring

/-- C19 (linearity), about the program: cyclic infinite-gauge runs of any number of steps without fct are linear in the initial field. -/
theorem C19_iga_linear_run_1d (c : Cfg1 K) (p : Par K) (N : Nat) (h : CyclicSetup c p N) (higa : isset c.o oIga = true) (ha : isset c.o oAbs = false)
    (hf : isset c.o oFct = false) (hn : 1 ≤ c.nIters) (hn2 : c.nIters ≤ 2) (filt : Nat → Bool) (a b : K) (mx my m : Mem1 K)
    (hx : mx.psi c.ijk.last = mx.psi c.ijk.first) (hy : my.psi c.ijk.last = my.psi c.ijk.first)
    (hp : ∀ i, c.ijk.first ≤ i → i ≤ c.ijk.last → m.psi i = a * mx.psi i + b * my.psi i)
    (hGx : ∀ i, c.ijk.first ≤ i → i < c.ijk.last → mx.GC i = m.GC i) (hGy : ∀ i, c.ijk.first ≤ i → i < c.ijk.last → my.GC i = m.GC i) (t : Nat) :
    ∀ i, c.ijk.first ≤ i → i ≤ c.ijk.last →
      (runProg1 c filt t { m with GC := c.fillV false m.GC }).psi i
      = a * (runProg1 c filt t { mx with GC := c.fillV false mx.GC }).psi i + b * (runProg1 c filt t { my with GC := c.fillV false my.GC }).psi i := by
  have hl : c.ijk.last = c.ijk.first + N := by have := h.hN; omega
  have hc : HaloCovered c.o c.nIters := .inl hn2
  have G0 := perExt_periodic c.ijk.first N m.GC
  have X0 := perExt_periodic c.ijk.first N mx.psi
  have Y0 := perExt_periodic c.ijk.first N my.psi
  have AX := perExt_agree' c.ijk.first N mx.psi (by rw [← hl]; exact hx)
  have AY := perExt_agree' c.ijk.first N my.psi (by rw [← hl]; exact hy)
  have AG := perExt_agree c.ijk.first N m.GC
  have rx := cyc_run h hn hc filt X0 G0 mx (by rw [hl]; exact AX) (fun i a b => by rw [hGx i a (by omega), AG i a (by omega)]) t
  have ry := cyc_run h hn hc filt Y0 G0 my (by rw [hl]; exact AY) (fun i a b => by rw [hGy i a (by omega), AG i a (by omega)]) t
  have rm := cyc_run h hn hc filt (psi0 := fun i => a * perExt c.ijk.first N mx.psi i + b * perExt c.ijk.first N my.psi i)
    (fun i => by simp only; rw [X0 i, Y0 i]) G0 m (fun i a b => by rw [hp i a b, AX i a (by omega), AY i a (by omega)])
    (fun i a b => AG i a (by omega)) t
  intro i hi1 hi2
  rw [rm i hi1 hi2, rx i hi1 hi2, ry i hi1 hi2]
  have : ∀ t, Spec1.run p c.nIters filt (perExt c.ijk.first N m.GC) t (fun i => a * perExt c.ijk.first N mx.psi i + b * perExt c.ijk.first N my.psi i)
      = fun i => a * Spec1.run p c.nIters filt (perExt c.ijk.first N m.GC) t (perExt c.ijk.first N mx.psi) i
        + b * Spec1.run p c.nIters filt (perExt c.ijk.first N m.GC) t (perExt c.ijk.first N my.psi) i := by
    intro t
    induction t with
    | zero => rfl
    | succ t ih =>
      unfold Spec1.run
      rw [ih]
      funext i
      exact C19_iga_linear_1d p (by rw [← h.ho]; exact higa) (by rw [← h.ho]; exact ha) (by rw [← h.ho]; exact hf) _ (by split <;> omega) a b _ _ _ i
  rw [this]

/-- C19 (gauge), about the program: in uniform flow (the only non-divergent flow in one dimension) adding a constant to the initial field of a cyclic infinite-gauge run of any
number of steps, with or without fct, adds it to the result. -/
theorem C19_iga_shift_run_1d (c : Cfg1 K) (p : Par K) (N : Nat) (h : CyclicSetup c p N) (higa : isset c.o oIga = true) (ha : isset c.o oAbs = false)
    (d0 : K) (hndt : ∀ i, p.ndtGC i = d0) (hndtt : isset p.o oDiv3 = true → ∀ i, p.ndttGC i = 0)
    (hn : 1 ≤ c.nIters) (hn2 : c.nIters ≤ 2) (filt : Nat → Bool) (s C : K) (mx m : Mem1 K)
    (hx : mx.psi c.ijk.last = mx.psi c.ijk.first)
    (hp : ∀ i, c.ijk.first ≤ i → i ≤ c.ijk.last → m.psi i = mx.psi i + s)
    (hGx : ∀ i, c.ijk.first ≤ i → i < c.ijk.last → mx.GC i = C) (hG : ∀ i, c.ijk.first ≤ i → i < c.ijk.last → m.GC i = C) (t : Nat) :
    ∀ i, c.ijk.first ≤ i → i ≤ c.ijk.last →
      (runProg1 c filt t { m with GC := c.fillV false m.GC }).psi i = (runProg1 c filt t { mx with GC := c.fillV false mx.GC }).psi i + s := by
  have hl : c.ijk.last = c.ijk.first + N := by have := h.hN; omega
  have hc : HaloCovered c.o c.nIters := .inl hn2
  have G0 : Periodic (N : Int) (fun _ => C) := fun _ => rfl
  have X0 := perExt_periodic c.ijk.first N mx.psi
  have AX := perExt_agree' c.ijk.first N mx.psi (by rw [← hl]; exact hx)
  have rx := cyc_run h hn hc filt X0 G0 mx (by rw [hl]; exact AX) (fun i a b => hGx i a (by omega)) t
  have rm := cyc_run h hn hc filt (psi0 := fun i => perExt c.ijk.first N mx.psi i + s)
    (fun i => by simp only; rw [X0 i]) G0 m (fun i a b => by rw [hp i a b, AX i a (by omega)]) (fun i a b => hG i a (by omega)) t
  intro i hi1 hi2
  rw [rm i hi1 hi2, rx i hi1 hi2]
  have : ∀ t, Spec1.run p c.nIters filt (fun _ => C) t (fun i => perExt c.ijk.first N mx.psi i + s)
      = fun i => Spec1.run p c.nIters filt (fun _ => C) t (perExt c.ijk.first N mx.psi) i + s := by
    intro t
    induction t with
    | zero => rfl
    | succ t ih =>
      unfold Spec1.run
      rw [ih]
      funext i
      exact C19_iga_shift_1d p (by rw [← h.ho]; exact higa) (by rw [← h.ho]; exact ha) d0 hndt hndtt _ (by split <;> omega) s C _ i
  rw [this]

/-- hypotheses met by an infinite-gauge third-order two-pass solver, by its translate, and by a variable-sign solver -/
example : CyclicSetup (demo1 (oIga ||| oTot) 2) ⟨oIga ||| oTot, .exact, .noextrp, 1/1000, 1/1000, fun _ => 1, fun _ => 0, fun _ => 0⟩ 4 ∧
    isset (oIga ||| oTot) oIga = true ∧ isset (oIga ||| oTot) oAbs = false ∧ isset (oIga ||| oTot) oFct = false ∧
    CyclicSetup (demo1 (oAbs ||| oFct) 3) (Spec1.Par.shift ⟨oAbs ||| oFct, .exact, .noextrp, 1/1000, 1/1000, fun _ => 1, fun _ => 0, fun _ => 0⟩ 3) 4 ∧
    isset (oAbs ||| oFct) oAbs = true ∧ isset (oAbs ||| oFct) oIga = false ∧ (demoMem 7).psi 4 = (demoMem 7).psi 0 ∧ (demoMem 7).psi 0 ≠ (demoMem 7).psi 1 :=
  ⟨⟨rfl, rfl, rfl, rfl, rfl, rfl, by decide, rfl, rfl, ⟨fun _ => rfl, fun _ => rfl, fun _ => rfl⟩, fun _ _ _ => rfl, fun _ _ _ => rfl, fun _ _ _ => rfl⟩,
   by decide, by decide, by decide,
   ⟨rfl, rfl, rfl, rfl, rfl, rfl, by decide, rfl, rfl, ⟨fun _ => rfl, fun _ => rfl, fun _ => rfl⟩, fun _ _ _ => rfl, fun _ _ _ => rfl, fun _ _ _ => rfl⟩,
   by decide, by decide, by decide +kernel, by decide +kernel⟩

end sign
end Mpdata
