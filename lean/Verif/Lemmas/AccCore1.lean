import Verif.Lemmas.Accuracy1
/-! # Coefficients of the expansion of one 1-D step -/
set_option linter.unusedSectionVars false
set_option linter.unusedVariables false
set_option linter.unusedSimpArgs false
namespace Mpdata
variable {K : Type} [Field K] [LinearOrder K] [IsStrictOrderedRing K]

/-- the Taylor coefficients of a solution that involve time, in terms of the others -/
theorem Advects1.solve {psi U : K → K → K} {G : K → K} {p u g : Ser2 K} (h : Advects1 psi U G p u g) :
    p 0 1 = -(g 0 0)⁻¹ * (u 0 0 * p 1 0 + u 1 0 * p 0 0) ∧
    p 1 1 = -(g 0 0)⁻¹ * (g 1 0 * p 0 1 + 2 * (u 0 0 * p 2 0 + u 1 0 * p 1 0 + u 2 0 * p 0 0)) ∧
    p 2 1 = -(g 0 0)⁻¹ * (g 1 0 * p 1 1 + g 2 0 * p 0 1 + 3 * (u 0 0 * p 3 0 + u 1 0 * p 2 0 + u 2 0 * p 1 0 + u 3 0 * p 0 0)) ∧
    p 0 2 = -(g 0 0)⁻¹ * ((u 0 0 * p 1 1 + u 1 0 * p 0 1 + u 0 1 * p 1 0 + u 1 1 * p 0 0) / 2) ∧
    p 1 2 = -(g 0 0)⁻¹ * (g 1 0 * p 0 2 + (u 0 0 * p 2 1 + u 1 0 * p 1 1 + u 2 0 * p 0 1 + u 0 1 * p 2 0 + u 1 1 * p 1 0 + u 2 1 * p 0 0)) ∧
    p 0 3 = -(g 0 0)⁻¹ * ((u 0 0 * p 1 2 + u 1 0 * p 0 2 + u 0 1 * p 1 1 + u 1 1 * p 0 1 + u 0 2 * p 1 0 + u 1 2 * p 0 0) / 3) := by
  have h0 := h.hg0
  have key : ∀ x y : K, g 0 0 * x + y = 0 → x = -(g 0 0)⁻¹ * y := by
    intro x y e; field_simp; linear_combination e
  have e := h.pde
  have G1 : ∀ m, m ≤ 2 → g m 1 = 0 := fun m hm => h.hgt m 0 (by omega)
  have G2 : ∀ m, m ≤ 1 → g m 2 = 0 := fun m hm => h.hgt m 1 (by omega)
  have G3 : g 0 3 = 0 := h.hgt 0 2 (by omega)
  refine ⟨key _ _ ?_, key _ _ ?_, key _ _ ?_, key _ _ ?_, key _ _ ?_, key _ _ ?_⟩
  · have := e 0 0 (by omega); simp only [Ser2.mul, Ser2.dx, Ser2.dt, Finset.sum_range_succ, Finset.sum_range_zero] at this; norm_num [G1, G2, G3] at this; linear_combination this
  · have := e 1 0 (by omega); simp only [Ser2.mul, Ser2.dx, Ser2.dt, Finset.sum_range_succ, Finset.sum_range_zero] at this; norm_num [G1, G2, G3] at this; linear_combination this
  · have := e 2 0 (by omega); simp only [Ser2.mul, Ser2.dx, Ser2.dt, Finset.sum_range_succ, Finset.sum_range_zero] at this; norm_num [G1, G2, G3] at this; linear_combination this
  · have := e 0 1 (by omega); simp only [Ser2.mul, Ser2.dx, Ser2.dt, Finset.sum_range_succ, Finset.sum_range_zero] at this; norm_num [G1, G2, G3] at this; linear_combination this / 2
  · have := e 1 1 (by omega); simp only [Ser2.mul, Ser2.dx, Ser2.dt, Finset.sum_range_succ, Finset.sum_range_zero] at this; norm_num [G1, G2, G3] at this; linear_combination this / 2
  · have := e 0 2 (by omega); simp only [Ser2.mul, Ser2.dx, Ser2.dt, Finset.sum_range_succ, Finset.sum_range_zero] at this; norm_num [G1, G2, G3] at this; linear_combination this / 3

/-- expansion of the result of a step: first pass `q`, corrective flux `v` -/
def sStep1 (q v g : Ser2 K) : Ser2 K := q.sub (v.dif.mul g.inv)

/-- a series that does not involve the second variable -/
def s0 (p : Ser2 K) : Ser2 K := fun m n => p m n * 0 ^ n

section
variable (q γ g : Ser2 K) (s : K)
theorem s0_0 (p : Ser2 K) (m : Nat) : s0 p m 0 = p m 0 := by simp [s0]
theorem s0_s (p : Ser2 K) (m n : Nat) : s0 p m (n + 1) = 0 := by simp [s0]
theorem s0_1 (p : Ser2 K) (m : Nat) : s0 p m 1 = 0 := by simp [s0]
theorem s0_2 (p : Ser2 K) (m : Nat) : s0 p m 2 = 0 := by simp [s0]
theorem s0_3 (p : Ser2 K) (m : Nat) : s0 p m 3 = 0 := by simp [s0]


/-- expansion of the corrective flux of velocity `v` (with sign `z`) -/
def sFl (ig : Bool) (z : K) (q v : Ser2 K) : Ser2 K := if ig then v else (v.mul q.av).sub (((v.smul z).mul q.dif).smul (1 / 2))

theorem first00 (s : K) (p γ g : Ser2 K) : sFirst1 s (s0 p) γ g 0 0 = p 0 0 := by
  simp only [sFirst1, sFlux1]; sev; rw [s0_0]

/-- low coefficients of the Courant numbers -/
theorem sCourant1_c (si te) (u : Ser2 K) (lam : K) :
    (∀ m, sCourant1 si te u lam m 0 = lam * u m 0) ∧ (∀ m, sCourant1 si te u lam m 1 = lam ^ 2 * u m 1 / 2) ∧
    sCourant1 si te u lam 0 2 = lam ^ 3 * u 0 2 * (1 / 3 - teFac te / 12) + lam * u 2 0 * (siFac si / 12 - 1 / 12) ∧
    sCourant1 si te u lam 1 2 = lam ^ 3 * u 1 2 * (1 / 3 - teFac te / 12) + 3 * lam * u 3 0 * (siFac si / 12 - 1 / 12) := by
  refine ⟨fun m => ?_, fun m => ?_, ?_, ?_⟩ <;>
    cases si <;> cases te <;> simp [-mul_eq_mul_left_iff, sCourant1, sFace1, Ser2.smul, Ser2.sub, Ser2.av, siFac, teFac] <;> ring

/-- the second-order part of the expansion, without the flux term of the basic scheme that involves the magnitude of the velocity -/
theorem second_div2 (ig : Bool) (p u g : Ser2 K) (hg : g 0 0 ≠ 0) (hp : ig = true ∨ p 0 0 ≠ 0) (hs : s = 1 ∨ s = -1) (lam : K) (γ : Ser2 K)
    (c0 : ∀ m, γ m 0 = lam * u m 0) (c1 : ∀ m, γ m 1 = lam ^ 2 * u m 1 / 2)
    (e01 : p 0 1 = -(g 0 0)⁻¹ * (u 0 0 * p 1 0 + u 1 0 * p 0 0))
    (e11 : p 1 1 = -(g 0 0)⁻¹ * (g 1 0 * p 0 1 + 2 * (u 0 0 * p 2 0 + u 1 0 * p 1 0 + u 2 0 * p 0 0)))
    (e02 : p 0 2 = -(g 0 0)⁻¹ * ((u 0 0 * p 1 1 + u 1 0 * p 0 1 + u 0 1 * p 1 0 + u 1 1 * p 0 0) / 2)) :
    sStep1 (sFirst1 s (s0 p) γ (s0 g)) (sFl ig 0 (sFirst1 s (s0 p) γ (s0 g)) (sDiv2 ig s (sFirst1 s (s0 p) γ (s0 g)) γ (s0 g))) (s0 g) 0 2 = lam ^ 2 * p 0 2 := by
  have hga : (s0 g).av 0 0 ≠ 0 := by rwa [av00, s0_0]
  have hgb : s0 g 0 0 ≠ 0 := by rwa [s0_0]
  have h1 : (Ser2.C (1 : K)) 0 0 ≠ 0 := by simp [Ser2.C]
  have hga1 : ((s0 g).av.mul (Ser2.C 1)) 0 0 ≠ 0 := by rw [mul00]; exact mul_ne_zero hga h1
  cases ig
  · have hp := hp.resolve_left (by simp)
    have hpa : (sFirst1 s (s0 p) γ (s0 g)).av 0 0 ≠ 0 := by rwa [av00, first00]
    have hpb : ((s0 g).av.mul (sFirst1 s (s0 p) γ (s0 g)).av) 0 0 ≠ 0 := by rw [mul00]; exact mul_ne_zero hga hpa
    simp only [sStep1, sDiv2, sNfdiv1, sNdx1, w2, sFl, Bool.false_eq_true, if_false]
    sev
    simp only [Ser2.e_inv00 _ hpa, Ser2.e_inv10 _ hpa, Ser2.e_inv01 _ hpa, Ser2.e_inv00 _ hpb, Ser2.e_inv10 _ hpb, Ser2.e_inv01 _ hpb, Ser2.e_inv00 _ hgb, Ser2.e_inv10 _ hgb, Ser2.e_inv01 _ hgb, Ser2.e_inv02 _ hgb]
    simp only [sFirst1, sFlux1]
    sev
    simp only [Ser2.e_inv00 _ hgb, Ser2.e_inv10 _ hgb, Ser2.e_inv01 _ hgb, Ser2.e_inv02 _ hgb, s0_0, s0_1, s0_2, s0_3, c0, c1]
    sev
    simp only [e02, e11, e01]
    rcases hs with rfl | rfl <;> (field_simp; ring1)
  · simp only [sStep1, sDiv2, sNfdiv1, sNdx1, w2, sFirst1, sFlux1, sFl, if_true]
    sev
    simp only [Ser2.e_inv00 _ h1, Ser2.e_inv10 _ h1, Ser2.e_inv01 _ h1, Ser2.e_inv00 _ hga1, Ser2.e_inv10 _ hga1, Ser2.e_inv01 _ hga1, Ser2.e_inv00 _ hgb, Ser2.e_inv10 _ hgb, Ser2.e_inv01 _ hgb, Ser2.e_inv02 _ hgb]
    sev
    simp only [s0_0, s0_1, s0_2, s0_3, c0, c1]
    sev
    simp only [e02, e11, e01, inv_one]
    rcases hs with rfl | rfl <;> ring1

/-- second order, standard form with the correction for divergent flow; the third-order term for uniform flow does not matter -/
theorem second_dfl (ig : Bool) (tt : Bool) (p u g : Ser2 K) (hg : g 0 0 ≠ 0) (hp : ig = true ∨ p 0 0 ≠ 0) (hs : s = 1 ∨ s = -1) (lam : K) (γ : Ser2 K)
    (c0 : ∀ m, γ m 0 = lam * u m 0) (c1 : ∀ m, γ m 1 = lam ^ 2 * u m 1 / 2)
    (e01 : p 0 1 = -(g 0 0)⁻¹ * (u 0 0 * p 1 0 + u 1 0 * p 0 0))
    (e11 : p 1 1 = -(g 0 0)⁻¹ * (g 1 0 * p 0 1 + 2 * (u 0 0 * p 2 0 + u 1 0 * p 1 0 + u 2 0 * p 0 0)))
    (e02 : p 0 2 = -(g 0 0)⁻¹ * ((u 0 0 * p 1 1 + u 1 0 * p 0 1 + u 0 1 * p 1 0 + u 1 1 * p 0 0) / 2)) :
    sStep1 (sFirst1 s (s0 p) γ (s0 g)) (sFl ig 0 (sFirst1 s (s0 p) γ (s0 g)) (((sStd1 ig s (sFirst1 s (s0 p) γ (s0 g)) γ (s0 g)).add
      (if tt then sTot1 ig s (sFirst1 s (s0 p) γ (s0 g)) γ (s0 g) else Ser2.C 0)).add (sDfl1 ig (sFirst1 s (s0 p) γ (s0 g)) γ (s0 g)))) (s0 g) 0 2 = lam ^ 2 * p 0 2 := by
  have hga : (s0 g).av 0 0 ≠ 0 := by rwa [av00, s0_0]
  have hgb : s0 g 0 0 ≠ 0 := by rwa [s0_0]
  have hgc : ((s0 g).av.mul (s0 g).av) 0 0 ≠ 0 := by rw [mul00]; exact mul_ne_zero hga hga
  have h1 : (Ser2.C (1 : K)) 0 0 ≠ 0 := by simp [Ser2.C]
  obtain ⟨T, hT⟩ : ∃ T : Ser2 K, T = if tt then sTot1 ig s (sFirst1 s (s0 p) γ (s0 g)) γ (s0 g) else Ser2.C 0 := ⟨_, rfl⟩
  have t0 : ∀ m, m ≤ 1 → T m 0 = 0 := by
    intro m hm; rw [hT]
    cases tt
    · simp [Ser2.C]
    · rcases (show m = 0 ∨ m = 1 by omega) with rfl | rfl <;> simp only [sTot1, sNdxx1, if_true] <;> sev
  have t1 : ∀ m, m ≤ 1 → T m 1 = 0 := by
    intro m hm; rw [hT]
    cases tt
    · simp [Ser2.C]
    · rcases (show m = 0 ∨ m = 1 by omega) with rfl | rfl <;> simp only [sTot1, sNdxx1, if_true] <;> sev
  rw [← hT]
  cases ig
  · have hp := hp.resolve_left (by simp)
    have hpa : (sFirst1 s (s0 p) γ (s0 g)).av 0 0 ≠ 0 := by rwa [av00, first00]
    simp only [sStep1, sStd1, sDfl1, sNdx1, w2, wb, sFl, Bool.false_eq_true, if_false]
    sev
    simp only [t0 0 (by omega), t0 1 (by omega), t1 0 (by omega), t1 1 (by omega), Ser2.e_inv00 _ hga, Ser2.e_inv10 _ hga, Ser2.e_inv01 _ hga, Ser2.e_inv11 _ hga,
      Ser2.e_inv00 _ hpa, Ser2.e_inv10 _ hpa, Ser2.e_inv01 _ hpa, Ser2.e_inv00 _ hgb, Ser2.e_inv10 _ hgb, Ser2.e_inv01 _ hgb, Ser2.e_inv02 _ hgb]
    simp only [sFirst1, sFlux1]
    sev
    simp only [Ser2.e_inv00 _ hgb, Ser2.e_inv10 _ hgb, Ser2.e_inv01 _ hgb, Ser2.e_inv02 _ hgb, s0_0, s0_1, s0_2, s0_3, c0, c1]
    sev
    simp only [e02, e11, e01]
    rcases hs with rfl | rfl <;> (field_simp; ring1)
  · simp only [sStep1, sStd1, sDfl1, sNdx1, w2, wb, sFirst1, sFlux1, sFl, if_true]
    sev
    simp only [t0 0 (by omega), t0 1 (by omega), t1 0 (by omega), t1 1 (by omega), Ser2.e_inv00 _ h1, Ser2.e_inv10 _ h1, Ser2.e_inv01 _ h1, Ser2.e_inv00 _ hga, Ser2.e_inv10 _ hga, Ser2.e_inv01 _ hga,
      Ser2.e_inv00 _ hgb, Ser2.e_inv10 _ hgb, Ser2.e_inv01 _ hgb, Ser2.e_inv02 _ hgb]
    sev
    simp only [s0_0, s0_1, s0_2, s0_3, c0, c1]
    sev
    simp only [e02, e11, e01, inv_one]
    rcases hs with rfl | rfl <;> ring1

/-- velocity of the third-order scheme -/
def sV3 (ig : Bool) (a b s z : K) (q γ ν1 ν2 g : Ser2 K) : Ser2 K := (sDiv2 ig s q γ g).add (sDiv3 ig a b s z q γ ν1 ν2 g)

/-- to the order that matters the corrective fluxes of the basic and of the infinite-gauge scheme are the same -/
theorem basic_iga_flux (q γ ν1 ν2 g : Ser2 K) (a b s z : K) (hg : g 0 0 ≠ 0) (hq : q 0 0 ≠ 0) (g1 : ∀ m, g m 1 = 0)
    (a0 : ∀ m, ν1 m 0 = 0) (b0 : ∀ m, ν2 m 0 = 0) (b1 : ∀ m, ν2 m 1 = 0) :
    sFl false z q (sV3 false a b s z q γ ν1 ν2 g) 1 0 = sFl true z q (sV3 true a b s z q γ ν1 ν2 g) 1 0 ∧
    sFl false z q (sV3 false a b s z q γ ν1 ν2 g) 3 0 = sFl true z q (sV3 true a b s z q γ ν1 ν2 g) 3 0 ∧
    sFl false z q (sV3 false a b s z q γ ν1 ν2 g) 1 1 = sFl true z q (sV3 true a b s z q γ ν1 ν2 g) 1 1 ∧
    sFl false z q (sV3 false a b s z q γ ν1 ν2 g) 1 2 = sFl true z q (sV3 true a b s z q γ ν1 ν2 g) 1 2 := by
  have hga : g.av 0 0 ≠ 0 := by rwa [av00]
  have h1 : (Ser2.C (1 : K)) 0 0 ≠ 0 := by simp [Ser2.C]
  have hga1 : (g.av.mul (Ser2.C 1)) 0 0 ≠ 0 := by rw [mul00]; exact mul_ne_zero hga h1
  have hpa : q.av 0 0 ≠ 0 := by rwa [av00]
  have hpb : (g.av.mul q.av) 0 0 ≠ 0 := by rw [mul00]; exact mul_ne_zero hga hpa
  have hpc : ((q.av.av.av.smul 2).sub q.av) 0 0 ≠ 0 := w4_00 (ig := false) (Or.inr hq)
  have hpd : (g.av.mul ((q.av.av.av.smul 2).sub q.av)) 0 0 ≠ 0 := by rw [mul00]; exact mul_ne_zero hga hpc
  have two : 2 * q 0 0 - q 0 0 = q 0 0 := by ring
  refine ⟨?_, ?_, ?_, ?_⟩ <;>
  simp only [sFl, sV3, sDiv2, sDiv3, sNfdiv1, sNdx1, sNdxx1, w2, w4, wb, sUpw1, sNdxFdiv1, sSpat1, sHelp1, sTemp1, sNfdivFdiv1, sFdivC1, Bool.false_eq_true, if_false, if_true] <;>
  sev
  · simp only [a0, b0, b1]; sev
  · simp only [a0, b0, b1]; sev
  all_goals
    simp only [Ser2.e_inv00 _ hpa, Ser2.e_inv10 _ hpa, Ser2.e_inv01 _ hpa, Ser2.e_inv11 _ hpa, Ser2.e_inv20 _ hpa, Ser2.e_inv02 _ hpa,
      Ser2.e_inv00 _ hpb, Ser2.e_inv10 _ hpb, Ser2.e_inv01 _ hpb, Ser2.e_inv11 _ hpb, Ser2.e_inv20 _ hpb, Ser2.e_inv02 _ hpb,
      Ser2.e_inv00 _ hpc, Ser2.e_inv10 _ hpc, Ser2.e_inv01 _ hpc, Ser2.e_inv11 _ hpc, Ser2.e_inv20 _ hpc, Ser2.e_inv02 _ hpc,
      Ser2.e_inv00 _ hpd, Ser2.e_inv10 _ hpd, Ser2.e_inv01 _ hpd, Ser2.e_inv11 _ hpd, Ser2.e_inv20 _ hpd, Ser2.e_inv02 _ hpd,
      Ser2.e_inv00 _ hga1, Ser2.e_inv10 _ hga1, Ser2.e_inv01 _ hga1, Ser2.e_inv11 _ hga1, Ser2.e_inv20 _ hga1,
      Ser2.e_inv00 _ h1, Ser2.e_inv10 _ h1, Ser2.e_inv01 _ h1, Ser2.e_inv11 _ h1, Ser2.e_inv20 _ h1, Ser2.e_inv02 _ h1,
      Ser2.e_inv00 _ hg, Ser2.e_inv10 _ hg, Ser2.e_inv20 _ hg, Ser2.e_inv11 _ hg, Ser2.e_inv01 _ hg, Ser2.e_inv02 _ hg]
    sev
    simp only [a0, b0, b1, g1, two]
    sev
    field_simp
    ring1

set_option maxHeartbeats 4000000 in
theorem third_core_iga {p u g γ : Ser2 K} (hg : g 0 0 ≠ 0) (a b lam s z : K) (hs : s = 1 ∨ s = -1) (ν1 ν2 : Ser2 K)
    (e01 : p 0 1 = -(g 0 0)⁻¹ * (u 0 0 * p 1 0 + u 1 0 * p 0 0))
    (e11 : p 1 1 = -(g 0 0)⁻¹ * (g 1 0 * p 0 1 + 2 * (u 0 0 * p 2 0 + u 1 0 * p 1 0 + u 2 0 * p 0 0)))
    (e21 : p 2 1 = -(g 0 0)⁻¹ * (g 1 0 * p 1 1 + g 2 0 * p 0 1 + 3 * (u 0 0 * p 3 0 + u 1 0 * p 2 0 + u 2 0 * p 1 0 + u 3 0 * p 0 0)))
    (e02 : p 0 2 = -(g 0 0)⁻¹ * ((u 0 0 * p 1 1 + u 1 0 * p 0 1 + u 0 1 * p 1 0 + u 1 1 * p 0 0) / 2))
    (e12 : p 1 2 = -(g 0 0)⁻¹ * (g 1 0 * p 0 2 + (u 0 0 * p 2 1 + u 1 0 * p 1 1 + u 2 0 * p 0 1 + u 0 1 * p 2 0 + u 1 1 * p 1 0 + u 2 1 * p 0 0)))
    (e03 : p 0 3 = -(g 0 0)⁻¹ * ((u 0 0 * p 1 2 + u 1 0 * p 0 2 + u 0 1 * p 1 1 + u 1 1 * p 0 1 + u 0 2 * p 1 0 + u 1 2 * p 0 0) / 3))
    (c0 : ∀ m, γ m 0 = lam * u m 0) (c1 : ∀ m, γ m 1 = lam ^ 2 * u m 1 / 2)
    (c2 : γ 0 2 = lam ^ 3 * u 0 2 * (1 / 3 - b / 12) + lam * u 2 0 * (a / 12 - 1 / 12))
    (c3 : γ 1 2 = lam ^ 3 * u 1 2 * (1 / 3 - b / 12) + 3 * lam * u 3 0 * (a / 12 - 1 / 12))
    (a0 : ∀ m, ν1 m 0 = 0) (a1 : ∀ m, ν1 m 1 = lam * (lam * u m 1)) (b0 : ∀ m, ν2 m 0 = 0) (b1 : ∀ m, ν2 m 1 = 0) (b2 : ∀ m, ν2 m 2 = lam ^ 2 * (lam * (2 * u m 2))) :
    sStep1 (sFirst1 s (s0 p) γ (s0 g)) (sFl true z (sFirst1 s (s0 p) γ (s0 g)) (sV3 true a b s z (sFirst1 s (s0 p) γ (s0 g)) γ ν1 ν2 (s0 g))) (s0 g) 0 3 = lam ^ 3 * p 0 3 := by
  have hga : (s0 g).av 0 0 ≠ 0 := by rwa [av00, s0_0]
  have hgb : s0 g 0 0 ≠ 0 := by rwa [s0_0]
  have h1 : (Ser2.C (1 : K)) 0 0 ≠ 0 := by simp [Ser2.C]
  have hga1 : ((s0 g).av.mul (Ser2.C 1)) 0 0 ≠ 0 := by rw [mul00]; exact mul_ne_zero hga h1
  simp only [sStep1, sV3, sFl, sDiv2, sDiv3, sNfdiv1, sNdx1, sNdxx1, w2, w4, wb, sUpw1, sNdxFdiv1, sFirst1, sFlux1, sSpat1, sHelp1, sTemp1, sNfdivFdiv1, sFdivC1, if_true]
  sev
  simp only [Ser2.e_inv00 _ hga1, Ser2.e_inv10 _ hga1, Ser2.e_inv01 _ hga1, Ser2.e_inv11 _ hga1, Ser2.e_inv20 _ hga1, Ser2.e_inv00 _ hgb, Ser2.e_inv10 _ hgb, Ser2.e_inv20 _ hgb,
    Ser2.e_inv11 _ hgb, Ser2.e_inv01 _ hgb, Ser2.e_inv02 _ hgb, Ser2.e_inv00 _ h1, Ser2.e_inv10 _ h1, Ser2.e_inv01 _ h1, Ser2.e_inv11 _ h1, Ser2.e_inv20 _ h1, Ser2.e_inv02 _ h1]
  sev
  simp only [s0_0, s0_1, s0_2, s0_3, a0, a1, b0, b1, b2, c0, c1, c2, c3]
  sev
  simp only [e03, e12, e02, e21, e11, e01, inv_one]
  rcases hs with rfl | rfl <;> ring1

theorem third_core (ig : Bool) {p u g γ : Ser2 K} (hg : g 0 0 ≠ 0) (hp : ig = true ∨ p 0 0 ≠ 0) (a b lam s z : K) (hs : s = 1 ∨ s = -1) (ν1 ν2 : Ser2 K)
    (e01 : p 0 1 = -(g 0 0)⁻¹ * (u 0 0 * p 1 0 + u 1 0 * p 0 0))
    (e11 : p 1 1 = -(g 0 0)⁻¹ * (g 1 0 * p 0 1 + 2 * (u 0 0 * p 2 0 + u 1 0 * p 1 0 + u 2 0 * p 0 0)))
    (e21 : p 2 1 = -(g 0 0)⁻¹ * (g 1 0 * p 1 1 + g 2 0 * p 0 1 + 3 * (u 0 0 * p 3 0 + u 1 0 * p 2 0 + u 2 0 * p 1 0 + u 3 0 * p 0 0)))
    (e02 : p 0 2 = -(g 0 0)⁻¹ * ((u 0 0 * p 1 1 + u 1 0 * p 0 1 + u 0 1 * p 1 0 + u 1 1 * p 0 0) / 2))
    (e12 : p 1 2 = -(g 0 0)⁻¹ * (g 1 0 * p 0 2 + (u 0 0 * p 2 1 + u 1 0 * p 1 1 + u 2 0 * p 0 1 + u 0 1 * p 2 0 + u 1 1 * p 1 0 + u 2 1 * p 0 0)))
    (e03 : p 0 3 = -(g 0 0)⁻¹ * ((u 0 0 * p 1 2 + u 1 0 * p 0 2 + u 0 1 * p 1 1 + u 1 1 * p 0 1 + u 0 2 * p 1 0 + u 1 2 * p 0 0) / 3))
    (c0 : ∀ m, γ m 0 = lam * u m 0) (c1 : ∀ m, γ m 1 = lam ^ 2 * u m 1 / 2)
    (c2 : γ 0 2 = lam ^ 3 * u 0 2 * (1 / 3 - b / 12) + lam * u 2 0 * (a / 12 - 1 / 12))
    (c3 : γ 1 2 = lam ^ 3 * u 1 2 * (1 / 3 - b / 12) + 3 * lam * u 3 0 * (a / 12 - 1 / 12))
    (a0 : ∀ m, ν1 m 0 = 0) (a1 : ∀ m, ν1 m 1 = lam * (lam * u m 1)) (b0 : ∀ m, ν2 m 0 = 0) (b1 : ∀ m, ν2 m 1 = 0) (b2 : ∀ m, ν2 m 2 = lam ^ 2 * (lam * (2 * u m 2))) :
    sStep1 (sFirst1 s (s0 p) γ (s0 g)) (sFl ig z (sFirst1 s (s0 p) γ (s0 g)) (sV3 ig a b s z (sFirst1 s (s0 p) γ (s0 g)) γ ν1 ν2 (s0 g))) (s0 g) 0 3 = lam ^ 3 * p 0 3 := by
  cases ig
  · obtain ⟨f1, f2, f3, f4⟩ := basic_iga_flux (sFirst1 s (s0 p) γ (s0 g)) γ ν1 ν2 (s0 g) a b s z (by rwa [s0_0]) (by rw [first00]; exact hp.resolve_left (by simp)) (s0_1 g) a0 b0 b1
    rw [← third_core_iga hg a b lam s z hs ν1 ν2 e01 e11 e21 e02 e12 e03 c0 c1 c2 c3 a0 a1 b0 b1 b2]
    simp only [sStep1]
    generalize sFl false z (sFirst1 s (s0 p) γ (s0 g)) (sV3 false a b s z (sFirst1 s (s0 p) γ (s0 g)) γ ν1 ν2 (s0 g)) = A at *
    generalize sFl true z (sFirst1 s (s0 p) γ (s0 g)) (sV3 true a b s z (sFirst1 s (s0 p) γ (s0 g)) γ ν1 ν2 (s0 g)) = B at *
    sev
    rw [f1, f2, f3, f4]
  · exact third_core_iga hg a b lam s z hs ν1 ν2 e01 e11 e21 e02 e12 e03 c0 c1 c2 c3 a0 a1 b0 b1 b2
end
end Mpdata
