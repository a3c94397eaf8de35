import Verif.Lemmas.AccCore1
/-! # From expansions to the accuracy of one step, 1-D -/
set_option linter.unusedSectionVars false
set_option linter.unusedVariables false
namespace Mpdata
variable {K : Type} [Field K] [LinearOrder K] [IsStrictOrderedRing K]
open Spec1

/-- a two-pass step reads three points on each side -/
theorem step2_local (P Q : Par K) (i : Int) (psi gc psi' gc' : Int → K) (ho : P.o = Q.o) (hsi : P.si = Q.si) (hte : P.te = Q.te) (hti : P.tiny = Q.tiny)
    (hf : isset P.o oFct = false) (hpsi : ∀ k : Int, -3 ≤ k → k ≤ 3 → psi (i + k) = psi' k) (hgc : ∀ k : Int, -3 ≤ k → k ≤ 2 → gc (i + k) = gc' k)
    (hG : ∀ k : Int, -2 ≤ k → k ≤ 2 → P.G (i + k) = Q.G k) (hn1 : isset P.o oDiv3 = true → ∀ k : Int, -2 ≤ k → k ≤ 1 → P.ndtGC (i + k) = Q.ndtGC k)
    (hn2 : isset P.o oDiv3 = true → ∀ k : Int, -1 ≤ k → k ≤ 0 → P.ndttGC (i + k) = Q.ndttGC k) :
    step P 2 psi gc i = step Q 2 psi' gc' 0 := by
  have hs : step P 2 psi gc i = step (P.shift i) 2 (sh i psi) (sh i gc) 0 := by
    unfold step; rw [passes_sh]; simp [sh]
  rw [hs]
  have hf' : isset Q.o oFct = false := by rw [← ho]; exact hf
  have hfs : isset (P.shift i).o oFct = false := hf
  have ho' : (P.shift i).o = Q.o := ho
  have e : ∀ (a : Int → K) (k : Int), sh i a k = a (i + k) := fun a k => by unfold sh; rw [add_comm]
  have f1 : Agree (-2) 2 (first (P.shift i) (sh i psi) (sh i gc)) (first Q psi' gc') := by
    intro k h1 h2
    unfold first
    rw [ho']
    refine donorStep1_congr _ (by rw [e]; exact hpsi k (by omega) (by omega)) ?_ ?_
    · intro j h3 h4
      refine makeFlux1_congr _ (fun l h5 h6 => ?_) ?_
      · rw [e]; exact hpsi l (by omega) (by omega)
      · rw [e]; exact hgc j (by omega) (by omega)
    · show sh i P.G k = _; rw [e]; exact hG k (by omega) (by omega)
  have hm : mpdataHalo Q.o ≤ 2 := by rcases mpdataHalo_cases Q.o with h | ⟨h, _⟩ <;> omega
  have hr : gcReach Q.o ≤ 1 := by rcases gcReach_cases Q.o with ⟨h, _⟩ | ⟨h, _⟩ <;> omega
  have v1 : Agree (-1) 0 (velocity (P.shift i) (first (P.shift i) (sh i psi) (sh i gc)) (sh i gc)) (velocity Q (first Q psi' gc') gc') := by
    intro k h1 h2
    unfold velocity
    rw [ho', show (P.shift i).si = Q.si from hsi, show (P.shift i).te = Q.te from hte, show (P.shift i).tiny = Q.tiny from hti]
    refine antidiff1_congr _ _ _ _ (f1.mono (by omega) (by omega)) ?_ ?_ ?_ ?_
    · intro l h3 h4; show sh i P.G l = _; rw [e]; exact hG l (by omega) (by omega)
    · intro l h3 h4; rw [e]; exact hgc l (by omega) (by omega)
    · intro h6 l h3 h4; show sh i P.ndtGC l = _; rw [e]; exact hn1 (by rw [ho]; exact h6) l (by omega) (by omega)
    · intro h6; show sh i P.ndttGC k = _; rw [e]; exact hn2 (by rw [ho]; exact h6) k (by omega) (by omega)
  simp only [step, passes, corrective, hfs, hf', Bool.false_eq_true, if_false, show (2 : Nat) - 1 = 1 from rfl]
  rw [ho']
  refine donorStep1_congr _ (f1 0 (by omega) (by omega)) ?_ ?_
  · intro j h1 h2
    split
    · exact v1 j (by omega) (by omega)
    · refine makeFlux1_congr _ (f1.mono (by omega) (by omega)) (v1 j (by omega) (by omega))
  · show sh i P.G 0 = _; rw [e]; exact hG 0 (by omega) (by omega)

/-- one step on samples of smooth fields -/
def sampled1 (o : OptsT) (si : SptlIntrp) (te : TmprlExtrp) (tiny eps : K) (G : K → K) (ndt ndtt : K → Int → K) (h : K) : Par K :=
  ⟨o, si, te, tiny, eps, fun k => G (k * h), ndt h, ndtt h⟩

section
variable {psi U : K → K → K} {G : K → K} {p u g : Ser2 K} {o : OptsT} {si : SptlIntrp} {te : TmprlExtrp} {tiny eps lam : K} {ndt ndtt : K → Int → K}

/-- expansions of the sampled fields -/
structure Samp1 (psi U : K → K → K) (G : K → K) (p u g : Ser2 K) (si : SptlIntrp) (te : TmprlExtrp) (lam s : K) : Prop where
  hs : s = 1 ∨ s = -1
  f : Gr 0 (fun h k => psi (k * h) 0) (s0 p)
  c : Gr (1 / 2) (fun h k => gcSample1 si te U lam h k) (sCourant1 si te u lam)
  ca : Gr (1 / 2) (fun h k => |gcSample1 si te U lam h k|) ((sCourant1 si te u lam).smul s)
  g : Gr 0 (fun h k => G (k * h)) (s0 g)

theorem samp1 (h : Advects1 psi U G p u g) (si te) (hu : lam * u 0 0 ≠ 0) : ∃ s : K, (s = 1 ∧ 0 < lam * u 0 0 ∨ s = -1 ∧ lam * u 0 0 < 0) ∧ Samp1 psi U G p u g si te lam s := by
  obtain ⟨s, hs, hs'⟩ : ∃ s : K, ((s = 1 ∧ 0 < lam * u 0 0) ∨ (s = -1 ∧ lam * u 0 0 < 0)) ∧ (s = 1 ∨ s = -1) := by
    rcases lt_or_gt_of_ne hu with h | h
    · exact ⟨-1, Or.inr ⟨rfl, h⟩, Or.inr rfl⟩
    · exact ⟨1, Or.inl ⟨rfl, h⟩, Or.inl rfl⟩
  have hc := gcSample1_gr h.hu si te lam
  refine ⟨s, hs, hs', fun k => ?_, hc, hc.abs_sgn (by rwa [sCourant1_00]), fun k => ?_⟩
  · have := h.hp.fj ((k : K) + 0) 0
    show FJ _ _ (fun m n => p m n * 0 ^ n)
    simpa using this
  · have := h.hg.fj ((k : K) + 0) 0
    show FJ _ _ (fun m n => g m n * 0 ^ n)
    simpa using this

/-- the two-pass step of the specification, as a flux form -/
theorem step2_eq (Q : Par K) (hn : isset Q.o oNug = true ∨ ∀ k, Q.G k = 1) (hf : isset Q.o oFct = false) (psi gc : Int → K) (k : Int) (f v : Int → K)
    (hfd : f = first Q psi gc) (hvd : v = velocity Q f gc) :
    step Q 2 psi gc k = f k - ((if isset Q.o oIga then v k else makeFlux1 Q.o f v k) - (if isset Q.o oIga then v (k - 1) else makeFlux1 Q.o f v (k - 1))) / Q.G k := by
  simp only [step, passes, corrective, hf, Bool.false_eq_true, if_false, show (2 : Nat) - 1 = 1 from rfl, ← hfd, ← hvd, donorStep1, donorSum1_eq, gFac1_eq hn]
  split_ifs <;> ring

/-- low coefficients of the first pass -/
theorem first01 (s : K) {p u g γ : Ser2 K} (hg : g 0 0 ≠ 0) (c0 : ∀ m, γ m 0 = lam * u m 0) (e01 : p 0 1 = -(g 0 0)⁻¹ * (u 0 0 * p 1 0 + u 1 0 * p 0 0)) :
    sFirst1 s (s0 p) γ (s0 g) 0 1 = lam * p 0 1 := by
  have hgb : s0 g 0 0 ≠ 0 := by rwa [s0_0]
  simp only [sFirst1, sFlux1]
  sev
  simp only [Ser2.e_inv00 _ hgb, s0_0, s0_1, c0, e01]
  sev; ring

/-- the exact solution after one time step -/
theorem exact_jet (h : Advects1 psi U G p u g) (lam : K) : Jet (fun h => psi 0 (lam * h)) ⟨p 0 0, lam * p 0 1, lam ^ 2 * p 0 2, lam ^ 3 * p 0 3⟩ := by
  refine Jet.rfl' ((h.hp.jet 0 lam).congr' fun h => by rw [zero_mul]) ?_
  ext <;> simp <;> ring

/-- term of the basic scheme that involves the magnitude of the velocity: of third order at least -/
theorem magnitude_small {f v : K → Int → K} {q w : Ser2 K} (hf : Gr 0 f q) (hv : Gr (1 / 2) v w) (w0 : w 0 0 = 0) (w1 : w 1 0 = 0) :
    BigO 3 (fun h => |v h 0| * (f h 1 - f h 0) - |v h (-1)| * (f h 0 - f h (-1))) := by
  have d0 : BigO 1 (fun h => f h 1 - f h 0) := ((hf.difN 0).congr' fun h => by simp).bigO1 (by simp [jSer2, Ser2.dif])
  have d1 : BigO 2 (fun h => (f h 1 - f h 0) - (f h 0 - f h (-1))) := ((hf.difN.difF 0).congr' fun h => by simp).bigO2 (by simp [jSer2, Ser2.dif]) (by simp [jSer2, Ser2.dif])
  have v0 : BigO 1 (fun h => v h (-1)) := (hv (-1)).bigO1 (by simp [jSer2, w0])
  have v1 : BigO 2 (fun h => v h 0 - v h (-1)) := ((hv.difF 0).congr' fun h => by simp).bigO2 (by simp [jSer2, Ser2.dif]) (by simp [jSer2, Ser2.dif, w1])
  have v2 : BigO 2 (fun h => |v h 0| - |v h (-1)|) := by
    obtain ⟨M, r, hr, hM⟩ := v1
    exact ⟨M, r, hr, fun h h0 h1 => (abs_abs_sub_abs_le _ _).trans (hM h h0 h1)⟩
  have v3 : BigO 1 (fun h => |v h (-1)|) := by
    obtain ⟨M, r, hr, hM⟩ := v0
    exact ⟨M, r, hr, fun h h0 h1 => by rw [abs_abs]; exact hM h h0 h1⟩
  refine ((v2.mul_bdd d0).add (v3.mul_bdd d1)).congr one_pos fun h _ _ => by ring

/-- the corrective velocity on the samples -/
def vel1 (o : OptsT) (si : SptlIntrp) (te : TmprlExtrp) (tiny eps : K) (psi U : K → K → K) (G : K → K) (ndt ndtt : K → Int → K) (lam h : K) (k : Int) : K :=
  velocity (sampled1 o si te tiny eps G ndt ndtt h) (first (sampled1 o si te tiny eps G ndt ndtt h) (fun k => psi (k * h) 0) (gcSample1 si te U lam h)) (gcSample1 si te U lam h) k

/-- from the expansion of the corrective velocity to the second-order accuracy of the step -/
theorem second_of_velocity (h : Advects1 psi U G p u g) (hu : lam * u 0 0 ≠ 0) (H : AccOpts o tiny) (hfct : isset o oFct = false) (hn : isset o oNug = true ∨ ∀ x, G x = 1)
    {s : K} (S : Samp1 psi U G p u g si te lam s) {w : Ser2 K}
    (hw : Gr (1 / 2) (fun h k => vel1 o si te tiny eps psi U G ndt ndtt lam h k) w) (w0 : w 0 0 = 0) (w1 : w 1 0 = 0)
    (hc : sStep1 (sFirst1 s (s0 p) (sCourant1 si te u lam) (s0 g)) (sFl (isset o oIga) 0 (sFirst1 s (s0 p) (sCourant1 si te u lam) (s0 g)) w) (s0 g) 0 2 = lam ^ 2 * p 0 2) :
    BigO 3 (fun h => step (sampled1 o si te tiny eps G ndt ndtt h) 2 (fun k => psi (k * h) 0) (gcSample1 si te U lam h) 0 - psi 0 (lam * h)) := by
  have hg0 := h.hg0
  have hgb : s0 g 0 0 ≠ 0 := by rwa [s0_0]
  have hn' : ∀ h, isset o oNug = true ∨ ∀ k : Int, G (k * h) = 1 := fun h => hn.imp id fun e k => e _
  obtain ⟨Q, hQ⟩ : ∃ Q : K → Par K, Q = fun h => sampled1 o si te tiny eps G ndt ndtt h := ⟨_, rfl⟩
  have ho : ∀ h, (Q h).o = o := fun h => by rw [hQ]; rfl
  have hGQ : ∀ h k, (Q h).G k = G (k * h) := fun h k => by rw [hQ]; rfl
  obtain ⟨e01, e11, e21, e02, e12, e03⟩ := h.solve
  obtain ⟨c0, c1, -, -⟩ := sCourant1_c si te u lam
  have hF : Gr 0 (fun h k => first (Q h) (fun k => psi (k * h) 0) (gcSample1 si te U lam h) k) (sFirst1 s (s0 p) (sCourant1 si te u lam) (s0 g)) :=
    first_gr Q o ho (fun h => by simpa only [hGQ] using hn' h) S.f S.c S.ca (by simpa only [hGQ] using S.g) hgb
  obtain ⟨q, hq⟩ : ∃ q, q = sFirst1 s (s0 p) (sCourant1 si te u lam) (s0 g) := ⟨_, rfl⟩
  rw [← hq] at hF hc
  have q00 : q 0 0 = p 0 0 := by rw [hq, first00]
  have q01 : q 0 1 = lam * p 0 1 := by rw [hq]; exact first01 s hg0 c0 e01
  have hv : ∀ h k, velocity (Q h) (first (Q h) (fun k => psi (k * h) 0) (gcSample1 si te U lam h)) (gcSample1 si te U lam h) k = vel1 o si te tiny eps psi U G ndt ndtt lam h k := by
    intro h k; rw [hQ]; rfl
  have w1' : sFl (isset o oIga) 0 q w 1 0 = 0 := by
    cases isset o oIga <;> simp only [sFl, Bool.false_eq_true, if_false, if_true]
    · sev; rw [w0, w1]; ring
    · exact w1
  have st0 : sStep1 q (sFl (isset o oIga) 0 q w) (s0 g) 0 0 = p 0 0 := by unfold sStep1; sev; exact q00
  have st1 : sStep1 q (sFl (isset o oIga) 0 q w) (s0 g) 0 1 = lam * p 0 1 := by unfold sStep1; sev; rw [w1', q01]; ring
  have main : Jet (fun h => (first (Q h) (fun k => psi (k * h) 0) (gcSample1 si te U lam h) 0)
      - ((if isset o oIga = true then vel1 o si te tiny eps psi U G ndt ndtt lam h 0 else vel1 o si te tiny eps psi U G ndt ndtt lam h 0 * ((first (Q h) (fun k => psi (k * h) 0) (gcSample1 si te U lam h) (0 + 1) + first (Q h) (fun k => psi (k * h) 0) (gcSample1 si te U lam h) 0) / 2))
        - (if isset o oIga = true then vel1 o si te tiny eps psi U G ndt ndtt lam h (0 - 1) else vel1 o si te tiny eps psi U G ndt ndtt lam h (0 - 1) * ((first (Q h) (fun k => psi (k * h) 0) (gcSample1 si te U lam h) (0 - 1 + 1) + first (Q h) (fun k => psi (k * h) 0) (gcSample1 si te U lam h) (0 - 1)) / 2))) / G ((0 : Int) * h))
      (jSer2 (sStep1 q (sFl (isset o oIga) 0 q w) (s0 g)) ((0 : Int) + 0) 1) := by
    have fl : Gr (1 / 2) (fun h k => if isset o oIga = true then vel1 o si te tiny eps psi U G ndt ndtt lam h k else vel1 o si te tiny eps psi U G ndt ndtt lam h k *
        ((first (Q h) (fun k => psi (k * h) 0) (gcSample1 si te U lam h) (k + 1) + first (Q h) (fun k => psi (k * h) 0) (gcSample1 si te U lam h) k) / 2)) (sFl (isset o oIga) 0 q w) := by
      cases isset o oIga
      · have e : sFl false 0 q w = w.mul q.av := by
          unfold sFl; funext m n
          simp only [Bool.false_eq_true, if_false, Ser2.sub, Ser2.smul, Ser2.mul, zero_mul, Finset.sum_const_zero, mul_zero, sub_zero]
        rw [e]
        simpa using hw.mul hF.avN
      · simpa [sFl] using hw
    exact (hF.sub (fl.difF.div S.g hgb)) 0
  have E := exact_jet h lam
  have hd := (main.sub E).order3
  have comps : ∀ h : K, (jSer2 (sStep1 q (sFl (isset o oIga) 0 q w) (s0 g)) ((0 : Int) + 0) 1 - ⟨p 0 0, lam * p 0 1, lam ^ 2 * p 0 2, lam ^ 3 * p 0 3⟩ : J4 K).a
      + (jSer2 (sStep1 q (sFl (isset o oIga) 0 q w) (s0 g)) ((0 : Int) + 0) 1 - ⟨p 0 0, lam * p 0 1, lam ^ 2 * p 0 2, lam ^ 3 * p 0 3⟩ : J4 K).b * h
      + (jSer2 (sStep1 q (sFl (isset o oIga) 0 q w) (s0 g)) ((0 : Int) + 0) 1 - ⟨p 0 0, lam * p 0 1, lam ^ 2 * p 0 2, lam ^ 3 * p 0 3⟩ : J4 K).c * h ^ 2 = 0 := by
    intro h; simp [jSer2, st0, st1, hc]
  simp only [comps, sub_zero] at hd
  have hmag : BigO 3 (fun h => |vel1 o si te tiny eps psi U G ndt ndtt lam h 0| * (first (Q h) (fun k => psi (k * h) 0) (gcSample1 si te U lam h) 1 - first (Q h) (fun k => psi (k * h) 0) (gcSample1 si te U lam h) 0)
      - |vel1 o si te tiny eps psi U G ndt ndtt lam h (-1)| * (first (Q h) (fun k => psi (k * h) 0) (gcSample1 si te U lam h) 0 - first (Q h) (fun k => psi (k * h) 0) (gcSample1 si te U lam h) (-1))) :=
    magnitude_small hF hw w0 w1
  have hG1 : BigO 0 (fun h => if isset o oIga = true then 0 else (2 * G ((0 : Int) * h))⁻¹) := by
    cases isset o oIga
    · have : Jet (fun h => (2 * G ((0 : Int) * h))⁻¹) (J4.C 2 * jSer2 (s0 g) ((0 : Int) + 0) 1)⁻¹ := ((Jet.const 2).mul (S.g 0)).inv (by simpa [jSer2, s0_0] using hg0)
      simpa using this.bdd
    · simpa using (Jet.const (0 : K)).bdd
  refine (hd.add (hmag.mul_bdd hG1)).congr one_pos fun h _ _ => ?_
  have := step2_eq (Q h) (by rw [ho]; simpa only [hGQ] using hn' h) (by rw [ho]; exact hfct) (fun k => psi (k * h) 0) (gcSample1 si te U lam h) 0 _ _ rfl rfl
  rw [show sampled1 o si te tiny eps G ndt ndtt h = Q h by rw [hQ], this]
  simp only [ho, hv, hGQ, makeFlux1, donorF, pospart_half, negpart_half, zero_sub, zero_add, neg_add_cancel]
  cases isset o oIga
  · simp only [Bool.false_eq_true, if_false]
    rw [mul_inv]; ring
  · simp only [if_true]; ring

theorem Gr.abs_lead {θ : K} {f : K → Int → K} {q : Ser2 K} (hf : Gr θ f q) (h0 : q 0 0 = 0) (h1 : q 1 0 = 0) {z : K} (hz : (z = 1 ∧ 0 < q 0 1) ∨ (z = -1 ∧ q 0 1 < 0)) :
    Gr θ (fun h k => |f h k|) (q.smul z) := by
  intro k
  unfold FJ; rw [Ser2.j_smul]
  exact Jet.abs_lead (hf k) h0 (by simpa [jSer2, h1] using hz)

/-- low coefficients of the corrective velocity -/
theorem div2_low (ig : Bool) (s : K) (q γ g : Ser2 K) (m : Nat) (hm : m ≤ 3) : sDiv2 ig s q γ g m 0 = 0 := by
  rcases (show m = 0 ∨ m = 1 ∨ m = 2 ∨ m = 3 by omega) with rfl | rfl | rfl | rfl <;> simp only [sDiv2, sNfdiv1, sNdx1] <;> sev

theorem dfl_low (ig tt : Bool) (s : K) (q γ g : Ser2 K) (m : Nat) (hm : m ≤ 1) :
    (((sStd1 ig s q γ g).add (if tt then sTot1 ig s q γ g else Ser2.C 0)).add (sDfl1 ig q γ g)) m 0 = 0 := by
  rcases (show m = 0 ∨ m = 1 by omega) with rfl | rfl <;> cases tt <;> simp only [sStd1, sTot1, sDfl1, sNdx1, sNdxx1, Bool.false_eq_true, if_false, if_true] <;> sev

theorem div3_low (ig : Bool) (a b s z : K) (q γ ν1 ν2 g : Ser2 K) (a0 : ∀ m, ν1 m 0 = 0) (b0 : ∀ m, ν2 m 0 = 0) (b1 : ∀ m, ν2 m 1 = 0) (m : Nat) (hm : m ≤ 2) :
    sDiv3 ig a b s z q γ ν1 ν2 g m 0 = 0 ∧ sDiv3 ig a b s z q γ ν1 ν2 g m 1 = 0 := by
  rcases (show m = 0 ∨ m = 1 ∨ m = 2 by omega) with rfl | rfl | rfl <;> cases ig <;>
    simp only [sDiv3, sUpw1, sDiv2, sNfdiv1, sNdx1, sNdxx1, sNdxFdiv1, sSpat1, sHelp1, sTemp1, sNfdivFdiv1, sFdivC1, Bool.false_eq_true, if_false, if_true] <;> sev <;>
    simp only [a0, b0, b1] <;> sev <;> simp

/-- coefficient of second order, third-order scheme -/
theorem third_step02 (ig : Bool) (a b s z : K) (q γ ν1 ν2 g : Ser2 K) (a0 : ∀ m, ν1 m 0 = 0) (b0 : ∀ m, ν2 m 0 = 0) (b1 : ∀ m, ν2 m 1 = 0) :
    sStep1 q (sFl ig z q (sV3 ig a b s z q γ ν1 ν2 g)) g 0 2 = sStep1 q (sFl ig 0 q (sDiv2 ig s q γ g)) g 0 2 := by
  have w0 := fun m hm => (div3_low ig a b s z q γ ν1 ν2 g a0 b0 b1 m hm).1
  have w1 := fun m hm => (div3_low ig a b s z q γ ν1 ν2 g a0 b0 b1 m hm).2
  have v0 := div2_low ig s q γ g
  unfold sV3 sStep1 sFl
  generalize sDiv3 ig a b s z q γ ν1 ν2 g = W at *
  generalize sDiv2 ig s q γ g = V at *
  have e0 := w0 0 (by omega); have e1 := w0 1 (by omega); have e2 := w0 2 (by omega)
  have f0 := w1 0 (by omega); have f1 := w1 1 (by omega); have f2 := w1 2 (by omega)
  have g0 := v0 0 (by omega); have g1 := v0 1 (by omega); have g2 := v0 2 (by omega)
  cases ig <;> simp only [Bool.false_eq_true, if_false, if_true] <;> sev <;> simp only [e0, e1, f0, f1, g0, g1] <;> ring1

/-- from the expansion of the corrective velocity to the third-order accuracy of the step -/
theorem third_of_velocity (h : Advects1 psi U G p u g) (hu : lam * u 0 0 ≠ 0) (H : AccOpts o tiny) (hfct : isset o oFct = false) (hn : isset o oNug = true ∨ ∀ x, G x = 1)
    {s z : K} (S : Samp1 psi U G p u g si te lam s) {w : Ser2 K}
    (hw : Gr (1 / 2) (fun h k => vel1 o si te tiny eps psi U G ndt ndtt lam h k) w) (w0 : w 0 0 = 0) (w1 : w 1 0 = 0)
    (hwa : isset o oIga = true ∨ Gr (1 / 2) (fun h k => |vel1 o si te tiny eps psi U G ndt ndtt lam h k|) (w.smul z))
    (hc2 : sStep1 (sFirst1 s (s0 p) (sCourant1 si te u lam) (s0 g)) (sFl (isset o oIga) z (sFirst1 s (s0 p) (sCourant1 si te u lam) (s0 g)) w) (s0 g) 0 2 = lam ^ 2 * p 0 2)
    (hc : sStep1 (sFirst1 s (s0 p) (sCourant1 si te u lam) (s0 g)) (sFl (isset o oIga) z (sFirst1 s (s0 p) (sCourant1 si te u lam) (s0 g)) w) (s0 g) 0 3 = lam ^ 3 * p 0 3) :
    BigO 4 (fun h => step (sampled1 o si te tiny eps G ndt ndtt h) 2 (fun k => psi (k * h) 0) (gcSample1 si te U lam h) 0 - psi 0 (lam * h)) := by
  have hg0 := h.hg0
  have hgb : s0 g 0 0 ≠ 0 := by rwa [s0_0]
  have hn' : ∀ h, isset o oNug = true ∨ ∀ k : Int, G (k * h) = 1 := fun h => hn.imp id fun e k => e _
  obtain ⟨Q, hQ⟩ : ∃ Q : K → Par K, Q = fun h => sampled1 o si te tiny eps G ndt ndtt h := ⟨_, rfl⟩
  have ho : ∀ h, (Q h).o = o := fun h => by rw [hQ]; rfl
  have hGQ : ∀ h k, (Q h).G k = G (k * h) := fun h k => by rw [hQ]; rfl
  obtain ⟨e01, e11, e21, e02, e12, e03⟩ := h.solve
  obtain ⟨c0, c1, -, -⟩ := sCourant1_c si te u lam
  have hF : Gr 0 (fun h k => first (Q h) (fun k => psi (k * h) 0) (gcSample1 si te U lam h) k) (sFirst1 s (s0 p) (sCourant1 si te u lam) (s0 g)) :=
    first_gr Q o ho (fun h => by simpa only [hGQ] using hn' h) S.f S.c S.ca (by simpa only [hGQ] using S.g) hgb
  obtain ⟨q, hq⟩ : ∃ q, q = sFirst1 s (s0 p) (sCourant1 si te u lam) (s0 g) := ⟨_, rfl⟩
  rw [← hq] at hF hc hc2
  have q00 : q 0 0 = p 0 0 := by rw [hq, first00]
  have q01 : q 0 1 = lam * p 0 1 := by rw [hq]; exact first01 s hg0 c0 e01
  have hv : ∀ h k, velocity (Q h) (first (Q h) (fun k => psi (k * h) 0) (gcSample1 si te U lam h)) (gcSample1 si te U lam h) k = vel1 o si te tiny eps psi U G ndt ndtt lam h k := by
    intro h k; rw [hQ]; rfl
  have w1' : sFl (isset o oIga) z q w 1 0 = 0 := by
    cases isset o oIga <;> simp only [sFl, Bool.false_eq_true, if_false, if_true]
    · sev; rw [w0, w1]; ring
    · exact w1
  have st0 : sStep1 q (sFl (isset o oIga) z q w) (s0 g) 0 0 = p 0 0 := by unfold sStep1; sev; exact q00
  have st1 : sStep1 q (sFl (isset o oIga) z q w) (s0 g) 0 1 = lam * p 0 1 := by unfold sStep1; sev; rw [w1', q01]; ring
  have fl : Gr (1 / 2) (fun h k => if isset o oIga = true then vel1 o si te tiny eps psi U G ndt ndtt lam h k else
      makeFlux1 o (first (Q h) (fun k => psi (k * h) 0) (gcSample1 si te U lam h)) (vel1 o si te tiny eps psi U G ndt ndtt lam h) k) (sFl (isset o oIga) z q w) := by
    cases hi : isset o oIga
    · have hwa := hwa.resolve_left (by simp [hi])
      refine ((hw.mul hF.avN).sub ((hwa.mul hF.difN).smul (1 / 2))).congr' fun h k => ?_
      simp only [Bool.false_eq_true, if_false, makeFlux1, donorF, pospart_half, negpart_half]; ring
    · simpa [sFl] using hw
  have main : Jet _ _ := (hF.sub (fl.difF.div S.g hgb)) 0
  have E := exact_jet h lam
  have hd := (main.sub E).order4
  have comps : (jSer2 (sStep1 q (sFl (isset o oIga) z q w) (s0 g)) ((0 : Int) + 0) 1 : J4 K) = ⟨p 0 0, lam * p 0 1, lam ^ 2 * p 0 2, lam ^ 3 * p 0 3⟩ := by
    ext <;> simp [jSer2, st0, st1, hc, hc2]
  have comps' : (jSer2 (q.sub ((sFl (isset o oIga) z q w).dif.mul (s0 g).inv)) (((0 : Int) : K) + 0) 1 - ⟨p 0 0, lam * p 0 1, lam ^ 2 * p 0 2, lam ^ 3 * p 0 3⟩ : J4 K) = ⟨0, 0, 0, 0⟩ := by
    rw [show q.sub ((sFl (isset o oIga) z q w).dif.mul (s0 g).inv) = sStep1 q (sFl (isset o oIga) z q w) (s0 g) from rfl, comps]
    ext <;> simp
  rw [comps'] at hd
  refine hd.congr one_pos fun h _ _ => ?_
  have := step2_eq (Q h) (by rw [ho]; simpa only [hGQ] using hn' h) (by rw [ho]; exact hfct) (fun k => psi (k * h) 0) (gcSample1 si te U lam h) 0 _ _ rfl rfl
  rw [show sampled1 o si te tiny eps G ndt ndtt h = Q h by rw [hQ], this]
  simp only [ho, hv, hGQ]
  rw [show velocity (Q h) (first (Q h) (fun k => psi (k * h) 0) (gcSample1 si te U lam h)) (gcSample1 si te U lam h) = vel1 o si te tiny eps psi U G ndt ndtt lam h from funext (hv h)]
  cases isset o oIga
  · simp only [Bool.false_eq_true, if_false, zero_sub]; ring
  · simp only [if_true, zero_sub]; ring

theorem ndt_gr {w : K → Int → K} (h : NdtSampled1 u lam w) : ∃ ν : Ser2 K, Gr (1 / 2) w ν ∧ (∀ m, ν m 0 = 0) ∧ ∀ m, ν m 1 = lam * (lam * u m 1) := by
  obtain ⟨W, a, hW, hw, ha⟩ := h
  refine ⟨a, fun k => ?_, fun m => (ha m).1, fun m => by rw [(ha m).2]; simp [Ser2.dt]⟩
  have := hW.fj ((k : K) + 1 / 2) 1
  simpa [hw] using this
theorem ndtt_gr {w : K → Int → K} (h : NdttSampled1 u lam w) : ∃ ν : Ser2 K, Gr (1 / 2) w ν ∧ (∀ m, ν m 0 = 0) ∧ (∀ m, ν m 1 = 0) ∧ ∀ m, ν m 2 = lam ^ 2 * (lam * (2 * u m 2)) := by
  obtain ⟨W, a, hW, hw, ha⟩ := h
  refine ⟨a, fun k => ?_, fun m => (ha m).1, fun m => (ha m).2.1, fun m => by rw [(ha m).2.2]; simp only [Ser2.dt]; push_cast; ring⟩
  have := hW.fj ((k : K) + 1 / 2) 1
  simpa [hw] using this

/-- second order of the reference scheme -/
theorem second_ref1 (h : Advects1 psi U G p u g) (hu : lam * u 0 0 ≠ 0) (H : AccOpts o tiny) (hfct : isset o oFct = false) (hn : isset o oNug = true ∨ ∀ x, G x = 1)
    (hp : isset o oIga = true ∨ p 0 0 ≠ 0)
    (hopt : isset o oDiv3 = false ∧ (isset o oDiv2 = true ∨ isset o oDfl = true)) :
    BigO 3 (fun h => step (sampled1 o si te tiny eps G ndt ndtt h) 2 (fun k => psi (k * h) 0) (gcSample1 si te U lam h) 0 - psi 0 (lam * h)) := by
  obtain ⟨s, hs, S⟩ := samp1 h si te hu
  have hgb : s0 g 0 0 ≠ 0 := by rw [s0_0]; exact h.hg0
  have hn' : ∀ h, isset o oNug = true ∨ ∀ k : Int, G (k * h) = 1 := fun h => hn.imp id fun e k => e _
  obtain ⟨e01, e11, -, e02, -, -⟩ := h.solve
  obtain ⟨c0, c1, -, -⟩ := sCourant1_c si te u lam
  have hF : Gr 0 (fun h k => first (sampled1 o si te tiny eps G ndt ndtt h) (fun k => psi (k * h) 0) (gcSample1 si te U lam h) k) (sFirst1 s (s0 p) (sCourant1 si te u lam) (s0 g)) :=
    first_gr _ o (fun _ => rfl) hn' S.f S.c S.ca S.g hgb
  have h0 : isset o oIga = true ∨ sFirst1 s (s0 p) (sCourant1 si te u lam) (s0 g) 0 0 ≠ 0 := by rw [first00]; exact hp
  cases hd2 : isset o oDiv2
  · have hdfl := hopt.2.resolve_left (by simp [hd2])
    refine second_of_velocity h hu H hfct hn S
      ((((std_gr H hn' hF h0 S.ca S.g hgb).add (tot_gr H hn' hF h0 S.c S.ca S.g hgb)).add (dfl_gr H hdfl hn' hF S.c S.g hgb)).congr' fun h k => ?_)
      (dfl_low _ _ _ _ _ _ 0 (by omega)) (dfl_low _ _ _ _ _ _ 1 (by omega))
      (second_dfl _ _ _ _ _ _ h.hg0 hp S.hs lam _ c0 c1 e01 e11 e02)
    simp [vel1, velocity, antidiff1, sampled1, hd2, hopt.1]
  · refine second_of_velocity h hu H hfct hn S ((div2_gr H hn' hF h0 S.c S.ca S.g hgb).congr' fun h k => ?_) (div2_low _ _ _ _ _ 0 (by omega)) (div2_low _ _ _ _ _ 1 (by omega))
      (second_div2 _ _ _ _ _ h.hg0 hp S.hs lam _ c0 c1 e01 e11 e02)
    simp [vel1, velocity, antidiff1, sampled1, hd2, hopt.1, div3rd1]

/-- leading coefficient of the corrective velocity -/
theorem div2_01 (ig : Bool) (s : K) {p u g γ : Ser2 K} (hg : g 0 0 ≠ 0) (hp : ig = true ∨ p 0 0 ≠ 0) (c0 : ∀ m, γ m 0 = lam * u m 0) :
    sDiv2 ig s (sFirst1 s (s0 p) γ (s0 g)) γ (s0 g) 0 1 =
      (s * (lam * u 0 0) * p 1 0 - lam * u 0 0 * (lam * (u 0 0 * p 1 0 + u 1 0 * p 0 0)) / g 0 0) / (if ig then 2 else 2 * p 0 0) := by
  have hga : (s0 g).av 0 0 ≠ 0 := by rwa [av00, s0_0]
  have hgb : s0 g 0 0 ≠ 0 := by rwa [s0_0]
  have h1 : (Ser2.C (1 : K)) 0 0 ≠ 0 := by simp [Ser2.C]
  have hga1 : ((s0 g).av.mul (Ser2.C 1)) 0 0 ≠ 0 := by rw [mul00]; exact mul_ne_zero hga h1
  cases ig
  · have hp := hp.resolve_left (by simp)
    have hpa : (sFirst1 s (s0 p) γ (s0 g)).av 0 0 ≠ 0 := by rwa [av00, first00]
    have hpb : ((s0 g).av.mul (sFirst1 s (s0 p) γ (s0 g)).av) 0 0 ≠ 0 := by rw [mul00]; exact mul_ne_zero hga hpa
    simp only [sDiv2, sNfdiv1, sNdx1, w2, Bool.false_eq_true, if_false]
    sev
    simp only [Ser2.e_inv00 _ hpa, Ser2.e_inv00 _ hpb]
    sev
    simp only [sFirst1, sFlux1]
    sev
    simp only [s0_0, c0]
    field_simp
  · simp only [sDiv2, sNfdiv1, sNdx1, w2, if_true]
    sev
    simp only [Ser2.e_inv00 _ h1, Ser2.e_inv00 _ hga1]
    sev
    simp only [sFirst1, sFlux1]
    sev
    simp only [s0_0, c0]
    field_simp

/-- third order of the reference scheme -/
theorem third_ref1 (h : Advects1 psi U G p u g) (hu : lam * u 0 0 ≠ 0) (H : AccOpts o tiny) (hfct : isset o oFct = false) (hn : isset o oNug = true ∨ ∀ x, G x = 1)
    (hp : isset o oIga = true ∨ (p 0 0 ≠ 0 ∧ |lam * u 0 0| * p 1 0 ≠ lam * u 0 0 * (lam * (u 0 0 * p 1 0 + u 1 0 * p 0 0)) / g 0 0))
    (hopt : isset o oDiv3 = true) (hn1 : NdtSampled1 u lam ndt) (hn2 : NdttSampled1 u lam ndtt) :
    BigO 4 (fun h => step (sampled1 o si te tiny eps G ndt ndtt h) 2 (fun k => psi (k * h) 0) (gcSample1 si te U lam h) 0 - psi 0 (lam * h)) := by
  obtain ⟨s, hs, S⟩ := samp1 h si te hu
  have hgb : s0 g 0 0 ≠ 0 := by rw [s0_0]; exact h.hg0
  have hn' : ∀ h, isset o oNug = true ∨ ∀ k : Int, G (k * h) = 1 := fun h => hn.imp id fun e k => e _
  obtain ⟨e01, e11, e21, e02, e12, e03⟩ := h.solve
  obtain ⟨c0, c1, c2, c3⟩ := sCourant1_c si te u lam
  obtain ⟨ν1, g1, a0, a1⟩ := ndt_gr hn1
  obtain ⟨ν2, g2, b0, b1, b2⟩ := ndtt_gr hn2
  have hp0 : isset o oIga = true ∨ p 0 0 ≠ 0 := hp.imp id fun h => h.1
  have hF : Gr 0 (fun h k => first (sampled1 o si te tiny eps G ndt ndtt h) (fun k => psi (k * h) 0) (gcSample1 si te U lam h) k) (sFirst1 s (s0 p) (sCourant1 si te u lam) (s0 g)) :=
    first_gr _ o (fun _ => rfl) hn' S.f S.c S.ca S.g hgb
  have h0 : isset o oIga = true ∨ sFirst1 s (s0 p) (sCourant1 si te u lam) (s0 g) 0 0 ≠ 0 := by rw [first00]; exact hp0
  have hD := div2_gr H hn' hF h0 S.c S.ca S.g hgb
  have hsa : s * (lam * u 0 0) = |lam * u 0 0| := by
    rcases hs with ⟨rfl, h⟩ | ⟨rfl, h⟩
    · rw [abs_of_pos h, one_mul]
    · rw [abs_of_neg h]; ring
  obtain ⟨z, hz⟩ : ∃ z : K, isset o oIga = true ∨ (z = 1 ∧ 0 < sDiv2 (isset o oIga) s (sFirst1 s (s0 p) (sCourant1 si te u lam) (s0 g)) (sCourant1 si te u lam) (s0 g) 0 1) ∨
      (z = -1 ∧ sDiv2 (isset o oIga) s (sFirst1 s (s0 p) (sCourant1 si te u lam) (s0 g)) (sCourant1 si te u lam) (s0 g) 0 1 < 0) := by
    rcases hp with hi | ⟨hp0', hp1⟩
    · exact ⟨1, Or.inl hi⟩
    · have : sDiv2 (isset o oIga) s (sFirst1 s (s0 p) (sCourant1 si te u lam) (s0 g)) (sCourant1 si te u lam) (s0 g) 0 1 ≠ 0 := by
        rw [div2_01 _ s h.hg0 hp0 c0, hsa]
        refine div_ne_zero (sub_ne_zero.mpr hp1) ?_
        split_ifs
        · exact two_ne_zero
        · exact mul_ne_zero two_ne_zero hp0'
      rcases lt_or_gt_of_ne this with h | h
      · exact ⟨-1, Or.inr (Or.inr ⟨rfl, h⟩)⟩
      · exact ⟨1, Or.inr (Or.inl ⟨rfl, h⟩)⟩
  have d0 := div2_low (isset o oIga) s (sFirst1 s (s0 p) (sCourant1 si te u lam) (s0 g)) (sCourant1 si te u lam) (s0 g)
  have t0 := div3_low (isset o oIga) (siFac si) (teFac te) s z (sFirst1 s (s0 p) (sCourant1 si te u lam) (s0 g)) (sCourant1 si te u lam) ν1 ν2 (s0 g) a0 b0 b1
  have hV : Gr (1 / 2) (fun h k => vel1 o si te tiny eps psi U G ndt ndtt lam h k)
      (sV3 (isset o oIga) (siFac si) (teFac te) s z (sFirst1 s (s0 p) (sCourant1 si te u lam) (s0 g)) (sCourant1 si te u lam) ν1 ν2 (s0 g)) := by
    refine (hD.add (div3_gr H hopt hn' si te hF h0 S.c S.ca S.g hgb g1 g2 ?_)).congr' fun h k => ?_
    · exact hz.imp id fun hz => hD.abs_lead (d0 0 (by omega)) (d0 1 (by omega)) hz
    · simp [vel1, velocity, antidiff1, sampled1, hopt]
  have v0 : ∀ m, m ≤ 2 → sV3 (isset o oIga) (siFac si) (teFac te) s z (sFirst1 s (s0 p) (sCourant1 si te u lam) (s0 g)) (sCourant1 si te u lam) ν1 ν2 (s0 g) m 0 = 0 := by
    intro m hm
    show sDiv2 _ _ _ _ _ m 0 + sDiv3 _ _ _ _ _ _ _ _ _ _ m 0 = 0
    rw [d0 m (by omega), (t0 m hm).1, add_zero]
  refine third_of_velocity (z := z) h hu H hfct hn S hV (v0 0 (by omega)) (v0 1 (by omega)) (hz.imp id fun hz => hV.abs_lead (v0 0 (by omega)) (v0 1 (by omega)) ?_) ?_ ?_
  · have : sV3 (isset o oIga) (siFac si) (teFac te) s z (sFirst1 s (s0 p) (sCourant1 si te u lam) (s0 g)) (sCourant1 si te u lam) ν1 ν2 (s0 g) 0 1
        = sDiv2 (isset o oIga) s (sFirst1 s (s0 p) (sCourant1 si te u lam) (s0 g)) (sCourant1 si te u lam) (s0 g) 0 1 := by
      show sDiv2 _ _ _ _ _ 0 1 + sDiv3 _ _ _ _ _ _ _ _ _ _ 0 1 = _
      rw [(t0 0 (by omega)).2, add_zero]
    rw [this]; exact hz
  · rw [third_step02 _ _ _ _ _ _ _ _ _ _ a0 b0 b1]
    exact second_div2 _ _ _ _ _ h.hg0 hp0 S.hs lam _ c0 c1 e01 e11 e02
  · exact third_core _ h.hg0 hp0 _ _ lam s z S.hs ν1 ν2 e01 e11 e21 e02 e12 e03 c0 c1 c2 c3 a0 a1 b0 b1 b2
end
end Mpdata
