import Verif.Lemmas.AccGrid
import Verif.Spec.SchemeN
/-! # From expansions to the accuracy of one step, any dimension -/
set_option linter.unusedSectionVars false
set_option linter.unusedVariables false
set_option linter.unusedSimpArgs false
namespace Mpdata
variable {n : Nat} {K R : Type} [Field K] [LinearOrder K] [IsStrictOrderedRing K] [CommRing R] [Algebra K R]

theorem Gn.one {A : DAlg n K R} {y : Fin n → K} : Gn A y (fun _ _ => 1) 1 0 0 := ⟨0, fun x => by
  have := DAlg.jd_C (A := A) (E := A.dir (y + px x)) (1 : K); rw [map_one] at this; exact (Jet.const 1).rfl' this.symm⟩

/-- a small velocity times the normalising field -/
theorem BN.flux {A : DAlg n K R} {y : Fin n → K} {e0 e1 e2 ρ b c : R} {f g : K → Idx n → K} (hf : BN A y e1 ρ f b c) (hg : Gn A y g e0 e1 e2) (h : e0 * ρ = 1) :
    Gn A y (fun h x => f h x * g h x) 0 b c := by
  refine (Gn.mul hf hg).eq (by ring) ?_ ?_
  · linear_combination (-b) * h
  · linear_combination (-c + b * e1 * ρ) * h

/-- sampled solution, Courant numbers and G-factor, with their expansions -/
structure FlowN (A : DAlg n K R) (o : OptsT) (lam : K) (Q : K → SpecN.Par n K) (psi0 : K → Sca n K) (GC : K → Vec n K) (p g ι : R) (u a2 : Fin n → R) (s : Fin n → K) : Prop where
  ho : ∀ h, (Q h).o = o
  hF : ∀ h, FGood o (Q h).F
  hn : ∀ h, isset o oNug = true ∨ ∀ x, (Q h).st.G x = 1
  hfct : isset o oFct = false
  hp : GN A 0 psi0 (HX.C p)
  hU : ∀ d, Gn A (0 + (1 / 2 : K) • ux d) (fun h => GC h d) (lam • u d) ((lam ^ 2 / 2) • A.T (u d)) (a2 d)
  hs : ∀ d, (s d = 1 ∧ 0 < A.ε (lam • u d)) ∨ (s d = -1 ∧ A.ε (lam • u d) < 0)
  hG : GN A 0 (fun h => (Q h).st.G) (HX.C g)
  hg : g * ι = 1
  hgt : A.T g = 0
  pde : A.T p = -A.dv ι (fun e => u e * p)

section
variable {A : DAlg n K R} {o : OptsT} {lam : K} {Q : K → SpecN.Par n K} {psi0 : K → Sca n K} {GC : K → Vec n K} {p g ι : R} {u a2 : Fin n → R} {s : Fin n → K}

/-- coefficients of the upwind flux -/
def fluxB (A : DAlg n K R) (lam : K) (p : R) (u : Fin n → R) (s : Fin n → K) (d : Fin n) : R := ((lam ^ 2 / 2) • A.T (u d)) * p - (1 / 2 : K) • ((s d • lam • u d) * A.dir (ux d) p)
def fluxC (A : DAlg n K R) (lam : K) (p : R) (u a2 : Fin n → R) (s : Fin n → K) (d : Fin n) : R :=
  a2 d * p + (lam • u d) * ((1 / 8 : K) • A.dir (ux d) (A.dir (ux d) p)) - (1 / 2 : K) • ((s d • (lam ^ 2 / 2) • A.T (u d)) * A.dir (ux d) p)

theorem donorF_half (o : OptsT) (a b c : K) : donorF o a b c = c * ((b + a) / 2) - 1 / 2 * (|c| * (b - a)) := by
  simp only [donorF, pospart_half, negpart_half]; ring

namespace FlowN
variable (S : FlowN A o lam Q psi0 GC p g ι u a2 s)
include S
theorem flux0 (d : Fin n) : Gn A (0 + (1 / 2 : K) • ux d) (fun h => makeFluxN o (psi0 h) (GC h) d) ((lam • u d) * p) (fluxB A lam p u s d) (fluxC A lam p u a2 s d) := by
  have hp : Gn A 0 psi0 p 0 0 := Gn.of S.hp
  refine (((S.hU d).mul (hp.avN d)).sub ((((S.hU d).abs_sgn (S.hs d)).mul (hp.difN d)).smul (1 / 2))).congr' (fun h x => donorF_half _ _ _ _) |>.eq (by simp) ?_ ?_
  · simp only [fluxB, mul_zero, zero_add, add_zero]
  · simp only [fluxC, map_zero, mul_zero, zero_add, add_zero]; ring

theorem gfac (h : K) (x : Idx n) : gFacN o (Q h).st.G x = (Q h).st.G x := by
  unfold gFacN
  rcases S.hn h with e | e
  · rw [if_pos e]
  · rw [e x]; split_ifs <;> rfl

theorem donor (h : K) (f : Sca n K) (flx : Vec n K) (x : Idx n) : (Q h).F.donor f flx (Q h).st.G x = f x - (∑ d, (flx d x - flx d (stepIdx x d (-1)))) / (Q h).st.G x := by
  rw [(S.hF h).donor_eq, S.gfac, sub_eq_add_neg, ← neg_div, ← Finset.sum_neg_distrib]
  simp only [neg_sub]

theorem Tι : A.T ι = 0 := by
  have h := congrArg A.T S.hg
  rw [Derivation.leibniz, S.hgt, smul_zero, add_zero, Derivation.map_one_eq_zero, smul_eq_mul] at h
  calc A.T ι = (g * ι) * A.T ι := by rw [S.hg, one_mul]
    _ = ι * (g * A.T ι) := by ring
    _ = 0 := by rw [h, mul_zero]

theorem pde2 : A.T (A.T p) = -A.dv ι (fun e => A.T (u e * p)) := by rw [S.pde, map_neg, ← A.dv_T S.Tι]
theorem pde3 : A.T (A.T (A.T p)) = -A.dv ι (fun e => A.T (A.T (u e * p))) := by rw [S.pde2, map_neg, ← A.dv_T S.Tι]

/-- one conservative update -/
theorem update {f0 f1 f2 : Fin n → R} {flx : K → Vec n K} (hf : ∀ d, Gn A (0 + (1 / 2 : K) • ux d) (fun h => flx h d) (f0 d) (f1 d) (f2 d)) :
    GN A 0 (fun h x => psi0 h x - (∑ d, (flx h d x - flx h d (stepIdx x d (-1)))) / (Q h).st.G x)
      ⟨p, -A.dv ι f0, -A.dv ι f1, -A.dv ι (fun d => f2 d + (1 / 24 : K) • A.dir (ux d) (A.dir (ux d) (f0 d)))⟩ := by
  choose f3 hf using hf
  refine (S.hp.sub ((GN.sum Finset.univ fun d => (hf d).difF d).div S.hG S.hg)).eq ?_
  ext
  · simp
  · simp [DAlg.dv, mul_comm]
  · simp [DAlg.dv, mul_comm]
  · simp [DAlg.dv, mul_comm]

theorem first : ∃ q2, Gn A 0 (fun h => SpecN.first (Q h) (psi0 h) (GC h)) p (lam • A.T p) q2 := by
  refine ⟨_, (Gn.of (S.update S.flux0)).congr' (fun h x => ?_) |>.eq rfl ?_ rfl⟩
  · rw [SpecN.first, S.donor, S.ho]
  · simp only [S.pde, smul_mul_assoc, A.dv_smul, smul_neg]

/-- the result of a step whose corrective fluxes are known -/
theorem corrected {wb wc : Fin n → R} {W : K → Vec n K} (hW : ∀ d, Gn A (0 + (1 / 2 : K) • ux d) (fun h => W h d) 0 (wb d) (wc d))
    (hb : ∀ d, fluxB A lam p u s d + wb d = (lam ^ 2 / 2) • A.T (u d * p)) :
    ∃ c3, Jet (fun h => SpecN.first (Q h) (psi0 h) (GC h) 0 - (∑ d, (W h d 0 - W h d (stepIdx 0 d (-1)))) / (Q h).st.G 0)
        ⟨A.ε p, lam * A.ε (A.T p), lam ^ 2 / 2 * A.ε (A.T (A.T p)), c3⟩ ∧
      ((∀ d, fluxC A lam p u a2 s d + wc d + (1 / 24 : K) • A.dir (ux d) (A.dir (ux d) ((lam • u d) * p)) = (lam ^ 3 / 6) • A.T (A.T (u d * p))) →
        c3 = lam ^ 3 / 6 * A.ε (A.T (A.T (A.T p)))) := by
  have h := S.update fun d => (S.flux0 d).add (hW d)
  refine ⟨-A.ε (A.dv ι (fun d => fluxC A lam p u a2 s d + wc d + (1 / 24 : K) • A.dir (ux d) (A.dir (ux d) ((lam • u d) * p)))), ((h 0).congr' fun h => ?_).rfl' ?_, fun hc => ?_⟩
  · simp only [SpecN.first, S.donor, S.ho, sub_sub, ← add_div, ← Finset.sum_add_distrib]
    congr 3; exact funext fun d => by ring
  · have e0 : A.dir (0 + px (0 : Idx n)) = 0 := by rw [px_zero, add_zero, show (0 : Fin n → K) = (0 : K) • 0 by simp, A.dir_smul, zero_smul]
    simp only [add_zero, hb, A.dv_smul, smul_mul_assoc, e0]
    have e1 : A.ε (-(lam • A.dv ι fun e => u e * p)) = lam * A.ε (A.T p) := by rw [S.pde]; simp
    have e2 : A.ε (-((lam ^ 2 / 2) • A.dv ι fun e => A.T (u e * p))) = lam ^ 2 / 2 * A.ε (A.T (A.T p)) := by rw [S.pde2]; simp
    ext
    · simp [DAlg.jd]
    · simpa [DAlg.jd] using e1
    · simpa [DAlg.jd] using e2
    · simp [DAlg.jd]
  · simp only [hc, A.dv_smul]; rw [S.pde3]; simp

theorem inN {tiny : K} {e0 e1 ρ : R} (H : AccOpts o tiny) (N : Nrm o p (lam • A.T p) e0 e1 ρ) :
    ∃ q2, InN A o tiny (fun h => (Q h).st) (fun h => SpecN.first (Q h) (psi0 h) (GC h)) psi0 GC p (lam • A.T p) q2 (fun d => lam • u d) (fun d => (lam ^ 2 / 2) • A.T (u d)) a2 g ι e0 e1 ρ s :=
  let ⟨q2, h⟩ := S.first
  ⟨q2, H, N, S.hn, h, Gn.of S.hp, S.hU, S.hs, Gn.of S.hG, S.hg⟩

/-- corrective velocity of the second pass -/
theorem step2 (h : K) (V : Vec n K) (f : Sca n K) (hf : f = SpecN.first (Q h) (psi0 h) (GC h)) (hV : V = fun d => (Q h).F.vel d (Q h).st f (psi0 h) (GC h)) :
    SpecN.step (Q h) 2 (psi0 h) (GC h) 0 = f 0 - (∑ d, ((if isset o oIga then V d 0 else makeFluxN o f V d 0)
      - (if isset o oIga then V d (stepIdx 0 d (-1)) else makeFluxN o f V d (stepIdx 0 d (-1))))) / (Q h).st.G 0 := by
  subst hf hV
  simp only [SpecN.step, SpecN.passes, SpecN.corrective, SpecN.velocity, S.ho, S.hfct, S.donor, show (2 : Nat) - 1 = 1 from rfl, Bool.false_eq_true, if_false]
  cases isset o oIga <;> rfl

/-- the corrective velocity removes the error of the second order -/
theorem coreB (d : Fin n) : fluxB A lam p u s d + velB A p (fun d => lam • u d) ι s d = (lam ^ 2 / 2) • A.T (u d * p) := by
  have e : A.dv ι (fun e => lam • u e * p) = -(lam • A.T p) := by simp only [S.pde, smul_mul_assoc, A.dv_smul, smul_neg, neg_neg]
  simp only [fluxB, velB, e, Derivation.leibniz, smul_eq_mul]
  algebra

/-- the corrective velocity removes the error of the third order -/
theorem coreC (si te : K) (ig : Bool) (ρ : R) (z : Fin n → K) (d : Fin n)
    (ha2 : a2 d = (lam ^ 3 * (1 / 6 - te / 24)) • A.T (A.T (u d)) + (lam * (si / 24 - 1 / 24)) • A.dir (ux d) (A.dir (ux d) (u d))) :
    fluxC A lam p u a2 s d + (velC A ig si te p (lam • A.T p) (fun d => lam • u d) (fun d => (lam ^ 2 / 2) • A.T (u d)) (fun d => lam ^ 2 • A.T (u d)) (fun d => lam ^ 3 • A.T (A.T (u d))) ι ρ s z d
        - (if ig = true then 0 else (1 / 2 : K) • ((z d • velB A p (fun d => lam • u d) ι s d) * A.dir (ux d) p * ρ)))
      + (1 / 24 : K) • A.dir (ux d) (A.dir (ux d) ((lam • u d) * p)) = (lam ^ 3 / 6) • A.T (A.T (u d * p)) := by
  obtain ⟨M, hM⟩ : ∃ M, M = A.dv ι (fun e => A.T (u e) * p) := ⟨_, rfl⟩
  obtain ⟨w, hw⟩ : ∃ w, w = A.dv ι (fun e => u e * A.T p) := ⟨_, rfl⟩
  have e1 : A.dv ι (fun e => (lam • u e) * (lam • A.T p) + ((lam ^ 2 / 2) • A.T (u e)) * p) = lam ^ 2 • w + (lam ^ 2 / 2) • M := by
    rw [hM, hw, ← A.dv_smul, ← A.dv_smul, ← A.dv_add]
    exact congrArg (A.dv ι) (funext fun e => by algebra)
  have e2 : A.dv ι (fun e => (lam • u e) * (lam • A.T p)) = lam ^ 2 • w := by
    rw [hw, ← A.dv_smul]; exact congrArg (A.dv ι) (funext fun e => by algebra)
  have e3 : A.dv ι (fun e => (lam ^ 2 • A.T (u e)) * p) = lam ^ 2 • M := by
    rw [hM, ← A.dv_smul]; exact congrArg (A.dv ι) (funext fun e => by algebra)
  have e4 : A.T (A.T p) = -(M + w) := by
    rw [S.pde2, hM, hw, ← A.dv_add]
    exact congrArg (fun x => -A.dv ι x) (funext fun e => by simp only [Derivation.leibniz, smul_eq_mul]; ring)
  rw [velC, fluxC, ha2, e1, e2, e3, add_sub_assoc']
  have l : ∀ (D : Derivation K R R) (a b : R), D (a * b) = a * D b + b * D a := fun D a b => by simp [Derivation.leibniz]
  simp only [l, map_add, Derivation.map_smul, e4]
  generalize (if ig = true then (0 : R) else _) = X
  algebra

/-- second order, given the expansion of the corrective velocity -/
theorem second {tiny : K} {e0 e1 ρ : R} {tgt : K → K} (N : Nrm o p (lam • A.T p) e0 e1 ρ)
    (hV : ∀ d, ∃ c, BN A (0 + (1 / 2 : K) • ux d) e1 ρ (fun h => (Q h).F.vel d (Q h).st (SpecN.first (Q h) (psi0 h) (GC h)) (psi0 h) (GC h)) (velB A p (fun d => lam • u d) ι s d) c)
    (hT : Jet tgt ⟨A.ε p, lam * A.ε (A.T p), lam ^ 2 / 2 * A.ε (A.T (A.T p)), lam ^ 3 / 6 * A.ε (A.T (A.T (A.T p)))⟩) :
    BigO 3 (fun h => SpecN.step (Q h) 2 (psi0 h) (GC h) 0 - tgt h) := by
  obtain ⟨q2, hF⟩ := S.first
  choose vc hV using hV
  obtain ⟨f, hf⟩ : ∃ f : K → Sca n K, f = fun h => SpecN.first (Q h) (psi0 h) (GC h) := ⟨_, rfl⟩
  obtain ⟨V, hv⟩ : ∃ V : K → Vec n K, V = fun h d => (Q h).F.vel d (Q h).st (f h) (psi0 h) (GC h) := ⟨_, rfl⟩
  have hV' : ∀ d, BN A (0 + (1 / 2 : K) • ux d) e1 ρ (fun h => V h d) (velB A p (fun d => lam • u d) ι s d) (vc d) := fun d => by rw [hv, hf]; exact hV d
  have hF' : Gn A 0 f p (lam • A.T p) q2 := by rw [hf]; exact hF
  have hW : ∀ d, Gn A (0 + (1 / 2 : K) • ux d) (fun h x => if isset o oIga = true then V h d x else V h d x * ((f h (stepIdx x d 1) + f h x) / 2)) 0 (velB A p (fun d => lam • u d) ι s d) (vc d) := by
    intro d
    rcases N.cases with ⟨hi, h0, h1⟩ | ⟨hi, h0, h1⟩
    · exact ((hV' d).flux (e0 := e0) (e2 := 0) (by rw [h0, h1]; exact Gn.one) N.one).congr' fun h x => by simp [hi]
    · exact ((hV' d).flux (by rw [h1]; exact hF'.avN d) (by rw [← h0]; exact N.one)).congr' fun h x => by simp [hi]
  obtain ⟨c3, J, -⟩ := S.corrected hW S.coreB
  have main := (J.sub hT).order3
  have hmag : ∀ d, BigO 3 (fun h => |V h d 0| * (f h (stepIdx 0 d 1) - f h 0) - |V h d (stepIdx 0 d (-1))| * (f h 0 - f h (stepIdx 0 d (-1)))) := by
    intro d
    obtain ⟨v3, hV3⟩ := hV' d
    obtain ⟨f3, hF3⟩ := hF'
    have ej : ∀ (x : Idx n) (F : HX R), (A.jd (A.dir (0 + (1 / 2 : K) • ux d + px x)) F).a = A.ε F.a := fun _ _ => rfl
    have d0 : BigO 1 (fun h => f h (stepIdx 0 d 1) - f h 0) := ((hF3.difN d) 0).bigO1 (by simp [DAlg.jd])
    have d1 : BigO 2 (fun h => (f h (stepIdx 0 d 1) - f h 0) - (f h 0 - f h (stepIdx 0 d (-1)))) := by
      have := ((hF3.difN d).difF d) 0
      refine BigO.congr (this.bigO2 (by simp [DAlg.jd]) (by simp [DAlg.jd])) one_pos fun h _ _ => ?_
      beta_reduce
      rw [show stepIdx (stepIdx (0 : Idx n) d (-1)) d 1 = 0 by funext e; by_cases he : e = d <;> simp [stepIdx, he]]
    have v0 : BigO 1 (fun h => V h d (stepIdx 0 d (-1))) := (hV3 (stepIdx 0 d (-1))).bigO1 (by simp [DAlg.jd])
    have v1 : BigO 2 (fun h => V h d 0 - V h d (stepIdx 0 d (-1))) := ((hV3.difF d) 0).bigO2 (by simp [DAlg.jd]) (by simp [DAlg.jd])
    have v2 : BigO 2 (fun h => |V h d 0| - |V h d (stepIdx 0 d (-1))|) := by
      obtain ⟨M, r, hr, hM⟩ := v1
      exact ⟨M, r, hr, fun h h0 h1 => (abs_abs_sub_abs_le _ _).trans (hM h h0 h1)⟩
    have v3 : BigO 1 (fun h => |V h d (stepIdx 0 d (-1))|) := by
      obtain ⟨M, r, hr, hM⟩ := v0
      exact ⟨M, r, hr, fun h h0 h1 => by rw [abs_abs]; exact hM h h0 h1⟩
    refine ((v2.mul_bdd d0).add (v3.mul_bdd d1)).congr one_pos fun h _ _ => by ring
  have hsum : ∀ t : Finset (Fin n), BigO 3 (fun h => ∑ d ∈ t, (|V h d 0| * (f h (stepIdx 0 d 1) - f h 0) - |V h d (stepIdx 0 d (-1))| * (f h 0 - f h (stepIdx 0 d (-1))))) := by
    classical
    intro t
    induction t using Finset.induction_on with
    | empty => exact ⟨0, 1, one_pos, fun h _ _ => by simp⟩
    | insert a t ha ih => exact ((hmag a).add ih).congr one_pos fun h _ _ => Finset.sum_insert ha
  have hG1 : BigO 0 (fun h => if isset o oIga = true then 0 else (2 * (Q h).st.G 0)⁻¹) := by
    cases isset o oIga
    · have : Jet (fun h => (2 * (Q h).st.G 0)⁻¹) (J4.C 2 * A.jd (A.dir (0 + px (0 : Idx n))) (HX.C g))⁻¹ := by
        refine ((Jet.const 2).mul (S.hG 0)).inv ?_
        have : A.ε g ≠ 0 := fun e => by
          have := congrArg A.ε S.hg
          rw [map_mul, e, zero_mul, map_one] at this
          exact zero_ne_one this
        simpa [DAlg.jd] using this
      simpa using this.bdd
    · simpa using (Jet.const (0 : K)).bdd
  refine (main.add ((hsum Finset.univ).mul_bdd hG1)).congr one_pos fun h _ _ => ?_
  rw [S.step2 h (V h) (f h) (by rw [hf]) (by rw [hv])]
  have hfz : SpecN.first (Q h) (psi0 h) (GC h) 0 = f h 0 := by rw [hf]
  have hb : ∀ d, stepIdx (stepIdx (0 : Idx n) d (-1)) d 1 = 0 := fun d => by funext e; by_cases he : e = d <;> simp [stepIdx, he]
  rw [hfz]
  simp only [makeFluxN, donorF_half, hb, J4.sub_a, J4.sub_b, J4.sub_c, sub_self, zero_mul, add_zero, sub_zero]
  cases isset o oIga
  · simp only [Bool.false_eq_true, if_false]
    have hs : (∑ x, (V h x 0 * ((f h (stepIdx 0 x 1) + f h 0) / 2) - 1 / 2 * (|V h x 0| * (f h (stepIdx 0 x 1) - f h 0)) -
        (V h x (stepIdx 0 x (-1)) * ((f h 0 + f h (stepIdx 0 x (-1))) / 2) - 1 / 2 * (|V h x (stepIdx 0 x (-1))| * (f h 0 - f h (stepIdx 0 x (-1))))))) =
        (∑ x, (V h x 0 * ((f h (stepIdx 0 x 1) + f h 0) / 2) - V h x (stepIdx 0 x (-1)) * ((f h 0 + f h (stepIdx 0 x (-1))) / 2)))
        - 1 / 2 * ∑ x, (|V h x 0| * (f h (stepIdx 0 x 1) - f h 0) - |V h x (stepIdx 0 x (-1))| * (f h 0 - f h (stepIdx 0 x (-1)))) := by
      rw [Finset.mul_sum, ← Finset.sum_sub_distrib]; exact Finset.sum_congr rfl fun x _ => by ring
    rw [hs, mul_inv]; ring
  · simp only [if_true, mul_zero, add_zero]

/-- third order, given the expansion of the corrective velocity -/
theorem third {e0 e1 ρ : R} {z : Fin n → K} {si te : K} {tgt : K → K} (N : Nrm o p (lam • A.T p) e0 e1 ρ)
    (ha2 : ∀ d, a2 d = (lam ^ 3 * (1 / 6 - te / 24)) • A.T (A.T (u d)) + (lam * (si / 24 - 1 / 24)) • A.dir (ux d) (A.dir (ux d) (u d)))
    (hz : isset o oIga = true ∨ ∀ d, (z d = 1 ∧ 0 < A.ε (velB A p (fun d => lam • u d) ι s d * ρ)) ∨ (z d = -1 ∧ A.ε (velB A p (fun d => lam • u d) ι s d * ρ) < 0))
    (hV : ∀ d, BN A (0 + (1 / 2 : K) • ux d) e1 ρ (fun h => (Q h).F.vel d (Q h).st (SpecN.first (Q h) (psi0 h) (GC h)) (psi0 h) (GC h)) (velB A p (fun d => lam • u d) ι s d)
      (velC A (isset o oIga) si te p (lam • A.T p) (fun d => lam • u d) (fun d => (lam ^ 2 / 2) • A.T (u d)) (fun d => lam ^ 2 • A.T (u d)) (fun d => lam ^ 3 • A.T (A.T (u d))) ι ρ s z d))
    (hT : Jet tgt ⟨A.ε p, lam * A.ε (A.T p), lam ^ 2 / 2 * A.ε (A.T (A.T p)), lam ^ 3 / 6 * A.ε (A.T (A.T (A.T p)))⟩) :
    BigO 4 (fun h => SpecN.step (Q h) 2 (psi0 h) (GC h) 0 - tgt h) := by
  obtain ⟨q2, hF⟩ := S.first
  obtain ⟨f, hf⟩ : ∃ f : K → Sca n K, f = fun h => SpecN.first (Q h) (psi0 h) (GC h) := ⟨_, rfl⟩
  obtain ⟨V, hv⟩ : ∃ V : K → Vec n K, V = fun h d => (Q h).F.vel d (Q h).st (f h) (psi0 h) (GC h) := ⟨_, rfl⟩
  have hF' : Gn A 0 f p (lam • A.T p) q2 := by rw [hf]; exact hF
  have hW : ∀ d, Gn A (0 + (1 / 2 : K) • ux d) (fun h x => if isset o oIga = true then V h d x else makeFluxN o (f h) (V h) d x) 0 (velB A p (fun d => lam • u d) ι s d)
      (velC A (isset o oIga) si te p (lam • A.T p) (fun d => lam • u d) (fun d => (lam ^ 2 / 2) • A.T (u d)) (fun d => lam ^ 2 • A.T (u d)) (fun d => lam ^ 3 • A.T (A.T (u d))) ι ρ s z d
        - (if isset o oIga = true then 0 else (1 / 2 : K) • ((z d • velB A p (fun d => lam • u d) ι s d) * A.dir (ux d) p * ρ))) := by
    intro d
    have hV' := hV d
    rw [show (fun h => (Q h).F.vel d (Q h).st (SpecN.first (Q h) (psi0 h) (GC h)) (psi0 h) (GC h)) = fun h => V h d by rw [hv, hf]] at hV'
    rcases N.cases with ⟨hi, h0, h1⟩ | ⟨hi, h0, h1⟩
    · exact ((hV'.flux (e0 := e0) (e2 := 0) (by rw [h0, h1]; exact Gn.one) N.one).congr' fun h x => by simp [hi]).eq rfl rfl (by simp [hi])
    · have hz := hz.resolve_left (by simp [hi]) d
      have habs := Gn.abs_lead hV' hz
      refine (((hV'.flux (by rw [h1]; exact hF'.avN d) (by rw [← h0]; exact N.one)).sub ((habs.mul (hF'.difN d)).smul (1 / 2))).congr' fun h x => by simp [hi, makeFluxN, donorF_half]).eq ?_ ?_ ?_
      · simp
      · simp
      · simp only [hi, Bool.false_eq_true, if_false]; algebra
  obtain ⟨c3, J, hc⟩ := S.corrected hW S.coreB
  have hc := hc fun d => S.coreC si te (isset o oIga) ρ z d (ha2 d)
  subst hc
  have main := (J.sub hT).order4
  refine main.congr one_pos fun h _ _ => ?_
  rw [S.step2 h (V h) (f h) (by rw [hf]) (by rw [hv])]
  have hfz : SpecN.first (Q h) (psi0 h) (GC h) 0 = f h 0 := by rw [hf]
  rw [hfz]
  simp only [J4.sub_a, J4.sub_b, J4.sub_c, J4.sub_d, sub_self, zero_mul, add_zero, sub_zero]
end FlowN
end
end Mpdata
