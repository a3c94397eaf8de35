import Verif.Lemmas.AccSampN
/-! # One step on sampled smooth fields: order of accuracy, and locality of a step -/
set_option linter.unusedSectionVars false
set_option linter.unusedVariables false
set_option linter.unusedSimpArgs false
namespace Mpdata
variable {n : Nat} {K : Type} [Field K] [LinearOrder K]
open TS

/-! ### translation by any vector -/
def trN (v : Idx n) (a : Sca n K) : Sca n K := fun x => a (v + x)
def SpecN.Par.tr (p : SpecN.Par n K) (v : Idx n) : SpecN.Par n K := ⟨p.o, p.eps, p.F, ⟨trN v p.st.G, fun d => trN v (p.st.ndt d), fun d => trN v (p.st.ndtt d)⟩⟩
theorem stepIdx_eq_add (x : Idx n) (d : Fin n) (k : Int) : stepIdx x d k = Pi.single d k + x := by
  funext e
  by_cases h : e = d
  · subst h; simp [stepIdx, add_comm]
  · simp [stepIdx, h]
theorem stepN_sh {p : SpecN.Par n K} (hF : FGood p.o p.F) (j : Nat) (psi : Sca n K) (GC : Vec n K) (x : Idx n) (e : Fin n) (k : Int) :
    SpecN.step p j psi GC (stepIdx x e k) = SpecN.step (p.sh e k) j (shN e k psi) (fun d => shN e k (GC d)) x :=
  (congrFun (passesN_sh hF psi GC e k (j - 1)).1 x).symm
theorem stepN_tr (j : Nat) (v : Idx n) {p : SpecN.Par n K} (hF : FGood p.o p.F) (psi : Sca n K) (GC : Vec n K) (x : Idx n) :
    SpecN.step p j psi GC (v + x) = SpecN.step (p.tr v) j (trN v psi) (fun d => trN v (GC d)) x := by
  classical
  have key : ∀ (s : Finset (Fin n)) (p : SpecN.Par n K) (hF : FGood p.o p.F) (psi : Sca n K) (GC : Vec n K),
      SpecN.step p j psi GC ((∑ d ∈ s, Pi.single d (v d)) + x) = SpecN.step (p.tr (∑ d ∈ s, Pi.single d (v d))) j (trN (∑ d ∈ s, Pi.single d (v d)) psi) (fun d => trN (∑ d ∈ s, Pi.single d (v d)) (GC d)) x := by
    intro s
    induction s using Finset.induction_on with
    | empty =>
      intro p hF psi GC
      have e : ∀ b : Sca n K, trN 0 b = b := fun b => by funext y; simp [trN]
      simp only [Finset.sum_empty, SpecN.Par.tr, e, zero_add]
    | insert a s ha ih =>
      intro p hF psi GC
      rw [Finset.sum_insert ha, add_assoc, ← stepIdx_eq_add, stepN_sh hF, ih (p.sh a (v a)) hF]
      have e : ∀ b : Sca n K, trN (∑ d ∈ s, Pi.single d (v d)) (shN a (v a) b) = trN (Pi.single a (v a) + ∑ d ∈ s, Pi.single d (v d)) b := by
        intro b; funext y; simp only [trN, shN, stepIdx_eq_add, add_assoc]
      simp only [e, SpecN.Par.tr, SpecN.Par.sh, Stat.sh]
  have := key Finset.univ p hF psi GC
  rwa [Finset.univ_sum_single] at this

/-! ### locality -/
variable [IsStrictOrderedRing K]
theorem fluxN_congr (o : OptsT) {f f' : Sca n K} {A A' : Vec n K} {d : Fin n} {x : Idx n} (h0 : f x = f' x) (h1 : f (stepIdx x d 1) = f' (stepIdx x d 1)) (h2 : A d x = A' d x) :
    makeFluxN o f A d x = makeFluxN o f' A' d x := by unfold makeFluxN; rw [h0, h1, h2]

/-- a two-pass step reads three points to each side -/
theorem stepN_local {p p' : SpecN.Par n K} (hF : FGood p.o p.F) (ho : p'.o = p.o) (hFe : p'.F = p.F) (hfct : isset p.o oFct = false) {psi psi' : Sca n K} {GC GC' : Vec n K}
    (hpsi : ∀ k, Window k → psi k = psi' k) (hGC : ∀ d k, Window k → k d ≤ 2 → GC d k = GC' d k) (hG : ∀ k, Window k → p.st.G k = p'.st.G k)
    (hn1 : hasNdt p.o = true → ∀ d k, Window k → k d ≤ 2 → p.st.ndt d k = p'.st.ndt d k ∧ p.st.ndtt d k = p'.st.ndtt d k) :
    SpecN.step p 2 psi GC 0 = SpecN.step p' 2 psi' GC' 0 := by
  have f1 : ∀ x : Idx n, (∀ e, -2 ≤ x e ∧ x e ≤ 2) → SpecN.first p psi GC x = SpecN.first p' psi' GC' x := by
    intro x hx
    have w : ∀ d k, -1 ≤ k → k ≤ 1 → Window (stepIdx x d k) := by
      intro d k k1 k2 e
      have := hx e
      by_cases he : e = d
      · subst he; rw [stepIdx_self]; omega
      · rw [stepIdx_other _ he]; omega
    have w0 : Window x := fun e => by have := hx e; omega
    unfold SpecN.first
    rw [ho, hFe]
    refine hF.donor _ _ _ _ _ _ x (hpsi x w0) (hG x w0) (fun d => ?_) (fun d => ?_)
    · exact fluxN_congr _ (hpsi x w0) (hpsi _ (w d 1 (by omega) (by omega))) (hGC d x w0 (hx d).2)
    · refine fluxN_congr _ (hpsi _ (w d (-1) (by omega) (by omega))) ?_ (hGC d _ (w d (-1) (by omega) (by omega)) ?_)
      · have e : stepIdx (stepIdx x d (-1)) d 1 = x := by funext e; by_cases he : e = d <;> simp [stepIdx, he]
        rw [e]; exact hpsi x w0
      · rw [stepIdx_self]; have := hx d; omega
  have v1 : ∀ (d : Fin n) (k : Int), -1 ≤ k → k ≤ 0 → p.F.vel d p.st (SpecN.first p psi GC) psi GC (stepIdx 0 d k) = p.F.vel d p'.st (SpecN.first p' psi' GC') psi' GC' (stepIdx 0 d k) := by
    intro d k k1 k2
    have xd : stepIdx (0 : Idx n) d k d = k := by rw [stepIdx_self]; simp
    have xo : ∀ e, e ≠ d → stepIdx (0 : Idx n) d k e = 0 := fun e he => by rw [stepIdx_other _ he]; rfl
    have hh := mpdataHalo_ge p.o
    have wid : gcWide p.o ≤ 1 ∧ 0 ≤ gcWide p.o := by unfold gcWide; split_ifs <;> decide
    have nV : ∀ (w : Int) e y, w ≤ 1 → NearV w d (stepIdx 0 d k) e y → Window y ∧ y e ≤ 2 := by
      intro w e y hw hy
      rcases hy with ⟨rfl, h1, h2⟩ | ⟨hne, h1, h2, h3⟩
      · rw [xd] at h1
        refine ⟨fun f => ?_, by omega⟩
        by_cases hf : f = e
        · subst hf; omega
        · rw [h2 f hf, xo f hf]; omega
      · rw [xd] at h1; rw [xo e hne] at h2
        refine ⟨fun f => ?_, by omega⟩
        by_cases hf : f = d
        · subst hf; omega
        · by_cases hfe : f = e
          · subst hfe; omega
          · rw [h3 f hf hfe, xo f hf]; omega
    have nD : ∀ e y, NearD d (stepIdx 0 d k) e y → Window y ∧ y e ≤ 2 := by
      intro e y hy
      rcases hy with ⟨rfl, h1, h2⟩ | ⟨hne, h1, h2⟩
      · rw [xd] at h1
        refine ⟨fun f => ?_, by omega⟩
        by_cases hf : f = e
        · subst hf; omega
        · have := h2 f hf; rw [xo f hf] at this; omega
      · rw [xd] at h1
        rcases h2 with ⟨h2, h3⟩ | ⟨h2, h3⟩
        · rw [xo e hne] at h2
          refine ⟨fun f => ?_, by omega⟩
          by_cases hf : f = d
          · subst hf; omega
          · by_cases hfe : f = e
            · subst hfe; omega
            · have := h3 f hf hfe; rw [xo f hf] at this; omega
        · rw [xo e hne] at h2
          refine ⟨fun f => ?_, by omega⟩
          by_cases hf : f = d
          · subst hf; omega
          · by_cases hfe : f = e
            · subst hfe; omega
            · have := h3 f hf hfe; rw [xo f hf] at this; omega
    refine hF.vel d _ _ _ _ _ _ _ _ _ (fun y hy => f1 y fun e => ?_) (fun y hy => hpsi y fun e => ?_) (fun y hy => hG y fun e => ?_) (fun e y hy => ?_) (fun h6 e y hy => ?_) (fun h6 => ?_)
    · obtain ⟨h1, h2⟩ := hy
      rw [xd] at h1
      by_cases he : e = d
      · subst he; omega
      · have := h2 e he; rw [xo e he] at this; omega
    · obtain ⟨h1, h2⟩ := hy
      rw [xd] at h1
      by_cases he : e = d
      · subst he; omega
      · have := h2 e he; rw [xo e he] at this; omega
    · obtain ⟨h1, h2⟩ := hy
      rw [xd] at h1
      by_cases he : e = d
      · subst he; omega
      · have := h2 e he; rw [xo e he] at this; omega
    · rcases hy with hy | ⟨-, hy⟩
      · obtain ⟨a, b⟩ := nV _ e y wid.1 hy; exact hGC e y a b
      · obtain ⟨a, b⟩ := nD e y hy; exact hGC e y a b
    · obtain ⟨a, b⟩ := nV _ e y (by omega) hy; exact (hn1 h6 e y a b).1
    · refine (hn1 h6 d _ (fun e => ?_) (by rw [xd]; omega)).2
      by_cases he : e = d
      · subst he; rw [xd]; omega
      · rw [xo e he]; omega
  have z0 : ∀ d : Fin n, stepIdx (0 : Idx n) d 0 = 0 := fun d => by funext e; simp [stepIdx]
  have b2 : ∀ (d : Fin n) (k : Int), -1 ≤ k → k ≤ 1 → ∀ e, -2 ≤ stepIdx (0 : Idx n) d k e ∧ stepIdx (0 : Idx n) d k e ≤ 2 := by
    intro d k k1 k2 e
    by_cases he : e = d
    · subst he; rw [stepIdx_self]; simp; omega
    · rw [stepIdx_other _ he]; simp
  have g2 : ∀ (d : Fin n) (k : Int), -1 ≤ k → k ≤ 1 → SpecN.first p psi GC (stepIdx 0 d k) = SpecN.first p' psi' GC' (stepIdx 0 d k) := fun d k k1 k2 => f1 _ (b2 d k k1 k2)
  simp only [SpecN.step, SpecN.passes, SpecN.corrective, SpecN.velocity, ho, hFe, hfct, Bool.false_eq_true, if_false, show (2 : Nat) - 1 = 1 from rfl]
  have v0 := fun d => v1 d 0 (by omega) (by omega)
  simp only [z0] at v0
  have ev : ∀ d y, SpecN.velocity p' (SpecN.first p' psi' GC') psi' GC' d y = p.F.vel d p'.st (SpecN.first p' psi' GC') psi' GC' y := fun d y => by unfold SpecN.velocity; rw [hFe]
  have vm := fun d => v1 d (-1) (by omega) (by omega)
  have f0 : SpecN.first p psi GC 0 = SpecN.first p' psi' GC' 0 := f1 0 fun e => by simp
  refine hF.donor _ _ _ _ _ _ 0 f0 (hG 0 fun e => by simp) (fun d => ?_) (fun d => ?_)
  · split_ifs
    · exact (v0 d).trans (ev d _).symm
    · exact fluxN_congr _ f0 (g2 d 1 (by omega) (by omega)) ((v0 d).trans (ev d _).symm)
  · split_ifs
    · exact (vm d).trans (ev d _).symm
    · refine fluxN_congr _ (g2 d (-1) (by omega) (by omega)) ?_ ((vm d).trans (ev d _).symm)
      have e : stepIdx (stepIdx (0 : Idx n) d (-1)) d 1 = 0 := by funext e; by_cases he : e = d <;> simp [stepIdx, he]
      rw [e]; exact f0

/-! ### order of accuracy on samples -/
/-- parameters of a step on samples -/
def sampledN (o : OptsT) (F : Formulae n K) (G : (Fin n → K) → K) (ndt ndtt : K → Vec n K) (h : K) : SpecN.Par n K := ⟨o, 0, F, ⟨fun x => G (fun d => x d * h), ndt h, ndtt h⟩⟩

section
variable {psi : (Fin n → K) → K → K} {U : Fin n → (Fin n → K) → K → K} {G : (Fin n → K) → K} {p g : TS n K} {u : Fin n → TS n K} {o : OptsT} {lam : K} {ndt ndtt : K → Vec n K} {F : Formulae n K}

theorem px_smul (h : K) (x : Idx n) : (fun d => (x d : K) * h) = h • ((0 : Fin n → K) + px x) := by funext d; simp [px, mul_comm]

theorem flowN (A : AdvectsN psi U G p u g) (si : SptlIntrp) (te : TmprlExtrp) (hF : FGood o F) (hn : isset o oNug = true ∨ ∀ x, G x = 1) (hfct : isset o oFct = false) (hu : ∀ d, lam * (u d).val ≠ 0) :
    ∃ s : Fin n → K, (∀ d, s d * (lam * (u d).val) = |lam * (u d).val|) ∧
      FlowN (tsAlg n K) o lam (sampledN o F G ndt ndtt) (fun h x => psi (fun d => x d * h) 0) (fun h d => gcSampleN si te (U d) lam h d) p g g⁻¹ u
      (fun d => (lam ^ 3 * (1 / 6 - teFac te / 24)) • (tsAlg n K).T ((tsAlg n K).T (u d)) + (lam * (siFac si / 24 - 1 / 24)) • (tsAlg n K).dir (ux d) ((tsAlg n K).dir (ux d) (u d))) s := by
  have hg : g * g⁻¹ = 1 := MvPowerSeries.mul_inv_cancel _ A.hg0
  refine ⟨fun d => if 0 < lam * (u d).val then 1 else -1, fun d => ?_, fun _ => rfl, fun _ => hF, fun h => hn.imp id fun e x => e _, hfct, ?_, fun d => gcSampleN_gn (A.hu d) si te lam d, fun d => ?_, ?_, hg, A.hgt, ?_⟩
  · beta_reduce
    split_ifs with h
    · rw [one_mul, abs_of_pos h]
    · rw [abs_of_nonpos (not_lt.mp h)]; ring
  · refine ((A.hp.gn 0 0).congr' fun h x => by rw [px_smul, zero_mul]).eq ?_
    ext <;> simp
  · rw [map_smul, tsAlg_ε, smul_eq_mul]
    split_ifs with h
    · exact Or.inl ⟨rfl, h⟩
    · exact Or.inr ⟨rfl, lt_of_le_of_ne (not_lt.mp h) (hu d)⟩
  · refine ((A.hg.gn 0 0).congr' fun h x => by show G _ = G _; rw [px_smul]).eq ?_
    ext <;> simp
  · have := A.pde
    rw [tsAlg_T, DAlg.dv]
    simp only [tsAlg_ux]
    calc p.dt = (g * g⁻¹) * p.dt := by rw [hg, one_mul]
      _ = g⁻¹ * (g * p.dt) := by ring
      _ = g⁻¹ * (-∑ d, (u d * p).dx d) := by rw [eq_neg_of_add_eq_zero_left this]
      _ = _ := by ring

theorem nrmN (hp : isset o oIga = true ∨ p.val ≠ 0) (q1 : TS n K) : ∃ e0 e1 ρ : TS n K, Nrm o p q1 e0 e1 ρ ∧ (isset o oIga = true ∨ (p.val ≠ 0 ∧ ρ.val = (p.val)⁻¹)) := by
  cases hi : isset o oIga
  · have hp := hp.resolve_left (by simp [hi])
    refine ⟨p, q1, p⁻¹, ⟨MvPowerSeries.mul_inv_cancel _ hp, Or.inr ⟨hi, rfl, rfl⟩⟩, Or.inr ⟨hp, ?_⟩⟩
    exact MvPowerSeries.constantCoeff_inv _
  · exact ⟨1, 0, 1, ⟨one_mul _, Or.inl ⟨hi, rfl, rfl⟩⟩, Or.inl rfl⟩

/-- sign of the leading coefficient of the corrective velocity -/
theorem signN {s : Fin n → K} {ρ : TS n K} {a2 : Fin n → TS n K} {Q : K → SpecN.Par n K} {psi0 : K → Sca n K} {GC : K → Vec n K}
    (S : FlowN (tsAlg n K) o lam Q psi0 GC p g g⁻¹ u a2 s) (hs : ∀ d, s d * (lam * (u d).val) = |lam * (u d).val|)
    (hp : isset o oIga = true ∨ ∀ d, |lam * (u d).val| * (p.dx d).val + lam * (u d).val * (lam * p.dt.val) ≠ 0) (hρ : isset o oIga = true ∨ (p.val ≠ 0 ∧ ρ.val = (p.val)⁻¹)) :
    ∃ z : Fin n → K, isset o oIga = true ∨ ∀ d, (z d = 1 ∧ 0 < (tsAlg n K).ε (velB (tsAlg n K) p (fun d => lam • u d) g⁻¹ s d * ρ)) ∨ (z d = -1 ∧ (tsAlg n K).ε (velB (tsAlg n K) p (fun d => lam • u d) g⁻¹ s d * ρ) < 0) := by
  rcases hp with hi | hp
  · exact ⟨fun _ => 1, Or.inl hi⟩
  rcases hρ with hi | ⟨hp0, hρ⟩
  · exact ⟨fun _ => 1, Or.inl hi⟩
  have hne : ∀ d, (tsAlg n K).ε (velB (tsAlg n K) p (fun d => lam • u d) g⁻¹ s d * ρ) ≠ 0 := by
    intro d
    have e : (tsAlg n K).dv g⁻¹ (fun e => lam • u e * p) = -(lam • (tsAlg n K).T p) := by simp only [S.pde, smul_mul_assoc, (tsAlg n K).dv_smul, smul_neg, neg_neg]
    rw [map_mul, velB, e, tsAlg_ux]
    simp only [map_smul, map_sub, map_mul, map_neg, tsAlg_ε, tsAlg_T, smul_eq_mul, hρ]
    refine mul_ne_zero (mul_ne_zero (by norm_num) ?_) (inv_ne_zero hp0)
    have := hp d
    rw [← hs d] at this
    rwa [mul_neg, sub_neg_eq_add]
  refine ⟨fun d => if 0 < (tsAlg n K).ε (velB (tsAlg n K) p (fun d => lam • u d) g⁻¹ s d * ρ) then 1 else -1, Or.inr fun d => ?_⟩
  beta_reduce
  split_ifs with h
  · exact Or.inl ⟨rfl, h⟩
  · exact Or.inr ⟨rfl, lt_of_le_of_ne (not_lt.mp h) (hne d)⟩
end

section
variable {psi : (Fin 2 → K) → K → K} {U : Fin 2 → (Fin 2 → K) → K → K} {G : (Fin 2 → K) → K} {p g : TS 2 K} {u : Fin 2 → TS 2 K} {o : OptsT} {lam tiny : K} {ndt ndtt : K → Vec 2 K} {si : SptlIntrp} {te : TmprlExtrp}
theorem second_ref2 (A : AdvectsN psi U G p u g) (hu : ∀ d, lam * (u d).val ≠ 0) (H : AccOpts o tiny) (hfct : isset o oFct = false) (hn : isset o oNug = true ∨ ∀ x, G x = 1)
    (hfot : isset o oFot = true → isset o oTot = true ∨ isset o oDiv3 = true) (hp : isset o oIga = true ∨ p.val ≠ 0)
    (hopt : (isset o oDiv2 = true ∧ isset o oDiv3 = false ∧ isset o oDiv3dt = false) ∨ (isset o oDiv2 = false ∧ isset o oDiv3 = false ∧ isset o oDfl = true)) :
    BigO 3 (fun h => SpecN.step (sampledN o (formulae2 o si te tiny) G ndt ndtt h) 2 (fun x => psi (fun d => x d * h) 0) (fun d => gcSampleN si te (U d) lam h d) 0 - psi 0 (lam * h)) := by
  obtain ⟨s, -, S⟩ := flowN (ndt := ndt) (ndtt := ndtt) A si te (formulae2_good o si te tiny hfot) hn hfct hu
  obtain ⟨e0, e1, ρ, N, -⟩ := nrmN hp (lam • (tsAlg 2 K).T p)
  obtain ⟨q2, I⟩ := S.inN H N
  exact S.second (tiny := tiny) N (second2 I si te hopt) (exactN_jet A.hp lam)
theorem third_ref2 (A : AdvectsN psi U G p u g) (hu : ∀ d, lam * (u d).val ≠ 0) (H : AccOpts o tiny) (hfct : isset o oFct = false) (hn : isset o oNug = true ∨ ∀ x, G x = 1)
    (hfot : isset o oFot = true → isset o oTot = true ∨ isset o oDiv3 = true)
    (hp : isset o oIga = true ∨ (p.val ≠ 0 ∧ ∀ d, |lam * (u d).val| * (p.dx d).val + lam * (u d).val * (lam * p.dt.val) ≠ 0))
    (hopt : isset o oDiv3 = true ∨ (isset o oDiv3 = false ∧ isset o oDiv2 = true ∧ isset o oDiv3dt = true ∧ te = .noextrp))
    (hn1 : ∀ d, NdtSampledN d (u d) lam (fun h => ndt h d)) (hn2 : ∀ d, NdttSampledN d (u d) lam (fun h => ndtt h d)) :
    BigO 4 (fun h => SpecN.step (sampledN o (formulae2 o si te tiny) G ndt ndtt h) 2 (fun x => psi (fun d => x d * h) 0) (fun d => gcSampleN si te (U d) lam h d) 0 - psi 0 (lam * h)) := by
  obtain ⟨s, hs, S⟩ := flowN (ndt := ndt) (ndtt := ndtt) A si te (formulae2_good o si te tiny hfot) hn hfct hu
  obtain ⟨e0, e1, ρ, N, hρ⟩ := nrmN (hp.imp id fun e => e.1) (lam • (tsAlg 2 K).T p)
  obtain ⟨q2, I⟩ := S.inN H N
  obtain ⟨z, hz⟩ := signN S hs (hp.imp id fun e => e.2) hρ
  choose b hb using fun d => ndtN_gn (hn1 d)
  refine S.third N (fun d => rfl) hz (third2 I (na2 := b) ?_ hb (fun d => ndttN_gn (hn2 d)) hz hopt) (exactN_jet A.hp lam)
  simp only [S.pde, smul_mul_assoc, DAlg.dv_smul, smul_neg]
end
section
variable {psi : (Fin 3 → K) → K → K} {U : Fin 3 → (Fin 3 → K) → K → K} {G : (Fin 3 → K) → K} {p g : TS 3 K} {u : Fin 3 → TS 3 K} {o : OptsT} {lam tiny : K} {ndt ndtt : K → Vec 3 K} {si : SptlIntrp} {te : TmprlExtrp}
theorem second_ref3 (A : AdvectsN psi U G p u g) (hu : ∀ d, lam * (u d).val ≠ 0) (H : AccOpts o tiny) (hfct : isset o oFct = false) (hn : isset o oNug = true ∨ ∀ x, G x = 1)
    (hp : isset o oIga = true ∨ p.val ≠ 0)
    (hopt : (isset o oDiv2 = true ∧ isset o oDiv3 = false ∧ isset o oDiv3dt = false) ∨ (isset o oDiv2 = false ∧ isset o oDiv3 = false ∧ isset o oDfl = true)) :
    BigO 3 (fun h => SpecN.step (sampledN o (formulae3 o si te tiny) G ndt ndtt h) 2 (fun x => psi (fun d => x d * h) 0) (fun d => gcSampleN si te (U d) lam h d) 0 - psi 0 (lam * h)) := by
  obtain ⟨s, -, S⟩ := flowN (ndt := ndt) (ndtt := ndtt) A si te (formulae3_good o si te tiny) hn hfct hu
  obtain ⟨e0, e1, ρ, N, -⟩ := nrmN hp (lam • (tsAlg 3 K).T p)
  obtain ⟨q2, I⟩ := S.inN H N
  exact S.second (tiny := tiny) N (second3 I si te hopt) (exactN_jet A.hp lam)
theorem third_ref3 (A : AdvectsN psi U G p u g) (hu : ∀ d, lam * (u d).val ≠ 0) (H : AccOpts o tiny) (hfct : isset o oFct = false) (hn : isset o oNug = true ∨ ∀ x, G x = 1)
    (hp : isset o oIga = true ∨ (p.val ≠ 0 ∧ ∀ d, |lam * (u d).val| * (p.dx d).val + lam * (u d).val * (lam * p.dt.val) ≠ 0))
    (hopt : isset o oDiv3 = true ∨ (isset o oDiv3 = false ∧ isset o oDiv2 = true ∧ isset o oDiv3dt = true))
    (hn1 : ∀ d, NdtSampledN d (u d) lam (fun h => ndt h d)) (hn2 : ∀ d, NdttSampledN d (u d) lam (fun h => ndtt h d)) :
    BigO 4 (fun h => SpecN.step (sampledN o (formulae3 o si te tiny) G ndt ndtt h) 2 (fun x => psi (fun d => x d * h) 0) (fun d => gcSampleN si te (U d) lam h d) 0 - psi 0 (lam * h)) := by
  obtain ⟨s, hs, S⟩ := flowN (ndt := ndt) (ndtt := ndtt) A si te (formulae3_good o si te tiny) hn hfct hu
  obtain ⟨e0, e1, ρ, N, hρ⟩ := nrmN (hp.imp id fun e => e.1) (lam • (tsAlg 3 K).T p)
  obtain ⟨q2, I⟩ := S.inN H N
  obtain ⟨z, hz⟩ := signN S hs (hp.imp id fun e => e.2) hρ
  choose b hb using fun d => ndtN_gn (hn1 d)
  refine S.third N (fun d => rfl) hz (third3 I (na2 := b) ?_ hb (fun d => ndttN_gn (hn2 d)) hz hopt) (exactN_jet A.hp lam)
  simp only [S.pde, smul_mul_assoc, DAlg.dv_smul, smul_neg]
end
end Mpdata
