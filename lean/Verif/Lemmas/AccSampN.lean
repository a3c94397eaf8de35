import Verif.Spec.AccuracyN
import Verif.Lemmas.AccStepN
import Mathlib.RingTheory.MvPowerSeries.Inverse
/-! # Sampled smooth functions have expansions -/
set_option linter.unusedSectionVars false
set_option linter.unusedVariables false
set_option linter.unusedSimpArgs false
namespace Mpdata
variable {n : Nat} {K : Type} [Field K] [LinearOrder K] [IsStrictOrderedRing K]
open TS

omit [LinearOrder K] [IsStrictOrderedRing K] in
theorem pderiv_comm (a b : Option (Fin n)) (F : TS n K) : MvPowerSeries.pderiv K a (MvPowerSeries.pderiv K b F) = MvPowerSeries.pderiv K b (MvPowerSeries.pderiv K a F) := by
  ext m
  rw [MvPowerSeries.coeff_pderiv, MvPowerSeries.coeff_pderiv, MvPowerSeries.coeff_pderiv, MvPowerSeries.coeff_pderiv]
  by_cases h : a = b
  · subst h; rfl
  · rw [add_right_comm]
    simp [Finsupp.single_apply, h, Ne.symm h]
    ring

/-- the differential algebra of Taylor series -/
noncomputable def tsAlg (n : Nat) (K : Type) [Field K] : DAlg n K (TS n K) where
  D d := MvPowerSeries.pderiv K (some d)
  T := MvPowerSeries.pderiv K none
  comm _ _ F := pderiv_comm _ _ F
  commT _ F := pderiv_comm _ _ F
  ε := { MvPowerSeries.constantCoeff with commutes' := fun r => by simp [MvPowerSeries.algebraMap_apply] }

theorem tsAlg_ε (p : TS n K) : (tsAlg n K).ε p = p.val := rfl
theorem tsAlg_T (p : TS n K) : (tsAlg n K).T p = p.dt := rfl
theorem tsAlg_D (d : Fin n) (p : TS n K) : (tsAlg n K).D d p = p.dx d := rfl
theorem tsAlg_ux (d : Fin n) (p : TS n K) : (tsAlg n K).dir (ux d) p = p.dx d := by rw [ux, DAlg.dir_single]; rfl
theorem along_eq (x : Fin n → K) (t : K) (p : TS n K) : along x t p = ((tsAlg n K).dir x + t • (tsAlg n K).T) p := by
  rw [Derivation.add_apply, DAlg.dir_apply, Derivation.smul_apply, along, add_comm]; rfl
theorem along_smul (x : Fin n → K) (t h : K) (p : TS n K) : along (h • x) (t * h) p = h • along x t p := by
  rw [along_eq, along_eq, DAlg.dir_smul]; simp only [Derivation.add_apply, Derivation.smul_apply, smul_add, smul_smul, mul_comm]
theorem val_smul (h : K) (p : TS n K) : (h • p).val = h * p.val := by rw [← tsAlg_ε, ← tsAlg_ε, map_smul, smul_eq_mul]
theorem along_smulp (x : Fin n → K) (t h : K) (p : TS n K) : along x t (h • p) = h • along x t p := by rw [along_eq, along_eq, Derivation.map_smul]

theorem TaylorN.jet {f : (Fin n → K) → K → K} {p : TS n K} (hf : TaylorN f p) (x : Fin n → K) (t : K) :
    Jet (fun h => f (h • x) (t * h)) ⟨p.val, (along x t p).val, (along x t (along x t p)).val / 2, (along x t (along x t (along x t p))).val / 6⟩ := by
  obtain ⟨M, r, hr, hM⟩ := hf
  obtain ⟨B, hB0, hBx, hBt⟩ : ∃ B : K, 0 < B ∧ (∀ d, |x d| ≤ B) ∧ |t| ≤ B := by
    refine ⟨(∑ d, |x d|) + |t| + 1, by positivity, fun d => ?_, ?_⟩
    · have := Finset.single_le_sum (f := fun d => |x d|) (fun d _ => abs_nonneg _) (Finset.mem_univ d)
      have h2 := abs_nonneg t
      linarith
    · have : 0 ≤ ∑ d, |x d| := Finset.sum_nonneg fun d _ => abs_nonneg _
      linarith
  refine ⟨M * ((∑ d, |x d|) + |t|) ^ 4, r / B, div_pos hr hB0, fun h h0 h1 => ?_⟩
  have hb : h * B ≤ r := (le_div_iff₀ hB0).mp h1
  have e := hM (h • x) (t * h) (fun d => ?_) ?_
  · have e1 : (∑ d, |(h • x) d|) + |t * h| = ((∑ d, |x d|) + |t|) * h := by
      simp only [Pi.smul_apply, smul_eq_mul, abs_mul, abs_of_pos h0, ← Finset.mul_sum]; ring
    have e2 : p.poly3 (h • x) (t * h) = (J4.ev ⟨p.val, (along x t p).val, (along x t (along x t p)).val / 2, (along x t (along x t (along x t p))).val / 6⟩ h : K) := by
      simp only [poly3, along_smul, along_smulp, val_smul, J4.ev]; ring
    rw [e1, e2, mul_pow] at e
    calc _ ≤ _ := e
      _ = _ := by ring
  · simp only [Pi.smul_apply, smul_eq_mul, abs_mul, abs_of_pos h0]
    exact (mul_le_mul_of_nonneg_left (hBx d) h0.le).trans hb
  · rw [abs_mul, abs_of_pos h0, mul_comm]
    exact (mul_le_mul_of_nonneg_left hBt h0.le).trans hb

/-- sampling at the points displaced by `y` from the grid, at the time `t h` -/
theorem TaylorN.gn {f : (Fin n → K) → K → K} {p : TS n K} (hf : TaylorN f p) (y : Fin n → K) (t : K) :
    GN (tsAlg n K) y (fun h x => f (h • (y + px x)) (t * h)) ⟨p, t • p.dt, (t ^ 2 / 2) • p.dt.dt, (t ^ 3 / 6) • p.dt.dt.dt⟩ := fun x => by
  refine (hf.jet (y + px x) t).rfl' ?_
  have c : ∀ q : TS n K, (tsAlg n K).T ((tsAlg n K).dir (y + px x) q) = (tsAlg n K).dir (y + px x) ((tsAlg n K).T q) := fun q => (DAlg.dir_T _ _ q).symm
  ext <;> simp only [DAlg.jd, along_eq, ← tsAlg_ε, ← tsAlg_T, Derivation.add_apply, Derivation.smul_apply, map_add, map_smul, Derivation.map_smul, smul_add, smul_eq_mul, c] <;> ring

/-- components may be replaced by ones that agree at time zero -/
theorem TS.EqAt0.val {p q : TS n K} (h : EqAt0 p q) : p.val = q.val := by
  have := h 0 rfl
  simpa [TS.val] using this
theorem TS.EqAt0.dir {p q : TS n K} (h : EqAt0 p q) (x : Fin n → K) : EqAt0 ((tsAlg n K).dir x p) ((tsAlg n K).dir x q) := by
  intro m hm
  rw [DAlg.dir_apply, DAlg.dir_apply, map_sum, map_sum]
  refine Finset.sum_congr rfl fun d _ => ?_
  show MvPowerSeries.coeff m (x d • MvPowerSeries.pderiv K (some d) p) = MvPowerSeries.coeff m (x d • MvPowerSeries.pderiv K (some d) q)
  rw [MvPowerSeries.coeff_smul, MvPowerSeries.coeff_smul, MvPowerSeries.coeff_pderiv, MvPowerSeries.coeff_pderiv, h _ (by simp [hm])]
theorem GN.eqAt0 {y : Fin n → K} {f : K → Idx n → K} {a b c d a' b' c' : TS n K} (hf : GN (tsAlg n K) y f ⟨a, b, c, d⟩) (ha : EqAt0 a a') (hb : EqAt0 b b') (hc : EqAt0 c c') :
    GN (tsAlg n K) y f ⟨a', b', c', d⟩ := fun x => (hf x).rfl' (by
  ext <;> simp only [DAlg.jd, tsAlg_ε, ha.val, (ha.dir _).val, ((ha.dir _).dir _).val, (((ha.dir _).dir _).dir _).val, hb.val, (hb.dir _).val, ((hb.dir _).dir _).val, hc.val, (hc.dir _).val])

theorem place_eq (h : K) (d : Fin n) (s : K) (x : Idx n) : place h d s x = h • (s • ux d + px x) := by
  funext e
  by_cases he : e = d
  · subst he; simp [place, ux, px]; ring
  · simp [place, ux, px, he]; ring

/-- the Courant numbers handed over by any of the announced interpolations -/
theorem gcSampleN_gn {U : (Fin n → K) → K → K} {u : TS n K} (hu : TaylorN U u) (si : SptlIntrp) (te : TmprlExtrp) (lam : K) (d : Fin n) :
    Gn (tsAlg n K) (0 + (1 / 2 : K) • ux d) (fun h x => gcSampleN si te U lam h d x) (lam • u) ((lam ^ 2 / 2) • (tsAlg n K).T u)
      ((lam ^ 3 * (1 / 6 - teFac te / 24)) • (tsAlg n K).T ((tsAlg n K).T u) + (lam * (siFac si / 24 - 1 / 24)) • (tsAlg n K).dir (ux d) ((tsAlg n K).dir (ux d) u)) := by
  have face : ∀ t : K, Gn (tsAlg n K) (0 + (1 / 2 : K) • ux d) (fun h x => match si with
      | .exact => U (place h d (1 / 2) x) (t * h)
      | .aver2 => (U (place h d 0 x) (t * h) + U (place h d 1 x) (t * h)) / 2
      | .aver4 => (7 * (U (place h d 0 x) (t * h) + U (place h d 1 x) (t * h)) - (U (place h d (-1) x) (t * h) + U (place h d 2 x) (t * h))) / 12)
      u (t • u.dt) ((t ^ 2 / 2) • u.dt.dt + (siFac si / 24 - 1 / 24 : K) • (tsAlg n K).dir (ux d) ((tsAlg n K).dir (ux d) u)) := by
    intro t
    have h0 := hu.gn 0 t
    have e0 : ∀ (s h : K) (x : Idx n) (k : Int), s = k → place h d s x = h • ((0 : Fin n → K) + px (stepIdx x d k)) := by
      intro s h x k hs; rw [place_eq, px_step, hs, zero_add, add_comm]
    have e0' : ∀ (h : K) (x : Idx n), place h d 0 x = h • ((0 : Fin n → K) + px x) := by intro h x; rw [place_eq]; simp
    cases si
    · refine ((Gn.of (hu.gn ((1 / 2 : K) • ux d) t)).congr' (fun h x => by rw [place_eq]) |>.eq rfl rfl ?_ ) |> fun h => by rwa [zero_add]
      simp [siFac]
    · refine (Gn.of (h0.avN d)).congr' (fun h x => by rw [e0' h x, e0 1 h x 1 (by simp)]; ring) |>.eq rfl rfl ?_
      simp only [siFac, HX.av]; norm_num
    · have h3 : GN (tsAlg n K) (0 + (1 / 2 : K) • ux d) (fun h x => (U (h • (0 + px (stepIdx x d 2))) (t * h) + U (h • (0 + px (stepIdx x d (-1)))) (t * h)) / 2) (HX.av ((tsAlg n K).dir ((3 : K) • ux d)) _) :=
        fun x => Gr3.av_jet (h0 (stepIdx x d 2)) (h0 (stepIdx x d (-1))) (by rw [px_step]; push_cast; module) (by rw [px_step]; push_cast; module)
      refine (((Gn.of (h0.avN d)).smul (7 / 6)).sub ((Gn.of h3).smul (1 / 6))).congr' (fun h x => ?_) |>.eq ?_ ?_ ?_
      · rw [e0' h x, e0 1 h x 1 (by simp), e0 (-1) h x (-1) (by simp), e0 2 h x 2 (by simp)]; ring
      · simp only [HX.av]; module
      · simp only [HX.av]; module
      · simp only [siFac, HX.av, DAlg.dir_smul, Derivation.smul_apply, Derivation.map_smul]; module
  cases te
  · refine ((face (1 / 2 * lam)).smul lam).congr' (fun h x => by cases si <;> rfl) |>.eq rfl ?_ ?_
    · simp only [tsAlg_T]; module
    · simp only [tsAlg_T, teFac]; module
  · refine ((((face 0).smul (3 / 2)).sub ((face (-1 * lam)).smul (1 / 2))).smul lam).congr' (fun h x => by cases si <;> simp only [gcSampleN] <;> ring) |>.eq ?_ ?_ ?_
    · module
    · simp only [tsAlg_T]; module
    · simp only [tsAlg_T, teFac]; module

theorem ndtN_gn {d : Fin n} {u : TS n K} {lam : K} {w : K → Idx n → K} (h : NdtSampledN d u lam w) :
    ∃ b, Gn (tsAlg n K) (0 + (1 / 2 : K) • ux d) w 0 (lam ^ 2 • (tsAlg n K).T u) b := by
  obtain ⟨W, a, hW, hw, h0, h1⟩ := h
  have := (hW.gn ((1 / 2 : K) • ux d) 1).eqAt0 (a' := 0) (b' := lam ^ 2 • (tsAlg n K).T u) h0 (by rw [one_smul, pow_two, mul_smul]; exact h1) (fun _ _ => rfl)
  rw [zero_add]
  exact ⟨_, _, this.congr' fun h x => by rw [hw, place_eq, one_mul]⟩
theorem ndttN_gn {d : Fin n} {u : TS n K} {lam : K} {w : K → Idx n → K} (h : NdttSampledN d u lam w) :
    Gn (tsAlg n K) (0 + (1 / 2 : K) • ux d) w 0 0 (lam ^ 3 • (tsAlg n K).T ((tsAlg n K).T u)) := by
  obtain ⟨W, a, hW, hw, h0, h1, h2⟩ := h
  have := (hW.gn ((1 / 2 : K) • ux d) 1).eqAt0 (a' := 0) (b' := 0) (c' := lam ^ 3 • (tsAlg n K).T ((tsAlg n K).T u)) h0 (by rw [one_smul]; exact h1)
    (by rw [one_pow, show lam ^ 3 = lam ^ 2 * lam by ring, mul_smul]; exact h2)
  rw [zero_add]
  exact ⟨_, this.congr' fun h x => by rw [hw, place_eq, one_mul]⟩

/-- the exact solution after one time step -/
theorem exactN_jet {psi : (Fin n → K) → K → K} {p : TS n K} (hp : TaylorN psi p) (lam : K) :
    Jet (fun h => psi 0 (lam * h)) ⟨(tsAlg n K).ε p, lam * (tsAlg n K).ε ((tsAlg n K).T p), lam ^ 2 / 2 * (tsAlg n K).ε ((tsAlg n K).T ((tsAlg n K).T p)), lam ^ 3 / 6 * (tsAlg n K).ε ((tsAlg n K).T ((tsAlg n K).T ((tsAlg n K).T p)))⟩ := by
  have h := (hp.gn 0 lam) 0
  have e0 : (tsAlg n K).dir (0 + px (0 : Idx n)) = 0 := by rw [px_zero, add_zero, show (0 : Fin n → K) = (0 : K) • 0 by simp, DAlg.dir_smul, zero_smul]
  refine (h.congr' fun k => by beta_reduce; rw [px_zero, add_zero, smul_zero]).rfl' ?_
  rw [e0]
  ext <;> simp only [DAlg.jd, Derivation.zero_apply, map_zero, map_smul, smul_eq_mul, zero_div, zero_add, tsAlg_T]
end Mpdata
