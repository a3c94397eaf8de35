import Verif.Lemmas.AccRefN
import Verif.Props.HaloN
/-! # C56, C57: accuracy in flows that vary in space and time, 2-D and 3-D -/
set_option linter.unusedSectionVars false
set_option linter.unusedSimpArgs false
namespace Mpdata
variable {n : Nat} {K : Type} [Field K] [LinearOrder K] [IsStrictOrderedRing K]
open TS

/-- one two-pass step of the reference scheme in terms of the samples around a grid point -/
theorem step_sampledN {q : SpecN.Par n K} {P : Fin n → Nat} {o : OptsT} {F : Formulae n K} (hF : FGood o F) (ho : q.o = o) (hFe : q.F = F) (hf : isset o oFct = false)
    {psi0 : Sca n K} {GC : Vec n K} {mp : Sca n K} {mG : Vec n K} (hpsi : ∀ x, InGrid P x → mp x = psi0 x) (hGC : ∀ d x, InFaces P d x → mG d x = GC d x)
    {i : Idx n} {psi : (Fin n → K) → K → K} {U : Fin n → (Fin n → K) → K → K} {G : (Fin n → K) → K} {si : SptlIntrp} {te : TmprlExtrp} {ndt ndtt : K → Vec n K} {lam h : K}
    (hO : OnGridN P i mp mG q.st.G si te psi U G lam h)
    (h1 : hasNdt o = true → ∀ d k, Window k → k d ≤ 2 → q.st.ndt d (i + k) = ndt h d k ∧ q.st.ndtt d (i + k) = ndtt h d k) :
    SpecN.step q 2 psi0 GC i = SpecN.step (sampledN o F G ndt ndtt h) 2 (fun x => psi (fun d => x d * h) 0) (fun d => gcSampleN si te (U d) lam h d) 0 := by
  subst ho hFe
  have hw : ∀ k, Window k → InGrid P (i + k) := fun k hk d => by
    have := hO.inside d; have := hk d; simp only [Pi.add_apply]; omega
  have e := stepN_tr 2 i hF psi0 GC 0
  rw [add_zero] at e
  rw [e]
  refine stepN_local (p := q.tr i) (p' := sampledN q.o q.F G ndt ndtt h) hF rfl rfl hf (fun k hk => ?_) (fun d k hk hd => ?_) (fun k hk => hO.gfac k hk) (fun h6 d k hk hd => h1 h6 d k hk hd)
  · show psi0 (i + k) = _
    rw [← hpsi _ (hw k hk)]; exact hO.field k hk
  · show GC d (i + k) = _
    rw [← hGC d _ ⟨hw k hk, ?_⟩]
    · exact hO.gc d k hk hd
    · have := hO.inside d; simp only [Pi.add_apply]; omega

/-- C56, 2-D: second-order accuracy in any flow. Let `psi` solve the advection equation with flux velocities `U` and a G-factor `G` that vary smoothly in space and (`U`) in time.
With the option `dfl` or `div_2nd` the program, given samples of `psi` with grid spacing `h`, returns after one time step `lam * h` the value of the solution at the new time
up to an error of at most `M * h^3` (so that the error accumulated over a given time is of second order); `M` does not depend on the grid, on the grid point or on anything
stored elsewhere. The flow has a component along each axis at the point; in the basic (not infinite-gauge) scheme the field does not vanish there and divisions are exact (option
`pfc`, or no small number added to denominators). -/
theorem C56_second_order_2d (o : OptsT) (si : SptlIntrp) (te : TmprlExtrp) (tiny lam : K) (psi : (Fin 2 → K) → K → K) (U : Fin 2 → (Fin 2 → K) → K → K) (G : (Fin 2 → K) → K)
    (p : TS 2 K) (u : Fin 2 → TS 2 K) (g : TS 2 K) (h : AdvectsN psi U G p u g) (hu : ∀ d, lam * (u d).val ≠ 0)
    (hopt : isset o oDiv3 = false ∧ isset o oDiv3dt = false ∧ (isset o oDiv2 = true ∨ isset o oDfl = true))
    (ha : isset o oAbs = false) (hf : isset o oFct = false) (hnug : isset o oNug = true ∨ ∀ x, G x = 1)
    (hp : isset o oIga = true ∨ (p.val ≠ 0 ∧ (isset o oPfc = true ∨ tiny = 0))) :
    ∃ M h0 : K, 0 < h0 ∧ ∀ hx, 0 < hx → hx ≤ h0 →
      ∀ (c : CfgN 2 K) (q : SpecN.Par 2 K) (P : Fin 2 → Nat), Solver2 c q P → c.nIters = 2 → q.o = o → q.F = formulae2 o si te tiny →
      ∀ (psi0 : Sca 2 K) (GC : Vec 2 K), PeriodicN P psi0 → (∀ d, PeriodicN P (GC d)) →
      ∀ (m : MemN 2 K) (i : Idx 2), (∀ x, InGrid P x → m.psi x = psi0 x) → (∀ d x, InFaces P d x → m.GC d x = GC d x) →
        OnGridN P i m.psi m.GC q.st.G si te psi U G lam hx →
        |(runProgN c (fun _ => false) 1 { m with GC := prepGC c (solverHalo c.o) m.GC }).psi i - psi 0 (lam * hx)| ≤ M * hx ^ 3 := by
  by_cases hfot : isset o oFot = true → isset o oTot = true ∨ isset o oDiv3 = true
  · obtain ⟨M, h0, hpos, hM⟩ := second_ref2 (ndt := fun _ _ _ => 0) (ndtt := fun _ _ _ => 0) (si := si) (te := te) h hu ⟨ha, hp.imp id fun e => e.2⟩ hf hnug hfot (hp.imp id fun e => e.1)
      (by rcases hopt with ⟨h3, h4, h2⟩
          cases h5 : isset o oDiv2
          · exact Or.inr ⟨rfl, h3, h2.resolve_left (by simp [h5])⟩
          · exact Or.inl ⟨rfl, h3, h4⟩)
    refine ⟨M, h0, hpos, fun hx x0 x1 c q P hC hn ho hF psi0 GC p0 pG m i hm hg hO => ?_⟩
    have hxx : HaloCovered c.o c.nIters := by unfold HaloCovered; rw [hn]; simp
    rw [C21_cyclic_2d_is_periodic_partial c q P hC (by omega) hxx (fun _ => false) psi0 GC p0 pG m hm hg 1 i (fun d => by have := hO.inside d; omega), hn]
    show |SpecN.step q 2 psi0 GC i - _| ≤ _
    rw [step_sampledN (formulae2_good o si te tiny hfot) ho hF hf hm hg hO (ndt := fun _ _ _ => 0) (ndtt := fun _ _ _ => 0) (by simp [hasNdt, hopt.1, hopt.2.1])]
    exact hM hx x0 x1
  · refine ⟨0, 1, one_pos, fun hx _ _ c q P hC hn ho hF => absurd (by rw [← ho]; exact hC.fot) hfot⟩

/-- C57, 2-D: third-order accuracy in any flow. With the option `div_3rd` (and time derivatives of the Courant numbers supplied as announced) the error of one step is at most
`M * h^4`, whichever of the supported interpolations of the Courant numbers in space and in time is announced; with `div_3rd_dt` (which has to be combined with `div_2nd`) the same
holds if the Courant numbers are not extrapolated in time. In the basic scheme it is assumed in addition that the corrective velocities do not vanish to leading order at the
point. -/
theorem C57_third_order_2d (o : OptsT) (si : SptlIntrp) (te : TmprlExtrp) (tiny lam : K) (psi : (Fin 2 → K) → K → K) (U : Fin 2 → (Fin 2 → K) → K → K) (G : (Fin 2 → K) → K)
    (p : TS 2 K) (u : Fin 2 → TS 2 K) (g : TS 2 K) (h : AdvectsN psi U G p u g) (hu : ∀ d, lam * (u d).val ≠ 0)
    (hopt : isset o oDiv3 = true ∨ (isset o oDiv2 = true ∧ isset o oDiv3dt = true ∧ te = .noextrp))
    (ha : isset o oAbs = false) (hf : isset o oFct = false) (hnug : isset o oNug = true ∨ ∀ x, G x = 1)
    (hp : isset o oIga = true ∨ (p.val ≠ 0 ∧ (isset o oPfc = true ∨ tiny = 0) ∧ ∀ d, |lam * (u d).val| * (p.dx d).val + lam * (u d).val * (lam * p.dt.val) ≠ 0))
    (ndt ndtt : K → Vec 2 K) (hn1 : ∀ d, NdtSampledN d (u d) lam (fun h => ndt h d)) (hn2 : ∀ d, NdttSampledN d (u d) lam (fun h => ndtt h d)) :
    ∃ M h0 : K, 0 < h0 ∧ ∀ hx, 0 < hx → hx ≤ h0 →
      ∀ (c : CfgN 2 K) (q : SpecN.Par 2 K) (P : Fin 2 → Nat), Solver2 c q P → c.nIters = 2 → q.o = o → q.F = formulae2 o si te tiny →
      ∀ (psi0 : Sca 2 K) (GC : Vec 2 K), PeriodicN P psi0 → (∀ d, PeriodicN P (GC d)) →
      ∀ (m : MemN 2 K) (i : Idx 2), (∀ x, InGrid P x → m.psi x = psi0 x) → (∀ d x, InFaces P d x → m.GC d x = GC d x) →
        OnGridN P i m.psi m.GC q.st.G si te psi U G lam hx →
        (∀ d k, Window k → k d ≤ 2 → q.st.ndt d (i + k) = ndt hx d k ∧ q.st.ndtt d (i + k) = ndtt hx d k) →
        |(runProgN c (fun _ => false) 1 { m with GC := prepGC c (solverHalo c.o) m.GC }).psi i - psi 0 (lam * hx)| ≤ M * hx ^ 4 := by
  by_cases hfot : isset o oFot = true → isset o oTot = true ∨ isset o oDiv3 = true
  · obtain ⟨M, h0, hpos, hM⟩ := third_ref2 (ndt := ndt) (ndtt := ndtt) (si := si) (te := te) h hu ⟨ha, hp.imp id fun e => e.2.1⟩ hf hnug hfot (hp.imp id fun e => ⟨e.1, e.2.2⟩)
      (by cases h3 : isset o oDiv3
          · exact Or.inr ⟨rfl, hopt.resolve_left (by simp [h3])⟩
          · exact Or.inl rfl) hn1 hn2
    refine ⟨M, h0, hpos, fun hx x0 x1 c q P hC hn ho hF psi0 GC p0 pG m i hm hg hO hN => ?_⟩
    have hxx : HaloCovered c.o c.nIters := by unfold HaloCovered; rw [hn]; simp
    rw [C21_cyclic_2d_is_periodic_partial c q P hC (by omega) hxx (fun _ => false) psi0 GC p0 pG m hm hg 1 i (fun d => by have := hO.inside d; omega), hn]
    show |SpecN.step q 2 psi0 GC i - _| ≤ _
    rw [step_sampledN (formulae2_good o si te tiny hfot) ho hF hf hm hg hO (ndt := ndt) (ndtt := ndtt) (fun _ => hN)]
    exact hM hx x0 x1
  · refine ⟨0, 1, one_pos, fun hx _ _ c q P hC hn ho hF => absurd (by rw [← ho]; exact hC.fot) hfot⟩

/-- C56, 3-D: second-order accuracy in any flow, as in 2-D. -/
theorem C56_second_order_3d (o : OptsT) (si : SptlIntrp) (te : TmprlExtrp) (tiny lam : K) (psi : (Fin 3 → K) → K → K) (U : Fin 3 → (Fin 3 → K) → K → K) (G : (Fin 3 → K) → K)
    (p : TS 3 K) (u : Fin 3 → TS 3 K) (g : TS 3 K) (h : AdvectsN psi U G p u g) (hu : ∀ d, lam * (u d).val ≠ 0)
    (hopt : isset o oDiv3 = false ∧ isset o oDiv3dt = false ∧ (isset o oDiv2 = true ∨ isset o oDfl = true))
    (ha : isset o oAbs = false) (hf : isset o oFct = false) (hnug : isset o oNug = true ∨ ∀ x, G x = 1)
    (hp : isset o oIga = true ∨ (p.val ≠ 0 ∧ (isset o oPfc = true ∨ tiny = 0))) :
    ∃ M h0 : K, 0 < h0 ∧ ∀ hx, 0 < hx → hx ≤ h0 →
      ∀ (c : CfgN 3 K) (q : SpecN.Par 3 K) (P : Fin 3 → Nat), Solver3 c q P → c.nIters = 2 → q.o = o → q.F = formulae3 o si te tiny →
      ∀ (psi0 : Sca 3 K) (GC : Vec 3 K), PeriodicN P psi0 → (∀ d, PeriodicN P (GC d)) →
      ∀ (m : MemN 3 K) (i : Idx 3), (∀ x, InGrid P x → m.psi x = psi0 x) → (∀ d x, InFaces P d x → m.GC d x = GC d x) →
        OnGridN P i m.psi m.GC q.st.G si te psi U G lam hx →
        |(runProgN c (fun _ => false) 1 { m with GC := prepGC c (solverHalo c.o) m.GC }).psi i - psi 0 (lam * hx)| ≤ M * hx ^ 3 := by
  obtain ⟨M, h0, hpos, hM⟩ := second_ref3 (ndt := fun _ _ _ => 0) (ndtt := fun _ _ _ => 0) (si := si) (te := te) h hu ⟨ha, hp.imp id fun e => e.2⟩ hf hnug (hp.imp id fun e => e.1)
    (by rcases hopt with ⟨h3, h4, h2⟩
        cases h5 : isset o oDiv2
        · exact Or.inr ⟨rfl, h3, h2.resolve_left (by simp [h5])⟩
        · exact Or.inl ⟨rfl, h3, h4⟩)
  refine ⟨M, h0, hpos, fun hx x0 x1 c q P hC hn ho hF psi0 GC p0 pG m i hm hg hO => ?_⟩
  have hxx : HaloCovered c.o c.nIters := by unfold HaloCovered; rw [hn]; simp
  rw [C21_cyclic_3d_is_periodic_partial c q P hC (by omega) hxx (fun _ => false) psi0 GC p0 pG m hm hg 1 i (fun d => by have := hO.inside d; omega), hn]
  show |SpecN.step q 2 psi0 GC i - _| ≤ _
  rw [step_sampledN (formulae3_good o si te tiny) ho hF hf hm hg hO (ndt := fun _ _ _ => 0) (ndtt := fun _ _ _ => 0) (by simp [hasNdt, hopt.1, hopt.2.1])]
  exact hM hx x0 x1

/-- C57, 3-D: third-order accuracy in any flow, as in 2-D, here also for `div_3rd_dt` with extrapolated Courant numbers. -/
theorem C57_third_order_3d (o : OptsT) (si : SptlIntrp) (te : TmprlExtrp) (tiny lam : K) (psi : (Fin 3 → K) → K → K) (U : Fin 3 → (Fin 3 → K) → K → K) (G : (Fin 3 → K) → K)
    (p : TS 3 K) (u : Fin 3 → TS 3 K) (g : TS 3 K) (h : AdvectsN psi U G p u g) (hu : ∀ d, lam * (u d).val ≠ 0)
    (hopt : isset o oDiv3 = true ∨ (isset o oDiv2 = true ∧ isset o oDiv3dt = true))
    (ha : isset o oAbs = false) (hf : isset o oFct = false) (hnug : isset o oNug = true ∨ ∀ x, G x = 1)
    (hp : isset o oIga = true ∨ (p.val ≠ 0 ∧ (isset o oPfc = true ∨ tiny = 0) ∧ ∀ d, |lam * (u d).val| * (p.dx d).val + lam * (u d).val * (lam * p.dt.val) ≠ 0))
    (ndt ndtt : K → Vec 3 K) (hn1 : ∀ d, NdtSampledN d (u d) lam (fun h => ndt h d)) (hn2 : ∀ d, NdttSampledN d (u d) lam (fun h => ndtt h d)) :
    ∃ M h0 : K, 0 < h0 ∧ ∀ hx, 0 < hx → hx ≤ h0 →
      ∀ (c : CfgN 3 K) (q : SpecN.Par 3 K) (P : Fin 3 → Nat), Solver3 c q P → c.nIters = 2 → q.o = o → q.F = formulae3 o si te tiny →
      ∀ (psi0 : Sca 3 K) (GC : Vec 3 K), PeriodicN P psi0 → (∀ d, PeriodicN P (GC d)) →
      ∀ (m : MemN 3 K) (i : Idx 3), (∀ x, InGrid P x → m.psi x = psi0 x) → (∀ d x, InFaces P d x → m.GC d x = GC d x) →
        OnGridN P i m.psi m.GC q.st.G si te psi U G lam hx →
        (∀ d k, Window k → k d ≤ 2 → q.st.ndt d (i + k) = ndt hx d k ∧ q.st.ndtt d (i + k) = ndtt hx d k) →
        |(runProgN c (fun _ => false) 1 { m with GC := prepGC c (solverHalo c.o) m.GC }).psi i - psi 0 (lam * hx)| ≤ M * hx ^ 4 := by
  obtain ⟨M, h0, hpos, hM⟩ := third_ref3 (ndt := ndt) (ndtt := ndtt) (si := si) (te := te) h hu ⟨ha, hp.imp id fun e => e.2.1⟩ hf hnug (hp.imp id fun e => ⟨e.1, e.2.2⟩)
    (by cases h3 : isset o oDiv3
        · exact Or.inr ⟨rfl, hopt.resolve_left (by simp [h3])⟩
        · exact Or.inl rfl) hn1 hn2
  refine ⟨M, h0, hpos, fun hx x0 x1 c q P hC hn ho hF psi0 GC p0 pG m i hm hg hO hN => ?_⟩
  have hxx : HaloCovered c.o c.nIters := by unfold HaloCovered; rw [hn]; simp
  rw [C21_cyclic_3d_is_periodic_partial c q P hC (by omega) hxx (fun _ => false) psi0 GC p0 pG m hm hg 1 i (fun d => by have := hO.inside d; omega), hn]
  show |SpecN.step q 2 psi0 GC i - _| ≤ _
  rw [step_sampledN (formulae3_good o si te tiny) ho hF hf hm hg hO (ndt := ndt) (ndtt := ndtt) (fun _ => hN)]
  exact hM hx x0 x1

/-! ## A concrete flow -/
section
omit [IsStrictOrderedRing K]
open MvPowerSeries (C X)
/-- series of an affine function -/
noncomputable def affTS (c : K) (b : Fin n → K) (e : K) : TS n K := C c + ∑ d, b d • X (some d) + e • X none
theorem affTS_dt (c : K) (b : Fin n → K) (e : K) : (affTS c b e).dt = C e := by
  simp [affTS, TS.dt, MvPowerSeries.pderiv_C, MvPowerSeries.smul_eq_C_mul]
theorem affTS_dx (c : K) (b : Fin n → K) (e : K) (d : Fin n) : (affTS c b e).dx d = C (b d) := by
  classical
  simp [affTS, TS.dx, MvPowerSeries.pderiv_C, MvPowerSeries.pderiv_X, MvPowerSeries.smul_eq_C_mul, Pi.single_apply]
theorem affTS_val (c : K) (b : Fin n → K) (e : K) : (affTS c b e).val = c := by
  simp [affTS, TS.val, MvPowerSeries.smul_eq_C_mul]
theorem dt_C (c : K) : TS.dt (C c : TS n K) = 0 := by simp [TS.dt, MvPowerSeries.pderiv_C]
theorem dx_C (c : K) (d : Fin n) : TS.dx d (C c : TS n K) = 0 := by simp [TS.dx, MvPowerSeries.pderiv_C]
end
theorem affTS_taylor (c : K) (b : Fin n → K) (e : K) : TaylorN (fun x t => c + ∑ d, b d * x d + e * t) (affTS c b e) := by
  refine ⟨0, 1, one_pos, fun x t _ _ => ?_⟩
  have a1 : along x t (affTS c b e) = MvPowerSeries.C (t * e + ∑ d, x d * b d) := by
    simp [along, affTS_dt, affTS_dx, MvPowerSeries.smul_eq_C_mul]
  have a2 : ∀ k : K, along x t (MvPowerSeries.C k : TS n K) = 0 := fun k => by simp [along, dt_C, dx_C]
  have a3 : along x t (0 : TS n K) = 0 := by rw [along_eq, map_zero]
  have v0 : (0 : TS n K).val = 0 := by simp [TS.val]
  have v1 : ∀ k : K, TS.val (MvPowerSeries.C k : TS n K) = k := fun k => by simp [TS.val]
  rw [poly3, a1, a2, a3, v0, v1, affTS_val, zero_mul, abs_nonpos_iff]
  simp only [mul_comm]; ring

/-- a solution for a divergent, unsteady flow and a variable G-factor in any dimension: with `S = 1 + Σ_d x_d`, `S ∂ψ/∂t + Σ_d ∂(Uψ)/∂x_d = 0` for `ψ = S + t`, `U = -(S - t) / (2n)` in each
direction -/
theorem exampleFlowN (hn : 0 < n) : AdvectsN (K := ℚ) (n := n) (fun x t => 1 + ∑ d, 1 * x d + 1 * t) (fun _ x t => -1 / (2 * n) + ∑ d, (-1 / (2 * n)) * x d + 1 / (2 * n) * t) (fun x => 1 + ∑ d, 1 * x d + 0 * 0)
    (affTS 1 (fun _ => 1) 1) (fun _ => affTS (-1 / (2 * n)) (fun _ => -1 / (2 * n)) (1 / (2 * n))) (affTS 1 (fun _ => 1) 0) := by
  refine ⟨affTS_taylor _ _ _, fun _ => affTS_taylor _ _ _, ?_, by rw [affTS_val]; exact one_ne_zero, by rw [affTS_dt, map_zero], ?_⟩
  · obtain ⟨M, r, hr, h⟩ := affTS_taylor (1 : ℚ) (fun _ : Fin n => 1) 0
    refine ⟨M, r, hr, fun x t hx ht => ?_⟩
    simpa using h x t hx ht
  · have l : ∀ (d : Fin n) (a b : TS n ℚ), (a * b).dx d = a * b.dx d + b * a.dx d := fun d a b => by simp [TS.dx, Derivation.leibniz]
    simp only [l, affTS_dt, affTS_dx, Finset.sum_const, Finset.card_univ, Fintype.card_fin, nsmul_eq_mul]
    have hn' : (n : ℚ) ≠ 0 := by exact_mod_cast hn.ne'
    have e : (MvPowerSeries.C (-1 / (2 * (n : ℚ))) : TS n ℚ) * (n : TS n ℚ) = MvPowerSeries.C (-1 / 2 : ℚ) := by
      rw [← map_natCast (MvPowerSeries.C (R := ℚ)), ← map_mul]; congr 1; field_simp
    have e2 : (affTS (-1 / (2 * (n : ℚ))) (fun _ => -1 / (2 * (n : ℚ))) (1 / (2 * (n : ℚ))) : TS n ℚ) = MvPowerSeries.C (-1 / (2 * (n : ℚ))) * affTS 1 (fun _ => 1) (-1) := by
      simp only [affTS, MvPowerSeries.smul_eq_C_mul, map_one, one_mul, mul_add, Finset.mul_sum, mul_one, ← mul_assoc, ← map_mul]
      congr 3; ring
    have e3 : (affTS 1 (fun _ => 1) (-1) : TS n ℚ) + affTS 1 (fun _ => 1) 1 = 2 * affTS 1 (fun _ => 1) 0 := by
      simp only [affTS, MvPowerSeries.smul_eq_C_mul, map_one, map_neg, map_zero]; ring
    have e4 : (2 : TS n ℚ) * MvPowerSeries.C (-1 / 2 : ℚ) = -1 := by
      rw [show (2 : TS n ℚ) = MvPowerSeries.C (2 : ℚ) from (map_ofNat _ 2).symm, ← map_mul]; norm_num
    rw [e2, map_one]
    linear_combination (affTS 1 (fun _ => 1) (-1) + affTS 1 (fun _ => 1) 1) * e + MvPowerSeries.C (-1 / 2 : ℚ) * e3 + affTS 1 (fun _ => 1) 0 * e4

/-! ## Programs for any flow: 21 points in each direction, the assessed point in the middle, everything continued periodically -/
def fold20 (f : Sca n ℚ) : Sca n ℚ := fun x => f (fun d => x d % 20 - 10)
theorem fold20_per (f : Sca n ℚ) : PeriodicN (fun _ => 20) (fold20 f) := by
  intro x d
  refine congrArg f (funext fun e => ?_)
  by_cases h : e = d
  · subst h; simp [stepIdx]
  · simp [stepIdx, h]
theorem fold20_mid (f : Sca n ℚ) {k : Idx n} (hk : Window k) : fold20 f ((fun _ => 10) + k) = f k := by
  refine congrArg f (funext fun e => ?_)
  have := hk e
  simp only [Pi.add_apply]; omega

def flowStat (G : (Fin n → ℚ) → ℚ) (ndt ndtt : ℚ → Vec n ℚ) (h : ℚ) : Stat n ℚ :=
  ⟨fold20 (fun x => G (fun d => x d * h)), fun d => fold20 (ndt h d), fun d => fold20 (ndtt h d)⟩
def flowCfg (F : Formulae n ℚ) (o : OptsT) (ds : List (Fin n)) (G : (Fin n → ℚ) → ℚ) (ndt ndtt : ℚ → Vec n ℚ) (h : ℚ) : CfgN n ℚ :=
  { cycCfg F o 2 (fun _ => 20) ds with st := flowStat G ndt ndtt h }
def flowPar (F : Formulae n ℚ) (o : OptsT) (G : (Fin n → ℚ) → ℚ) (ndt ndtt : ℚ → Vec n ℚ) (h : ℚ) : SpecN.Par n ℚ := ⟨o, 1/1000, F, flowStat G ndt ndtt h⟩
def flowPsi (psi : (Fin n → ℚ) → ℚ → ℚ) (h : ℚ) : Sca n ℚ := fold20 (fun x => psi (fun d => x d * h) 0)
def flowGC (si : SptlIntrp) (te : TmprlExtrp) (U : Fin n → (Fin n → ℚ) → ℚ → ℚ) (lam h : ℚ) : Vec n ℚ := fun d => fold20 (gcSampleN si te (U d) lam h d)

theorem flow_setup (F : Formulae n ℚ) (o : OptsT) (ho : solverHalo o ≤ 20) (ds : List (Fin n)) (hds : ds.Nodup ∧ ∀ d, d ∈ ds) (G : (Fin n → ℚ) → ℚ) (ndt ndtt : ℚ → Vec n ℚ) (h : ℚ) :
    CyclicSetupN (flowCfg F o ds G ndt ndtt h) (flowPar F o G ndt ndtt h) (fun _ => 20) ds :=
  ⟨rfl, rfl, rfl, fun _ => rfl, fun _ => ho, hds, rfl, fun _ => rfl, fun _ => rfl, fold20_per (fun x => G (fun d => x d * h)), fun d => fold20_per (ndt h d), fun d => fold20_per (ndtt h d), fun _ _ => rfl, fun _ _ _ => rfl, fun _ _ _ => rfl⟩

theorem flow_onGrid (F : Formulae n ℚ) (o : OptsT) (si : SptlIntrp) (te : TmprlExtrp) (psi : (Fin n → ℚ) → ℚ → ℚ) (U : Fin n → (Fin n → ℚ) → ℚ → ℚ) (G : (Fin n → ℚ) → ℚ)
    (ndt ndtt : ℚ → Vec n ℚ) (lam h : ℚ) :
    OnGridN (fun _ => 20) (fun _ => 10) (demoMemN (flowPsi psi h) (flowGC si te U lam h) 7).psi (demoMemN (flowPsi psi h) (flowGC si te U lam h) 7).GC (flowPar F o G ndt ndtt h).st.G si te psi U G lam h ∧
    ∀ d k, Window k → k d ≤ 2 → (flowPar F o G ndt ndtt h).st.ndt d ((fun _ => 10) + k) = ndt h d k ∧ (flowPar F o G ndt ndtt h).st.ndtt d ((fun _ => 10) + k) = ndtt h d k :=
  ⟨⟨fun _ => by norm_num, fun _ hk => fold20_mid (fun x => psi (fun d => x d * h) 0) hk, fun d _ hk _ => fold20_mid (gcSampleN si te (U d) lam h d) hk, fun _ hk => fold20_mid (fun x => G (fun d => x d * h)) hk⟩,
    fun d _ hk _ => ⟨fold20_mid (ndt h d) hk, fold20_mid (ndtt h d) hk⟩⟩

/-- the hypotheses of C56 and C57 on the program hold for any flow and any grid spacing, with all admissible options -/
example (o : OptsT) (ho : solverHalo o ≤ 20) (hf : isset o oFot = true → isset o oTot = true ∨ isset o oDiv3 = true) (si : SptlIntrp) (te : TmprlExtrp) (tiny : ℚ) (psi : (Fin 2 → ℚ) → ℚ → ℚ)
    (U : Fin 2 → (Fin 2 → ℚ) → ℚ → ℚ) (G : (Fin 2 → ℚ) → ℚ) (ndt ndtt : ℚ → Vec 2 ℚ) (lam h : ℚ) :
    let c := flowCfg (formulae2 o si te tiny) o [0, 1] G ndt ndtt h
    let q := flowPar (formulae2 o si te tiny) o G ndt ndtt h
    let m := demoMemN (flowPsi psi h) (flowGC si te U lam h) 7
    Solver2 c q (fun _ => 20) ∧ c.nIters = 2 ∧ q.o = o ∧ q.F = formulae2 o si te tiny ∧ PeriodicN (fun _ => 20) (flowPsi psi h) ∧ (∀ d, PeriodicN (fun _ => 20) (flowGC si te U lam h d)) ∧
    OnGridN (fun _ => 20) (fun _ => 10) m.psi m.GC q.st.G si te psi U G lam h ∧
    ∀ d k, Window k → k d ≤ 2 → q.st.ndt d ((fun _ => 10) + k) = ndt h d k ∧ q.st.ndtt d ((fun _ => 10) + k) = ndtt h d k :=
  ⟨⟨flow_setup _ o ho [0, 1] (by decide) G ndt ndtt h, ⟨si, te, tiny, rfl⟩, hf⟩, rfl, rfl, rfl, fold20_per _, fun _ => fold20_per _, flow_onGrid _ o si te psi U G ndt ndtt lam h⟩

example (o : OptsT) (ho : solverHalo o ≤ 20) (si : SptlIntrp) (te : TmprlExtrp) (tiny : ℚ) (psi : (Fin 3 → ℚ) → ℚ → ℚ)
    (U : Fin 3 → (Fin 3 → ℚ) → ℚ → ℚ) (G : (Fin 3 → ℚ) → ℚ) (ndt ndtt : ℚ → Vec 3 ℚ) (lam h : ℚ) :
    let c := flowCfg (formulae3 o si te tiny) o [1, 0, 2] G ndt ndtt h
    let q := flowPar (formulae3 o si te tiny) o G ndt ndtt h
    let m := demoMemN (flowPsi psi h) (flowGC si te U lam h) 7
    Solver3 c q (fun _ => 20) ∧ c.nIters = 2 ∧ q.o = o ∧ q.F = formulae3 o si te tiny ∧ PeriodicN (fun _ => 20) (flowPsi psi h) ∧ (∀ d, PeriodicN (fun _ => 20) (flowGC si te U lam h d)) ∧
    OnGridN (fun _ => 20) (fun _ => 10) m.psi m.GC q.st.G si te psi U G lam h ∧
    ∀ d k, Window k → k d ≤ 2 → q.st.ndt d ((fun _ => 10) + k) = ndt h d k ∧ q.st.ndtt d ((fun _ => 10) + k) = ndtt h d k :=
  ⟨⟨flow_setup _ o ho [1, 0, 2] (by decide) G ndt ndtt h, ⟨si, te, tiny, rfl⟩⟩, rfl, rfl, rfl, fold20_per _, fun _ => fold20_per _, flow_onGrid _ o si te psi U G ndt ndtt lam h⟩

/-- the hypotheses of C56 and C57 on the flow hold for `exampleFlowN` (here in 2-D), also those of the basic scheme -/
example : (∀ d : Fin 2, (1 / 2 : ℚ) * ((fun _ => affTS (-1 / (2 * (2 : Nat))) (fun _ => -1 / (2 * (2 : Nat))) (1 / (2 * (2 : Nat))) : Fin 2 → TS 2 ℚ) d).val ≠ 0) ∧ (affTS 1 (fun _ => 1) 1 : TS 2 ℚ).val ≠ 0 ∧
    (∀ d : Fin 2, |(1 / 2 : ℚ) * (affTS (-1 / (2 * (2 : Nat))) (fun _ => -1 / (2 * (2 : Nat))) (1 / (2 * (2 : Nat))) : TS 2 ℚ).val| * (TS.dx d (affTS 1 (fun _ => 1) 1 : TS 2 ℚ)).val
      + 1 / 2 * (affTS (-1 / (2 * (2 : Nat))) (fun _ => -1 / (2 * (2 : Nat))) (1 / (2 * (2 : Nat))) : TS 2 ℚ).val * (1 / 2 * (TS.dt (affTS 1 (fun _ => 1) 1 : TS 2 ℚ)).val) ≠ 0) ∧
    (∀ o ∈ [oDfl ||| oNug ||| oPfc, oDiv2 ||| oNug ||| oPfc], isset o oDiv3 = false ∧ isset o oDiv3dt = false ∧ (isset o oDiv2 = true ∨ isset o oDfl = true) ∧ isset o oAbs = false ∧ isset o oFct = false ∧
      isset o oNug = true ∧ isset o oPfc = true) ∧
    (∀ o ∈ [oDiv2 ||| oDiv3 ||| oNug ||| oPfc, oDiv2 ||| oDiv3dt ||| oNug ||| oPfc], (isset o oDiv3 = true ∨ (isset o oDiv2 = true ∧ isset o oDiv3dt = true)) ∧ isset o oAbs = false ∧ isset o oFct = false ∧
      isset o oNug = true ∧ isset o oPfc = true) := by
  have hC : ∀ k : ℚ, TS.val (MvPowerSeries.C k : TS 2 ℚ) = k := fun k => by simp [TS.val]
  refine ⟨fun d => ?_, ?_, fun d => ?_, by decide, by decide⟩
  · rw [affTS_val]; norm_num
  · rw [affTS_val]; norm_num
  · rw [affTS_val, affTS_dx, affTS_dt, hC, abs_of_neg (by norm_num)]; norm_num

/-- time derivatives of Courant numbers that are affine in time, as announced: constant in space, second derivative zero -/
theorem affNdt (d : Fin n) (c : ℚ) (b : Fin n → ℚ) (e lam : ℚ) :
    NdtSampledN d (affTS c b e) lam (fun h _ => lam * lam * e * h) ∧ NdttSampledN d (affTS c b e) lam (fun _ _ => 0) := by
  refine ⟨⟨fun _ s => lam * lam * e * s, affTS 0 (fun _ => 0) (lam * lam * e), ?_, fun _ _ => rfl, ?_, ?_⟩, ⟨fun _ _ => 0, 0, ⟨0, 1, one_pos, fun x t _ _ => ?_⟩, fun _ _ => rfl, fun _ _ => rfl, fun _ _ => ?_, fun _ _ => ?_⟩⟩
  · simpa using affTS_taylor 0 (fun _ : Fin n => 0) (lam * lam * e)
  · intro m hm
    classical
    simp only [affTS, map_zero, zero_smul, Finset.sum_const_zero, add_zero, zero_add, MvPowerSeries.coeff_smul, MvPowerSeries.coeff_X]
    rw [if_neg (by rintro rfl; simp at hm), mul_zero]
  · intro m _
    rw [affTS_dt, affTS_dt]
    simp only [MvPowerSeries.coeff_smul, MvPowerSeries.coeff_C]
    split_ifs <;> ring
  · have a3 : along x t (0 : TS n ℚ) = 0 := by rw [along_eq, map_zero]
    simp [poly3, a3, TS.val]
  · simp [TS.dt]
  · rw [affTS_dt]; simp [TS.dt, MvPowerSeries.pderiv_C]

/-! ## `div_3rd_dt` with Courant numbers extrapolated in time, 2-D -/
/-- a flow that is uniform but accelerates: velocity `1 + t²` along the first axis and `1` along the second -/
def accelU (d : Fin 2) (_ : Fin 2 → ℚ) (t : ℚ) : ℚ := if d = 0 then 1 + t ^ 2 else 1
/-- a solution for that flow -/
def accelPsi (x : Fin 2 → ℚ) (t : ℚ) : ℚ := 1 + x 0 - (t + t ^ 3 / 3)
/-- squared time step times second time derivative of the Courant numbers (time step `h/2`) -/
def accelNdtt (h : ℚ) (d : Fin 2) (_ : Idx 2) : ℚ := if d = 0 then h ^ 2 / 4 else 0

theorem donorF_pos (o : OptsT) (a b : ℚ) {g : ℚ} (hg : 0 ≤ g) : donorF o a b g = g * a := by
  have : pospart o g = g := by unfold pospart; split_ifs <;> simp [abs_of_nonneg hg, max_eq_right hg]
  have h2 : negpart o g = 0 := by unfold negpart; split_ifs <;> simp [abs_of_nonneg hg, min_eq_left hg]
  rw [donorF, this, h2]; ring
theorem accel_first (tiny h g0 g1 : ℚ) (hg : 0 ≤ g0) (hg1 : 0 ≤ g1) (te : TmprlExtrp) :
    SpecN.first (sampledN (oIga ||| oDiv2 ||| oDiv3dt) (formulae2 (oIga ||| oDiv2 ||| oDiv3dt) .exact te tiny) (fun _ => 1) (fun _ _ _ => 0) accelNdtt h)
      (fun x => accelPsi (fun d => x d * h) 0) (fun d _ => if d = 0 then g0 else g1) = fun x => 1 + (x 0 - g0) * h := by
  funext x
  have o1 : isset (oIga ||| oDiv2 ||| oDiv3dt) oNug = false := by decide
  have o2 : isset (oIga ||| oDiv2 ||| oDiv3dt) oKhn = false := by decide
  simp only [SpecN.first, sampledN, formulae2, donorStep2, donorSum2, cur2, makeFluxN, o1, o2, gFac2]
  rw [donorF_pos _ _ _ (by simpa using hg), donorF_pos _ _ _ (by simpa using hg), donorF_pos _ _ _ (by simpa using hg1), donorF_pos _ _ _ (by simpa using hg1)]
  simp [accelPsi]; ring

/-- the corrective pass for this field -/
theorem accel_step (tiny h g0 g1 : ℚ) (hg : 0 ≤ g0) (hg1 : 0 ≤ g1) :
    SpecN.step (sampledN (oIga ||| oDiv2 ||| oDiv3dt) (formulae2 (oIga ||| oDiv2 ||| oDiv3dt) .exact .linear2 tiny) (fun _ => 1) (fun _ _ _ => 0) accelNdtt h) 2
      (fun x => accelPsi (fun d => x d * h) 0) (fun d _ => if d = 0 then g0 else g1) 0 = 1 - g0 * h - h ^ 3 / 96 := by
  have o1 : isset (oIga ||| oDiv2 ||| oDiv3dt) oNug = false := by decide
  have o2 : isset (oIga ||| oDiv2 ||| oDiv3dt) oKhn = false := by decide
  have o3 : isset (oIga ||| oDiv2 ||| oDiv3dt) oFct = false := by decide
  have o4 : isset (oIga ||| oDiv2 ||| oDiv3dt) oIga = true := by decide
  have o5 : isset (oIga ||| oDiv2 ||| oDiv3dt) oDiv2 = true := by decide
  have o6 : isset (oIga ||| oDiv2 ||| oDiv3dt) oDiv3 = false := by decide
  have o7 : isset (oIga ||| oDiv2 ||| oDiv3dt) oDiv3dt = true := by decide
  have o8 : isset (oIga ||| oDiv2 ||| oDiv3dt) oFot = false := by decide
  rw [show ∀ (p : SpecN.Par 2 ℚ) (a : Sca 2 ℚ) (b : Vec 2 ℚ), SpecN.step p 2 a b = SpecN.corrective p a (SpecN.first p a b) (SpecN.velocity p (SpecN.first p a b) a b) from fun _ _ _ => rfl]
  rw [accel_first tiny h g0 g1 hg hg1]
  have o9 : isset (oIga ||| oDiv2 ||| oDiv3dt) oAbs = false := by decide
  unfold SpecN.corrective SpecN.velocity
  simp only [sampledN, o3, o4, if_true, if_false, Bool.false_eq_true, formulae2, donorStep2, donorSum2, gFac2, o1, o2, cur2]
  simp only [antidiff2, o5, o6, o7, o8, Bool.true_or, if_true, if_false, Bool.false_eq_true, div2nd2, div3rd2, fot2, div3rdUpwind2, o4, div3rdSpatial2, div3rdSpatialHelper2, ndxxGC02, ndxGC02, ndxPsi2, ndxxPsi2, ndtxPsi2,
    ndtPsi2, nfdiv2, nfdivDt2, ndttGC02, psiBarX2, psiBarXY2, gBarX2, o1, gc0BarX2, gc1BarX2, view2, accelNdtt, vabs, o9, accelPsi]
  simp [stepIdx]
  ring

open MvPowerSeries (C X) in
/-- Taylor series of the accelerating flow and of the solution -/
noncomputable def accelu (d : Fin 2) : TS 2 ℚ := if d = 0 then C 1 + X none ^ 2 else C 1
open MvPowerSeries (C X) in
noncomputable def accelp : TS 2 ℚ := C 1 + X (some 0) - (X none + C (1 / 3) * X none ^ 3)

theorem dX (i : Option (Fin 2)) : MvPowerSeries.pderiv ℚ none (MvPowerSeries.X i : TS 2 ℚ) = if i = none then 1 else 0 := by
  classical
  rw [MvPowerSeries.pderiv_X]; rcases i with _ | i <;> simp [Pi.single_apply]
theorem dXs (d : Fin 2) (i : Option (Fin 2)) : MvPowerSeries.pderiv ℚ (some d) (MvPowerSeries.X i : TS 2 ℚ) = if i = some d then 1 else 0 := by
  classical
  rw [MvPowerSeries.pderiv_X]; rcases i with _ | i <;> simp [Pi.single_apply, eq_comm]

theorem accel_advects : AdvectsN accelPsi accelU (fun _ => 1) accelp accelu 1 := by
  have v1 : ∀ k : ℚ, TS.val (MvPowerSeries.C k : TS 2 ℚ) = k := fun k => by simp [TS.val]
  have a2 : ∀ x t (k : ℚ), along x t (MvPowerSeries.C k : TS 2 ℚ) = 0 := fun x t k => by simp [along, dt_C, dx_C]
  have a0 : ∀ x t, along x t (0 : TS 2 ℚ) = 0 := fun x t => by rw [along_eq, map_zero]
  have au : ∀ x t, along x t (MvPowerSeries.X none : TS 2 ℚ) = MvPowerSeries.C t := fun x t => by simp [along, TS.dt, TS.dx, dX, dXs, MvPowerSeries.smul_eq_C_mul]
  have ax : ∀ x t, along x t (MvPowerSeries.X (some 0) : TS 2 ℚ) = MvPowerSeries.C (x 0) := fun x t => by simp [along, TS.dt, TS.dx, dX, dXs, MvPowerSeries.smul_eq_C_mul]
  have vX : ∀ i, TS.val (MvPowerSeries.X i : TS 2 ℚ) = 0 := fun i => by simp [TS.val]
  have ap : ∀ x t (p q : TS 2 ℚ), along x t (p * q) = p * along x t q + q * along x t p := fun x t p q => by simp only [along_eq, Derivation.leibniz, smul_eq_mul]
  have aa : ∀ x t (p q : TS 2 ℚ), along x t (p + q) = along x t p + along x t q := fun x t p q => by simp only [along_eq, map_add]
  have as : ∀ x t (p q : TS 2 ℚ), along x t (p - q) = along x t p - along x t q := fun x t p q => by simp only [along_eq, map_sub]
  have va : ∀ p q : TS 2 ℚ, val (p + q) = val p + val q := fun p q => by simp [val]
  have vs : ∀ p q : TS 2 ℚ, val (p - q) = val p - val q := fun p q => by simp [val]
  have vm : ∀ p q : TS 2 ℚ, val (p * q) = val p * val q := fun p q => by simp [val]
  have v0 : val (0 : TS 2 ℚ) = 0 := by simp [val]
  refine ⟨⟨0, 1, one_pos, fun x t _ _ => ?_⟩, fun d => ⟨0, 1, one_pos, fun x t _ _ => ?_⟩, ⟨0, 1, one_pos, fun x t _ _ => ?_⟩, by simp [val], by simp [TS.dt], ?_⟩
  · rw [zero_mul, abs_nonpos_iff]
    simp only [poly3, accelp, pow_succ, pow_zero, one_mul, ap, aa, as, au, ax, a2, a0, va, vs, vm, v1, vX, v0, accelPsi]
    ring
  · rw [zero_mul, abs_nonpos_iff]
    unfold accelu accelU
    split_ifs <;> simp only [poly3, pow_succ, pow_zero, one_mul, ap, aa, as, au, ax, a2, a0, va, vs, vm, v1, vX, v0] <;> ring
  · rw [show (1 : TS 2 ℚ) = MvPowerSeries.C 1 from (map_one _).symm]
    rw [zero_mul, abs_nonpos_iff]
    simp only [poly3, a2, a0, v0, v1]; ring
  · have e : (3 : TS 2 ℚ) * MvPowerSeries.C (1 / 3 : ℚ) = 1 := by
      rw [show (3 : TS 2 ℚ) = MvPowerSeries.C (3 : ℚ) from (map_ofNat _ 3).symm, ← map_mul]; norm_num
    simp only [Fin.sum_univ_two, accelu, accelp, TS.dt, TS.dx, Derivation.leibniz, Derivation.leibniz_pow, map_add, map_sub, dX, dXs, MvPowerSeries.pderiv_C]
    simp only [one_div] at e ⊢
    simp
    linear_combination (-MvPowerSeries.X none ^ 2) * e

theorem accel_ndt (d : Fin 2) : NdtSampledN d (accelu d) (1 / 2) (fun _ _ => 0) ∧ NdttSampledN d (accelu d) (1 / 2) (fun h => accelNdtt h d) := by
  classical
  have a0 : ∀ x t, along x t (0 : TS 2 ℚ) = 0 := fun x t => by rw [along_eq, map_zero]
  have z : TaylorN (fun _ _ => 0) (0 : TS 2 ℚ) := ⟨0, 1, one_pos, fun x t _ _ => by simp [poly3, a0, TS.val]⟩
  have cX : ∀ m : Option (Fin 2) →₀ ℕ, m none = 0 → MvPowerSeries.coeff m (MvPowerSeries.X none : TS 2 ℚ) = 0 := fun m hm => by
    rw [MvPowerSeries.coeff_X, if_neg (by rintro rfl; simp at hm)]
  have cX2 : ∀ m : Option (Fin 2) →₀ ℕ, m none = 0 → MvPowerSeries.coeff m (MvPowerSeries.X none ^ 2 : TS 2 ℚ) = 0 := fun m hm => by
    rw [MvPowerSeries.coeff_X_pow, if_neg (by rintro rfl; simp at hm)]
  have d2 : TS.dt (MvPowerSeries.X none ^ 2 : TS 2 ℚ) = MvPowerSeries.C 2 * MvPowerSeries.X none := by
    rw [TS.dt, Derivation.leibniz_pow, dX, map_ofNat]; simp
  have d3 : TS.dt (MvPowerSeries.C 2 * MvPowerSeries.X none : TS 2 ℚ) = MvPowerSeries.C 2 := by
    rw [TS.dt, Derivation.leibniz, dX, MvPowerSeries.pderiv_C]; simp
  have du : TS.dt (accelu 0) = MvPowerSeries.C 2 * MvPowerSeries.X none := by
    rw [← d2]; simp [accelu, TS.dt, MvPowerSeries.pderiv_C]
  refine ⟨⟨fun _ _ => 0, 0, z, fun _ _ => rfl, fun _ _ => rfl, fun m hm => ?_⟩, ?_⟩
  · by_cases hd : d = 0
    · subst hd
      rw [du]
      simp [TS.dt, cX m hm]
    · simp [accelu, hd, TS.dt, MvPowerSeries.pderiv_C]
  · by_cases hd : d = 0
    · subst hd
      refine ⟨fun _ s => s ^ 2 / 4, (1 / 4 : ℚ) • MvPowerSeries.X none ^ 2, ?_, fun _ _ => by simp [accelNdtt], fun m hm => ?_, fun m hm => ?_, fun m hm => ?_⟩
      · have au : ∀ x t, along x t (MvPowerSeries.X none : TS 2 ℚ) = MvPowerSeries.C t := fun x t => by simp [along, TS.dt, TS.dx, dX, dXs, MvPowerSeries.smul_eq_C_mul]
        have a2 : ∀ x t (k : ℚ), along x t (MvPowerSeries.C k : TS 2 ℚ) = 0 := fun x t k => by simp [along, dt_C, dx_C]
        refine ⟨0, 1, one_pos, fun x t _ _ => ?_⟩
        have e1 : along x t ((1 / 4 : ℚ) • MvPowerSeries.X none ^ 2 : TS 2 ℚ) = (t / 2) • MvPowerSeries.X none := by
          rw [along_eq, Derivation.map_smul, Derivation.leibniz_pow, ← along_eq, au]
          simp only [MvPowerSeries.smul_eq_C_mul, smul_eq_mul, nsmul_eq_mul, Nat.add_one_sub_one, pow_one]
          rw [show ((2 : ℕ) : TS 2 ℚ) = MvPowerSeries.C 2 by rw [map_ofNat]; rfl, mul_comm (MvPowerSeries.X none), ← mul_assoc, ← mul_assoc, ← map_mul, ← map_mul]
          congr 2; ring
        have e2 : along x t ((t / 2) • MvPowerSeries.X none : TS 2 ℚ) = MvPowerSeries.C (t ^ 2 / 2) := by
          rw [along_eq, Derivation.map_smul, ← along_eq, au, MvPowerSeries.smul_eq_C_mul, ← map_mul]; congr 1; ring
        rw [zero_mul, abs_nonpos_iff, poly3, e1, e2, a2]
        simp [TS.val]; ring
      · simp [cX2 m hm]
      · rw [show TS.dt ((1 / 4 : ℚ) • MvPowerSeries.X none ^ 2 : TS 2 ℚ) = (1 / 4 : ℚ) • TS.dt (MvPowerSeries.X none ^ 2 : TS 2 ℚ) from Derivation.map_smul _ _ _, d2]
        simp [cX m hm]
      · rw [show TS.dt ((1 / 4 : ℚ) • MvPowerSeries.X none ^ 2 : TS 2 ℚ) = (1 / 4 : ℚ) • TS.dt (MvPowerSeries.X none ^ 2 : TS 2 ℚ) from Derivation.map_smul _ _ _, d2, du,
          show TS.dt ((1 / 4 : ℚ) • (MvPowerSeries.C 2 * MvPowerSeries.X none) : TS 2 ℚ) = (1 / 4 : ℚ) • TS.dt (MvPowerSeries.C 2 * MvPowerSeries.X none : TS 2 ℚ) from Derivation.map_smul _ _ _, d3]
        simp only [MvPowerSeries.coeff_smul, MvPowerSeries.coeff_C]
        split_ifs <;> norm_num
    · refine ⟨fun _ _ => 0, 0, z, fun _ _ => by simp [accelNdtt, hd], fun _ _ => rfl, fun m hm => ?_, fun m hm => ?_⟩
      · simp [TS.dt]
      · simp [accelu, hd, TS.dt, MvPowerSeries.pderiv_C]

/-- C57 fails in 2-D for `div_3rd_dt` with Courant numbers extrapolated in time (which the option accepts): the correction of the temporal truncation error (2-D formula of
formulae_mpdata_2d.hpp:220-239) does not depend on whether the Courant numbers are extrapolated. In a uniform accelerating flow and for a linear field all hypotheses hold, but the
error of a step is `3/32 * h^3`, for all grid spacings. -/
theorem C57_fails_div3dt_linear2_2d :
    let o := oIga ||| oDiv2 ||| oDiv3dt
    (AdvectsN accelPsi accelU (fun _ => 1) accelp accelu 1 ∧ (∀ d, (1 / 2 : ℚ) * (accelu d).val ≠ 0) ∧
      (∀ d, NdtSampledN d (accelu d) (1 / 2) (fun _ _ => 0)) ∧ ∀ d, NdttSampledN d (accelu d) (1 / 2) (fun h => accelNdtt h d)) ∧
    ¬ ∃ M h0 : ℚ, 0 < h0 ∧ ∀ hx, 0 < hx → hx ≤ h0 →
      ∀ (c : CfgN 2 ℚ) (q : SpecN.Par 2 ℚ) (P : Fin 2 → Nat), Solver2 c q P → c.nIters = 2 → q.o = o → q.F = formulae2 o .exact .linear2 0 →
      ∀ (psi0 : Sca 2 ℚ) (GC : Vec 2 ℚ), PeriodicN P psi0 → (∀ d, PeriodicN P (GC d)) →
      ∀ (m : MemN 2 ℚ) (i : Idx 2), (∀ x, InGrid P x → m.psi x = psi0 x) → (∀ d x, InFaces P d x → m.GC d x = GC d x) →
        OnGridN P i m.psi m.GC q.st.G .exact .linear2 accelPsi accelU (fun _ => 1) (1 / 2) hx →
        (∀ d k, Window k → k d ≤ 2 → q.st.ndt d (i + k) = 0 ∧ q.st.ndtt d (i + k) = accelNdtt hx d k) →
        |(runProgN c (fun _ => false) 1 { m with GC := prepGC c (solverHalo c.o) m.GC }).psi i - accelPsi 0 (1 / 2 * hx)| ≤ M * hx ^ 4 := by
  intro o
  refine ⟨⟨accel_advects, fun d => ?_, fun d => (accel_ndt d).1, fun d => (accel_ndt d).2⟩, ?_⟩
  · unfold accelu val; split_ifs <;> norm_num
  · rintro ⟨M, h0, hpos, H⟩
    have hfo : isset o oFot = true → isset o oTot = true ∨ isset o oDiv3 = true := by decide
    set hx : ℚ := min (min h0 1) (1 / (32 * (|M| + 1))) with hhx
    have hM : 0 < 32 * (|M| + 1) := by positivity
    have x0 : 0 < hx := lt_min (lt_min hpos one_pos) (by positivity)
    have x1 : hx ≤ h0 := (min_le_left _ _).trans (min_le_left _ _)
    have x2 : hx ≤ 1 := (min_le_left _ _).trans (min_le_right _ _)
    have x3 : hx * (32 * (|M| + 1)) ≤ 1 := by rw [← le_div_iff₀ hM]; exact min_le_right _ _
    have hO := flow_onGrid (formulae2 o .exact .linear2 0) o .exact .linear2 accelPsi accelU (fun _ => 1) (fun _ _ _ => 0) accelNdtt (1 / 2) hx
    have hS : Solver2 (flowCfg (formulae2 o .exact .linear2 0) o [0, 1] (fun _ => 1) (fun _ _ _ => 0) accelNdtt hx) (flowPar (formulae2 o .exact .linear2 0) o (fun _ => 1) (fun _ _ _ => 0) accelNdtt hx) (fun _ => 20) :=
      ⟨flow_setup _ o (by decide) [0, 1] (by decide) _ _ _ hx, ⟨_, _, _, rfl⟩, by exact hfo⟩
    have e := H hx x0 x1 _ _ _ hS rfl rfl rfl (flowPsi accelPsi hx) (flowGC .exact .linear2 accelU (1 / 2) hx) (fold20_per _) (fun _ => fold20_per _) (demoMemN (flowPsi accelPsi hx) (flowGC .exact .linear2 accelU (1 / 2) hx) 7)
      (fun _ => 10) (fun _ _ => rfl) (fun _ _ _ => rfl) hO.1 hO.2
    rw [C21_cyclic_2d_is_periodic_partial _ _ _ hS (show 1 ≤ 2 by decide) (by unfold HaloCovered; left; exact le_refl 2) (fun _ => false) (flowPsi accelPsi hx) (flowGC .exact .linear2 accelU (1 / 2) hx) (fold20_per _) (fun _ => fold20_per _) _
      (fun _ _ => rfl) (fun _ _ _ => rfl) 1 (fun _ => 10) (fun d => by norm_num)] at e
    have e2 : SpecN.step (flowPar (formulae2 o .exact .linear2 0) o (fun _ => 1) (fun _ _ _ => 0) accelNdtt hx) 2 (flowPsi accelPsi hx) (flowGC .exact .linear2 accelU (1 / 2) hx) (fun _ => 10) = 1 - (1 / 2 - hx ^ 2 / 16) * hx - hx ^ 3 / 96 := by
      rw [step_sampledN (psi0 := flowPsi accelPsi hx) (GC := flowGC .exact .linear2 accelU (1 / 2) hx) (formulae2_good o .exact .linear2 0 hfo) rfl rfl (by decide) (fun _ _ => rfl) (fun _ _ _ => rfl) hO.1 (ndt := fun _ _ _ => 0) (ndtt := accelNdtt) (fun _ => hO.2)]
      rw [← accel_step 0 hx (1 / 2 - hx ^ 2 / 16) (1 / 2) (by nlinarith) (by norm_num)]
      congr 1
      funext d x
      simp only [gcSampleN, accelU]
      split_ifs <;> ring
    change |SpecN.step _ 2 (flowPsi accelPsi hx) _ _ - _| ≤ _ at e
    rw [e2] at e
    have e3 : 1 - (1 / 2 - hx ^ 2 / 16) * hx - hx ^ 3 / 96 - accelPsi 0 (1 / 2 * hx) = 3 / 32 * hx ^ 3 := by simp [accelPsi]; ring
    rw [e3, abs_of_pos (by positivity)] at e
    have e4 : M * hx ^ 4 ≤ 1 / 32 * hx ^ 3 := by
      have : M * hx ≤ 1 / 32 := by nlinarith [le_abs_self M]
      nlinarith [pow_pos x0 3]
    nlinarith [pow_pos x0 3]
end Mpdata
