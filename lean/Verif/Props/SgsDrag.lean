import Verif.Lemmas.SgsDrag
import Verif.Props.Stress
import Mathlib.Tactic.NormNum
import Mathlib.Algebra.BigOperators.Fin
import Mathlib.Analysis.Real.Sqrt
/-! # C71: subgrid-scale forces with walls and surface drag: momentum and energy -/
namespace Mpdata
namespace Drag
open Heat (mem_grid step_add step_zero step_mem facePts faceW)
section
variable {n : Nat} [NeZero n] {K : Type} [Field K] [LinearOrder K] [IsStrictOrderedRing K] {c : Cfg n K} {P : Fin n → Nat}

/-- C71, drag law: on every face of the ground the surface stress is drag coefficient times density times wind speed times wind component -/
theorem C71_drag_law (h : Domain c P) (hs : IsRoot c) (m : Mem n K) {d : Fin n} (hd : d ≠ c.z) {x : Idx n} (hx : x ∈ groundFaces P c.z d) :
    (forces c m).srfc d x = dragLaw c m.v d x := by
  obtain ⟨hg, hz, hxd⟩ := Finset.mem_filter.1 hx
  exact srfc_law h hs m hd hg hz hxd

theorem drag_sum (h : Domain c P) (hs : IsRoot c) (m : Mem n K) {d : Fin n} (hd : d ≠ c.z) (φ : Sca n K) :
    (if d ≠ c.z ∧ c.B.kl c.z = .gndsky then (∑ x ∈ groundFaces P c.z d, (edgeW P d c.z x : K) * ((forces c m).srfc d x * mean d φ x)) / c.dx c.z else 0) =
      (∑ x ∈ groundFaces P c.z d, edgeW P d c.z x * (groundStress c m.v d x * mean d φ x)) / c.dx c.z := by
  by_cases hg : c.B.kl c.z = .gndsky
  · rw [if_pos ⟨hd, hg⟩]
    refine congrArg (· / c.dx c.z) (Finset.sum_congr rfl fun x hx => ?_)
    rw [C71_drag_law h hs m hd hx]
    unfold groundStress
    rw [if_pos hg]
  · rw [if_neg fun h' => hg h'.2, Finset.sum_eq_zero, zero_div]
    intro x _
    unfold groundStress
    rw [if_neg hg]
    ring

/-- C71, momentum: whatever the flow, the viscosity and the contents of memory, the subgrid-scale forces change the total of a horizontal momentum component (along cyclic sides) by minus
the drag on the ground and by nothing else: viscous stresses only redistribute momentum; walls, sky and a plain bottom take none. (`vip_rhs` enters the velocity times half the time step, hence
the factor 2.) -/
theorem C71_momentum_budget (h : Domain c P) (hs : IsRoot c) (m : Mem n K) (hkm : IsBsq c → ∀ b, Closes c P ((forces c m).km b)) (hv : ∀ e, Closes c P (m.v e)) {d : Fin n} (hd : c.B.kl d = .cyclic) :
    ∑ x ∈ gridPts P, trapW P x * (c.rho x * ((forces c m).rhs d x - m.rhs d x)) = -2 * ((∑ x ∈ groundFaces P c.z d, edgeW P d c.z x * groundStress c m.v d x) / c.dx c.z) := by
  have hw := weak_form h m hkm hv d (fun _ => 1) (fun _ _ _ _ _ => rfl) (fun hk => absurd hd hk)
  rw [drag_sum h hs m (h.cyc hd).2] at hw
  simp only [one_mul] at hw
  rw [hw]
  have e1 : ∑ x ∈ facePts P d, (faceW P d x : K) * (T c m d d x * ((1 - 1) / c.dx d)) = 0 := Finset.sum_eq_zero fun x _ => by ring
  have e2 : (∑ e, if e = d then (0 : K) else ∑ x ∈ edgePts P d e, (edgeW P d e x : K) * (T c m d e x * slope c d e (fun _ => 1) x)) = 0 := by
    refine Finset.sum_eq_zero fun e _ => ?_
    split
    · rfl
    · exact Finset.sum_eq_zero fun x _ => by unfold slope; ring
  rw [e1, e2, add_zero, add_zero]
  congr 2
  refine Finset.sum_congr rfl fun x _ => ?_
  unfold mean
  ring

/-- C71, free slip: without drag the total of a horizontal momentum component is not changed at all -/
theorem C71_free_slip (h : Domain c P) (hs : IsRoot c) (m : Mem n K) (hkm : IsBsq c → ∀ b, Closes c P ((forces c m).km b)) (hv : ∀ e, Closes c P (m.v e)) {d : Fin n} (hd : c.B.kl d = .cyclic) (h0 : c.cdrag = 0 ∨ c.B.kl c.z = .rigid) :
    ∑ x ∈ gridPts P, trapW P x * (c.rho x * ((forces c m).rhs d x - m.rhs d x)) = 0 := by
  rw [C71_momentum_budget h hs m hkm hv hd, Finset.sum_eq_zero, zero_div, mul_zero]
  intro x _
  unfold groundStress dragLaw
  rcases h0 with h0 | h0
  · rw [h0]; split <;> ring
  · rw [h0, if_neg (by decide), mul_zero]

/-! ### energy -/

/-- with uniform density there is no divergence to subtract -/
theorem div_zero (h : Domain c P) (hu : Uniform c) (m : Mem n K) {x : Idx n} (hx : ∀ e, e ≠ c.z → 0 ≤ x e ∧ x e ≤ P e) (hz : -1 ≤ x c.z ∧ x c.z ≤ P c.z) : (forces c m).div x = 0 := by
  have hb := h.toBox
  rw [forces_div]
  show xchngSgsDiv c.B c.z c.lat (asgN (cellBox c.B.b) (if c.nug then vipDiv c.z c.dx (xchngVip c m).v c.G else fun _ => 0) (xchngVip c m).div) x = 0
  have h0 : ∀ y ∈ gridPts P, asgN (cellBox c.B.b) (if c.nug then vipDiv c.z c.dx (xchngVip c m).v c.G else fun _ => 0) (xchngVip c m).div y = 0 := by
    intro y hy
    rw [asgN_of (h.inBox.2 hy)]
    by_cases hn : c.nug = true
    · rw [if_pos hn]
      unfold vipDiv
      rw [hu hn (stepIdx y c.z 1) y]
      ring
    · rw [if_neg hn]
  generalize asgN (cellBox c.B.b) (if c.nug then vipDiv c.z c.dx (xchngVip c m).v c.G else fun _ => 0) (xchngVip c m).div = a at h0
  unfold xchngSgsDiv
  -- the vertical
  have h1 : ∀ y : Idx n, (∀ e, e ≠ c.z → 0 ≤ y e ∧ y e ≤ P e) → -1 ≤ y c.z ∧ y c.z ≤ P c.z → fillSgsDivStgr c.B c.z a y = 0 := by
    intro y hy hyz
    have h2 := h.two c.z
    have hf := hb.f c.z
    have hl := hb.l c.z
    have hkr : c.B.kr c.z ≠ .cyclic := by rcases h.top with ht | ht <;> rw [ht] <;> decide
    have hg : ∀ j : Int, 0 ≤ y c.z + j → y c.z + j ≤ P c.z → a (stepIdx y c.z j) = 0 := fun j j1 j2 => h0 _ (mem_grid.2 fun e => by
      by_cases he : e = c.z
      · subst he; rw [stepIdx_self]; omega
      · rw [stepIdx_other y he]; exact hy e he)
    have hO : Ot c.B.b c.z (fun _ => 0) (fun _ => 0) y := hb.ot _ _ _ fun e he => by have := hy e he; omega
    unfold fillSgsDivStgr
    by_cases e1 : y c.z = -1
    · unfold fillFace
      rw [asgN_of_not (by rintro ⟨h', -⟩; rw [if_neg hkr] at h'; omega), asgN_of ⟨by rw [if_neg h.zwall]; omega, hO⟩, if_neg h.zwall]
      beta_reduce
      rw [hg 1 (by omega) (by omega), hg 2 (by omega) (by omega)]; ring
    · by_cases e2 : y c.z = P c.z
      · unfold fillFace
        rw [asgN_of ⟨by rw [if_neg hkr]; omega, hO⟩, if_neg hkr]
        beta_reduce
        rw [asgN_of_not (by rintro ⟨h', -⟩; rw [if_neg h.zwall, stepIdx_self] at h'; omega), asgN_of_not (by rintro ⟨h', -⟩; rw [if_neg h.zwall, stepIdx_self] at h'; omega),
          hg (-1) (by omega) (by omega), hg (-2) (by omega) (by omega)]; ring
      · rw [fillFace_keeps _ _ _ _ _ _ _ _ (by omega)]
        have := hg 0 (by omega) (by omega)
        rwa [step_zero] at this
  -- the sides
  generalize fillSgsDivStgr c.B c.z a = b at h1
  have hlat := h.lateral
  generalize c.lat = lat at hlat
  induction lat generalizing b with
  | nil => exact h1 x hx hz
  | cons d lat ih =>
    rw [List.foldl_cons]
    refine ih _ ?_ (fun e he => hlat e (List.mem_cons_of_mem _ he))
    intro y hy hyz
    have hdz := hlat d List.mem_cons_self
    have h2 := h.two d
    have hf := hb.f d
    have hl := hb.l d
    have hyd := hy d hdz
    unfold fillSgsDiv
    have hleft : ∀ j : Int, 0 ≤ y d + j → asgN (fun x => (if c.B.kl d = .cyclic then c.B.f d - c.B.halo ≤ x d ∧ x d ≤ c.B.f d - 1 else x d = c.B.f d - 1)
          ∧ Ot c.B.b d (fun e => if e = c.z then 1 else 0) (fun _ => 0) x)
        (fun x => if c.B.kl d = .cyclic then b (stepIdx x d (c.B.l d - c.B.f d)) else 2 * b (stepIdx x d 1) - b (stepIdx x d 2)) b (stepIdx y d j) = b (stepIdx y d j) := by
      intro j hj
      rw [asgN_of_not]
      rintro ⟨h', -⟩
      rw [stepIdx_self] at h'
      split at h' <;> omega
    have hb0 : ∀ j : Int, 0 ≤ y d + j → y d + j ≤ P d → b (stepIdx y d j) = 0 := fun j j1 j2 => h1 _ (fun e he => by
      by_cases hed : e = d
      · subst hed; rw [stepIdx_self]; omega
      · rw [stepIdx_other y hed]; exact hy e he) (by rw [stepIdx_other y (Ne.symm hdz)]; exact hyz)
    by_cases hc : (if c.B.kr d = .cyclic then c.B.l d + 1 ≤ y d ∧ y d ≤ c.B.l d + c.B.halo else y d = c.B.l d) ∧ Ot c.B.b d (fun e => if e = c.z then 1 else 0) (fun _ => 0) y
    · rw [asgN_of hc]
      have hc1 := hc.1
      by_cases hk : c.B.kr d = .cyclic
      · rw [if_pos hk] at hc1; omega
      · rw [if_neg hk] at hc1
        rw [if_neg hk, hleft (-1) (by omega), hleft (-2) (by omega), hb0 (-1) (by omega) (by omega), hb0 (-2) (by omega) (by omega)]; ring
    · rw [asgN_of_not hc]
      have := hleft 0 (by omega)
      rw [step_zero] at this
      rw [this]
      exact h1 y hy hyz

theorem deform_diag (h : Domain c P) (hu : Uniform c) (m : Mem n K) {d : Fin n} {x : Idx n} (hx : x ∈ facePts P d) :
    deformCmpct c.z c.dx (forces c m).v (forces c m).div d d x = 2 * stretch c m.v d x := by
  obtain ⟨hg, hd⟩ := Finset.mem_filter.1 hx
  have hm := mem_grid.1 hg
  have hx1 : stepIdx x d 1 ∈ gridPts P := step_mem hg (by have := hm d; omega)
  have hm1 := mem_grid.1 hx1
  have hdv : ∀ y ∈ gridPts P, (forces c m).div y = 0 ∧ (forces c m).div (stepIdx y c.z (-1)) = 0 := fun y hy => by
    have hy' := mem_grid.1 hy
    refine ⟨div_zero h hu m (fun e _ => hy' e) (by have := hy' c.z; omega), div_zero h hu m (fun e he => ?_) ?_⟩
    · rw [stepIdx_other y he]; exact hy' e
    · rw [stepIdx_self]; have := hy' c.z; omega
  unfold deformCmpct deformDiag stretch
  rw [if_pos rfl, v_in h m d hg, v_in h m d hx1, (hdv x hg).1, (hdv x hg).2, (hdv _ hx1).1, (hdv _ hx1).2]
  split <;> ring

theorem deform_off (h : Domain c P) (m : Mem n K) {d e : Fin n} (hde : d ≠ e) {x : Idx n} (hx : x ∈ edgePts P d e) :
    deformCmpct c.z c.dx (forces c m).v (forces c m).div d e x = shear c m.v d e x := by
  obtain ⟨hg, hd, he⟩ := Finset.mem_filter.1 hx
  have hm := mem_grid.1 hg
  have g1 : stepIdx x d 1 ∈ gridPts P := step_mem hg (by have := hm d; omega)
  have g2 : stepIdx x e 1 ∈ gridPts P := step_mem hg (by have := hm e; omega)
  have g3 : stepIdx (stepIdx x d 1) e 1 ∈ gridPts P := step_mem g1 (by rw [stepIdx_other x hde.symm]; have := hm e; omega)
  unfold deformCmpct deformOff shear slope
  rw [if_neg hde, step_comm x hde.symm, v_in h m d hg, v_in h m d g1, v_in h m d g2, v_in h m d g3, v_in h m e hg, v_in h m e g1, v_in h m e g2, v_in h m e g3]
  ring

theorem pair_sum (f : Fin n → Fin n → K) : (∑ d, ∑ e, if e = d then 0 else f d e) = ∑ d, ∑ e, if d < e then f d e + f e d else 0 := by
  have h1 : ∀ d e, (if e = d then 0 else f d e) = (if d < e then f d e else 0) + (if e < d then f d e else 0) := by
    intro d e
    rcases lt_trichotomy d e with h | h | h
    · rw [if_neg h.ne', if_pos h, if_neg (not_lt.2 h.le), add_zero]
    · subst h; rw [if_pos rfl, if_neg (lt_irrefl d), add_zero]
    · rw [if_neg h.ne, if_neg (not_lt.2 h.le), if_pos h, zero_add]
  have h2 : ∀ d e, (if d < e then f d e + f e d else 0) = (if d < e then f d e else 0) + (if d < e then f e d else 0) := by
    intro d e; split <;> simp
  simp only [h1, h2, Finset.sum_add_distrib]
  congr 1
  exact Finset.sum_comm

/-- C71, energy: with uniform density and velocities that vanish across walls, the work of the subgrid-scale forces is minus the work done against the drag on the ground, minus the viscous
dissipation: viscosity times twice the squared stretching on every face, times the squared shear on every edge. -/
theorem C71_energy (h : Domain c P) (hs : IsRoot c) (hu : Uniform c) (m : Mem n K) (hkm : IsBsq c → ∀ b, Closes c P ((forces c m).km b)) (hv : ∀ e, Closes c P (m.v e)) (h0 : ∀ d, NoFlow c P d (m.v d)) :
    ∑ d, ∑ x ∈ gridPts P, trapW P x * (m.v d x * (c.rho x * ((forces c m).rhs d x - m.rhs d x))) =
      -2 * ((∑ d, if d = c.z then 0 else (∑ x ∈ groundFaces P c.z d, edgeW P d c.z x * (groundStress c m.v d x * mean d (m.v d) x)) / c.dx c.z)
        + (∑ d, ∑ x ∈ facePts P d, faceW P d x * (viscAt c (forces c m).km d d x * (2 * stretch c m.v d x ^ 2)))
        + ∑ d, ∑ e, if d < e then ∑ x ∈ edgePts P d e, edgeW P d e x * (viscAt c (forces c m).km d e x * shear c m.v d e x ^ 2) else 0) := by
  have hd : ∀ d ∈ (Finset.univ : Finset (Fin n)), ∑ x ∈ gridPts P, trapW P x * (m.v d x * (c.rho x * ((forces c m).rhs d x - m.rhs d x))) =
      -2 * ((if d = c.z then 0 else (∑ x ∈ groundFaces P c.z d, edgeW P d c.z x * (groundStress c m.v d x * mean d (m.v d) x)) / c.dx c.z)
        + (∑ x ∈ facePts P d, faceW P d x * (viscAt c (forces c m).km d d x * (2 * stretch c m.v d x ^ 2)))
        + ∑ e, if e = d then 0 else ∑ x ∈ edgePts P d e, edgeW P d e x * (T c m d e x * slope c d e (m.v d) x)) := by
    intro d _
    rw [weak_form h m hkm hv d (m.v d) (hv d) (h0 d)]
    congr 3
    · by_cases hdz : d = c.z
      · rw [if_pos hdz, if_neg fun h' => h'.1 hdz]
      · rw [drag_sum h hs m hdz, if_neg hdz]
    · refine Finset.sum_congr rfl fun x hx => ?_
      obtain ⟨hg, hxd⟩ := Finset.mem_filter.1 hx
      rw [T_in h m hg hxd hxd, deform_diag h hu m hx]
      unfold stretch
      ring
  rw [Finset.sum_congr rfl hd, ← Finset.mul_sum, Finset.sum_add_distrib, Finset.sum_add_distrib,
    pair_sum fun d e => ∑ x ∈ edgePts P d e, edgeW P d e x * (T c m d e x * slope c d e (m.v d) x)]
  congr 2
  refine Finset.sum_congr rfl fun d _ => Finset.sum_congr rfl fun e _ => ?_
  by_cases hlt : d < e
  · rw [if_pos hlt, if_pos hlt]
    have hE : edgePts P e d = edgePts P d e := by unfold edgePts; exact Finset.filter_congr fun x _ => and_comm
    rw [hE, ← Finset.sum_add_distrib]
    refine Finset.sum_congr rfl fun x hx => ?_
    obtain ⟨hg, hxd, hxe⟩ := Finset.mem_filter.1 hx
    rw [edgeW_comm e d, T_comm m e d, T_in h m hg hxd hxe, deform_off h m hlt.ne hx]
    unfold shear
    ring
  · rw [if_neg hlt, if_neg hlt]

/-- the eddy viscosity is nowhere negative -/
theorem km_nonneg (h : Domain c P) (m : Mem n K) (b : Bool) (hc : (∃ s, c.visc = .smg s ∧ b = false) ∨ ∃ s, c.visc = .ani s) {x : Idx n} (hx : x ∈ gridPts P) : 0 ≤ (forces c m).km b x := by
  rw [forces_km]
  unfold setKm
  rcases hc with ⟨s, hc, rfl⟩ | ⟨s, hc⟩ <;> rw [hc]
  · show 0 ≤ asgN _ _ _ x
    rw [asgN_of (h.inBox.2 hx)]
    unfold smgKm
    exact mul_nonneg (sq_nonneg _) (C42_tdef_nonneg _ _).2
  · show 0 ≤ asgN _ _ _ x
    rw [asgN_of (h.inBox.2 hx)]
    unfold aniKm
    exact mul_nonneg (sq_nonneg _) (C42_tdef_nonneg _ _).2

/-- The anisotropic model differs from the isotropic one in the length scale only: the isotropic one takes a third of the sum of all grid intervals, the anisotropic one takes the vertical
interval for vertical shear and the mean horizontal interval for everything else. -/
theorem C71_anisotropy (h : Domain c P) (m : Mem n K) (s : K) (hc : c.visc = .ani s) {x : Idx n} (hx : x ∈ gridPts P) :
    ∃ t : K, 0 ≤ t ∧ (forces { c with visc := .smg s } m).km false x = (s * ((∑ d, c.dx d) / 3)) ^ 2 * t ∧
      (forces c m).km true x = (s * c.dx c.z) ^ 2 * t ∧ (forces c m).km false x = (s * horizontal c) ^ 2 * t := by
  refine ⟨tdefSqCmpct (half c m).tau x, (C42_tdef_nonneg _ _).2, ?_, ?_, ?_⟩
  · rw [forces_km]
    show asgN (cellBox c.B.b) _ _ x = _
    rw [asgN_of (h.inBox.2 hx)]
    rfl
  · rw [forces_km]
    unfold setKm
    rw [hc]
    show asgN _ _ _ x = _
    rw [asgN_of (h.inBox.2 hx)]
    rfl
  · rw [forces_km]
    unfold setKm
    rw [hc]
    show asgN _ _ _ x = _
    rw [asgN_of (h.inBox.2 hx)]
    have : dltaH c = horizontal c := by
      unfold dltaH horizontal
      rw [Finset.card_erase_of_mem (Finset.mem_univ _), Finset.card_univ, Fintype.card_fin, ← Finset.sum_erase_add _ _ (Finset.mem_univ c.z), if_pos rfl, add_zero]
      congr 1
      exact Finset.sum_congr rfl fun d hd => if_neg (Finset.ne_of_mem_erase hd)
    unfold aniKm
    rw [← this]
    rfl

/-- means of a field that is nowhere negative times means of a positive density -/
theorem avg_nonneg (hG : ∀ x ∈ gridPts P, 0 < c.rho x) {k : Sca n K} (hk : ∀ x ∈ gridPts P, 0 ≤ k x) {d e : Fin n} {x : Idx n} (hg : x ∈ gridPts P)
    (hd : x d < P d) (he : x e < P e) : 0 ≤ stgrAvg k d e x * stgrAvg c.rho d e x := by
  have hm := mem_grid.1 hg
  have g1 : stepIdx x d 1 ∈ gridPts P := step_mem hg (by have := hm d; omega)
  have g2 : stepIdx x e 1 ∈ gridPts P := step_mem hg (by have := hm e; omega)
  have k0 := hk _ hg
  have k1 := hk _ g1
  have k2 := hk _ g2
  have r0 := hG x hg
  have r1 := hG _ g1
  have r2 := hG _ g2
  unfold stgrAvg
  by_cases hde : d = e
  · rw [if_pos hde, if_pos hde]; positivity
  · have g3 : stepIdx (stepIdx x d 1) e 1 ∈ gridPts P := step_mem g1 (by rw [stepIdx_other x (Ne.symm hde)]; have := hm e; omega)
    have k3 := hk _ g3
    have r3 := hG _ g3
    rw [if_neg hde, if_neg hde]; positivity

theorem viscAt_nonneg (h : Domain c P) (hG : ∀ x ∈ gridPts P, 0 < c.rho x) (heta : ∀ eta, c.visc = .dns eta → 0 ≤ eta) (m : Mem n K) (hk0 : IsBsq c → ∀ b, ∀ x ∈ gridPts P, 0 ≤ (forces c m).km b x) {d e : Fin n} {x : Idx n} (hg : x ∈ gridPts P)
    (hd : x d < P d) (he : x e < P e) : 0 ≤ viscAt c (forces c m).km d e x := by
  unfold viscAt
  cases hv : c.visc with
  | dns eta => exact heta eta hv
  | smg s => exact avg_nonneg hG (fun y hy => km_nonneg h m false (.inl ⟨s, hv, rfl⟩) hy) hg hd he
  | bsq two k =>
    refine avg_nonneg hG (fun y hy => ?_) hg hd he
    split_ifs
    · exact hk0 ⟨two, k, hv⟩ true y hy
    · exact hk0 ⟨two, k, hv⟩ false y hy
  | ani s =>
    refine avg_nonneg hG (fun y hy => ?_) hg hd he
    split_ifs
    · exact km_nonneg h m true (.inr ⟨s, hv⟩) hy
    · exact km_nonneg h m false (.inr ⟨s, hv⟩) hy

/-- C71, direction: the drag is against the wind -/
theorem C71_drag_opposes_wind (hs : IsRoot c) (hc : 0 ≤ c.cdrag) (v : Vec n K) (d : Fin n) {x : Idx n} (hr : 0 ≤ mean d c.rho x) : 0 ≤ groundStress c v d x * mean d (v d) x := by
  unfold groundStress dragLaw
  split
  · have := (hs (∑ e, if e = c.z then 0 else mean d (v e) x ^ 2) (Finset.sum_nonneg fun e _ => by split <;> positivity)).1
    rw [mul_assoc, ← sq]
    positivity
  · rw [zero_mul]

/-- C71, second law: with uniform density, the subgrid-scale forces never increase the kinetic energy, whatever the flow, the walls, the drag coefficient and the viscosity (not negative) -/
theorem C71_energy_decreases (h : Domain c P) (hs : IsRoot c) (hu : Uniform c) (m : Mem n K) (hkm : IsBsq c → ∀ b, Closes c P ((forces c m).km b)) (hv : ∀ e, Closes c P (m.v e)) (h0 : ∀ d, NoFlow c P d (m.v d)) (hG : ∀ x ∈ gridPts P, 0 < c.rho x)
    (hdx : ∀ d, 0 < c.dx d) (hc : 0 ≤ c.cdrag) (heta : ∀ eta, c.visc = .dns eta → 0 ≤ eta)
    (hk0 : IsBsq c → ∀ b, ∀ x ∈ gridPts P, 0 ≤ (forces c m).km b x) :
    ∑ d, ∑ x ∈ gridPts P, trapW P x * (m.v d x * (c.rho x * ((forces c m).rhs d x - m.rhs d x))) ≤ 0 := by
  rw [C71_energy h hs hu m hkm hv h0]
  have hE : ∀ (d e : Fin n) (x : Idx n), (0 : K) ≤ edgeW P d e x := fun d e x => Finset.prod_nonneg fun k _ => by split <;> norm_num
  have hF : ∀ (d : Fin n) (x : Idx n), (0 : K) ≤ faceW P d x := fun d x => Finset.prod_nonneg fun k _ => by split <;> norm_num
  have t1 : (0 : K) ≤ ∑ d, if d = c.z then 0 else (∑ x ∈ groundFaces P c.z d, edgeW P d c.z x * (groundStress c m.v d x * mean d (m.v d) x)) / c.dx c.z := by
    refine Finset.sum_nonneg fun d _ => ?_
    split
    · exact le_rfl
    · refine div_nonneg (Finset.sum_nonneg fun x hx => mul_nonneg (hE _ _ _) ?_) (hdx _).le
      obtain ⟨hg, -, hxd⟩ := Finset.mem_filter.1 hx
      refine C71_drag_opposes_wind hs hc m.v d ?_
      have := hG x hg
      have := hG _ (step_mem (d := d) (k := 1) hg (by have := mem_grid.1 hg d; omega))
      unfold mean
      positivity
  have t2 : (0 : K) ≤ ∑ d, ∑ x ∈ facePts P d, faceW P d x * (viscAt c (forces c m).km d d x * (2 * stretch c m.v d x ^ 2)) := by
    refine Finset.sum_nonneg fun d _ => Finset.sum_nonneg fun x hx => ?_
    obtain ⟨hg, hxd⟩ := Finset.mem_filter.1 hx
    exact mul_nonneg (hF _ _) (mul_nonneg (viscAt_nonneg h hG heta m hk0 hg hxd hxd) (by positivity))
  have t3 : (0 : K) ≤ ∑ d, ∑ e, if d < e then ∑ x ∈ edgePts P d e, edgeW P d e x * (viscAt c (forces c m).km d e x * shear c m.v d e x ^ 2) else 0 := by
    refine Finset.sum_nonneg fun d _ => Finset.sum_nonneg fun e _ => ?_
    split
    · refine Finset.sum_nonneg fun x hx => ?_
      obtain ⟨hg, hxd, hxe⟩ := Finset.mem_filter.1 hx
      exact mul_nonneg (hE _ _ _) (mul_nonneg (viscAt_nonneg h hG heta m hk0 hg hxd hxe) (sq_nonneg _))
    · exact le_rfl
  linarith
end

/-! ### examples: a channel, cyclic along dimension 0, ground below and sky above, 4 by 3 points, wind over a calm layer -/

/-- the channel -/
noncomputable def chan (visc : Visc 2 ℝ) (cd : ℝ) : Cfg 2 ℝ where
  B := { kl := fun d => if d = 0 then .cyclic else .gndsky, kr := fun d => if d = 0 then .cyclic else .gndsky, b := fun d => ⟨0, if d = 0 then 3 else 2⟩, halo := 2, pole := 0 }
  z := 1
  ds := [0, 1]
  lat := [0]
  dx := fun _ => 1
  nug := false
  G := fun _ => 0
  cdrag := cd
  visc := visc
  sqrt := Real.sqrt

def chanP : Fin 2 → Nat := fun d => if d = 0 then 3 else 2

theorem chan_domain (visc : Visc 2 ℝ) (cd : ℝ) : Domain (chan visc cd) chanP where
  box d := by show (⟨0, if d = 0 then 3 else 2⟩ : Rng) = _; unfold chanP; split <;> rfl
  two d := by unfold chanP; split <;> omega
  halo := by show (1 : Int) ≤ 2; omega
  last d := by show d ≤ 1; omega
  sides d hd := by
    have : d = 0 := by have h1 : d ≠ 1 := hd; omega
    subst this; exact Or.inl ⟨rfl, rfl⟩
  bottom := Or.inl rfl
  top := Or.inl rfl
  order d := by show d ∈ [0, 1]; have h : d = 0 ∨ d = 1 := by omega
                rcases h with h | h <;> simp [h]
  lateral d hd := by have : d = 0 := by simpa [chan] using hd
                     subst this; show (0 : Fin 2) ≠ 1; decide
  G0 x _ := by show (if false = true then _ else (1 : ℝ)) ≠ 0; simp
  Gper d x _ _ _ := ⟨rfl, rfl, rfl⟩

theorem chan_root (visc : Visc 2 ℝ) (cd : ℝ) : IsRoot (chan visc cd) := fun a ha => ⟨Real.sqrt_nonneg a, Real.sq_sqrt ha⟩

/-- wind of speed `2 + x 1` along the channel, none across -/
def wind : Vec 2 ℝ := fun d x => if d = 0 then 2 + (x 1 : ℝ) else 0

theorem wind_closes (visc : Visc 2 ℝ) (cd : ℝ) (e : Fin 2) : Closes (chan visc cd) chanP (wind e) := by
  intro d x hk _ _
  have hd : d ≠ 1 := by rintro rfl; exact (by decide : BcAll.gndsky ≠ BcAll.cyclic) hk
  unfold wind
  rw [stepIdx_other x hd.symm]

theorem wind_noflow (visc : Visc 2 ℝ) (cd : ℝ) (d : Fin 2) : NoFlow (chan visc cd) chanP d (wind d) := by
  intro hk x _ _
  have hd : d ≠ 0 := by rintro rfl; exact hk rfl
  unfold wind
  rw [if_neg hd]

/-- the drag slows the wind down: density 1, wind 2 at the ground, stress `cd * 2 * 2` on 3 faces -/
example (visc : Visc 2 ℝ) (cd : ℝ) (m : Mem 2 ℝ) (hm : m.v = wind) (hkm : IsBsq (chan visc cd) → ∀ b, Closes (chan visc cd) chanP ((forces (chan visc cd) m).km b)) :
    ∑ x ∈ gridPts chanP, trapW chanP x * ((chan visc cd).rho x * ((forces (chan visc cd) m).rhs 0 x - m.rhs 0 x)) = -2 * (3 * (cd * 4)) := by
  rw [C71_momentum_budget (chan_domain visc cd) (chan_root visc cd) m hkm (fun e => hm ▸ wind_closes visc cd e) rfl]
  have hg : groundFaces chanP (1 : Fin 2) 0 = {![0, 0], ![1, 0], ![2, 0]} := by decide
  show -2 * ((∑ x ∈ groundFaces chanP (1 : Fin 2) 0, edgeW chanP 0 1 x * groundStress (chan visc cd) m.v 0 x) / 1) = _
  have hs : ∀ x ∈ groundFaces chanP (1 : Fin 2) 0, (edgeW chanP 0 1 x : ℝ) * groundStress (chan visc cd) m.v 0 x = cd * 4 := by
    intro x hx
    obtain ⟨-, hz, -⟩ := Finset.mem_filter.1 hx
    have e1 : (edgeW chanP 0 1 x : ℝ) = 1 := by
      unfold edgeW
      rw [show ((Finset.univ : Finset (Fin 2)).erase 0).erase 1 = ∅ by decide, Finset.prod_empty]
    have hr : ∀ y, (chan visc cd).rho y = 1 := fun y => rfl
    have e2 : mean 0 (wind 0) x = 2 := by
      unfold mean wind
      rw [if_pos rfl, if_pos rfl, stepIdx_other x (by decide : (1 : Fin 2) ≠ 0), hz]; norm_num
    rw [e1, hm]
    show 1 * (if BcAll.gndsky = BcAll.gndsky then dragLaw (chan visc cd) wind 0 x else 0) = _
    rw [if_pos rfl]
    unfold dragLaw
    rw [e2, Fin.sum_univ_two]
    show 1 * (cd * mean 0 (chan visc cd).rho x * Real.sqrt ((if (0 : Fin 2) = 1 then 0 else mean 0 (wind 0) x ^ 2) + (if (1 : Fin 2) = 1 then 0 else mean 0 (wind 1) x ^ 2)) * 2) = _
    rw [if_neg (by decide), if_pos rfl, e2, add_zero, Real.sqrt_sq (by norm_num)]
    unfold mean
    rw [hr, hr]
    ring
  rw [Finset.sum_congr rfl hs, hg, Finset.sum_const]
  simp
/-- the hypotheses of the second law hold for this flow -/
example (m : Mem 2 ℝ) (hm : m.v = wind) :
    ∑ d, ∑ x ∈ gridPts chanP, trapW chanP x * (m.v d x * ((chan (.smg 1) 1).rho x * ((forces (chan (.smg 1) 1) m).rhs d x - m.rhs d x))) ≤ 0 :=
  C71_energy_decreases (chan_domain _ _) (chan_root _ _) (fun h => by cases h) m (fun ⟨_, _, h⟩ => by cases h) (fun e => hm ▸ wind_closes _ _ e) (fun d => hm ▸ wind_noflow _ _ d)
    (fun x _ => by show (0 : ℝ) < if false = true then _ else 1; simp) (fun _ => by show (0 : ℝ) < 1; norm_num) (by show (0 : ℝ) ≤ 1; norm_num) (fun eta h => by cases h) (fun ⟨_, _, h⟩ => by cases h)

/-! ### the eddy viscosity at the ground -/

/-- the same channel with rational numbers and Smagorinsky viscosity -/
def chanQ (cd : ℚ) : Cfg 2 ℚ where
  B := { kl := fun d => if d = 0 then .cyclic else .gndsky, kr := fun d => if d = 0 then .cyclic else .gndsky, b := fun d => ⟨0, if d = 0 then 3 else 2⟩, halo := 2, pole := 0 }
  z := 1
  ds := [0, 1]
  lat := [0]
  dx := fun _ => 1
  nug := false
  G := fun _ => 0
  cdrag := cd
  visc := .smg 1
  sqrt := id

def flowQ : Mem 2 ℚ := ⟨fun d x => if d = 0 then 2 else 0, fun _ _ _ => 0, fun _ _ => 0, fun _ => 0, fun _ => 0, fun _ _ => 0⟩

/-- C71, the viscosity at the ground is not a function of the flow: `mpdata_rhs_vip_prs_sgs_smg` evaluates the squared deformation after the deformation tensor has been given the surface
*stress* as its value on the ground (mpdata_rhs_vip_prs_sgs_common.hpp:127). In a uniform wind, which has no deformation at all, the viscosity at the points of the ground is zero
without drag and positive with drag, growing with the square of the drag coefficient. (The Boussinesq version overwrites the viscosity at the ground with the value above it.) -/
theorem C71_fails_viscosity_from_flow : (forces (chanQ 0) flowQ).km false ![1, 0] = 0 ∧ 0 < (forces (chanQ 1) flowQ).km false ![1, 0] ∧
    (forces (chanQ 3) flowQ).km false ![1, 0] = 9 * (forces (chanQ 1) flowQ).km false ![1, 0] := by
  decide +kernel
end Drag
end Mpdata
