import Verif.Lemmas.SgsHeat
import Verif.Props.Stress
import Mathlib.Tactic.Positivity
import Mathlib.Tactic.NormNum
import Mathlib.Analysis.Real.Sqrt
import Mathlib.Algebra.Order.BigOperators.Ring.Finset
/-! # C70: eddy diffusion of heat -/
namespace Mpdata
namespace Heat
section
variable {n : Nat} [NeZero n] {K : Type} [Field K] [LinearOrder K] [IsStrictOrderedRing K] {c : Cfg n K} {P : Fin n → Nat}

theorem tdef_nonneg (tau : Fin n → Fin n → Sca n K) (x : Idx n) : 0 ≤ tdefSqCmpct tau x := (C42_tdef_nonneg tau x).2

/-- C70, budget: whatever the temperature, the deformation and the contents of memory, the total heating of the domain is the prescribed flux from the ground, summed over the ground:
mixing itself creates no heat, no heat passes through walls, sky and sides. -/
theorem C70_heat_budget (h : Domain c P) (tau : Fin n → Fin n → Sca n K) (tht : Sca n K) (m : Mem n K) :
    ∑ x ∈ gridPts P, trapW P x * (c.G x * (multiplySgsVisc c tau tht m).frc x) = (∑ x ∈ groundPts P c.z, faceW P c.z x * fromGround c x) / c.dx c.z := by
  have hw := weak_form h tau tht (fun _ => 1) (fun _ _ _ _ _ => rfl) m
  simp only [one_mul, sub_self, zero_div, mul_zero, Finset.sum_const_zero, sub_zero] at hw
  exact hw

/-- C70, diffusion: the heating tested with any field `φ` is what comes from the ground minus the fluxes along the gradient of `φ`. On every face of the domain the flux is viscosity
over Prandtl number times density times the temperature gradient. -/
theorem C70_weak_form (h : Domain c P) (tau : Fin n → Fin n → Sca n K) (tht φ : Sca n K) (hφ : Closes c P φ) (m : Mem n K) :
    ∑ x ∈ gridPts P, trapW P x * (φ x * (c.G x * (multiplySgsVisc c tau tht m).frc x)) =
      (∑ x ∈ groundPts P c.z, faceW P c.z x * (φ x * fromGround c x)) / c.dx c.z
      - ∑ d, ∑ x ∈ facePts P d, faceW P d x * (Fourier c (Lilly c P tau tht (if d = c.z then c.mixV else c.mixH)) tht d x * ((φ (stepIdx x d 1) - φ x) / c.dx d)) :=
  weak_form h tau tht φ hφ m

/-- C70, viscosity: the field the solver computes is the Smagorinsky viscosity reduced by stable stratification, at every grid point -/
theorem C70_viscosity (h : Domain c P) (tau : Fin n → Fin n → Sca n K) (tht : Sca n K) (m : Mem n K) {x : Idx n} (hx : x ∈ gridPts P) :
    (multiplySgsVisc c tau tht m).kh x = Lilly c P tau tht c.mixH x ∧ (multiplySgsVisc c tau tht m).kv x = Lilly c P tau tht c.mixV x :=
  km_final h tau tht m hx

/-- the square root is the one of nonnegative numbers -/
def IsRoot (c : Cfg n K) : Prop := ∀ a, 0 ≤ a → 0 ≤ c.sqrt a ∧ c.sqrt a ^ 2 = a

theorem Lilly_nonneg (h : Domain c P) (hs : IsRoot c) (tau : Fin n → Fin n → Sca n K) (tht mix : Sca n K) (x : Idx n) : 0 ≤ Lilly c P tau tht mix x := by
  unfold Lilly
  simp only
  generalize (if x c.z = 0 then stepIdx x c.z 1 else x) = y
  by_cases hr : richardson c P tau tht y < c.pr
  · rw [if_pos hr]
    refine mul_nonneg (sq_nonneg _) (hs _ (mul_nonneg (tdef_nonneg tau y) ?_)).1
    have := (div_lt_one h.pr0).2 hr
    linarith
  · rw [if_neg hr]

/-- C70: the viscosity is nowhere negative, and zero where (above the ground) the Richardson number is not below the Prandtl number -/
theorem C70_viscosity_sign (h : Domain c P) (hs : IsRoot c) (tau : Fin n → Fin n → Sca n K) (tht : Sca n K) (m : Mem n K) {x : Idx n} (hx : x ∈ gridPts P) :
    0 ≤ (multiplySgsVisc c tau tht m).kh x ∧ 0 ≤ (multiplySgsVisc c tau tht m).kv x ∧
    (x c.z ≠ 0 → c.pr ≤ richardson c P tau tht x → (multiplySgsVisc c tau tht m).kh x = 0 ∧ (multiplySgsVisc c tau tht m).kv x = 0) := by
  obtain ⟨h1, h2⟩ := C70_viscosity h tau tht m hx
  refine ⟨by rw [h1]; exact Lilly_nonneg h hs _ _ _ _, by rw [h2]; exact Lilly_nonneg h hs _ _ _ _, fun h0 hr => ?_⟩
  rw [h1, h2]
  unfold Lilly
  simp only [if_neg h0, if_neg (not_lt.2 hr), and_self]

/-- C70, second law: with an insulated ground, mixing never increases the variance of temperature: the temperature-weighted total of the heating is not positive. -/
theorem C70_variance_decreases (h : Domain c P) (hs : IsRoot c) (tau : Fin n → Fin n → Sca n K) (tht : Sca n K) (ht : Closes c P tht) (hq : c.hflux = 0) (m : Mem n K) :
    ∑ x ∈ gridPts P, trapW P x * (tht x * (c.G x * (multiplySgsVisc c tau tht m).frc x)) ≤ 0 := by
  rw [weak_form h tau tht tht ht m]
  have h0 : ∀ x, fromGround c x = 0 := fun x => by unfold fromGround; rw [hq]; simp
  simp only [h0, mul_zero, Finset.sum_const_zero, zero_div, zero_sub, Left.neg_nonpos_iff]
  refine Finset.sum_nonneg fun d _ => Finset.sum_nonneg fun x hx => ?_
  obtain ⟨hxg, hxd⟩ := Finset.mem_filter.1 hx
  have hg1 := h.G0 x hxg
  have hg2 := h.G0 (stepIdx x d 1) (step_mem hxg (by have := (mem_grid.1 hxg d).1; omega))
  have hw : (0 : K) ≤ faceW P d x := Finset.prod_nonneg fun e _ => by split <;> norm_num
  have hk1 := Lilly_nonneg h hs tau tht (if d = c.z then c.mixV else c.mixH) x
  have hk2 := Lilly_nonneg h hs tau tht (if d = c.z then c.mixV else c.mixH) (stepIdx x d 1)
  have hp := h.pr0
  unfold Fourier
  rw [mul_assoc, ← sq]
  positivity

/-- C70, direction: with an insulated ground a point at least as warm as all its neighbours in the domain is not heated, one at least as cold is not cooled (here at points inside the domain) -/
theorem C70_no_heating_of_warmest (h : Domain c P) (hs : IsRoot c) (tau : Fin n → Fin n → Sca n K) (tht : Sca n K) (m : Mem n K) {x : Idx n}
    (hx : ∀ d, 0 < x d ∧ x d < P d) :
    ((∀ d, tht (stepIdx x d 1) ≤ tht x ∧ tht (stepIdx x d (-1)) ≤ tht x) → (multiplySgsVisc c tau tht m).frc x ≤ 0) ∧
    ((∀ d, tht x ≤ tht (stepIdx x d 1) ∧ tht x ≤ tht (stepIdx x d (-1))) → 0 ≤ (multiplySgsVisc c tau tht m).frc x) := by
  have hxg : x ∈ gridPts P := mem_grid.2 fun d => by have := hx d; omega
  have hG := h.G0 x hxg
  have hf := frc_eq h tau tht m hxg
  -- both fluxes of a dimension
  have hfl : ∀ d, ∃ a b : K, 0 ≤ a ∧ 0 ≤ b ∧ flux c tau tht m d x = a * (tht (stepIdx x d 1) - tht x) ∧ flux c tau tht m d (stepIdx x d (-1)) = b * (tht x - tht (stepIdx x d (-1))) := by
    intro d
    have hxd := hx d
    have m1 : stepIdx x d (-1) ∈ gridPts P := step_mem hxg (by omega)
    have m2 : stepIdx x d 1 ∈ gridPts P := step_mem hxg (by omega)
    have hback : stepIdx (stepIdx x d (-1)) d 1 = x := by rw [step_add, show (-1 : Int) + 1 = 0 by omega, step_zero]
    have g1 := h.G0 _ m1
    have g2 := h.G0 _ m2
    have hd := h.dx0 d
    have hp := h.pr0
    have k0 := Lilly_nonneg h hs tau tht (if d = c.z then c.mixV else c.mixH) x
    have k1 := Lilly_nonneg h hs tau tht (if d = c.z then c.mixV else c.mixH) (stepIdx x d (-1))
    have k2 := Lilly_nonneg h hs tau tht (if d = c.z then c.mixV else c.mixH) (stepIdx x d 1)
    have e1 := flux_inner h tau tht m d hxg hxd.2
    have e2 := flux_inner h tau tht m d m1 (by rw [stepIdx_self]; omega)
    unfold Fourier at e1 e2
    rw [hback] at e2
    refine ⟨_, _, ?_, ?_, e1.trans (mul_div_assoc' _ _ _ |>.trans (div_mul_eq_mul_div _ _ _).symm), e2.trans (mul_div_assoc' _ _ _ |>.trans (div_mul_eq_mul_div _ _ _).symm)⟩ <;> positivity
  constructor
  · intro hm
    have : c.G x * (multiplySgsVisc c tau tht m).frc x ≤ 0 := by
      rw [hf]
      refine Finset.sum_nonpos fun d _ => div_nonpos_of_nonpos_of_nonneg ?_ (h.dx0 d).le
      obtain ⟨a, b, ha, hb, e1, e2⟩ := hfl d
      rw [e1, e2]
      have t1 := mul_nonneg ha (sub_nonneg.2 (hm d).1)
      have t2 := mul_nonneg hb (sub_nonneg.2 (hm d).2)
      linarith
    exact nonpos_of_mul_nonpos_right this hG
  · intro hm
    have : 0 ≤ c.G x * (multiplySgsVisc c tau tht m).frc x := by
      rw [hf]
      refine Finset.sum_nonneg fun d _ => div_nonneg ?_ (h.dx0 d).le
      obtain ⟨a, b, ha, hb, e1, e2⟩ := hfl d
      rw [e1, e2]
      have t1 := mul_nonneg ha (sub_nonneg.2 (hm d).1)
      have t2 := mul_nonneg hb (sub_nonneg.2 (hm d).2)
      linarith
    exact nonneg_of_mul_nonneg_right this hG

/-- C70, no temperature differences, no mixing: with uniform temperature the heating is zero everywhere but at the ground, where it is the flux through the ground over the height of the half cell -/
theorem C70_uniform_temperature (h : Domain c P) (tau : Fin n → Fin n → Sca n K) (tht : Sca n K) (t0 : K) (ht : ∀ x ∈ gridPts P, tht x = t0) (m : Mem n K) {x : Idx n} (hx : x ∈ gridPts P) :
    c.G x * (multiplySgsVisc c tau tht m).frc x = if x c.z = 0 then fromGround c x / (c.dx c.z / 2) else 0 := by
  have hin : ∀ d y, y ∈ gridPts P → y d < P d → flux c tau tht m d y = 0 := fun d y hy hd => by
    rw [flux_inner h tau tht m d hy hd, Fourier, ht y hy, ht _ (step_mem hy (by have := (mem_grid.1 hy d).1; omega))]; simp
  have key : ∀ d, flux c tau tht m d x - flux c tau tht m d (stepIdx x d (-1)) = if d = c.z then (if x c.z = 0 then 2 * fromGround c x else 0) else 0 := by
    intro d
    have hm := mem_grid.1 hx d
    have h2 := h.two d
    by_cases hk : c.B.kl d = .cyclic
    · have hz : d ≠ c.z := by rintro rfl; rcases h.bottom with hb | hb <;> rw [hb] at hk <;> cases hk
      rw [if_neg hz]
      -- the line of the point, from its first point
      have hy : stepIdx x d (-x d) ∈ gridPts P := step_mem hx (by omega)
      obtain ⟨e1, e2⟩ := flux_cyc h tau tht m d hy (by rw [stepIdx_self]; omega) hk
      rw [step_add, step_add] at e1
      rw [step_add] at e2
      have hlast : flux c tau tht m d (stepIdx x d (-x d + (P d - 1))) = 0 := hin d _ (step_mem hx (by omega)) (by rw [stepIdx_self]; omega)
      have hfirst : flux c tau tht m d (stepIdx x d (-x d)) = 0 := hin d _ hy (by rw [stepIdx_self]; omega)
      have f1 : flux c tau tht m d x = 0 := by
        rcases lt_or_eq_of_le hm.2 with h' | h'
        · exact hin d x hx h'
        · rw [hfirst, show -x d + (P d : Int) = 0 by omega, step_zero] at e2; exact e2
      have f2 : flux c tau tht m d (stepIdx x d (-1)) = 0 := by
        by_cases h0 : x d = 0
        · rw [hlast, show -x d + -1 = (-1 : Int) by omega] at e1; exact e1
        · exact hin d _ (step_mem hx (by omega)) (by rw [stepIdx_self]; omega)
      rw [f1, f2, sub_zero]
    · by_cases h0 : x d = 0
      · have e := flux_low h tau tht m d hx h0 hk
        have f1 := hin d x hx (by omega)
        rw [f1, add_zero] at e
        rw [f1, e]
        by_cases hz : d = c.z
        · rw [if_pos hz, if_pos hz, if_pos (by rw [← hz]; exact h0)]; ring
        · rw [if_neg hz, if_neg hz, sub_zero]
      · have f2 : flux c tau tht m d (stepIdx x d (-1)) = 0 := hin d _ (step_mem hx (by omega)) (by rw [stepIdx_self]; omega)
        have f1 : flux c tau tht m d x = 0 := by
          rcases lt_or_eq_of_le hm.2 with h' | h'
          · exact hin d x hx h'
          · have e := flux_high h tau tht m d hx h' hk
            rw [f2, zero_add] at e; exact e
        rw [f1, f2, sub_zero]
        by_cases hz : d = c.z
        · rw [if_pos hz, if_neg (by rw [← hz]; exact h0)]
        · rw [if_neg hz]
  rw [frc_eq h tau tht m hx]
  have : ∀ d ∈ (Finset.univ : Finset (Fin n)), (flux c tau tht m d x - flux c tau tht m d (stepIdx x d (-1))) / c.dx d =
      if d = c.z then (if x c.z = 0 then fromGround c x / (c.dx c.z / 2) else 0) else 0 := by
    intro d _
    rw [key d]
    by_cases hz : d = c.z
    · rw [if_pos hz, if_pos hz, hz]
      split
      · have := (h.dx0 c.z).ne'; field_simp
      · simp
    · rw [if_neg hz, if_neg hz, zero_div]
  rw [Finset.sum_congr rfl this, Finset.sum_ite_eq' Finset.univ c.z, if_pos (Finset.mem_univ _)]

/-- C70: nothing of the result depends on what the temporaries contained before -/
theorem C70_no_stale (h : Domain c P) (tau : Fin n → Fin n → Sca n K) (tht tht' : Sca n K) (ht : ∀ x ∈ gridPts P, tht x = tht' x) (m m' : Mem n K) {x : Idx n} (hx : x ∈ gridPts P) :
    (multiplySgsVisc c tau tht m).kh x = (multiplySgsVisc c tau tht' m').kh x ∧
    (multiplySgsVisc c tau tht m).kv x = (multiplySgsVisc c tau tht' m').kv x ∧ (multiplySgsVisc c tau tht m).frc x = (multiplySgsVisc c tau tht' m').frc x := by
  have hv : ∀ y ∈ gridPts P, vertGrad c P tht y = vertGrad c P tht' y := by
    intro y hy
    have hm := mem_grid.1 hy c.z
    have h2 := h.two c.z
    unfold vertGrad
    by_cases h0 : y c.z = 0
    · rw [if_pos h0, if_pos h0, ht y hy, ht _ (step_mem hy (by omega))]
    · rw [if_neg h0, if_neg h0, ht _ (step_mem (k := -1) hy (by omega))]
      by_cases hP : y c.z = P c.z
      · rw [if_pos hP, if_pos hP, ht y hy]
      · rw [if_neg hP, if_neg hP, ht _ (step_mem (k := 1) hy (by omega))]
  have hL : ∀ mix : Sca n K, ∀ y ∈ gridPts P, Lilly c P tau tht mix y = Lilly c P tau tht' mix y := by
    intro mix y hy
    unfold Lilly
    simp only
    have hy' : (if y c.z = 0 then stepIdx y c.z 1 else y) ∈ gridPts P := by
      split
      · exact step_mem hy (by have := h.two c.z; omega)
      · exact hy
    unfold richardson
    rw [hv _ hy']
  refine ⟨?_, ?_, ?_⟩
  · rw [(C70_viscosity h tau tht m hx).1, (C70_viscosity h tau tht' m' hx).1]; exact hL _ x hx
  · rw [(C70_viscosity h tau tht m hx).2, (C70_viscosity h tau tht' m' hx).2]; exact hL _ x hx
  · have hF : ∀ d y, y ∈ gridPts P → y d < P d → flux c tau tht m d y = flux c tau tht' m' d y := fun d y hy hd => by
      have h1 : stepIdx y d 1 ∈ gridPts P := step_mem hy (by have := (mem_grid.1 hy d).1; omega)
      rw [flux_inner h tau tht m d hy hd, flux_inner h tau tht' m' d hy hd]
      unfold Fourier
      rw [hL _ y hy, hL _ _ h1, ht y hy, ht _ h1]
    refine mul_left_cancel₀ (h.G0 x hx).ne' ?_
    rw [frc_eq h tau tht m hx, frc_eq h tau tht' m' hx]
    refine Finset.sum_congr rfl fun d _ => ?_
    have hm := mem_grid.1 hx d
    have h2 := h.two d
    have hup : x d ≠ 0 → flux c tau tht m d (stepIdx x d (-1)) = flux c tau tht' m' d (stepIdx x d (-1)) := fun h0 =>
      hF d _ (step_mem hx (by omega)) (by rw [stepIdx_self]; omega)
    by_cases hk : c.B.kl d = .cyclic
    · have hy : stepIdx x d (-x d) ∈ gridPts P := step_mem hx (by omega)
      obtain ⟨e1, e2⟩ := flux_cyc h tau tht m d hy (by rw [stepIdx_self]; omega) hk
      obtain ⟨e1', e2'⟩ := flux_cyc h tau tht' m' d hy (by rw [stepIdx_self]; omega) hk
      rw [step_add, step_add] at e1 e1'
      rw [step_add] at e2 e2'
      have hlast := hF d (stepIdx x d (-x d + (P d - 1))) (step_mem hx (by omega)) (by rw [stepIdx_self]; omega)
      have hfirst := hF d (stepIdx x d (-x d)) hy (by rw [stepIdx_self]; omega)
      have f1 : flux c tau tht m d x = flux c tau tht' m' d x := by
        rcases lt_or_eq_of_le hm.2 with h' | h'
        · exact hF d x hx h'
        · rw [show -x d + (P d : Int) = 0 by omega, step_zero] at e2 e2'
          rw [e2, e2', hfirst]
      have f2 : flux c tau tht m d (stepIdx x d (-1)) = flux c tau tht' m' d (stepIdx x d (-1)) := by
        by_cases h0 : x d = 0
        · rw [show -x d + -1 = (-1 : Int) by omega] at e1 e1'
          rw [e1, e1', hlast]
        · exact hup h0
      rw [f1, f2]
    · by_cases h0 : x d = 0
      · have e := flux_low h tau tht m d hx h0 hk
        have e' := flux_low h tau tht' m' d hx h0 hk
        have f1 := hF d x hx (by omega)
        rw [eq_sub_of_add_eq e, eq_sub_of_add_eq e', f1]
      · have f2 := hup h0
        have f1 : flux c tau tht m d x = flux c tau tht' m' d x := by
          rcases lt_or_eq_of_le hm.2 with h' | h'
          · exact hF d x hx h'
          · have e := flux_high h tau tht m d hx h' hk
            have e' := flux_high h tau tht' m' d hx h' hk
            rw [eq_neg_of_add_eq_zero_right e, eq_neg_of_add_eq_zero_right e', f2]
        rw [f1, f2]
end

/-! ## Floating point: flow at rest -/
namespace At
open Fl
variable {K : Type} [Field K] [LinearOrder K] [IsStrictOrderedRing K]

/-- C70: where the flow deforms (`tdef > 0`) and the parameters are positive, the viscosity in IEEE arithmetic is the one of the field model -/
theorem C70_fl_agrees (c : Cfg n K) (hs : IsRoot c) (mix gr td : K) (ht : 0 < td) (hT : 0 < c.tref) (hp : 0 < c.pr) :
    Fl.viscosity c.sqrt (.fin c.smgC) (.fin mix) (.fin c.pr) (.fin td) (Fl.rcdsn (.fin c.g) (.fin c.tref) (.fin gr) (.fin td)) =
      .fin (Heat.viscosity c mix td (c.g * gr / (c.tref * td))) := by
  have h1 : c.tref * td ≠ 0 := (mul_pos hT ht).ne'
  have hr : Fl.rcdsn (.fin c.g) (.fin c.tref) (.fin gr) (.fin td) = .fin (c.g * gr / (c.tref * td)) := by
    simp only [Fl.rcdsn, Fl.mul, Fl.div, if_neg h1]
  rw [hr]
  generalize c.g * gr / (c.tref * td) = rc
  unfold Fl.viscosity Heat.viscosity
  simp only [Fl.div, if_neg hp.ne', Fl.lt, decide_eq_true_eq]
  by_cases hl : rc / c.pr < 1
  · rw [if_pos hl, if_pos hl]
    have : ¬ td * (1 - rc / c.pr) < 0 := not_lt.2 (mul_nonneg ht.le (by linarith))
    simp only [Fl.mul, Fl.sub, Fl.sqrt, if_neg this, sq]
  · rw [if_neg hl, if_neg hl]

/-- C70 fails for flow at rest under unstable stratification: the Richardson number is minus infinity, the product with the zero deformation is not a number, and so is the viscosity,
whatever the (positive) parameters -/
theorem C70_fails_at_rest (r : K → K) (smgC mix pr g tref gr : K) (hg : 0 < g) (hT : 0 < tref) (hp : 0 < pr) (hgr : gr < 0) :
    Fl.viscosity r (.fin smgC) (.fin mix) (.fin pr) (.fin 0) (Fl.rcdsn (.fin g) (.fin tref) (.fin gr) (.fin 0)) = .nan := by
  have h1 : g * gr < 0 := mul_neg_of_pos_of_neg hg hgr
  simp [Fl.viscosity, Fl.rcdsn, Fl.mul, Fl.div, Fl.lt, Fl.sub, Fl.sqrt, h1.ne, h1, not_lt.2 hp.le]

/-- C70: at rest under stable or neutral stratification the viscosity is zero -/
theorem C70_at_rest_stable (r : K → K) (smgC mix pr g tref gr : K) (hg : 0 < g) (hp : 0 < pr) (hgr : 0 ≤ gr) :
    Fl.viscosity r (.fin smgC) (.fin mix) (.fin pr) (.fin 0) (Fl.rcdsn (.fin g) (.fin tref) (.fin gr) (.fin 0)) = .fin 0 := by
  rcases hgr.eq_or_lt with h0 | h0
  · subst h0
    simp [Fl.viscosity, Fl.rcdsn, Fl.mul, Fl.div, Fl.lt]
  · have h1 : 0 < g * gr := mul_pos hg h0
    simp [Fl.viscosity, Fl.rcdsn, Fl.mul, Fl.div, Fl.lt, h1.ne', not_lt.2 h1.le, not_lt.2 hp.le]
end At

/-! ## A concrete case: a box of 4 x 3 cells, cyclic in x, ground and sky in z, anisotropic mixing lengths -/

/-- the box; the square root of this example is exact on the squares that occur and the identity elsewhere is not used by the budget -/
def demo : Cfg 2 ℚ where
  B := ⟨fun d => if d = 0 then .cyclic else .gndsky, fun d => if d = 0 then .cyclic else .gndsky, fun d => if d = 0 then ⟨0, 4⟩ else ⟨0, 3⟩, 2, 0⟩
  z := 1
  dx := fun d => if d = 0 then 2 else 1
  G := fun x => 3 - (if x 1 = 0 then 0 else 1)
  g := 10
  tref := 300
  pr := 1 / 3
  smgC := 1 / 5
  hflux := 7
  mixH := fun _ => 2
  mixV := fun _ => 1
  sqrt := fun a => a
  ds := [0, 1]

/-- number of cells -/
def demoP : Fin 2 → Nat := fun d => if d = 0 then 4 else 3

theorem demo_domain : Domain demo demoP where
  box := by decide
  two := by decide
  halo := by decide
  sides := by decide
  bottom := by decide
  top := by decide
  order := by decide
  G0 := by intro x _; show (0 : ℚ) < 3 - (if x 1 = 0 then 0 else 1); split <;> norm_num
  dx0 := by intro d; show (0 : ℚ) < if d = 0 then 2 else 1; split <;> norm_num
  pr0 := by show (0 : ℚ) < 1 / 3; norm_num

example (tau : Fin 2 → Fin 2 → Sca 2 ℚ) (tht : Sca 2 ℚ) (m : Mem 2 ℚ) :
    ∑ x ∈ gridPts demoP, trapW demoP x * (demo.G x * (multiplySgsVisc demo tau tht m).frc x) = (∑ x ∈ groundPts demoP 1, faceW demoP 1 x * fromGround demo x) / 1 :=
  C70_heat_budget demo_domain tau tht m
/-- 4 columns of width 1 (in cells), density 3, flux 7 -/
example : ∑ x ∈ groundPts demoP 1, (faceW demoP 1 x : ℚ) * fromGround demo x = 4 * (7 * 3) := by decide +kernel
/-- a temperature that closes in the cyclic dimension and is not uniform -/
example : Closes demo demoP (fun x => ((x 1 : Int) : ℚ) + if x 0 = 2 then 1 else 0) := by
  intro d x hk hx h0
  have hd : d = 0 := by revert hk; show (if d = 0 then BcAll.cyclic else BcAll.gndsky) = .cyclic → _; split <;> simp_all
  subst hd
  have e0 : stepIdx x (0 : Fin 2) (demoP 0) 0 = 4 := by rw [stepIdx_self, h0]; rfl
  have e1 : stepIdx x (0 : Fin 2) (demoP 0) 1 = x 1 := stepIdx_other x (by decide) _
  simp only [e0, e1, h0]
  norm_num
/-- the hypothesis on the square root holds for the real one -/
example (c : Cfg 2 ℝ) : IsRoot { c with sqrt := Real.sqrt } := fun a ha => ⟨Real.sqrt_nonneg a, Real.sq_sqrt ha⟩
/-- stable stratification stronger than the deformation: no mixing -/
example (m : Mem 2 ℚ) : (multiplySgsVisc demo (fun _ _ _ => 1 / 10) (fun x => ((x 1 : Int) : ℚ)) m).kh ![1, 1] = 0 ∧
    (multiplySgsVisc demo (fun _ _ _ => 1) (fun x => ((x 1 : Int) : ℚ)) m).kh ![1, 1] ≠ 0 := by
  rw [(C70_viscosity demo_domain _ _ m (by decide)).1, (C70_viscosity demo_domain _ _ m (by decide)).1]
  decide +kernel

end Heat
end Mpdata
