import Verif.Props.Symmetry1
import Mathlib.Tactic.FieldSimp
import Mathlib.Data.Fin.VecNotation
/-! # C54: order of accuracy in 1-D
In a uniform flow the infinite-gauge scheme moves every quadratic by exactly one Courant number per step; with the third-order options every cubic. -/
set_option linter.unusedSectionVars false
namespace Mpdata
variable {K : Type} [Field K] [LinearOrder K]
open Spec1

/-- the option sets that are third-order accurate: `tot`, or `div_3rd` (with `div_2nd`) -/
def thirdOrder (o : OptsT) : Bool := if isset o oDiv2 || isset o oDiv3 then isset o oDiv3 else isset o oTot

variable [IsStrictOrderedRing K]

theorem pospart_pos_eq (o : OptsT) {C : K} (h : 0 ≤ C) : pospart o C = C := by
  unfold pospart; split
  · rw [abs_of_nonneg h]; ring
  · exact max_eq_right h
theorem pospart_neg_eq (o : OptsT) {C : K} (h : C ≤ 0) : pospart o C = 0 := by
  unfold pospart; split
  · rw [abs_of_nonpos h]; ring
  · exact max_eq_left h
theorem negpart_pos_eq (o : OptsT) {C : K} (h : 0 ≤ C) : negpart o C = 0 := by
  unfold negpart; split
  · rw [abs_of_nonneg h]; ring
  · exact min_eq_left h
theorem negpart_neg_eq (o : OptsT) {C : K} (h : C ≤ 0) : negpart o C = C := by
  unfold negpart; split
  · rw [abs_of_nonpos h]; ring
  · exact min_eq_right h

/-- G-factor of a uniform density -/
def gUni (o : OptsT) (g : K) : K := if isset o oNug then g else 1

theorem gFac1_uni (o : OptsT) (g : K) (j : Int) : gFac1 o (fun _ => g) j = gUni o g := rfl
theorem gBarX1_uni (o : OptsT) (g : K) (j : Int) : gBarX1 o (fun _ => g) j = gUni o g := by
  unfold gBarX1 gUni gFac1; split_ifs <;> ring

/-- the corrective flux in a uniform flow is the same difference formula for all option sets of one order -/
theorem velocity_uni1 (p : Par K) (C g : K) (i : Int) (f : Int → K)
    (higa : isset p.o oIga = true) (ha : isset p.o oAbs = false)
    (hG : p.G = fun _ => g) (hn1 : p.ndtGC = fun _ => 0) (hn2 : p.ndttGC = fun _ => 0) (hg : gUni p.o g ≠ 0) :
    velocity p f (fun _ => C) i
      = (|C| / 2 - C ^ 2 / (2 * gUni p.o g)) * (f (i + 1) - f i)
        + (if thirdOrder p.o then (3 * C * |C| / gUni p.o g - 2 * C ^ 3 / gUni p.o g ^ 2 - C) / 12 else 0) * (f (i + 2) - f (i + 1) - f i + f (i - 1)) := by
  have hCC : |C| * |C| = C ^ 2 := by rw [abs_mul_abs_self]; ring
  have x4 : i + 1 - 1 = i := by ring
  have x5 : i + 1 + 1 = i + 2 := by ring
  simp only [velocity, antidiff1]
  by_cases hd : (isset p.o oDiv2 || isset p.o oDiv3) = true
  · have ht : thirdOrder p.o = isset p.o oDiv3 := by unfold thirdOrder; rw [if_pos hd]
    rw [if_pos hd]; simp only [ht]
    have e : div3rd1 p.o p.si p.te p.tiny f (fun _ => C) p.ndtGC p.ndttGC p.G i
        = (if isset p.o oDiv3 then (3 * C * |C| / gUni p.o g - 2 * C ^ 3 / gUni p.o g ^ 2 - C) / 12 else 0) * (f (i + 2) - f (i + 1) - f i + f (i - 1)) := by
      unfold div3rd1
      split
      · have h1 : div3rdUpwind1 p.o p.tiny f (fun _ => C) p.G i = 0 := by unfold div3rdUpwind1; rw [if_pos higa]
        have h2 : div3rdSpatial1 p.o p.si p.tiny f (fun _ => C) i = -(C / 12) * (f (i + 2) - f (i + 1) - f i + f (i - 1)) := by
          have : div3rdSpatialHelper1 p.o p.si f (fun _ => C) i = 0 := by
            unfold div3rdSpatialHelper1 ndxxGC01
            cases p.si <;> simp only [] <;> split_ifs <;> ring
          simp only [div3rdSpatial1, this, ndxGC01, ndxxPsi1, higa, if_true]
          ring
        have h3 : div3rdTemporal1 p.o p.te f p.ndttGC i = 0 := by
          unfold div3rdTemporal1 ndttGC01; rw [hn2]
          cases p.te <;> simp
        have h4 : nfdiv1 p.o p.tiny f p.ndtGC p.G i = 0 := by
          simp only [nfdiv1, higa, if_true, hn1, gc0BarX1]; simp
        rw [h1, h2, h3, h4, hn1]
        simp only [ndxFdiv1, nfdivFdiv1, fdivCentre1, psiBarX1, gc0BarX1, higa, ha, hG, gBarX1_uni, gFac1_uni, if_true, Bool.false_eq_true, if_false, x4, x5]
        field_simp
        ring_nf
      · ring
    rw [e]
    simp only [div2nd1, ndxPsi1, nfdiv1, gc0BarX1, higa, if_true, hG, gBarX1_uni]
    congr 1
    field_simp
    ring
  · have ht : thirdOrder p.o = isset p.o oTot := by unfold thirdOrder; rw [if_neg hd]
    rw [if_neg hd]; simp only [ht]
    have e : dfl1 p.o f (fun _ => C) p.G i = 0 := by
      unfold dfl1; split_ifs <;> simp
    rw [e]
    simp only [tot1, ndxPsi1, ndxxPsi1, ndxxPsiCoeff1, higa, if_true, hG, gBarX1_uni]
    have h1 : |C| / 2 * (1 - |C| / gUni p.o g) = |C| / 2 - C ^ 2 / (2 * gUni p.o g) := by
      rw [← hCC]; field_simp
    rw [h1]
    split_ifs <;> (field_simp; ring)

/-- one two-pass step at a point around which the field is a cubic -/
theorem order1_core (p : Par K) (C g : K) (i : Int) (psi : Int → K) (a0 a1 a2 a3 : K)
    (higa : isset p.o oIga = true) (ha : isset p.o oAbs = false) (hf : isset p.o oFct = false)
    (hG : p.G = fun _ => g) (hn1 : p.ndtGC = fun _ => 0) (hn2 : p.ndttGC = fun _ => 0) (hg : gUni p.o g ≠ 0)
    (hpsi : ∀ k : Int, -3 ≤ k → k ≤ 3 → psi (i + k) = a0 + a1 * k + a2 * k ^ 2 + a3 * k ^ 3)
    (h3 : thirdOrder p.o = true ∨ a3 = 0) :
    step p 2 psi (fun _ => C) i
      = a0 + a1 * (-(C / gUni p.o g)) + a2 * (-(C / gUni p.o g)) ^ 2 + a3 * (-(C / gUni p.o g)) ^ 3 := by
  obtain ⟨q, hq⟩ : ∃ q : Int → K, q = fun k : Int => a0 + a1 * k + a2 * k ^ 2 + a3 * k ^ 3 := ⟨_, rfl⟩
  have hpsi' : ∀ k : Int, -3 ≤ k → k ≤ 3 → psi (i + k) = q k := fun k h1 h2 => by rw [hpsi k h1 h2, hq]
  have first_at : ∀ k : Int, -2 ≤ k → k ≤ 2 → first p psi (fun _ => C) (i + k)
      = q k - (pospart p.o C * (q k - q (k - 1)) + negpart p.o C * (q (k + 1) - q k)) / gUni p.o g := by
    intro k h1 h2
    simp only [first, donorStep1, donorSum1_eq, makeFlux1, donorF, hG, gFac1_uni]
    rw [show i + k - 1 + 1 = i + k by ring, show i + k + 1 = i + (k + 1) by ring, show i + k - 1 = i + (k - 1) by ring,
      hpsi' k (by omega) (by omega), hpsi' (k + 1) (by omega) (by omega), hpsi' (k - 1) (by omega) (by omega)]
    field_simp
    ring
  obtain ⟨f, hfd⟩ : ∃ f : Int → K, f = first p psi (fun _ => C) := ⟨_, rfl⟩
  have e0 := first_at 0 (by omega) (by omega)
  have e1 := first_at 1 (by omega) (by omega)
  have e2 := first_at 2 (by omega) (by omega)
  have e3 := first_at (-1) (by omega) (by omega)
  have e4 := first_at (-2) (by omega) (by omega)
  rw [← hfd] at e0 e1 e2 e3 e4
  norm_num at e0 e1 e2 e3 e4
  have hs : step p 2 psi (fun _ => C) i = f i + (-(velocity p f (fun _ => C) i) + velocity p f (fun _ => C) (i - 1)) / gUni p.o g := by
    simp only [step, passes, corrective, hf, higa, hfd, donorStep1, donorSum1_eq, hG, gFac1_uni, if_true, Bool.false_eq_true, if_false]
  rw [hs]
  have x1 : i - 1 + 1 = i := by ring
  have x2 : i - 1 + 2 = i + 1 := by ring
  have x3 : i - 1 - 1 = i - 2 := by ring
  rw [← sub_eq_add_neg] at e3 e4
  rw [velocity_uni1 p C g i f higa ha hG hn1 hn2 hg, velocity_uni1 p C g (i - 1) f higa ha hG hn1 hn2 hg, x1, x2, x3, e0, e1, e2, e3, e4]
  have q0 : ∀ k : Int, q k = a0 + a1 * k + a2 * k ^ 2 + a3 * k ^ 3 := fun k => by rw [hq]
  simp only [q0]
  push_cast
  generalize gUni p.o g = γ at *
  rcases le_total 0 C with hC | hC
  · rw [pospart_pos_eq _ hC, negpart_pos_eq _ hC, abs_of_nonneg hC]
    rcases h3 with h3 | h3
    · rw [if_pos h3]; field_simp; ring
    · rw [h3]; split_ifs <;> (field_simp; ring)
  · rw [pospart_neg_eq _ hC, negpart_neg_eq _ hC, abs_of_nonpos hC]
    rcases h3 with h3 | h3
    · rw [if_pos h3]; field_simp; ring
    · rw [h3]; split_ifs <;> (field_simp; ring)

/-- a cubic polynomial -/
def cubic (a : Fin 4 → K) (x : K) : K := a 0 + a 1 * x + a 2 * x ^ 2 + a 3 * x ^ 3

/-- C54, 1-D. In a uniform flow the infinite-gauge scheme with its corrective pass is second-order accurate, and third-order accurate with the option `tot` or
`div_3rd`: wherever the initial field is a quadratic (with the third-order options, a cubic) polynomial of position, the program returns after any number of steps
that polynomial moved by exactly the Courant number per step, at every grid point that the polynomial region still covers (each step reads three points on each side). -/
theorem C54_order_of_accuracy_1d (c : Cfg1 K) (p : Par K) (N : Nat) (h : CyclicSetup c p N) (hn : c.nIters = 2)
    (higa : isset c.o oIga = true) (ha : isset c.o oAbs = false) (hf : isset c.o oFct = false)
    (g : K) (hG : p.G = fun _ => g) (hg : g ≠ 0) (hn1 : p.ndtGC = fun _ => 0) (hn2 : p.ndttGC = fun _ => 0)
    (C : K) (m : Mem1 K) (hGC : ∀ i, c.ijk.first ≤ i → i ≤ c.ijk.last - 1 → m.GC i = C)
    (hper : m.psi c.ijk.last = m.psi c.ijk.first)
    (a : Fin 4 → K) (h3 : thirdOrder c.o = true ∨ a 3 = 0) (lo hi : Int) (hlo : c.ijk.first ≤ lo) (hhi : hi ≤ c.ijk.last)
    (hpsi : ∀ i, lo ≤ i → i ≤ hi → m.psi i = cubic a i) (t : Nat) (i : Int) (h1 : lo + 3 * t ≤ i) (h2 : i ≤ hi - 3 * t) :
    (runProg1 c (fun _ => false) t { m with GC := c.fillV false m.GC }).psi i
      = cubic a (i - t * (C / (if isset c.o oNug then g else 1))) := by
  have hl : c.ijk.last = c.ijk.first + N := by have := h.hN; omega
  have hx : HaloCovered c.o c.nIters := by unfold HaloCovered; rw [hn]; simp
  have hNpos : (0 : Int) < N := by
    have h1 := h.hhN
    have h2 : (1 : Int) ≤ solverHalo c.o := by unfold solverHalo; split <;> omega
    omega
  have hgc : perExt c.ijk.first N m.GC = fun _ => C := by
    funext j; unfold perExt
    have b1 := Int.emod_nonneg (j - c.ijk.first) hNpos.ne'
    have b2 := Int.emod_lt_of_pos (j - c.ijk.first) hNpos
    exact hGC _ (by omega) (by omega)
  have hpe := perExt_agree' c.ijk.first N m.psi (by rw [← hl]; exact hper)
  have hr := cyc_run h (by omega) hx (fun _ => false) (perExt_periodic c.ijk.first N m.psi) (perExt_periodic c.ijk.first N m.GC)
    m (by rw [hl]; exact hpe) (by rw [hl]; exact perExt_agree c.ijk.first N m.GC) t
  rw [hr i (by omega) (by omega), hgc, hn, h.ho]
  have hgu : gUni p.o g ≠ 0 := by unfold gUni; split_ifs; exacts [hg, one_ne_zero]
  rw [h.ho] at higa ha hf h3
  have key : ∀ (t : Nat) (i : Int), lo + 3 * t ≤ i → i ≤ hi - 3 * t →
      Spec1.run p 2 (fun _ => false) (fun _ => C) t (perExt c.ijk.first N m.psi) i = cubic a (i - t * (C / gUni p.o g)) := by
    intro t
    induction t with
    | zero =>
      intro i h1 h2
      simp only [Spec1.run]
      rw [← hpe i (by omega) (by omega), hpsi i (by omega) (by omega)]; simp
    | succ t ih =>
      intro i h1 h2
      push_cast at h1 h2
      show step p 2 _ (fun _ => C) i = _
      have := order1_core p C g i (Spec1.run p 2 (fun _ => false) (fun _ => C) t (perExt c.ijk.first N m.psi))
        (cubic a (i - t * (C / gUni p.o g)))
        (a 1 + 2 * a 2 * (i - t * (C / gUni p.o g)) + 3 * a 3 * (i - t * (C / gUni p.o g)) ^ 2)
        (a 2 + 3 * a 3 * (i - t * (C / gUni p.o g))) (a 3) higa ha hf hG hn1 hn2 hgu
        (fun k k1 k2 => by
          rw [ih (i + k) (by omega) (by omega)]; unfold cubic; push_cast; ring) h3
      rw [this]; unfold cubic; push_cast; ring
  exact key t i h1 h2

/-- the hypotheses of C54 hold for a third-order solver on 21 points whose field is a cubic on the left and returns to its initial value on the right -/
example : ∃ (c : Cfg1 ℚ) (p : Par ℚ) (m : Mem1 ℚ), CyclicSetup c p (20 : Nat) ∧ c.nIters = 2 ∧ isset c.o oIga = true ∧ isset c.o oAbs = false ∧
    isset c.o oFct = false ∧ (p.G = fun _ => 1) ∧ (p.ndtGC = fun _ => 0) ∧ (p.ndttGC = fun _ => 0) ∧
    (∀ i, c.ijk.first ≤ i → i ≤ c.ijk.last - 1 → m.GC i = 1/2) ∧ m.psi c.ijk.last = m.psi c.ijk.first ∧ thirdOrder c.o = true ∧
    ∀ i, 0 ≤ i → i ≤ 19 → m.psi i = cubic ![1, 2, -1/3, 1/10] (i : ℚ) := by
  refine ⟨{ demo1 (oIga ||| oTot) 2 with ijk := ⟨0, 20⟩, fillS := cycFillS ⟨0, 20⟩ (solverHalo (oIga ||| oTot)), fillV := fun _ => cycFillV ⟨0, 20⟩ (solverHalo (oIga ||| oTot)) },
    ⟨oIga ||| oTot, .exact, .noextrp, 1/1000, 1/1000, fun _ => 1, fun _ => 0, fun _ => 0⟩,
    { demoMem 7 with psi := fun i => if i = 20 then 1 else cubic ![1, 2, -1/3, 1/10] (i : ℚ) }, ?_, rfl, by decide, by decide, by decide, rfl, rfl, rfl, fun _ _ _ => rfl, ?_, by decide, ?_⟩
  · exact ⟨rfl, rfl, rfl, rfl, rfl, rfl, by decide, rfl, rfl, ⟨fun _ => rfl, fun _ => rfl, fun _ => rfl⟩,
      fun _ _ _ => rfl, fun _ _ _ => rfl, fun _ _ _ => rfl⟩
  · simp [cubic]
  · intro i h1 h2
    show (if i = 20 then (1 : ℚ) else _) = _
    rw [if_neg (by omega)]

end Mpdata
