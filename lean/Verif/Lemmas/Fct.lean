import Verif.Lemmas.Donor
import Verif.Model.Antidiff1
/-! Dimension-independent facts about the flux limiter: one face, one cell. -/
set_option linter.unusedSectionVars false
namespace Mpdata
variable {K : Type} [Field K] [LinearOrder K] [IsStrictOrderedRing K]

/-- the factor that multiplies the antidiffusive velocity `C` at a face between cells L and R -/
def monoCoef (o : OptsT) (pL pR uL dL uR dR C : K) : K :=
  if !isset o oIga && isset o oAbs then
    (if C > 0 then (if pL > 0 then min (min 1 dL) uR else min (min 1 uL) dR)
     else (if pR > 0 then min (min 1 uL) dR else min (min 1 dL) uR))
  else (if C > 0 then min (min 1 dL) uR else min (min 1 uL) dR)

theorem gcMono1_eq (o : OptsT) (psi u d A : Int → K) (i : Int) :
    gcMono1 o psi u d A i = A i * monoCoef o (psi i) (psi (i + 1)) (u i) (d i) (u (i + 1)) (d (i + 1)) (A i) := by
  unfold gcMono1 monoCoef; split <;> rfl

theorem monoCoef_range (o : OptsT) (pL pR uL dL uR dR C : K) (h1 : 0 ≤ uL) (h2 : 0 ≤ dL) (h3 : 0 ≤ uR) (h4 : 0 ≤ dR) :
    0 ≤ monoCoef o pL pR uL dL uR dR C ∧ monoCoef o pL pR uL dL uR dR C ≤ 1 := by
  unfold monoCoef
  split_ifs <;> exact ⟨by simp [*], (min_le_left _ _).trans (min_le_left _ _)⟩

/-- donor flux (or the velocity itself with infinite gauge) -/
def faceFlux (o : OptsT) (pL pR C : K) : K := if isset o oIga then C else donorF o pL pR C

theorem donorF_smul (o : OptsT) (pL pR C l : K) (hl : 0 ≤ l) : donorF o pL pR (C * l) = donorF o pL pR C * l := by
  have hp : pospart o (C * l) = pospart o C * l := by
    rw [pospart_eq, pospart_eq, max_mul_of_nonneg _ _ hl, zero_mul]
  have hn : negpart o (C * l) = negpart o C * l := by
    rw [negpart_eq, negpart_eq, min_mul_of_nonneg _ _ hl, zero_mul]
  unfold donorF; rw [hp, hn]; ring

theorem faceFlux_smul (o : OptsT) (pL pR C l : K) (hl : 0 ≤ l) : faceFlux o pL pR (C * l) = faceFlux o pL pR C * l := by
  unfold faceFlux; split
  · rfl
  · exact donorF_smul o pL pR C l hl

/-- sign conventions under which the limiter works: infinite gauge, the variable-sign version, or a
non-negative field -/
def SignOk (o : OptsT) (p : K) : Prop := isset o oIga = true ∨ isset o oAbs = true ∨ 0 ≤ p

theorem SignOk.shift {o : OptsT} {p q : K} (h : SignOk o p) (hpq : p ≤ q) : SignOk o q := by
  rcases h with h | h | h
  · exact .inl h
  · exact .inr (.inl h)
  · exact .inr (.inr (h.trans hpq))

/-- a limited face flux: outgoing parts are bounded by the two cells' budgets -/
structure LimOk (o : OptsT) (f f' uL dL uR dR : K) : Prop where
  posL : pospart o f' ≤ dL * pospart o f
  posR : pospart o f' ≤ uR * pospart o f
  negL : -negpart o f' ≤ uL * -negpart o f
  negR : -negpart o f' ≤ dR * -negpart o f

theorem limOk_of_coef (o : OptsT) (f l uL dL uR dR : K)
    (hl : 0 ≤ l) (hp : 0 < f → l ≤ dL ∧ l ≤ uR) (hn : f < 0 → l ≤ uL ∧ l ≤ dR) : LimOk o f (f * l) uL dL uR dR := by
  have ep : pospart o (f * l) = pospart o f * l := by
    rw [pospart_eq, pospart_eq, max_mul_of_nonneg _ _ hl, zero_mul]
  have en : negpart o (f * l) = negpart o f * l := by
    rw [negpart_eq, negpart_eq, min_mul_of_nonneg _ _ hl, zero_mul]
  rcases lt_trichotomy f 0 with h | h | h
  · obtain ⟨a, b⟩ := hn h
    have p0 : pospart o f = 0 := by rw [pospart_eq, max_eq_left h.le]
    have n0 : negpart o f ≤ 0 := negpart_nonpos o f
    constructor
    · rw [ep, p0]; simp
    · rw [ep, p0]; simp
    · rw [en]; nlinarith [mul_le_mul_of_nonneg_right a (neg_nonneg.2 n0)]
    · rw [en]; nlinarith [mul_le_mul_of_nonneg_right b (neg_nonneg.2 n0)]
  · subst h
    constructor <;> simp [pospart_eq, negpart_eq]
  · obtain ⟨a, b⟩ := hp h
    have n0 : negpart o f = 0 := by rw [negpart_eq, min_eq_left h.le]
    have p0 : 0 ≤ pospart o f := pospart_nonneg o f
    constructor
    · rw [ep]; nlinarith [mul_le_mul_of_nonneg_right a p0]
    · rw [ep]; nlinarith [mul_le_mul_of_nonneg_right b p0]
    · rw [en, n0]; simp
    · rw [en, n0]; simp

/-- limiting at one face works for all three variants -/
theorem face_limOk (o : OptsT) (pL pR uL dL uR dR C : K) (h1 : 0 ≤ uL) (h2 : 0 ≤ dL) (h3 : 0 ≤ uR) (h4 : 0 ≤ dR)
    (sL : SignOk o pL) (sR : SignOk o pR) :
    LimOk o (faceFlux o pL pR C) (faceFlux o pL pR (C * monoCoef o pL pR uL dL uR dR C)) uL dL uR dR := by
  obtain ⟨l0, l1⟩ := monoCoef_range o pL pR uL dL uR dR C h1 h2 h3 h4
  rw [faceFlux_smul _ _ _ _ _ l0]
  have ab : min (min 1 dL) uR ≤ dL ∧ min (min 1 dL) uR ≤ uR :=
    ⟨(min_le_left _ _).trans (min_le_right _ _), min_le_right _ _⟩
  have cd : min (min 1 uL) dR ≤ uL ∧ min (min 1 uL) dR ≤ dR :=
    ⟨(min_le_left _ _).trans (min_le_right _ _), min_le_right _ _⟩
  apply limOk_of_coef o _ _ uL dL uR dR l0
  · intro hf
    unfold monoCoef
    unfold faceFlux at hf
    by_cases hi : isset o oIga = true
    · rw [if_pos hi] at hf
      simp only [hi, Bool.not_true, Bool.false_and, Bool.false_eq_true, if_false, gt_iff_lt]
      rw [if_pos hf]; exact ab
    · rw [if_neg hi] at hf
      unfold donorF at hf
      rw [pospart_eq, negpart_eq] at hf
      by_cases hC : 0 < C
      · rw [max_eq_right hC.le, min_eq_left hC.le, zero_mul, add_zero] at hf
        have hp : 0 < pL := by
          by_contra h
          have := mul_nonneg hC.le (neg_nonneg.2 (not_lt.1 h))
          linarith
        simp only [gt_iff_lt, hC, hp, if_true]
        split <;> exact ab
      · have hC' := not_lt.1 hC
        rw [max_eq_left hC', min_eq_right hC', zero_mul, zero_add] at hf
        have hp : ¬ 0 < pR := fun h => by nlinarith
        have hp' : pR < 0 := by
          rcases lt_or_eq_of_le (not_lt.1 hp) with h | h
          · exact h
          · rw [h] at hf; simp at hf
        rcases sR with h | h | h
        · exact absurd h hi
        · simp only [Bool.not_eq_true] at hi
          simp only [hi, h, gt_iff_lt, hC, hp, if_false, Bool.not_false, Bool.true_and, if_true]
          exact ab
        · exact absurd hp' (not_lt.2 h)
  · intro hf
    unfold monoCoef
    unfold faceFlux at hf
    by_cases hi : isset o oIga = true
    · rw [if_pos hi] at hf
      simp only [hi, Bool.not_true, Bool.false_and, Bool.false_eq_true, if_false, gt_iff_lt]
      rw [if_neg (not_lt.2 hf.le)]; exact cd
    · rw [if_neg hi] at hf
      unfold donorF at hf
      rw [pospart_eq, negpart_eq] at hf
      by_cases hC : 0 < C
      · rw [max_eq_right hC.le, min_eq_left hC.le, zero_mul, add_zero] at hf
        have hp : ¬ 0 < pL := fun h => by nlinarith
        have hp' : pL < 0 := by
          rcases lt_or_eq_of_le (not_lt.1 hp) with h | h
          · exact h
          · rw [h] at hf; simp at hf
        rcases sL with h | h | h
        · exact absurd h hi
        · simp only [Bool.not_eq_true] at hi
          simp only [hi, h, gt_iff_lt, hC, hp, if_false, Bool.not_false, Bool.true_and, if_true]
          exact cd
        · exact absurd hp' (not_lt.2 h)
      · have hC' := not_lt.1 hC
        rw [max_eq_left hC', min_eq_right hC', zero_mul, zero_add] at hf
        have hp : 0 < pR := by
          by_contra h
          have := mul_nonneg_of_nonpos_of_nonpos hC' (not_lt.1 h)
          linarith
        simp only [gt_iff_lt, hC, hp, if_true, if_false]
        split <;> exact cd

/-- one cell: if the limited inflow is at most `beta` times the unlimited one, the cell does not exceed its bound -/
theorem inflow_le (room g eps inn inn' : K) (hroom : 0 ≤ room) (hg : 0 < g) (heps : 0 ≤ eps) (hin : 0 ≤ inn)
    (h : inn' ≤ fctFrac eps (room * g) inn * inn) : inn' / g ≤ room := by
  unfold fctFrac at h
  rw [div_le_iff₀ hg]
  rcases eq_or_lt_of_le hin with h0 | h0
  · rw [← h0, mul_zero] at h
    exact h.trans (mul_nonneg hroom hg.le)
  · refine h.trans ?_
    rw [div_mul_eq_mul_div, div_le_iff₀ (by linarith)]
    have := mul_nonneg (mul_nonneg hroom hg.le) heps
    nlinarith

theorem fctFrac_nonneg (eps nom den : K) (heps : 0 ≤ eps) (hn : 0 ≤ nom) (hd : 0 ≤ den) : 0 ≤ fctFrac eps nom den :=
  div_nonneg hn (by linarith)

theorem flux_split (o : OptsT) (f : K) : f = pospart o f - -negpart o f := by
  have := pos_add_neg o f; linarith

end Mpdata
