import Verif.Lemmas.Order2
/-! # Uniform flow in 3-D: the schemes as linear stencils, and the polynomials they move exactly
The 3-D counterpart of `Lemmas/Order2`. -/
set_option linter.unusedSectionVars false
set_option linter.unusedVariables false
set_option linter.unusedSimpArgs false
set_option linter.unusedTactic false
set_option linter.unreachableTactic false
namespace Mpdata
variable {K : Type} [Field K] [LinearOrder K] [IsStrictOrderedRing K]

theorem gBarX3_uni (o : OptsT) (g : K) (i j k : Int) : gBarX3 o (fun _ _ _ => g) i j k = gUni o g := by
  unfold gBarX3 gUni gF3; split_ifs <;> ring
theorem gBarXY3_uni (o : OptsT) (g : K) (i j k : Int) : gBarXY3 o (fun _ _ _ => g) i j k = gUni o g := by
  unfold gBarXY3 gUni gF3; split_ifs <;> ring
theorem gBarXZ3_uni (o : OptsT) (g : K) (i j k : Int) : gBarXZ3 o (fun _ _ _ => g) i j k = gUni o g := by
  unfold gBarXZ3 gUni gF3; split_ifs <;> ring
theorem gF3_uni (o : OptsT) (g : K) (i j k : Int) : gF3 o (fun _ _ _ => g) i j k = gUni o g := rfl

/-- second-order terms of the standard form -/
def uniStd3 (F : Ar3 K) (a b c α : K) : K :=
  α / 2 * (1 - α) * (F 1 0 0 - F 0 0 0) - a / 2 * (b * ((F 1 1 0 + F 0 1 0 - F 1 (-1) 0 - F 0 (-1) 0) / 4) + c * ((F 1 0 1 + F 0 0 1 - F 1 0 (-1) - F 0 0 (-1)) / 4))

/-- third-order terms of the standard form -/
def uniTot3 (F : Ar3 K) (a b c α : K) : K :=
  (F 2 0 0 - F 1 0 0 - F 0 0 0 + F (-1) 0 0) / 2 * ((3 * a * α - 2 * a ^ 3 - a) / 6) + (F 1 1 0 - F 0 1 0 - F 1 (-1) 0 + F 0 (-1) 0) / 2 * ((α - 2 * a ^ 2) * b / 2) + (F 1 0 1 - F 0 0 1 - F 1 0 (-1) + F 0 0 (-1)) / 2 * ((α - 2 * a ^ 2) * c / 2)
    + ((F 1 1 1 + F 1 (-1) (-1) - F 1 1 (-1) - F 1 (-1) 1 + F 0 1 1 + F 0 (-1) (-1) - F 0 1 (-1) - F 0 (-1) 1) / 8) * (-2 * a * b * c / 3)

/-- second-order terms of the divergence form -/
def uniDivA3 (F : Ar3 K) (a b c α : K) : K :=
  α / 2 * (F 1 0 0 - F 0 0 0) - a / 2 * (a * (F 1 0 0 - F 0 0 0) + b * ((F 1 1 0 + F 0 1 0 - F 1 (-1) 0 - F 0 (-1) 0) / 4) + c * ((F 1 0 1 + F 0 0 1 - F 1 0 (-1) - F 0 0 (-1)) / 4))

/-- centred divergence of the flux at a cell centre -/
def uniCen3 (F : Ar3 K) (a b c : K) (i : Int) : K :=
  a * ((F (i + 1) 0 0 - F (i - 1) 0 0) / 2) + b * ((F i 1 0 - F i (-1) 0) / 2) + c * ((F i 0 1 - F i 0 (-1)) / 2)

/-- average over the eight points around a cell corner -/
def uniAvg3 (F : Ar3 K) (j k : Int) : K :=
  (F 0 j k + F 1 j k + F 0 (j + 1) k + F 0 j (k + 1) + F 1 (j + 1) k + F 1 j (k + 1) + F 0 (j + 1) (k + 1) + F 1 (j + 1) (k + 1)) / 8

/-- flux divergence at a cell edge of the x-y plane -/
def uniXY3 (F : Ar3 K) (a b c : K) (j : Int) : K :=
  a * ((F 1 j 0 + F 1 (j + 1) 0 - F 0 j 0 - F 0 (j + 1) 0) / 2) + b * ((F 1 (j + 1) 0 + F 0 (j + 1) 0 - F 1 j 0 - F 0 j 0) / 2)
    + c * (uniAvg3 F j 0 - uniAvg3 F j (-1))

/-- flux divergence at a cell edge of the x-z plane -/
def uniXZ3 (F : Ar3 K) (a b c : K) (k : Int) : K :=
  a * ((F 1 0 k + F 1 0 (k + 1) - F 0 0 k - F 0 0 (k + 1)) / 2) + b * (uniAvg3 F 0 k - uniAvg3 F (-1) k)
    + c * ((F 1 0 (k + 1) + F 0 0 (k + 1) - F 1 0 k - F 0 0 k) / 2)

/-- third-order terms of the divergence form -/
def uniDivB3 (F : Ar3 K) (a b c α : K) : K :=
  -(a / 12) * (F 2 0 0 - F 1 0 0 - F 0 0 0 + F (-1) 0 0) + α / 2 * (uniCen3 F a b c 1 - uniCen3 F a b c 0)
    - a / 3 * (a * (uniCen3 F a b c 1 - uniCen3 F a b c 0) + b * (uniXY3 F a b c 0 - uniXY3 F a b c (-1)) + c * (uniXZ3 F a b c 0 - uniXZ3 F a b c (-1)))

/-- third-order terms of the variant that uses the field before the first pass -/
def uniDtB3 (F H : Ar3 K) (a b c α : K) : K :=
  -(a / 12) * (F 2 0 0 - F 1 0 0 - F 0 0 0 + F (-1) 0 0) - α / 2 * (F 1 0 0 - H 1 0 0 - F 0 0 0 + H 0 0 0)
    + a / 3 * (a * (F 1 0 0 - H 1 0 0) - a * (F 0 0 0 - H 0 0 0) + b * (((F 1 1 0 + F 0 1 0 - F 1 (-1) 0 - F 0 (-1) 0) / 4) - ((H 1 1 0 + H 0 1 0 - H 1 (-1) 0 - H 0 (-1) 0) / 4)) + c * (((F 1 0 1 + F 0 0 1 - F 1 0 (-1) - F 0 0 (-1)) / 4) - ((H 1 0 1 + H 0 0 1 - H 1 0 (-1) - H 0 0 (-1)) / 4)))

theorem std3_uni (o : OptsT) (si te) (tiny a b c α γ g : K) (F old : Ar3 K) (higa : isset o oIga = true)
    (hγ : gUni o g = γ) (h0 : γ ≠ 0) (hα : |γ * a| = γ * α)
    (hd : (isset o oDiv2 || isset o oDiv3) = false) :
    antidiff3 o si te tiny F old (fun _ _ _ => γ * a) (fun _ _ _ => γ * b) (fun _ _ _ => γ * c) (fun _ _ _ => 0) (fun _ _ _ => 0) (fun _ _ _ => 0) (fun _ _ _ => 0) (fun _ _ _ => g) 0 0 0
      = γ * uniStd3 F a b c α + (if isset o oTot then γ * uniTot3 F a b c α else 0) := by
  have e1 : ∀ b : K, (γ * b + γ * b + γ * b + γ * b) / 4 = γ * b := fun b => by ring
  unfold antidiff3 uniStd3
  rw [if_neg (by rw [hd]; decide)]
  have e : dfl3 o F (fun _ _ _ => γ * a) (fun _ _ _ => γ * b) (fun _ _ _ => γ * c) (fun _ _ _ => g) 0 0 0 = 0 := by unfold dfl3; split_ifs <;> simp
  rw [e, add_zero]
  simp only [ndxPsi3, ndyPsi3, ndzPsi3, gc1BarXY3, gc2BarXZ3, gBarX3_uni, tot3, higa, if_true, ndxxPsi3, ndxyPsi3, ndxzPsi3, ndyzPsi3, ndxxPsiCoeff3, ndxyPsiCoeff3, ndxzPsiCoeff3, ndyzPsiCoeff3,
    hγ, e1, hα, zero_add, zero_sub, uniTot3]
  congr 1
  · field_simp
  · split_ifs
    · field_simp; ring
    · rfl

theorem divA3_uni (o : OptsT) (tiny a b c α γ g : K) (F : Ar3 K) (higa : isset o oIga = true) (ha : isset o oAbs = false)
    (hγ : gUni o g = γ) (h0 : γ ≠ 0) (hα : |γ * a| = γ * α) :
    div2nd3 o tiny F (fun _ _ _ => γ * a) (fun _ _ _ => γ * b) (fun _ _ _ => γ * c) (fun _ _ _ => g) 0 0 0 = γ * uniDivA3 F a b c α := by
  unfold div2nd3 uniDivA3
  simp only [ndxPsi3, nfdiv3, gc0BarX3, gc1BarX3, gc2BarX3, psiBarXY3, psiBarXZ3, vabs, ha, gBarX3_uni, higa, if_true, Bool.false_eq_true, if_false, hγ, hα, zero_add, zero_sub, Int.reduceNeg, neg_add_cancel]
  field_simp
  ring

theorem spatial3_uni (o : OptsT) (si) (tiny a γ : K) (F : Ar3 K) (higa : isset o oIga = true) :
    div3rdSpatial3 o si tiny F (fun _ _ _ => γ * a) 0 0 0 = γ * (-(a / 12) * (F 2 0 0 - F 1 0 0 - F 0 0 0 + F (-1) 0 0)) := by
  have : div3rdSpatialHelper3 o si F (fun _ _ _ => γ * a) 0 0 0 = 0 := by
    unfold div3rdSpatialHelper3 ndxxGC03
    cases si <;> simp only [] <;> split_ifs <;> ring
  simp only [div3rdSpatial3, this, ndxGC03, ndxxPsi3, higa, if_true, zero_add, zero_sub]
  ring

theorem cen3_uni (o : OptsT) (a b c γ g : K) (F : Ar3 K) (ha : isset o oAbs = false) (hγ : gUni o g = γ) (h0 : γ ≠ 0) (i : Int) :
    fdivCentre3 o F (fun _ _ _ => γ * a) (fun _ _ _ => γ * b) (fun _ _ _ => γ * c) (fun _ _ _ => g) i 0 0 = uniCen3 F a b c i := by
  unfold fdivCentre3 uniCen3
  simp only [psiBarX3, psiBarY3, psiBarZ3, vabs, ha, gF3_uni, hγ, Bool.false_eq_true, if_false, zero_add, zero_sub, Int.reduceNeg, neg_add_cancel, sub_add_cancel]
  field_simp
  ring

theorem xy3_uni (o : OptsT) (a b c γ g : K) (F : Ar3 K) (ha : isset o oAbs = false) (hγ : gUni o g = γ) (h0 : γ ≠ 0) (j : Int) :
    fdivCornerXY3 o F (fun _ _ _ => γ * a) (fun _ _ _ => γ * b) (fun _ _ _ => γ * c) (fun _ _ _ => g) 0 j 0 = uniXY3 F a b c j := by
  unfold fdivCornerXY3 uniXY3 uniAvg3
  simp only [psiBarX3, psiBarY3, psiBarXYZ3, gc0BarXY3, gc1BarXY3, gc2BarXY3, vabs, ha, gBarXY3_uni, hγ, Bool.false_eq_true, if_false, zero_add, zero_sub, Int.reduceNeg, neg_add_cancel]
  field_simp
  ring

theorem xz3_uni (o : OptsT) (a b c γ g : K) (F : Ar3 K) (ha : isset o oAbs = false) (hγ : gUni o g = γ) (h0 : γ ≠ 0) (k : Int) :
    fdivCornerXZ3 o F (fun _ _ _ => γ * a) (fun _ _ _ => γ * b) (fun _ _ _ => γ * c) (fun _ _ _ => g) 0 0 k = uniXZ3 F a b c k := by
  unfold fdivCornerXZ3 uniXZ3 uniAvg3
  simp only [psiBarX3, psiBarZ3, psiBarXYZ3, gc0BarXZ3, gc1BarXZ3, gc2BarXZ3, vabs, ha, gBarXZ3_uni, hγ, Bool.false_eq_true, if_false, zero_add, zero_sub, Int.reduceNeg, neg_add_cancel]
  field_simp
  ring

theorem divB3_uni (o : OptsT) (si te) (tiny a b c α γ g : K) (F old : Ar3 K) (higa : isset o oIga = true) (ha : isset o oAbs = false)
    (hγ : gUni o g = γ) (h0 : γ ≠ 0) (hα : |γ * a| = γ * α) (h3 : isset o oDiv3 = true) :
    div3rd3 o si te tiny F old (fun _ _ _ => γ * a) (fun _ _ _ => γ * b) (fun _ _ _ => γ * c) (fun _ _ _ => 0) (fun _ _ _ => 0) (fun _ _ _ => 0) (fun _ _ _ => 0) (fun _ _ _ => g) 0 0 0
      = γ * uniDivB3 F a b c α := by
  unfold div3rd3
  rw [if_pos h3, spatial3_uni o si tiny a γ F higa]
  have h4 : div3rdTemporal3 o te F (fun _ _ _ => 0) 0 0 0 = 0 := by
    unfold div3rdTemporal3 ndttGC03
    cases te <;> simp
  have h5 : nfdiv3 o tiny F (fun _ _ _ => 0) (fun _ _ _ => 0) (fun _ _ _ => 0) (fun _ _ _ => g) 0 0 0 = 0 := by
    simp only [nfdiv3, higa, if_true, gc0BarX3, gc1BarX3, gc2BarX3]; simp
  rw [h4, h5]
  simp only [div3rdUpwind3, ndxFdiv3, nfdivFdiv3, zero_add, zero_sub, cen3_uni o a b c γ g F ha hγ h0, xy3_uni o a b c γ g F ha hγ h0, xz3_uni o a b c γ g F ha hγ h0,
    gc0BarX3, gc1BarX3, gc2BarX3, higa, gBarX3_uni, if_true, hγ, hα]
  unfold uniDivB3
  field_simp
  ring

theorem dtB3_uni (o : OptsT) (si te) (tiny a b c α γ g : K) (F H : Ar3 K) (higa : isset o oIga = true) (ha : isset o oAbs = false)
    (hγ : gUni o g = γ) (h0 : γ ≠ 0) (hα : |γ * a| = γ * α) (h3 : isset o oDiv3 = false) (h3' : isset o oDiv3dt = true) :
    div3rd3 o si te tiny F H (fun _ _ _ => γ * a) (fun _ _ _ => γ * b) (fun _ _ _ => γ * c) (fun _ _ _ => 0) (fun _ _ _ => 0) (fun _ _ _ => 0) (fun _ _ _ => 0) (fun _ _ _ => g) 0 0 0
      = γ * uniDtB3 F H a b c α := by
  unfold div3rd3
  rw [if_neg (by rw [h3]; decide), if_pos h3', spatial3_uni o si tiny a γ F higa]
  have h4 : div3rdTemporal3 o te F (fun _ _ _ => 0) 0 0 0 = 0 := by
    unfold div3rdTemporal3 ndttGC03
    cases te <;> simp
  have h5 : nfdiv3 o tiny F (fun _ _ _ => 0) (fun _ _ _ => 0) (fun _ _ _ => 0) (fun _ _ _ => g) 0 0 0 = 0 := by
    simp only [nfdiv3, higa, if_true, gc0BarX3, gc1BarX3, gc2BarX3]; simp
  rw [h4, h5]
  simp only [div3rdUpwind3, ndtxPsi3, nfdivDt3, psiBarXY3, psiBarXZ3, gc0BarX3, gc1BarX3, gc2BarX3, higa, vabs, ha, gBarX3_uni, if_true,
    Bool.false_eq_true, if_false, hγ, hα, zero_add, zero_sub, Int.reduceNeg, neg_add_cancel]
  unfold uniDtB3
  field_simp
  ring

/-- first pass in a uniform flow -/
def uniUp3 (P : Ar3 K) (a b c α β κ : K) : Ar3 K := fun k l m =>
  P k l m - ((a + α) / 2 * (P k l m - P (k - 1) l m) + (a - α) / 2 * (P (k + 1) l m - P k l m))
    - ((b + β) / 2 * (P k l m - P k (l - 1) m) + (b - β) / 2 * (P k (l + 1) m - P k l m))
    - ((c + κ) / 2 * (P k l m - P k l (m - 1)) + (c - κ) / 2 * (P k l (m + 1) - P k l m))

/-- velocity formulae: fields after and before the first pass, the three Courant numbers starting with that of the face, absolute value of the latter -/
abbrev Vel3 (K : Type) := Ar3 K → Ar3 K → K → K → K → K → K

/-- second pass in a uniform flow with velocity formula `V` -/
def uniNext3 (V : Vel3 K) (F H : Ar3 K) (a b c α β κ : K) : K :=
  F 0 0 0 - (V F H a b c α - V (fun k l m => F (k - 1) l m) (fun k l m => H (k - 1) l m) a b c α)
    - (V (fun k l m => F m k l) (fun k l m => H m k l) b c a β - V (fun k l m => F m (k - 1) l) (fun k l m => H m (k - 1) l) b c a β)
    - (V (fun k l m => F l m k) (fun k l m => H l m k) c a b κ - V (fun k l m => F l m (k - 1)) (fun k l m => H l m (k - 1)) c a b κ)

/-- a step in a uniform flow -/
def uniStep3 (V : Vel3 K) (a b c α β κ : K) (P : Ar3 K) : K := uniNext3 V (uniUp3 P a b c α β κ) P a b c α β κ

/-- a velocity formula linear in both fields -/
def VLin3 (V : Vel3 K) : Prop :=
  ∀ (F H F' H' : Ar3 K) (u a b c α : K), V (fun k l m => u * F k l m + F' k l m) (fun k l m => u * H k l m + H' k l m) a b c α = u * V F H a b c α + V F' H' a b c α

theorem uniNext3_lin {V : Vel3 K} (hV : VLin3 V) (a b c α β κ u : K) (F H F' H' : Ar3 K) :
    uniNext3 V (fun k l m => u * F k l m + F' k l m) (fun k l m => u * H k l m + H' k l m) a b c α β κ = u * uniNext3 V F H a b c α β κ + uniNext3 V F' H' a b c α β κ := by
  unfold uniNext3
  rw [hV F H F' H' u a b c α, hV (fun k l m => F (k - 1) l m) (fun k l m => H (k - 1) l m) (fun k l m => F' (k - 1) l m) (fun k l m => H' (k - 1) l m) u a b c α,
    hV (fun k l m => F m k l) (fun k l m => H m k l) (fun k l m => F' m k l) (fun k l m => H' m k l) u b c a β,
    hV (fun k l m => F m (k - 1) l) (fun k l m => H m (k - 1) l) (fun k l m => F' m (k - 1) l) (fun k l m => H' m (k - 1) l) u b c a β,
    hV (fun k l m => F l m k) (fun k l m => H l m k) (fun k l m => F' l m k) (fun k l m => H' l m k) u c a b κ,
    hV (fun k l m => F l m (k - 1)) (fun k l m => H l m (k - 1)) (fun k l m => F' l m (k - 1)) (fun k l m => H' l m (k - 1)) u c a b κ]
  ring

theorem uniStep3_lin {V : Vel3 K} (hV : VLin3 V) (a b c α β κ u : K) (P Q : Ar3 K) :
    uniStep3 V a b c α β κ (fun k l m => u * P k l m + Q k l m) = u * uniStep3 V a b c α β κ P + uniStep3 V a b c α β κ Q := by
  have h : uniUp3 (fun k l m => u * P k l m + Q k l m) a b c α β κ = fun k l m => u * uniUp3 P a b c α β κ k l m + uniUp3 Q a b c α β κ k l m := by
    funext k l m; unfold uniUp3; ring
  unfold uniStep3
  rw [h]
  exact uniNext3_lin hV a b c α β κ u _ _ _ _

/-- a velocity formula reads four points along and three across -/
def VLoc3 (V : Vel3 K) : Prop :=
  ∀ (F H F' H' : Ar3 K) (a b c α : K), (∀ k l m, -1 ≤ k → k ≤ 2 → -1 ≤ l → l ≤ 1 → -1 ≤ m → m ≤ 1 → F k l m = F' k l m) →
    (∀ k l m, -1 ≤ k → k ≤ 2 → -1 ≤ l → l ≤ 1 → -1 ≤ m → m ≤ 1 → H k l m = H' k l m) → V F H a b c α = V F' H' a b c α

theorem uniStep3_loc {V : Vel3 K} (hV : VLoc3 V) (a b c α β κ : K) (P Q : Ar3 K)
    (h : ∀ k l m, -3 ≤ k → k ≤ 3 → -3 ≤ l → l ≤ 3 → -3 ≤ m → m ≤ 3 → P k l m = Q k l m) : uniStep3 V a b c α β κ P = uniStep3 V a b c α β κ Q := by
  have hU : ∀ k l m, -2 ≤ k → k ≤ 2 → -2 ≤ l → l ≤ 2 → -2 ≤ m → m ≤ 2 → uniUp3 P a b c α β κ k l m = uniUp3 Q a b c α β κ k l m := by
    intro k l m h1 h2 h3 h4 h5 h6
    simp (disch := omega) only [uniUp3, h]
  unfold uniStep3 uniNext3
  rw [hU 0 0 0 (by omega) (by omega) (by omega) (by omega) (by omega) (by omega)]
  rw [hV (uniUp3 P a b c α β κ) P (uniUp3 Q a b c α β κ) Q a b c α
      (fun k l m _ _ _ _ _ _ => hU k l m (by omega) (by omega) (by omega) (by omega) (by omega) (by omega))
      (fun k l m _ _ _ _ _ _ => h k l m (by omega) (by omega) (by omega) (by omega) (by omega) (by omega)),
    hV (fun k l m => uniUp3 P a b c α β κ (k - 1) l m) (fun k l m => P (k - 1) l m) (fun k l m => uniUp3 Q a b c α β κ (k - 1) l m) (fun k l m => Q (k - 1) l m) a b c α
      (fun k l m _ _ _ _ _ _ => hU (k - 1) l m (by omega) (by omega) (by omega) (by omega) (by omega) (by omega))
      (fun k l m _ _ _ _ _ _ => h (k - 1) l m (by omega) (by omega) (by omega) (by omega) (by omega) (by omega)),
    hV (fun k l m => uniUp3 P a b c α β κ m k l) (fun k l m => P m k l) (fun k l m => uniUp3 Q a b c α β κ m k l) (fun k l m => Q m k l) b c a β
      (fun k l m _ _ _ _ _ _ => hU m k l (by omega) (by omega) (by omega) (by omega) (by omega) (by omega))
      (fun k l m _ _ _ _ _ _ => h m k l (by omega) (by omega) (by omega) (by omega) (by omega) (by omega)),
    hV (fun k l m => uniUp3 P a b c α β κ m (k - 1) l) (fun k l m => P m (k - 1) l) (fun k l m => uniUp3 Q a b c α β κ m (k - 1) l) (fun k l m => Q m (k - 1) l) b c a β
      (fun k l m _ _ _ _ _ _ => hU m (k - 1) l (by omega) (by omega) (by omega) (by omega) (by omega) (by omega))
      (fun k l m _ _ _ _ _ _ => h m (k - 1) l (by omega) (by omega) (by omega) (by omega) (by omega) (by omega)),
    hV (fun k l m => uniUp3 P a b c α β κ l m k) (fun k l m => P l m k) (fun k l m => uniUp3 Q a b c α β κ l m k) (fun k l m => Q l m k) c a b κ
      (fun k l m _ _ _ _ _ _ => hU l m k (by omega) (by omega) (by omega) (by omega) (by omega) (by omega))
      (fun k l m _ _ _ _ _ _ => h l m k (by omega) (by omega) (by omega) (by omega) (by omega) (by omega)),
    hV (fun k l m => uniUp3 P a b c α β κ l m (k - 1)) (fun k l m => P l m (k - 1)) (fun k l m => uniUp3 Q a b c α β κ l m (k - 1)) (fun k l m => Q l m (k - 1)) c a b κ
      (fun k l m _ _ _ _ _ _ => hU l m (k - 1) (by omega) (by omega) (by omega) (by omega) (by omega) (by omega))
      (fun k l m _ _ _ _ _ _ => h l m (k - 1) (by omega) (by omega) (by omega) (by omega) (by omega) (by omega))]

theorem lin_sum3 {T : Ar3 K → K} (hT : ∀ u P Q, T (fun k l m => u * P k l m + Q k l m) = u * T P + T Q) {ι : Type} (s : Finset ι) (w : ι → K) (P : ι → Ar3 K) :
    T (fun k l m => ∑ n ∈ s, w n * P n k l m) = ∑ n ∈ s, w n * T (P n) := by
  classical
  have h0 : T (fun _ _ _ => 0) = 0 := by
    have h1 := hT 1 (fun _ _ _ => 0) (fun _ _ _ => 0)
    simp only [mul_zero, add_zero, one_mul] at h1
    linear_combination -h1
  induction s using Finset.induction_on with
  | empty => simpa using h0
  | insert m s hm ih =>
    rw [Finset.sum_insert hm, ← ih, ← hT]
    congr 1; funext k l m; rw [Finset.sum_insert hm]

/-- the monomial `k^i l^j m^n` -/
def mono3 (i j n : Nat) : Ar3 K := fun k l m => (k : K) ^ i * (l : K) ^ j * (m : K) ^ n

/-- exactness on monomials about the origin gives exactness on monomials about any point -/
theorem exact_shift3 {T : Ar3 K → K} (hT : ∀ u P Q, T (fun k l m => u * P k l m + Q k l m) = u * T P + T Q) (d : Nat) (a b c : K)
    (h : ∀ i j n, i + j + n ≤ d → T (mono3 i j n) = (-a) ^ i * (-b) ^ j * (-c) ^ n) (x y z : K) (i j n : Nat) (hij : i + j + n ≤ d) :
    T (fun k l m => (x + k) ^ i * (y + l) ^ j * (z + m) ^ n) = (x - a) ^ i * (y - b) ^ j * (z - c) ^ n := by
  have e : ∀ k l m : K, (x + k) ^ i * (y + l) ^ j * (z + m) ^ n = ∑ q ∈ Finset.range (i + 1) ×ˢ Finset.range (j + 1) ×ˢ Finset.range (n + 1),
      (x ^ (i - q.1) * (i.choose q.1 : K) * (y ^ (j - q.2.1) * (j.choose q.2.1 : K)) * (z ^ (n - q.2.2) * (n.choose q.2.2 : K))) * (k ^ q.1 * l ^ q.2.1 * m ^ q.2.2) := by
    intro k l m
    rw [add_comm x k, add_comm y l, add_comm z m, add_pow, add_pow, add_pow, mul_assoc, Finset.sum_mul_sum, Finset.sum_product, Finset.sum_mul]
    refine Finset.sum_congr rfl (fun p _ => ?_)
    rw [Finset.mul_sum, Finset.sum_product]
    refine Finset.sum_congr rfl (fun q _ => ?_)
    rw [Finset.mul_sum]
    refine Finset.sum_congr rfl (fun r _ => ?_)
    ring
  have e' := e (-a) (-b) (-c)
  rw [← sub_eq_add_neg, ← sub_eq_add_neg, ← sub_eq_add_neg] at e'
  rw [e']
  simp only [e]
  rw [lin_sum3 hT]
  refine Finset.sum_congr rfl (fun q hq => ?_)
  simp only [Finset.mem_product, Finset.mem_range] at hq
  rw [← h q.1 q.2.1 q.2.2 (by omega)]; rfl

/-- polynomial of total degree at most `d` -/
def poly3 (d : Nat) (co : Nat → Nat → Nat → K) (x y z : K) : K :=
  ∑ i ∈ Finset.range (d + 1), ∑ j ∈ Finset.range (d + 1 - i), ∑ n ∈ Finset.range (d + 1 - i - j), co i j n * (x ^ i * y ^ j * z ^ n)

theorem exact_poly3 {T : Ar3 K → K} (hT : ∀ u P Q, T (fun k l m => u * P k l m + Q k l m) = u * T P + T Q) (d : Nat) (a b c : K)
    (h : ∀ i j n, i + j + n ≤ d → T (mono3 i j n) = (-a) ^ i * (-b) ^ j * (-c) ^ n) (x y z : K) (co : Nat → Nat → Nat → K) :
    T (fun k l m => poly3 d co (x + k) (y + l) (z + m)) = poly3 d co (x - a) (y - b) (z - c) := by
  have e : ∀ x y z : K, poly3 d co x y z = ∑ q ∈ (Finset.range (d + 1)).sigma (fun i => (Finset.range (d + 1 - i)).sigma (fun j => Finset.range (d + 1 - i - j))),
      co q.1 q.2.1 q.2.2 * (x ^ q.1 * y ^ q.2.1 * z ^ q.2.2) := by
    intro x y z; unfold poly3; rw [Finset.sum_sigma]
    refine Finset.sum_congr rfl (fun i _ => ?_)
    rw [Finset.sum_sigma]
  simp only [e]
  rw [lin_sum3 hT _ (fun q : (_ : Nat) × (_ : Nat) × Nat => co q.1 q.2.1 q.2.2) (fun q k l m => (x + (k : K)) ^ q.1 * (y + (l : K)) ^ q.2.1 * (z + (m : K)) ^ q.2.2)]
  refine Finset.sum_congr rfl (fun q hq => ?_)
  simp only [Finset.mem_sigma, Finset.mem_range] at hq
  rw [exact_shift3 hT d a b c h x y z q.1 q.2.1 q.2.2 (by omega)]

/-- a step of a monomial in terms of the second pass on monomials -/
theorem uniStep3_mono {V : Vel3 K} (hV : VLin3 V) (i j n : Nat) (a b c α β κ : K) :
    uniStep3 V a b c α β κ (mono3 i j n)
      = uniNext3 V (mono3 i j n) (mono3 i j n) a b c α β κ
        - (∑ q ∈ Finset.range i, (i.choose q * sgnC (i - q) a α) * uniNext3 V (mono3 q j n) (fun _ _ _ => 0) a b c α β κ)
        - (∑ q ∈ Finset.range j, (j.choose q * sgnC (j - q) b β) * uniNext3 V (mono3 i q n) (fun _ _ _ => 0) a b c α β κ)
        - ∑ q ∈ Finset.range n, (n.choose q * sgnC (n - q) c κ) * uniNext3 V (mono3 i j q) (fun _ _ _ => 0) a b c α β κ := by
  have hN := fun u F H F' H' => uniNext3_lin hV a b c α β κ u F H F' H'
  have hL : ∀ u P Q, (fun F => uniNext3 V F (fun _ _ _ => 0) a b c α β κ) (fun k l m => u * P k l m + Q k l m)
      = u * (fun F => uniNext3 V F (fun _ _ _ => 0) a b c α β κ) P + (fun F => uniNext3 V F (fun _ _ _ => 0) a b c α β κ) Q := by
    intro u P Q
    have := hN u P (fun _ _ _ => 0) Q (fun _ _ _ => 0)
    simpa using this
  have s1 := lin_sum3 (T := fun F => uniNext3 V F (fun _ _ _ => 0) a b c α β κ) hL (Finset.range i) (fun q => i.choose q * sgnC (i - q) a α) (fun q => mono3 q j n)
  have s2 := lin_sum3 (T := fun F => uniNext3 V F (fun _ _ _ => 0) a b c α β κ) hL (Finset.range j) (fun q => j.choose q * sgnC (j - q) b β) (fun q => mono3 i q n)
  have s3 := lin_sum3 (T := fun F => uniNext3 V F (fun _ _ _ => 0) a b c α β κ) hL (Finset.range n) (fun q => n.choose q * sgnC (n - q) c κ) (fun q => mono3 i j q)
  rw [← s1, ← s2, ← s3]
  have e : uniUp3 (mono3 i j n) a b c α β κ = fun (k l m : Int) =>
      (-1) * (∑ q ∈ Finset.range i, (i.choose q * sgnC (i - q) a α) * mono3 q j n k l m)
        + ((-1) * (∑ q ∈ Finset.range j, (j.choose q * sgnC (j - q) b β) * mono3 i q n k l m)
          + ((-1) * (∑ q ∈ Finset.range n, (n.choose q * sgnC (n - q) c κ) * mono3 i j q k l m) + mono3 i j n k l m)) := by
    funext k l m
    have x1 := up_pow i a α (k : K)
    have x2 := up_pow j b β (l : K)
    have x3 := up_pow n c κ (m : K)
    have y1 : ∑ q ∈ Finset.range i, (i.choose q * sgnC (i - q) a α) * mono3 q j n k l m = (∑ q ∈ Finset.range i, (i.choose q * sgnC (i - q) a α) * (k : K) ^ q) * ((l : K) ^ j * (m : K) ^ n) := by
      rw [Finset.sum_mul]; exact Finset.sum_congr rfl (fun q _ => by unfold mono3; ring)
    have y2 : ∑ q ∈ Finset.range j, (j.choose q * sgnC (j - q) b β) * mono3 i q n k l m = (∑ q ∈ Finset.range j, (j.choose q * sgnC (j - q) b β) * (l : K) ^ q) * ((k : K) ^ i * (m : K) ^ n) := by
      rw [Finset.sum_mul]; exact Finset.sum_congr rfl (fun q _ => by unfold mono3; ring)
    have y3 : ∑ q ∈ Finset.range n, (n.choose q * sgnC (n - q) c κ) * mono3 i j q k l m = (∑ q ∈ Finset.range n, (n.choose q * sgnC (n - q) c κ) * (m : K) ^ q) * ((k : K) ^ i * (l : K) ^ j) := by
      rw [Finset.sum_mul]; exact Finset.sum_congr rfl (fun q _ => by unfold mono3; ring)
    rw [y1, y2, y3, ← x1, ← x2, ← x3]
    unfold uniUp3 mono3
    push_cast
    ring
  unfold uniStep3
  have z1 := hN (-1) (fun k l m => ∑ q ∈ Finset.range i, (i.choose q * sgnC (i - q) a α) * mono3 q j n k l m) (fun _ _ _ => 0)
    (fun k l m => (-1) * (∑ q ∈ Finset.range j, (j.choose q * sgnC (j - q) b β) * mono3 i q n k l m)
          + ((-1) * (∑ q ∈ Finset.range n, (n.choose q * sgnC (n - q) c κ) * mono3 i j q k l m) + mono3 i j n k l m)) (mono3 i j n)
  have z2 := hN (-1) (fun k l m => ∑ q ∈ Finset.range j, (j.choose q * sgnC (j - q) b β) * mono3 i q n k l m) (fun _ _ _ => 0)
    (fun k l m => (-1) * (∑ q ∈ Finset.range n, (n.choose q * sgnC (n - q) c κ) * mono3 i j q k l m) + mono3 i j n k l m) (mono3 i j n)
  have z3 := hN (-1) (fun k l m => ∑ q ∈ Finset.range n, (n.choose q * sgnC (n - q) c κ) * mono3 i j q k l m) (fun _ _ _ => 0) (mono3 i j n) (mono3 i j n)
  simp only [mul_zero, zero_add] at z1 z2 z3
  rw [e, z1, z2]
  rw [z3]
  ring

/-- velocity of the standard form, second order -/
def VStd3 (F _H : Ar3 K) (a b c α : K) : K := uniStd3 F a b c α

theorem coreStd3_loc : VLoc3 (VStd3 : Vel3 K) := by
  intro F H F' H' a b c α hF hH; simp (disch := omega) only [VStd3, uniStd3, hF, hH]

theorem coreStd3_lin : VLin3 (VStd3 : Vel3 K) := by
  intro F H F' H' u a b c α; unfold VStd3 uniStd3; ring

set_option maxHeartbeats 4000000 in
theorem coreStd3 (a b c α β κ : K) (hα : α = a ∨ α = -a) (hβ : β = b ∨ β = -b) (hκ : κ = c ∨ κ = -c) (i j n : Nat) (hij : i + j + n ≤ 2) :
    uniStep3 VStd3 a b c α β κ (mono3 i j n) = (-a) ^ i * (-b) ^ j * (-c) ^ n := by
  obtain ⟨N, hN⟩ : ∃ N : Nat → Nat → Nat → K, N = fun i j n => uniNext3 VStd3 (mono3 i j n) (fun _ _ _ => 0) a b c α β κ := ⟨_, rfl⟩
  have hM : ∀ i j n, uniNext3 VStd3 (mono3 i j n) (mono3 i j n) a b c α β κ = N i j n := fun i j n => by rw [hN]; rfl
  have n000 := congrFun (congrFun (congrFun hN 0) 0) 0
  norm_num [mono3, uniNext3, VStd3, uniStd3] at n000
  try ring_nf at n000
  have n100 := congrFun (congrFun (congrFun hN 1) 0) 0
  norm_num [mono3, uniNext3, VStd3, uniStd3] at n100
  try ring_nf at n100
  have n010 := congrFun (congrFun (congrFun hN 0) 1) 0
  norm_num [mono3, uniNext3, VStd3, uniStd3] at n010
  try ring_nf at n010
  have n001 := congrFun (congrFun (congrFun hN 0) 0) 1
  norm_num [mono3, uniNext3, VStd3, uniStd3] at n001
  try ring_nf at n001
  have n200 := congrFun (congrFun (congrFun hN 2) 0) 0
  norm_num [mono3, uniNext3, VStd3, uniStd3] at n200
  try ring_nf at n200
  have n110 := congrFun (congrFun (congrFun hN 1) 1) 0
  norm_num [mono3, uniNext3, VStd3, uniStd3] at n110
  try ring_nf at n110
  have n101 := congrFun (congrFun (congrFun hN 1) 0) 1
  norm_num [mono3, uniNext3, VStd3, uniStd3] at n101
  try ring_nf at n101
  have n020 := congrFun (congrFun (congrFun hN 0) 2) 0
  norm_num [mono3, uniNext3, VStd3, uniStd3] at n020
  try ring_nf at n020
  have n011 := congrFun (congrFun (congrFun hN 0) 1) 1
  norm_num [mono3, uniNext3, VStd3, uniStd3] at n011
  try ring_nf at n011
  have n002 := congrFun (congrFun (congrFun hN 0) 0) 2
  norm_num [mono3, uniNext3, VStd3, uniStd3] at n002
  try ring_nf at n002
  rw [uniStep3_mono coreStd3_lin]
  simp only [hM, ← congrFun (congrFun (congrFun hN _) _) _]
  clear hN hM
  have hi : i ≤ 2 := by omega
  have hj : j ≤ 2 := by omega
  have hn : n ≤ 2 := by omega
  interval_cases i <;> interval_cases j <;> interval_cases n <;> first
    | omega
    | (clear hij hi hj hn
       simp only [Finset.sum_range_succ, Finset.sum_range_zero, sgnC, n000, n100, n010, n001, n200, n110, n101, n020, n011, n002]
       norm_num [Nat.choose]
       try (rcases hα with rfl | rfl <;> rcases hβ with rfl | rfl <;> rcases hκ with rfl | rfl <;> ring1))

/-- velocity of the standard form, third order -/
def VTot3 (F _H : Ar3 K) (a b c α : K) : K := uniStd3 F a b c α + uniTot3 F a b c α

theorem coreTot3_loc : VLoc3 (VTot3 : Vel3 K) := by
  intro F H F' H' a b c α hF hH; simp (disch := omega) only [VTot3, uniStd3, uniTot3, hF, hH]

theorem coreTot3_lin : VLin3 (VTot3 : Vel3 K) := by
  intro F H F' H' u a b c α; unfold VTot3 uniStd3 uniTot3; ring

set_option maxHeartbeats 4000000 in
theorem coreTot3 (a b c α β κ : K) (hα : α = a ∨ α = -a) (hβ : β = b ∨ β = -b) (hκ : κ = c ∨ κ = -c) (i j n : Nat) (hij : i + j + n ≤ 3) :
    uniStep3 VTot3 a b c α β κ (mono3 i j n) = (-a) ^ i * (-b) ^ j * (-c) ^ n := by
  obtain ⟨N, hN⟩ : ∃ N : Nat → Nat → Nat → K, N = fun i j n => uniNext3 VTot3 (mono3 i j n) (fun _ _ _ => 0) a b c α β κ := ⟨_, rfl⟩
  have hM : ∀ i j n, uniNext3 VTot3 (mono3 i j n) (mono3 i j n) a b c α β κ = N i j n := fun i j n => by rw [hN]; rfl
  have n000 := congrFun (congrFun (congrFun hN 0) 0) 0
  norm_num [mono3, uniNext3, VTot3, uniStd3, uniTot3] at n000
  try ring_nf at n000
  have n100 := congrFun (congrFun (congrFun hN 1) 0) 0
  norm_num [mono3, uniNext3, VTot3, uniStd3, uniTot3] at n100
  try ring_nf at n100
  have n010 := congrFun (congrFun (congrFun hN 0) 1) 0
  norm_num [mono3, uniNext3, VTot3, uniStd3, uniTot3] at n010
  try ring_nf at n010
  have n001 := congrFun (congrFun (congrFun hN 0) 0) 1
  norm_num [mono3, uniNext3, VTot3, uniStd3, uniTot3] at n001
  try ring_nf at n001
  have n200 := congrFun (congrFun (congrFun hN 2) 0) 0
  norm_num [mono3, uniNext3, VTot3, uniStd3, uniTot3] at n200
  try ring_nf at n200
  have n110 := congrFun (congrFun (congrFun hN 1) 1) 0
  norm_num [mono3, uniNext3, VTot3, uniStd3, uniTot3] at n110
  try ring_nf at n110
  have n101 := congrFun (congrFun (congrFun hN 1) 0) 1
  norm_num [mono3, uniNext3, VTot3, uniStd3, uniTot3] at n101
  try ring_nf at n101
  have n020 := congrFun (congrFun (congrFun hN 0) 2) 0
  norm_num [mono3, uniNext3, VTot3, uniStd3, uniTot3] at n020
  try ring_nf at n020
  have n011 := congrFun (congrFun (congrFun hN 0) 1) 1
  norm_num [mono3, uniNext3, VTot3, uniStd3, uniTot3] at n011
  try ring_nf at n011
  have n002 := congrFun (congrFun (congrFun hN 0) 0) 2
  norm_num [mono3, uniNext3, VTot3, uniStd3, uniTot3] at n002
  try ring_nf at n002
  have n300 := congrFun (congrFun (congrFun hN 3) 0) 0
  norm_num [mono3, uniNext3, VTot3, uniStd3, uniTot3] at n300
  try ring_nf at n300
  have n210 := congrFun (congrFun (congrFun hN 2) 1) 0
  norm_num [mono3, uniNext3, VTot3, uniStd3, uniTot3] at n210
  try ring_nf at n210
  have n201 := congrFun (congrFun (congrFun hN 2) 0) 1
  norm_num [mono3, uniNext3, VTot3, uniStd3, uniTot3] at n201
  try ring_nf at n201
  have n120 := congrFun (congrFun (congrFun hN 1) 2) 0
  norm_num [mono3, uniNext3, VTot3, uniStd3, uniTot3] at n120
  try ring_nf at n120
  have n111 := congrFun (congrFun (congrFun hN 1) 1) 1
  norm_num [mono3, uniNext3, VTot3, uniStd3, uniTot3] at n111
  try ring_nf at n111
  have n102 := congrFun (congrFun (congrFun hN 1) 0) 2
  norm_num [mono3, uniNext3, VTot3, uniStd3, uniTot3] at n102
  try ring_nf at n102
  have n030 := congrFun (congrFun (congrFun hN 0) 3) 0
  norm_num [mono3, uniNext3, VTot3, uniStd3, uniTot3] at n030
  try ring_nf at n030
  have n021 := congrFun (congrFun (congrFun hN 0) 2) 1
  norm_num [mono3, uniNext3, VTot3, uniStd3, uniTot3] at n021
  try ring_nf at n021
  have n012 := congrFun (congrFun (congrFun hN 0) 1) 2
  norm_num [mono3, uniNext3, VTot3, uniStd3, uniTot3] at n012
  try ring_nf at n012
  have n003 := congrFun (congrFun (congrFun hN 0) 0) 3
  norm_num [mono3, uniNext3, VTot3, uniStd3, uniTot3] at n003
  try ring_nf at n003
  rw [uniStep3_mono coreTot3_lin]
  simp only [hM, ← congrFun (congrFun (congrFun hN _) _) _]
  clear hN hM
  have hi : i ≤ 3 := by omega
  have hj : j ≤ 3 := by omega
  have hn : n ≤ 3 := by omega
  interval_cases i <;> interval_cases j <;> interval_cases n <;> first
    | omega
    | (clear hij hi hj hn
       simp only [Finset.sum_range_succ, Finset.sum_range_zero, sgnC, n000, n100, n010, n001, n200, n110, n101, n020, n011, n002, n300, n210, n201, n120, n111, n102, n030, n021, n012, n003]
       norm_num [Nat.choose]
       try (rcases hα with rfl | rfl <;> rcases hβ with rfl | rfl <;> rcases hκ with rfl | rfl <;> ring1))

/-- velocity of the divergence form, second order -/
def VDivA3 (F _H : Ar3 K) (a b c α : K) : K := uniDivA3 F a b c α

theorem coreDivA3_loc : VLoc3 (VDivA3 : Vel3 K) := by
  intro F H F' H' a b c α hF hH; simp (disch := omega) only [VDivA3, uniDivA3, hF, hH]

theorem coreDivA3_lin : VLin3 (VDivA3 : Vel3 K) := by
  intro F H F' H' u a b c α; unfold VDivA3 uniDivA3; ring

set_option maxHeartbeats 4000000 in
theorem coreDivA3 (a b c α β κ : K) (hα : α = a ∨ α = -a) (hβ : β = b ∨ β = -b) (hκ : κ = c ∨ κ = -c) (i j n : Nat) (hij : i + j + n ≤ 2) :
    uniStep3 VDivA3 a b c α β κ (mono3 i j n) = (-a) ^ i * (-b) ^ j * (-c) ^ n := by
  obtain ⟨N, hN⟩ : ∃ N : Nat → Nat → Nat → K, N = fun i j n => uniNext3 VDivA3 (mono3 i j n) (fun _ _ _ => 0) a b c α β κ := ⟨_, rfl⟩
  have hM : ∀ i j n, uniNext3 VDivA3 (mono3 i j n) (mono3 i j n) a b c α β κ = N i j n := fun i j n => by rw [hN]; rfl
  have n000 := congrFun (congrFun (congrFun hN 0) 0) 0
  norm_num [mono3, uniNext3, VDivA3, uniDivA3] at n000
  try ring_nf at n000
  have n100 := congrFun (congrFun (congrFun hN 1) 0) 0
  norm_num [mono3, uniNext3, VDivA3, uniDivA3] at n100
  try ring_nf at n100
  have n010 := congrFun (congrFun (congrFun hN 0) 1) 0
  norm_num [mono3, uniNext3, VDivA3, uniDivA3] at n010
  try ring_nf at n010
  have n001 := congrFun (congrFun (congrFun hN 0) 0) 1
  norm_num [mono3, uniNext3, VDivA3, uniDivA3] at n001
  try ring_nf at n001
  have n200 := congrFun (congrFun (congrFun hN 2) 0) 0
  norm_num [mono3, uniNext3, VDivA3, uniDivA3] at n200
  try ring_nf at n200
  have n110 := congrFun (congrFun (congrFun hN 1) 1) 0
  norm_num [mono3, uniNext3, VDivA3, uniDivA3] at n110
  try ring_nf at n110
  have n101 := congrFun (congrFun (congrFun hN 1) 0) 1
  norm_num [mono3, uniNext3, VDivA3, uniDivA3] at n101
  try ring_nf at n101
  have n020 := congrFun (congrFun (congrFun hN 0) 2) 0
  norm_num [mono3, uniNext3, VDivA3, uniDivA3] at n020
  try ring_nf at n020
  have n011 := congrFun (congrFun (congrFun hN 0) 1) 1
  norm_num [mono3, uniNext3, VDivA3, uniDivA3] at n011
  try ring_nf at n011
  have n002 := congrFun (congrFun (congrFun hN 0) 0) 2
  norm_num [mono3, uniNext3, VDivA3, uniDivA3] at n002
  try ring_nf at n002
  rw [uniStep3_mono coreDivA3_lin]
  simp only [hM, ← congrFun (congrFun (congrFun hN _) _) _]
  clear hN hM
  have hi : i ≤ 2 := by omega
  have hj : j ≤ 2 := by omega
  have hn : n ≤ 2 := by omega
  interval_cases i <;> interval_cases j <;> interval_cases n <;> first
    | omega
    | (clear hij hi hj hn
       simp only [Finset.sum_range_succ, Finset.sum_range_zero, sgnC, n000, n100, n010, n001, n200, n110, n101, n020, n011, n002]
       norm_num [Nat.choose]
       try (rcases hα with rfl | rfl <;> rcases hβ with rfl | rfl <;> rcases hκ with rfl | rfl <;> ring1))

/-- velocity of the divergence form, third order -/
def VDivB3 (F _H : Ar3 K) (a b c α : K) : K := uniDivA3 F a b c α + uniDivB3 F a b c α

theorem coreDivB3_loc : VLoc3 (VDivB3 : Vel3 K) := by
  intro F H F' H' a b c α hF hH; simp (disch := omega) only [VDivB3, uniDivA3, uniDivB3, uniCen3, uniXY3, uniXZ3, uniAvg3, hF, hH]

theorem coreDivB3_lin : VLin3 (VDivB3 : Vel3 K) := by
  intro F H F' H' u a b c α; unfold VDivB3 uniDivA3 uniDivB3 uniCen3 uniXY3 uniXZ3 uniAvg3; ring

set_option maxHeartbeats 4000000 in
theorem coreDivB3 (a b c α β κ : K) (hα : α = a ∨ α = -a) (hβ : β = b ∨ β = -b) (hκ : κ = c ∨ κ = -c) (i j n : Nat) (hij : i + j + n ≤ 3) :
    uniStep3 VDivB3 a b c α β κ (mono3 i j n) = (-a) ^ i * (-b) ^ j * (-c) ^ n := by
  obtain ⟨N, hN⟩ : ∃ N : Nat → Nat → Nat → K, N = fun i j n => uniNext3 VDivB3 (mono3 i j n) (fun _ _ _ => 0) a b c α β κ := ⟨_, rfl⟩
  have hM : ∀ i j n, uniNext3 VDivB3 (mono3 i j n) (mono3 i j n) a b c α β κ = N i j n := fun i j n => by rw [hN]; rfl
  have n000 := congrFun (congrFun (congrFun hN 0) 0) 0
  norm_num [mono3, uniNext3, VDivB3, uniDivA3, uniDivB3, uniCen3, uniXY3, uniXZ3, uniAvg3] at n000
  try ring_nf at n000
  have n100 := congrFun (congrFun (congrFun hN 1) 0) 0
  norm_num [mono3, uniNext3, VDivB3, uniDivA3, uniDivB3, uniCen3, uniXY3, uniXZ3, uniAvg3] at n100
  try ring_nf at n100
  have n010 := congrFun (congrFun (congrFun hN 0) 1) 0
  norm_num [mono3, uniNext3, VDivB3, uniDivA3, uniDivB3, uniCen3, uniXY3, uniXZ3, uniAvg3] at n010
  try ring_nf at n010
  have n001 := congrFun (congrFun (congrFun hN 0) 0) 1
  norm_num [mono3, uniNext3, VDivB3, uniDivA3, uniDivB3, uniCen3, uniXY3, uniXZ3, uniAvg3] at n001
  try ring_nf at n001
  have n200 := congrFun (congrFun (congrFun hN 2) 0) 0
  norm_num [mono3, uniNext3, VDivB3, uniDivA3, uniDivB3, uniCen3, uniXY3, uniXZ3, uniAvg3] at n200
  try ring_nf at n200
  have n110 := congrFun (congrFun (congrFun hN 1) 1) 0
  norm_num [mono3, uniNext3, VDivB3, uniDivA3, uniDivB3, uniCen3, uniXY3, uniXZ3, uniAvg3] at n110
  try ring_nf at n110
  have n101 := congrFun (congrFun (congrFun hN 1) 0) 1
  norm_num [mono3, uniNext3, VDivB3, uniDivA3, uniDivB3, uniCen3, uniXY3, uniXZ3, uniAvg3] at n101
  try ring_nf at n101
  have n020 := congrFun (congrFun (congrFun hN 0) 2) 0
  norm_num [mono3, uniNext3, VDivB3, uniDivA3, uniDivB3, uniCen3, uniXY3, uniXZ3, uniAvg3] at n020
  try ring_nf at n020
  have n011 := congrFun (congrFun (congrFun hN 0) 1) 1
  norm_num [mono3, uniNext3, VDivB3, uniDivA3, uniDivB3, uniCen3, uniXY3, uniXZ3, uniAvg3] at n011
  try ring_nf at n011
  have n002 := congrFun (congrFun (congrFun hN 0) 0) 2
  norm_num [mono3, uniNext3, VDivB3, uniDivA3, uniDivB3, uniCen3, uniXY3, uniXZ3, uniAvg3] at n002
  try ring_nf at n002
  have n300 := congrFun (congrFun (congrFun hN 3) 0) 0
  norm_num [mono3, uniNext3, VDivB3, uniDivA3, uniDivB3, uniCen3, uniXY3, uniXZ3, uniAvg3] at n300
  try ring_nf at n300
  have n210 := congrFun (congrFun (congrFun hN 2) 1) 0
  norm_num [mono3, uniNext3, VDivB3, uniDivA3, uniDivB3, uniCen3, uniXY3, uniXZ3, uniAvg3] at n210
  try ring_nf at n210
  have n201 := congrFun (congrFun (congrFun hN 2) 0) 1
  norm_num [mono3, uniNext3, VDivB3, uniDivA3, uniDivB3, uniCen3, uniXY3, uniXZ3, uniAvg3] at n201
  try ring_nf at n201
  have n120 := congrFun (congrFun (congrFun hN 1) 2) 0
  norm_num [mono3, uniNext3, VDivB3, uniDivA3, uniDivB3, uniCen3, uniXY3, uniXZ3, uniAvg3] at n120
  try ring_nf at n120
  have n111 := congrFun (congrFun (congrFun hN 1) 1) 1
  norm_num [mono3, uniNext3, VDivB3, uniDivA3, uniDivB3, uniCen3, uniXY3, uniXZ3, uniAvg3] at n111
  try ring_nf at n111
  have n102 := congrFun (congrFun (congrFun hN 1) 0) 2
  norm_num [mono3, uniNext3, VDivB3, uniDivA3, uniDivB3, uniCen3, uniXY3, uniXZ3, uniAvg3] at n102
  try ring_nf at n102
  have n030 := congrFun (congrFun (congrFun hN 0) 3) 0
  norm_num [mono3, uniNext3, VDivB3, uniDivA3, uniDivB3, uniCen3, uniXY3, uniXZ3, uniAvg3] at n030
  try ring_nf at n030
  have n021 := congrFun (congrFun (congrFun hN 0) 2) 1
  norm_num [mono3, uniNext3, VDivB3, uniDivA3, uniDivB3, uniCen3, uniXY3, uniXZ3, uniAvg3] at n021
  try ring_nf at n021
  have n012 := congrFun (congrFun (congrFun hN 0) 1) 2
  norm_num [mono3, uniNext3, VDivB3, uniDivA3, uniDivB3, uniCen3, uniXY3, uniXZ3, uniAvg3] at n012
  try ring_nf at n012
  have n003 := congrFun (congrFun (congrFun hN 0) 0) 3
  norm_num [mono3, uniNext3, VDivB3, uniDivA3, uniDivB3, uniCen3, uniXY3, uniXZ3, uniAvg3] at n003
  try ring_nf at n003
  rw [uniStep3_mono coreDivB3_lin]
  simp only [hM, ← congrFun (congrFun (congrFun hN _) _) _]
  clear hN hM
  have hi : i ≤ 3 := by omega
  have hj : j ≤ 3 := by omega
  have hn : n ≤ 3 := by omega
  interval_cases i <;> interval_cases j <;> interval_cases n <;> first
    | omega
    | (clear hij hi hj hn
       simp only [Finset.sum_range_succ, Finset.sum_range_zero, sgnC, n000, n100, n010, n001, n200, n110, n101, n020, n011, n002, n300, n210, n201, n120, n111, n102, n030, n021, n012, n003]
       norm_num [Nat.choose]
       try (rcases hα with rfl | rfl <;> rcases hβ with rfl | rfl <;> rcases hκ with rfl | rfl <;> ring1))

/-- velocity of the divergence form using the time derivative, third order -/
def VDtB3 (F H : Ar3 K) (a b c α : K) : K := uniDivA3 F a b c α + uniDtB3 F H a b c α

theorem coreDtB3_loc : VLoc3 (VDtB3 : Vel3 K) := by
  intro F H F' H' a b c α hF hH; simp (disch := omega) only [VDtB3, uniDivA3, uniDtB3, hF, hH]

theorem coreDtB3_lin : VLin3 (VDtB3 : Vel3 K) := by
  intro F H F' H' u a b c α; unfold VDtB3 uniDivA3 uniDtB3; ring

set_option maxHeartbeats 4000000 in
theorem coreDtB3 (a b c α β κ : K) (hα : α = a ∨ α = -a) (hβ : β = b ∨ β = -b) (hκ : κ = c ∨ κ = -c) (i j n : Nat) (hij : i + j + n ≤ 3) :
    uniStep3 VDtB3 a b c α β κ (mono3 i j n) = (-a) ^ i * (-b) ^ j * (-c) ^ n := by
  obtain ⟨N, hN⟩ : ∃ N : Nat → Nat → Nat → K, N = fun i j n => uniNext3 VDtB3 (mono3 i j n) (fun _ _ _ => 0) a b c α β κ := ⟨_, rfl⟩
  obtain ⟨M, hM⟩ : ∃ M : Nat → Nat → Nat → K, M = fun i j n => uniNext3 VDtB3 (mono3 i j n) (mono3 i j n) a b c α β κ := ⟨_, rfl⟩
  have n000 := congrFun (congrFun (congrFun hN 0) 0) 0
  norm_num [mono3, uniNext3, VDtB3, uniDivA3, uniDtB3] at n000
  try ring_nf at n000
  have n100 := congrFun (congrFun (congrFun hN 1) 0) 0
  norm_num [mono3, uniNext3, VDtB3, uniDivA3, uniDtB3] at n100
  try ring_nf at n100
  have n010 := congrFun (congrFun (congrFun hN 0) 1) 0
  norm_num [mono3, uniNext3, VDtB3, uniDivA3, uniDtB3] at n010
  try ring_nf at n010
  have n001 := congrFun (congrFun (congrFun hN 0) 0) 1
  norm_num [mono3, uniNext3, VDtB3, uniDivA3, uniDtB3] at n001
  try ring_nf at n001
  have n200 := congrFun (congrFun (congrFun hN 2) 0) 0
  norm_num [mono3, uniNext3, VDtB3, uniDivA3, uniDtB3] at n200
  try ring_nf at n200
  have n110 := congrFun (congrFun (congrFun hN 1) 1) 0
  norm_num [mono3, uniNext3, VDtB3, uniDivA3, uniDtB3] at n110
  try ring_nf at n110
  have n101 := congrFun (congrFun (congrFun hN 1) 0) 1
  norm_num [mono3, uniNext3, VDtB3, uniDivA3, uniDtB3] at n101
  try ring_nf at n101
  have n020 := congrFun (congrFun (congrFun hN 0) 2) 0
  norm_num [mono3, uniNext3, VDtB3, uniDivA3, uniDtB3] at n020
  try ring_nf at n020
  have n011 := congrFun (congrFun (congrFun hN 0) 1) 1
  norm_num [mono3, uniNext3, VDtB3, uniDivA3, uniDtB3] at n011
  try ring_nf at n011
  have n002 := congrFun (congrFun (congrFun hN 0) 0) 2
  norm_num [mono3, uniNext3, VDtB3, uniDivA3, uniDtB3] at n002
  try ring_nf at n002
  have n300 := congrFun (congrFun (congrFun hN 3) 0) 0
  norm_num [mono3, uniNext3, VDtB3, uniDivA3, uniDtB3] at n300
  try ring_nf at n300
  have n210 := congrFun (congrFun (congrFun hN 2) 1) 0
  norm_num [mono3, uniNext3, VDtB3, uniDivA3, uniDtB3] at n210
  try ring_nf at n210
  have n201 := congrFun (congrFun (congrFun hN 2) 0) 1
  norm_num [mono3, uniNext3, VDtB3, uniDivA3, uniDtB3] at n201
  try ring_nf at n201
  have n120 := congrFun (congrFun (congrFun hN 1) 2) 0
  norm_num [mono3, uniNext3, VDtB3, uniDivA3, uniDtB3] at n120
  try ring_nf at n120
  have n111 := congrFun (congrFun (congrFun hN 1) 1) 1
  norm_num [mono3, uniNext3, VDtB3, uniDivA3, uniDtB3] at n111
  try ring_nf at n111
  have n102 := congrFun (congrFun (congrFun hN 1) 0) 2
  norm_num [mono3, uniNext3, VDtB3, uniDivA3, uniDtB3] at n102
  try ring_nf at n102
  have n030 := congrFun (congrFun (congrFun hN 0) 3) 0
  norm_num [mono3, uniNext3, VDtB3, uniDivA3, uniDtB3] at n030
  try ring_nf at n030
  have n021 := congrFun (congrFun (congrFun hN 0) 2) 1
  norm_num [mono3, uniNext3, VDtB3, uniDivA3, uniDtB3] at n021
  try ring_nf at n021
  have n012 := congrFun (congrFun (congrFun hN 0) 1) 2
  norm_num [mono3, uniNext3, VDtB3, uniDivA3, uniDtB3] at n012
  try ring_nf at n012
  have n003 := congrFun (congrFun (congrFun hN 0) 0) 3
  norm_num [mono3, uniNext3, VDtB3, uniDivA3, uniDtB3] at n003
  try ring_nf at n003
  have m000 := congrFun (congrFun (congrFun hM 0) 0) 0
  norm_num [mono3, uniNext3, VDtB3, uniDivA3, uniDtB3] at m000
  try ring_nf at m000
  have m100 := congrFun (congrFun (congrFun hM 1) 0) 0
  norm_num [mono3, uniNext3, VDtB3, uniDivA3, uniDtB3] at m100
  try ring_nf at m100
  have m010 := congrFun (congrFun (congrFun hM 0) 1) 0
  norm_num [mono3, uniNext3, VDtB3, uniDivA3, uniDtB3] at m010
  try ring_nf at m010
  have m001 := congrFun (congrFun (congrFun hM 0) 0) 1
  norm_num [mono3, uniNext3, VDtB3, uniDivA3, uniDtB3] at m001
  try ring_nf at m001
  have m200 := congrFun (congrFun (congrFun hM 2) 0) 0
  norm_num [mono3, uniNext3, VDtB3, uniDivA3, uniDtB3] at m200
  try ring_nf at m200
  have m110 := congrFun (congrFun (congrFun hM 1) 1) 0
  norm_num [mono3, uniNext3, VDtB3, uniDivA3, uniDtB3] at m110
  try ring_nf at m110
  have m101 := congrFun (congrFun (congrFun hM 1) 0) 1
  norm_num [mono3, uniNext3, VDtB3, uniDivA3, uniDtB3] at m101
  try ring_nf at m101
  have m020 := congrFun (congrFun (congrFun hM 0) 2) 0
  norm_num [mono3, uniNext3, VDtB3, uniDivA3, uniDtB3] at m020
  try ring_nf at m020
  have m011 := congrFun (congrFun (congrFun hM 0) 1) 1
  norm_num [mono3, uniNext3, VDtB3, uniDivA3, uniDtB3] at m011
  try ring_nf at m011
  have m002 := congrFun (congrFun (congrFun hM 0) 0) 2
  norm_num [mono3, uniNext3, VDtB3, uniDivA3, uniDtB3] at m002
  try ring_nf at m002
  have m300 := congrFun (congrFun (congrFun hM 3) 0) 0
  norm_num [mono3, uniNext3, VDtB3, uniDivA3, uniDtB3] at m300
  try ring_nf at m300
  have m210 := congrFun (congrFun (congrFun hM 2) 1) 0
  norm_num [mono3, uniNext3, VDtB3, uniDivA3, uniDtB3] at m210
  try ring_nf at m210
  have m201 := congrFun (congrFun (congrFun hM 2) 0) 1
  norm_num [mono3, uniNext3, VDtB3, uniDivA3, uniDtB3] at m201
  try ring_nf at m201
  have m120 := congrFun (congrFun (congrFun hM 1) 2) 0
  norm_num [mono3, uniNext3, VDtB3, uniDivA3, uniDtB3] at m120
  try ring_nf at m120
  have m111 := congrFun (congrFun (congrFun hM 1) 1) 1
  norm_num [mono3, uniNext3, VDtB3, uniDivA3, uniDtB3] at m111
  try ring_nf at m111
  have m102 := congrFun (congrFun (congrFun hM 1) 0) 2
  norm_num [mono3, uniNext3, VDtB3, uniDivA3, uniDtB3] at m102
  try ring_nf at m102
  have m030 := congrFun (congrFun (congrFun hM 0) 3) 0
  norm_num [mono3, uniNext3, VDtB3, uniDivA3, uniDtB3] at m030
  try ring_nf at m030
  have m021 := congrFun (congrFun (congrFun hM 0) 2) 1
  norm_num [mono3, uniNext3, VDtB3, uniDivA3, uniDtB3] at m021
  try ring_nf at m021
  have m012 := congrFun (congrFun (congrFun hM 0) 1) 2
  norm_num [mono3, uniNext3, VDtB3, uniDivA3, uniDtB3] at m012
  try ring_nf at m012
  have m003 := congrFun (congrFun (congrFun hM 0) 0) 3
  norm_num [mono3, uniNext3, VDtB3, uniDivA3, uniDtB3] at m003
  try ring_nf at m003
  rw [uniStep3_mono coreDtB3_lin]
  simp only [← congrFun (congrFun (congrFun hN _) _) _, ← congrFun (congrFun (congrFun hM _) _) _]
  clear hN hM
  have hi : i ≤ 3 := by omega
  have hj : j ≤ 3 := by omega
  have hn : n ≤ 3 := by omega
  interval_cases i <;> interval_cases j <;> interval_cases n <;> first
    | omega
    | (clear hij hi hj hn
       simp only [Finset.sum_range_succ, Finset.sum_range_zero, sgnC, n000, n100, n010, n001, n200, n110, n101, n020, n011, n002, n300, n210, n201, n120, n111, n102, n030, n021, n012, n003, m000, m100, m010, m001, m200, m110, m101, m020, m011, m002, m300, m210, m201, m120, m111, m102, m030, m021, m012, m003]
       norm_num [Nat.choose]
       try (rcases hα with rfl | rfl <;> rcases hβ with rfl | rfl <;> rcases hκ with rfl | rfl <;> ring1))

end Mpdata
