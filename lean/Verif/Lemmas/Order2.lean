import Verif.Props.Order1
import Verif.Model.AdvopN
import Mathlib.Tactic.IntervalCases
import Mathlib.Algebra.Module.LinearMap.Defs
import Mathlib.Algebra.BigOperators.Pi
import Mathlib.Data.Nat.Choose.Sum
/-! # Uniform flow in 2-D: the schemes as linear stencils, and the polynomials they move exactly
The closed forms of the infinite-gauge velocities in a uniform flow (Courant numbers `a`, `b`, absolute values `α`, `β`) and the moments of the resulting two-pass stencils. -/
set_option linter.unusedSectionVars false
set_option linter.unusedVariables false
set_option linter.unusedSimpArgs false
set_option linter.unusedTactic false
set_option linter.unreachableTactic false
namespace Mpdata
variable {K : Type} [Field K] [LinearOrder K] [IsStrictOrderedRing K]

theorem gBarX2_uni (o : OptsT) (g : K) (i j : Int) : gBarX2 o (fun _ _ => g) i j = gUni o g := by
  unfold gBarX2 gUni gF2; split_ifs <;> ring
theorem gBarXY2_uni (o : OptsT) (g : K) (i j : Int) : gBarXY2 o (fun _ _ => g) i j = gUni o g := by
  unfold gBarXY2 gUni gF2; split_ifs <;> ring
theorem gF2_uni (o : OptsT) (g : K) (i j : Int) : gF2 o (fun _ _ => g) i j = gUni o g := rfl

/-- third-order terms of the standard form -/
def uniTot2 (F : Ar2 K) (a b α : K) : K :=
  (F 2 0 - F 1 0 - F 0 0 + F (-1) 0) / 2 * ((3 * a * α - 2 * a ^ 3 - a) / 6)
    + (F 1 1 - F 0 1 - F 1 (-1) + F 0 (-1)) / 2 * ((α - 2 * a ^ 2) * b / 2)

/-- fourth-order terms -/
def uniFot2 (F : Ar2 K) (a b α β : K) : K :=
  (F 2 0 - 3 * F 1 0 + 3 * F 0 0 - F (-1) 0) / 4 * ((6 * α * a ^ 2 - 3 * a ^ 2 - 3 * a ^ 4) / 2)
    + (F 2 1 - F 1 1 - F 0 1 + F (-1) 1 - F 2 (-1) + F 1 (-1) + F 0 (-1) - F (-1) (-1)) / 8 * (3 * (α - a ^ 2) * a * b)
    + (F 1 1 - 2 * F 1 0 + F 1 (-1) - F 0 1 + 2 * F 0 0 - F 0 (-1)) / 6
      * (3 * (3 * β * a ^ 2 + 3 * b ^ 2 * α - 2 * β * α - 9 * b ^ 2 * a ^ 2) / 4)

/-- second-order terms of the standard form -/
def uniStd2 (F : Ar2 K) (a b α : K) : K :=
  α / 2 * (1 - α) * (F 1 0 - F 0 0) - a * b / 2 * ((F 1 1 + F 0 1 - F 1 (-1) - F 0 (-1)) / 4)

/-- second-order terms of the divergence form -/
def uniDiv2 (F : Ar2 K) (a b α : K) : K :=
  α / 2 * (F 1 0 - F 0 0) - a / 2 * (a * (F 1 0 - F 0 0) + b * ((F 1 1 + F 0 1 - F 1 (-1) - F 0 (-1)) / 4))

theorem fot2_uni (o : OptsT) (a b α β γ g : K) (F : Ar2 K) (hγ : gUni o g = γ) (h0 : γ ≠ 0) (hα : |γ * a| = γ * α) (hβ : |γ * b| = γ * β)
    (hf : isset o oFot = true) :
    fot2 o F (fun _ _ => γ * a) (fun _ _ => γ * b) (fun _ _ => g) 0 0 = γ * uniFot2 F a b α β := by
  have e1 : (γ * b + γ * b + γ * b + γ * b) / 4 = γ * b := by ring
  unfold fot2 uniFot2
  rw [if_pos hf]
  simp only [ndxxxPsi2, ndxxyPsi2, ndxyyPsi2, ndxxxPsiCoeff2, ndxxyPsiCoeff2, ndxyyPsiCoeff2, gc1BarXY2, gBarX2_uni, hγ, e1, hα, hβ, zero_add, zero_sub]
  field_simp
  ring

theorem std2_uni (o : OptsT) (si te) (tiny a b α γ g : K) (F old : Ar2 K) (higa : isset o oIga = true)
    (hγ : gUni o g = γ) (h0 : γ ≠ 0) (hα : |γ * a| = γ * α)
    (hd : (isset o oDiv2 || isset o oDiv3) = false) :
    antidiff2 o si te tiny F old (fun _ _ => γ * a) (fun _ _ => γ * b) (fun _ _ => 0) (fun _ _ => 0) (fun _ _ => 0) (fun _ _ => g) 0 0
      = γ * uniStd2 F a b α + (if isset o oTot then γ * uniTot2 F a b α else 0) + fot2 o F (fun _ _ => γ * a) (fun _ _ => γ * b) (fun _ _ => g) 0 0 := by
  have e1 : (γ * b + γ * b + γ * b + γ * b) / 4 = γ * b := by ring
  unfold antidiff2 uniStd2
  rw [if_neg (by rw [hd]; decide)]
  have e : dfl2 o F (fun _ _ => γ * a) (fun _ _ => γ * b) (fun _ _ => g) 0 0 = 0 := by unfold dfl2; split_ifs <;> simp
  rw [e, add_zero]
  congr 1
  simp only [ndxPsi2, ndyPsi2, gc1BarXY2, gBarX2_uni, tot2, higa, if_true, ndxxPsi2, ndxyPsi2, ndxxPsiCoeff2, ndxyPsiCoeff2, hγ, e1, hα, zero_add, zero_sub, uniTot2]
  congr 1
  · field_simp; ring
  · split_ifs
    · field_simp; ring
    · rfl

theorem div2_uni (o : OptsT) (tiny a b α γ g : K) (F : Ar2 K) (higa : isset o oIga = true) (ha : isset o oAbs = false)
    (hγ : gUni o g = γ) (h0 : γ ≠ 0) (hα : |γ * a| = γ * α) :
    div2nd2 o tiny F (fun _ _ => γ * a) (fun _ _ => γ * b) (fun _ _ => g) 0 0 = γ * uniDiv2 F a b α := by
  unfold div2nd2 uniDiv2
  simp only [ndxPsi2, nfdiv2, gc0BarX2, gc1BarX2, psiBarXY2, vabs, ha, gBarX2_uni, higa, if_true, Bool.false_eq_true, if_false, hγ, hα, zero_add, zero_sub, Int.reduceNeg, neg_add_cancel]
  field_simp
  ring

/-- third-order terms of the divergence form -/
def uniDiv3 (F : Ar2 K) (a b α : K) : K :=
  -(a / 6) * ((F 2 0 - F 1 0 - F 0 0 + F (-1) 0) / 2)
  + α / 2 * (a * ((F 2 0 - F 1 0 - F 0 0 + F (-1) 0) / 2) + b * ((F 1 1 - F 1 (-1) - F 0 1 + F 0 (-1)) / 2))
  - a / 3 * (a * (a * ((F 2 0 - F 1 0 - F 0 0 + F (-1) 0) / 2) + b * ((F 1 1 - F 1 (-1) - F 0 1 + F 0 (-1)) / 2))
    + b * (a * ((F 1 1 - F 0 1 - F 1 (-1) + F 0 (-1)) / 2) + b * ((F 1 1 + F 0 1 - 2 * F 1 0 - 2 * F 0 0 + F 1 (-1) + F 0 (-1)) / 2)))

theorem div3_uni (o : OptsT) (si te) (tiny a b α γ g : K) (F old : Ar2 K) (higa : isset o oIga = true) (ha : isset o oAbs = false)
    (hγ : gUni o g = γ) (h0 : γ ≠ 0) (hα : |γ * a| = γ * α) (h3 : isset o oDiv3 = true) :
    div3rd2 o si te tiny F old (fun _ _ => γ * a) (fun _ _ => γ * b) (fun _ _ => 0) (fun _ _ => 0) (fun _ _ => 0) (fun _ _ => g) 0 0 = γ * uniDiv3 F a b α := by
  unfold div3rd2
  rw [if_pos h3]
  have h2 : div3rdSpatial2 o si tiny F (fun _ _ => γ * a) 0 0 = γ * (-(a / 12) * (F 2 0 - F 1 0 - F 0 0 + F (-1) 0)) := by
    have : div3rdSpatialHelper2 o si F (fun _ _ => γ * a) 0 0 = 0 := by
      unfold div3rdSpatialHelper2 ndxxGC02
      cases si <;> simp only [] <;> split_ifs <;> ring
    simp only [div3rdSpatial2, this, ndxGC02, ndxxPsi2, higa, if_true, zero_add, zero_sub]
    ring
  have h4 : div3rdTemporal2 o te F (fun _ _ => 0) 0 0 = 0 := by
    unfold div3rdTemporal2 ndttGC02
    cases te <;> simp
  have h5 : nfdiv2 o tiny F (fun _ _ => 0) (fun _ _ => 0) (fun _ _ => g) 0 0 = 0 := by
    simp only [nfdiv2, higa, if_true, gc0BarX2, gc1BarX2]; simp
  rw [h2, h4, h5]
  simp only [div3rdUpwind2, ndxFdiv2, nfdivFdiv2, fdivCentre2, fdivCornerXY2, psiBarX2, psiBarY2, gc0BarX2, gc1BarX2, gc0BarXY2, gc1BarXY2, higa, vabs, ha, gBarX2_uni, gBarXY2_uni, gF2_uni, if_true,
    Bool.false_eq_true, if_false, hγ, hα, zero_add, zero_sub, Int.reduceNeg, neg_add_cancel, Int.reduceAdd, Int.reduceSub, sub_self]
  unfold uniDiv3
  field_simp
  ring

/-- third-order terms of the variant that uses the field before the first pass -/
def uniDt3 (F H : Ar2 K) (a b α : K) : K :=
  -(a / 12) * (F 2 0 - F 1 0 - F 0 0 + F (-1) 0) - α / 2 * (F 1 0 - H 1 0 - F 0 0 + H 0 0)
  + a / 3 * (a * (F 1 0 - H 1 0) - a * (F 0 0 - H 0 0) + b * ((F 1 1 + F 0 1 - F 1 (-1) - F 0 (-1)) / 4 - (H 1 1 + H 0 1 - H 1 (-1) - H 0 (-1)) / 4))

theorem dt3_uni (o : OptsT) (si te) (tiny a b α γ g : K) (F H : Ar2 K) (higa : isset o oIga = true) (ha : isset o oAbs = false)
    (hγ : gUni o g = γ) (h0 : γ ≠ 0) (hα : |γ * a| = γ * α) (h3 : isset o oDiv3 = false) (h3' : isset o oDiv3dt = true) :
    div3rd2 o si te tiny F H (fun _ _ => γ * a) (fun _ _ => γ * b) (fun _ _ => 0) (fun _ _ => 0) (fun _ _ => 0) (fun _ _ => g) 0 0 = γ * uniDt3 F H a b α := by
  unfold div3rd2
  rw [if_neg (by rw [h3]; decide), if_pos h3']
  have h2 : div3rdSpatial2 o si tiny F (fun _ _ => γ * a) 0 0 = γ * (-(a / 12) * (F 2 0 - F 1 0 - F 0 0 + F (-1) 0)) := by
    have : div3rdSpatialHelper2 o si F (fun _ _ => γ * a) 0 0 = 0 := by
      unfold div3rdSpatialHelper2 ndxxGC02
      cases si <;> simp only [] <;> split_ifs <;> ring
    simp only [div3rdSpatial2, this, ndxGC02, ndxxPsi2, higa, if_true, zero_add, zero_sub]
    ring
  have h5 : nfdiv2 o tiny F (fun _ _ => 0) (fun _ _ => 0) (fun _ _ => g) 0 0 = 0 := by
    simp only [nfdiv2, higa, if_true, gc0BarX2, gc1BarX2]; simp
  rw [h2, h5]
  simp only [div3rdUpwind2, ndtxPsi2, nfdivDt2, ndttGC02, psiBarXY2, gc0BarX2, gc1BarX2, higa, vabs, ha, gBarX2_uni, if_true,
    Bool.false_eq_true, if_false, hγ, hα, zero_add, zero_sub, Int.reduceNeg, neg_add_cancel]
  unfold uniDt3
  field_simp
  ring


/-- first pass in a uniform flow, `a`, `b` Courant numbers and `α`, `β` their absolute values -/
def uniUp2 (P : Ar2 K) (a b α β : K) : Ar2 K := fun k l =>
  P k l - ((a + α) / 2 * (P k l - P (k - 1) l) + (a - α) / 2 * (P (k + 1) l - P k l))
    - ((b + β) / 2 * (P k l - P k (l - 1)) + (b - β) / 2 * (P k (l + 1) - P k l))

/-- second pass in a uniform flow with velocity formula `V` -/
def uniNext2 (V : Ar2 K → Ar2 K → K → K → K → K → K) (F H : Ar2 K) (a b α β : K) : K :=
  F 0 0 - (V F H a b α β - V (fun k l => F (k - 1) l) (fun k l => H (k - 1) l) a b α β)
    - (V (fun k l => F l k) (fun k l => H l k) b a β α - V (fun k l => F l (k - 1)) (fun k l => H l (k - 1)) b a β α)

/-- a step in a uniform flow -/
def uniStep2 (V : Ar2 K → Ar2 K → K → K → K → K → K) (a b α β : K) (P : Ar2 K) : K := uniNext2 V (uniUp2 P a b α β) P a b α β

/-- a velocity formula linear in both fields -/
def VLin2 (V : Ar2 K → Ar2 K → K → K → K → K → K) : Prop :=
  ∀ (F H F' H' : Ar2 K) (u a b α β : K), V (fun k l => u * F k l + F' k l) (fun k l => u * H k l + H' k l) a b α β = u * V F H a b α β + V F' H' a b α β

theorem uniStep2_lin {V : Ar2 K → Ar2 K → K → K → K → K → K} (hV : VLin2 V) (a b α β u : K) (P Q : Ar2 K) :
    uniStep2 V a b α β (fun k l => u * P k l + Q k l) = u * uniStep2 V a b α β P + uniStep2 V a b α β Q := by
  have h : uniUp2 (fun k l => u * P k l + Q k l) a b α β = fun k l => u * uniUp2 P a b α β k l + uniUp2 Q a b α β k l := by
    funext k l; unfold uniUp2; ring
  unfold uniStep2 uniNext2
  rw [h]
  rw [hV (uniUp2 P a b α β) P (uniUp2 Q a b α β) Q u a b α β,
    hV (fun k l => uniUp2 P a b α β (k - 1) l) (fun k l => P (k - 1) l) (fun k l => uniUp2 Q a b α β (k - 1) l) (fun k l => Q (k - 1) l) u a b α β,
    hV (fun k l => uniUp2 P a b α β l k) (fun k l => P l k) (fun k l => uniUp2 Q a b α β l k) (fun k l => Q l k) u b a β α,
    hV (fun k l => uniUp2 P a b α β l (k - 1)) (fun k l => P l (k - 1)) (fun k l => uniUp2 Q a b α β l (k - 1)) (fun k l => Q l (k - 1)) u b a β α]
  ring

/-- a velocity formula reads four points along and three across -/
def VLoc2 (V : Ar2 K → Ar2 K → K → K → K → K → K) : Prop :=
  ∀ (F H F' H' : Ar2 K) (a b α β : K), (∀ k l, -1 ≤ k → k ≤ 2 → -1 ≤ l → l ≤ 1 → F k l = F' k l) → (∀ k l, -1 ≤ k → k ≤ 2 → -1 ≤ l → l ≤ 1 → H k l = H' k l) →
    V F H a b α β = V F' H' a b α β

theorem uniStep2_loc {V : Ar2 K → Ar2 K → K → K → K → K → K} (hV : VLoc2 V) (a b α β : K) (P Q : Ar2 K)
    (h : ∀ k l, -3 ≤ k → k ≤ 3 → -3 ≤ l → l ≤ 3 → P k l = Q k l) : uniStep2 V a b α β P = uniStep2 V a b α β Q := by
  have hU : ∀ k l, -2 ≤ k → k ≤ 2 → -2 ≤ l → l ≤ 2 → uniUp2 P a b α β k l = uniUp2 Q a b α β k l := by
    intro k l h1 h2 h3 h4
    unfold uniUp2
    rw [h k l (by omega) (by omega) (by omega) (by omega), h (k - 1) l (by omega) (by omega) (by omega) (by omega), h (k + 1) l (by omega) (by omega) (by omega) (by omega),
      h k (l - 1) (by omega) (by omega) (by omega) (by omega), h k (l + 1) (by omega) (by omega) (by omega) (by omega)]
  unfold uniStep2 uniNext2
  rw [hU 0 0 (by omega) (by omega) (by omega) (by omega)]
  congr 1
  · congr 1
    congr 1
    · exact hV _ _ _ _ _ _ _ _ (fun k l h1 h2 h3 h4 => hU k l (by omega) (by omega) (by omega) (by omega)) (fun k l h1 h2 h3 h4 => h k l (by omega) (by omega) (by omega) (by omega))
    · exact hV _ _ _ _ _ _ _ _ (fun k l h1 h2 h3 h4 => hU (k - 1) l (by omega) (by omega) (by omega) (by omega)) (fun k l h1 h2 h3 h4 => h (k - 1) l (by omega) (by omega) (by omega) (by omega))
  · congr 1
    · exact hV _ _ _ _ _ _ _ _ (fun k l h1 h2 h3 h4 => hU l k (by omega) (by omega) (by omega) (by omega)) (fun k l h1 h2 h3 h4 => h l k (by omega) (by omega) (by omega) (by omega))
    · exact hV _ _ _ _ _ _ _ _ (fun k l h1 h2 h3 h4 => hU l (k - 1) (by omega) (by omega) (by omega) (by omega)) (fun k l h1 h2 h3 h4 => h l (k - 1) (by omega) (by omega) (by omega) (by omega))

theorem lin_sum2 {T : Ar2 K → K} (hT : ∀ u P Q, T (fun k l => u * P k l + Q k l) = u * T P + T Q) {ι : Type} (s : Finset ι) (w : ι → K) (P : ι → Ar2 K) :
    T (fun k l => ∑ m ∈ s, w m * P m k l) = ∑ m ∈ s, w m * T (P m) := by
  classical
  have h0 : T (fun _ _ => 0) = 0 := by
    have := hT 0 (fun _ _ => 0) (fun _ _ => 0)
    have h1 := hT 1 (fun _ _ => 0) (fun _ _ => 0)
    simp only [mul_zero, add_zero, one_mul] at h1
    linear_combination -h1
  induction s using Finset.induction_on with
  | empty => simpa using h0
  | insert m s hm ih =>
    rw [Finset.sum_insert hm, ← ih, ← hT]
    congr 1; funext k l; rw [Finset.sum_insert hm]

/-- exactness on monomials about the origin gives exactness on monomials about any point -/
theorem exact_shift2 {T : Ar2 K → K} (hT : ∀ u P Q, T (fun k l => u * P k l + Q k l) = u * T P + T Q) (d : Nat) (a b : K)
    (h : ∀ i j, i + j ≤ d → T (fun k l => (k : K) ^ i * (l : K) ^ j) = (-a) ^ i * (-b) ^ j) (x y : K) (i j : Nat) (hij : i + j ≤ d) :
    T (fun k l => (x + k) ^ i * (y + l) ^ j) = (x - a) ^ i * (y - b) ^ j := by
  have e : ∀ k l : K, (x + k) ^ i * (y + l) ^ j = ∑ m ∈ Finset.range (i + 1) ×ˢ Finset.range (j + 1),
      (x ^ (i - m.1) * (i.choose m.1 : K) * (y ^ (j - m.2) * (j.choose m.2 : K))) * (k ^ m.1 * l ^ m.2) := by
    intro k l
    rw [add_comm x k, add_comm y l, add_pow, add_pow, Finset.sum_mul_sum, Finset.sum_product]
    refine Finset.sum_congr rfl (fun m _ => Finset.sum_congr rfl (fun n _ => ?_))
    ring
  have e' := e (-a) (-b)
  rw [← sub_eq_add_neg, ← sub_eq_add_neg] at e'
  rw [e']
  simp only [e]
  rw [lin_sum2 hT]
  refine Finset.sum_congr rfl (fun m hm => ?_)
  simp only [Finset.mem_product, Finset.mem_range] at hm
  rw [h m.1 m.2 (by omega)]

/-- polynomial of total degree at most `d` -/
def poly2 (d : Nat) (c : Nat → Nat → K) (x y : K) : K := ∑ i ∈ Finset.range (d + 1), ∑ j ∈ Finset.range (d + 1 - i), c i j * (x ^ i * y ^ j)

theorem exact_poly2 {T : Ar2 K → K} (hT : ∀ u P Q, T (fun k l => u * P k l + Q k l) = u * T P + T Q) (d : Nat) (a b : K)
    (h : ∀ i j, i + j ≤ d → T (fun k l => (k : K) ^ i * (l : K) ^ j) = (-a) ^ i * (-b) ^ j) (x y : K) (c : Nat → Nat → K) :
    T (fun k l => poly2 d c (x + k) (y + l)) = poly2 d c (x - a) (y - b) := by
  have e : ∀ x y : K, poly2 d c x y = ∑ m ∈ (Finset.range (d + 1)).sigma (fun i => Finset.range (d + 1 - i)), c m.1 m.2 * (x ^ m.1 * y ^ m.2) := by
    intro x y; unfold poly2; rw [Finset.sum_sigma]
  simp only [e]
  rw [lin_sum2 hT _ (fun m : (_ : Nat) × Nat => c m.1 m.2) (fun m k l => (x + (k : K)) ^ m.1 * (y + (l : K)) ^ m.2)]
  refine Finset.sum_congr rfl (fun m hm => ?_)
  simp only [Finset.mem_sigma, Finset.mem_range] at hm
  rw [exact_shift2 hT d a b h x y m.1 m.2 (by omega)]



/-- Courant number or minus its absolute value -/
def sgnC (r : Nat) (a α : K) : K := if r % 2 = 1 then a else -α

/-- the first-order upwind difference of a power -/
theorem up_pow (i : Nat) (a α k : K) :
    (a + α) / 2 * (k ^ i - (k - 1) ^ i) + (a - α) / 2 * ((k + 1) ^ i - k ^ i) = ∑ m ∈ Finset.range i, (i.choose m * sgnC (i - m) a α) * k ^ m := by
  have h1 : (k + 1) ^ i - k ^ i = ∑ m ∈ Finset.range i, (i.choose m : K) * k ^ m := by
    rw [add_pow, Finset.sum_range_succ]; simp [mul_comm]
  have h2 : k ^ i - (k - 1) ^ i = ∑ m ∈ Finset.range i, -((-1) ^ (i - m) * (i.choose m : K) * k ^ m) := by
    rw [sub_eq_add_neg k, add_pow, Finset.sum_range_succ, Finset.sum_neg_distrib]; simp [mul_comm, mul_left_comm]
  rw [h1, h2, Finset.mul_sum, Finset.mul_sum, ← Finset.sum_add_distrib]
  refine Finset.sum_congr rfl (fun m _ => ?_)
  unfold sgnC
  rcases Nat.even_or_odd (i - m) with h | h
  · rw [h.neg_one_pow, if_neg (by have := Nat.even_iff.1 h; omega)]; ring
  · rw [h.neg_one_pow, if_pos (Nat.odd_iff.1 h)]; ring

/-- a step of a monomial in terms of the second pass on monomials -/
theorem uniStep2_mono {V : Ar2 K → Ar2 K → K → K → K → K → K} (hV : VLin2 V) (i j : Nat) (a b α β : K) :
    uniStep2 V a b α β (fun k l => (k : K) ^ i * (l : K) ^ j)
      = uniNext2 V (fun k l => (k : K) ^ i * (l : K) ^ j) (fun k l => (k : K) ^ i * (l : K) ^ j) a b α β
        - (∑ m ∈ Finset.range i, (i.choose m * sgnC (i - m) a α) * uniNext2 V (fun k l => (k : K) ^ m * (l : K) ^ j) (fun _ _ => 0) a b α β)
        - ∑ n ∈ Finset.range j, (j.choose n * sgnC (j - n) b β) * uniNext2 V (fun k l => (k : K) ^ i * (l : K) ^ n) (fun _ _ => 0) a b α β := by
  have hN : ∀ (u : K) (F H F' H' : Ar2 K), uniNext2 V (fun k l => u * F k l + F' k l) (fun k l => u * H k l + H' k l) a b α β = u * uniNext2 V F H a b α β + uniNext2 V F' H' a b α β := by
    intro u F H F' H'
    unfold uniNext2
    rw [hV F H F' H' u a b α β, hV (fun k l => F (k - 1) l) (fun k l => H (k - 1) l) (fun k l => F' (k - 1) l) (fun k l => H' (k - 1) l) u a b α β,
      hV (fun k l => F l k) (fun k l => H l k) (fun k l => F' l k) (fun k l => H' l k) u b a β α,
      hV (fun k l => F l (k - 1)) (fun k l => H l (k - 1)) (fun k l => F' l (k - 1)) (fun k l => H' l (k - 1)) u b a β α]
    ring
  have hL : ∀ u P Q, (fun F => uniNext2 V F (fun _ _ => 0) a b α β) (fun k l => u * P k l + Q k l)
      = u * (fun F => uniNext2 V F (fun _ _ => 0) a b α β) P + (fun F => uniNext2 V F (fun _ _ => 0) a b α β) Q := by
    intro u P Q
    have := hN u P (fun _ _ => 0) Q (fun _ _ => 0)
    simpa using this
  have s1 := lin_sum2 (T := fun F => uniNext2 V F (fun _ _ => 0) a b α β) hL (Finset.range i) (fun m => i.choose m * sgnC (i - m) a α) (fun m k l => (k : K) ^ m * (l : K) ^ j)
  have s2 := lin_sum2 (T := fun F => uniNext2 V F (fun _ _ => 0) a b α β) hL (Finset.range j) (fun n => j.choose n * sgnC (j - n) b β) (fun n k l => (k : K) ^ i * (l : K) ^ n)
  rw [← s1, ← s2]
  have e : uniUp2 (fun k l => (k : K) ^ i * (l : K) ^ j) a b α β = fun (k l : Int) =>
      (-1) * (∑ m ∈ Finset.range i, (i.choose m * sgnC (i - m) a α) * ((k : K) ^ m * (l : K) ^ j))
        + ((-1) * (∑ n ∈ Finset.range j, (j.choose n * sgnC (j - n) b β) * ((k : K) ^ i * (l : K) ^ n)) + (k : K) ^ i * (l : K) ^ j) := by
    funext k l
    have x1 := up_pow i a α (k : K)
    have x2 := up_pow j b β (l : K)
    have y1 : ∑ m ∈ Finset.range i, (i.choose m * sgnC (i - m) a α) * ((k : K) ^ m * (l : K) ^ j) = (∑ m ∈ Finset.range i, (i.choose m * sgnC (i - m) a α) * (k : K) ^ m) * (l : K) ^ j := by
      rw [Finset.sum_mul]; exact Finset.sum_congr rfl (fun m _ => by ring)
    have y2 : ∑ n ∈ Finset.range j, (j.choose n * sgnC (j - n) b β) * ((k : K) ^ i * (l : K) ^ n) = (∑ n ∈ Finset.range j, (j.choose n * sgnC (j - n) b β) * (l : K) ^ n) * (k : K) ^ i := by
      rw [Finset.sum_mul]; exact Finset.sum_congr rfl (fun m _ => by ring)
    rw [y1, y2, ← x1, ← x2]
    unfold uniUp2
    push_cast
    ring
  unfold uniStep2
  have z1 := hN (-1) (fun k l => ∑ m ∈ Finset.range i, (i.choose m * sgnC (i - m) a α) * ((k : K) ^ m * (l : K) ^ j)) (fun _ _ => 0)
    (fun k l => (-1) * (∑ n ∈ Finset.range j, (j.choose n * sgnC (j - n) b β) * ((k : K) ^ i * (l : K) ^ n)) + (k : K) ^ i * (l : K) ^ j)
    (fun k l => (k : K) ^ i * (l : K) ^ j)
  have z2 := hN (-1) (fun k l => ∑ n ∈ Finset.range j, (j.choose n * sgnC (j - n) b β) * ((k : K) ^ i * (l : K) ^ n)) (fun _ _ => 0)
    (fun k l => (k : K) ^ i * (l : K) ^ j) (fun k l => (k : K) ^ i * (l : K) ^ j)
  simp only [mul_zero, zero_add] at z1 z2
  rw [e, z1, z2]
  ring

/-- velocity of the standard form, second order -/
def VStd2 (F _H : Ar2 K) (a b α _β : K) : K := uniStd2 F a b α

theorem coreStd2_loc : VLoc2 (VStd2 : Ar2 K → Ar2 K → K → K → K → K → K) := by
  intro F H F' H' a b α β hF hH; simp (disch := omega) only [VStd2, uniStd2, hF, hH]

theorem coreStd2_lin : VLin2 (VStd2 : Ar2 K → Ar2 K → K → K → K → K → K) := by
  intro F H F' H' u a b α β; unfold VStd2 uniStd2; ring

theorem coreStd2 (a b α β : K) (hα : α = a ∨ α = -a) (hβ : β = b ∨ β = -b) (i j : Nat) (hij : i + j ≤ 2) :
    uniStep2 VStd2 a b α β (fun k l => (k : K) ^ i * (l : K) ^ j) = (-a) ^ i * (-b) ^ j := by
  obtain ⟨N, hN⟩ : ∃ N : Nat → Nat → K, N = fun i j => uniNext2 VStd2 (fun (k l : Int) => (k : K) ^ i * (l : K) ^ j) (fun _ _ => 0) a b α β := ⟨_, rfl⟩
  have hM : ∀ i j, uniNext2 VStd2 (fun (k l : Int) => (k : K) ^ i * (l : K) ^ j) (fun (k l : Int) => (k : K) ^ i * (l : K) ^ j) a b α β = N i j := fun i j => by rw [hN]; rfl
  have n00 := congrFun (congrFun hN 0) 0
  norm_num [uniNext2, VStd2, uniStd2] at n00
  try ring_nf at n00
  have n10 := congrFun (congrFun hN 1) 0
  norm_num [uniNext2, VStd2, uniStd2] at n10
  try ring_nf at n10
  have n01 := congrFun (congrFun hN 0) 1
  norm_num [uniNext2, VStd2, uniStd2] at n01
  try ring_nf at n01
  have n20 := congrFun (congrFun hN 2) 0
  norm_num [uniNext2, VStd2, uniStd2] at n20
  try ring_nf at n20
  have n11 := congrFun (congrFun hN 1) 1
  norm_num [uniNext2, VStd2, uniStd2] at n11
  try ring_nf at n11
  have n02 := congrFun (congrFun hN 0) 2
  norm_num [uniNext2, VStd2, uniStd2] at n02
  try ring_nf at n02
  rw [uniStep2_mono coreStd2_lin]
  simp only [hM, ← congrFun (congrFun hN _) _]
  clear hN hM
  have hi : i ≤ 2 := by omega
  have hj : j ≤ 2 := by omega
  interval_cases i <;> interval_cases j <;> first
    | omega
    | (clear hij hi hj
       simp only [Finset.sum_range_succ, Finset.sum_range_zero, sgnC, n00, n10, n01, n20, n11, n02]
       norm_num [Nat.choose]
       try (rcases hα with rfl | rfl <;> rcases hβ with rfl | rfl <;> ring1))

/-- velocity of the standard form, third order -/
def VTot2 (F _H : Ar2 K) (a b α _β : K) : K := uniStd2 F a b α + uniTot2 F a b α

theorem coreTot2_loc : VLoc2 (VTot2 : Ar2 K → Ar2 K → K → K → K → K → K) := by
  intro F H F' H' a b α β hF hH; simp (disch := omega) only [VTot2, uniStd2, uniTot2, hF, hH]

theorem coreTot2_lin : VLin2 (VTot2 : Ar2 K → Ar2 K → K → K → K → K → K) := by
  intro F H F' H' u a b α β; unfold VTot2 uniStd2 uniTot2; ring

theorem coreTot2 (a b α β : K) (hα : α = a ∨ α = -a) (hβ : β = b ∨ β = -b) (i j : Nat) (hij : i + j ≤ 3) :
    uniStep2 VTot2 a b α β (fun k l => (k : K) ^ i * (l : K) ^ j) = (-a) ^ i * (-b) ^ j := by
  obtain ⟨N, hN⟩ : ∃ N : Nat → Nat → K, N = fun i j => uniNext2 VTot2 (fun (k l : Int) => (k : K) ^ i * (l : K) ^ j) (fun _ _ => 0) a b α β := ⟨_, rfl⟩
  have hM : ∀ i j, uniNext2 VTot2 (fun (k l : Int) => (k : K) ^ i * (l : K) ^ j) (fun (k l : Int) => (k : K) ^ i * (l : K) ^ j) a b α β = N i j := fun i j => by rw [hN]; rfl
  have n00 := congrFun (congrFun hN 0) 0
  norm_num [uniNext2, VTot2, uniStd2, uniTot2] at n00
  try ring_nf at n00
  have n10 := congrFun (congrFun hN 1) 0
  norm_num [uniNext2, VTot2, uniStd2, uniTot2] at n10
  try ring_nf at n10
  have n01 := congrFun (congrFun hN 0) 1
  norm_num [uniNext2, VTot2, uniStd2, uniTot2] at n01
  try ring_nf at n01
  have n20 := congrFun (congrFun hN 2) 0
  norm_num [uniNext2, VTot2, uniStd2, uniTot2] at n20
  try ring_nf at n20
  have n11 := congrFun (congrFun hN 1) 1
  norm_num [uniNext2, VTot2, uniStd2, uniTot2] at n11
  try ring_nf at n11
  have n02 := congrFun (congrFun hN 0) 2
  norm_num [uniNext2, VTot2, uniStd2, uniTot2] at n02
  try ring_nf at n02
  have n30 := congrFun (congrFun hN 3) 0
  norm_num [uniNext2, VTot2, uniStd2, uniTot2] at n30
  try ring_nf at n30
  have n21 := congrFun (congrFun hN 2) 1
  norm_num [uniNext2, VTot2, uniStd2, uniTot2] at n21
  try ring_nf at n21
  have n12 := congrFun (congrFun hN 1) 2
  norm_num [uniNext2, VTot2, uniStd2, uniTot2] at n12
  try ring_nf at n12
  have n03 := congrFun (congrFun hN 0) 3
  norm_num [uniNext2, VTot2, uniStd2, uniTot2] at n03
  try ring_nf at n03
  rw [uniStep2_mono coreTot2_lin]
  simp only [hM, ← congrFun (congrFun hN _) _]
  clear hN hM
  have hi : i ≤ 3 := by omega
  have hj : j ≤ 3 := by omega
  interval_cases i <;> interval_cases j <;> first
    | omega
    | (clear hij hi hj
       simp only [Finset.sum_range_succ, Finset.sum_range_zero, sgnC, n00, n10, n01, n20, n11, n02, n30, n21, n12, n03]
       norm_num [Nat.choose]
       try (rcases hα with rfl | rfl <;> rcases hβ with rfl | rfl <;> ring1))

/-- velocity of the standard form, fourth order -/
def VFot2 (F _H : Ar2 K) (a b α β : K) : K := uniStd2 F a b α + uniTot2 F a b α + uniFot2 F a b α β

theorem coreFot2_loc : VLoc2 (VFot2 : Ar2 K → Ar2 K → K → K → K → K → K) := by
  intro F H F' H' a b α β hF hH; simp (disch := omega) only [VFot2, uniStd2, uniTot2, uniFot2, hF, hH]

theorem coreFot2_lin : VLin2 (VFot2 : Ar2 K → Ar2 K → K → K → K → K → K) := by
  intro F H F' H' u a b α β; unfold VFot2 uniStd2 uniTot2 uniFot2; ring

theorem coreFot2 (a b α β : K) (hα : α = a ∨ α = -a) (hβ : β = b ∨ β = -b) (i j : Nat) (hij : i + j ≤ 4) :
    uniStep2 VFot2 a b α β (fun k l => (k : K) ^ i * (l : K) ^ j) = (-a) ^ i * (-b) ^ j := by
  obtain ⟨N, hN⟩ : ∃ N : Nat → Nat → K, N = fun i j => uniNext2 VFot2 (fun (k l : Int) => (k : K) ^ i * (l : K) ^ j) (fun _ _ => 0) a b α β := ⟨_, rfl⟩
  have hM : ∀ i j, uniNext2 VFot2 (fun (k l : Int) => (k : K) ^ i * (l : K) ^ j) (fun (k l : Int) => (k : K) ^ i * (l : K) ^ j) a b α β = N i j := fun i j => by rw [hN]; rfl
  have n00 := congrFun (congrFun hN 0) 0
  norm_num [uniNext2, VFot2, uniStd2, uniTot2, uniFot2] at n00
  try ring_nf at n00
  have n10 := congrFun (congrFun hN 1) 0
  norm_num [uniNext2, VFot2, uniStd2, uniTot2, uniFot2] at n10
  try ring_nf at n10
  have n01 := congrFun (congrFun hN 0) 1
  norm_num [uniNext2, VFot2, uniStd2, uniTot2, uniFot2] at n01
  try ring_nf at n01
  have n20 := congrFun (congrFun hN 2) 0
  norm_num [uniNext2, VFot2, uniStd2, uniTot2, uniFot2] at n20
  try ring_nf at n20
  have n11 := congrFun (congrFun hN 1) 1
  norm_num [uniNext2, VFot2, uniStd2, uniTot2, uniFot2] at n11
  try ring_nf at n11
  have n02 := congrFun (congrFun hN 0) 2
  norm_num [uniNext2, VFot2, uniStd2, uniTot2, uniFot2] at n02
  try ring_nf at n02
  have n30 := congrFun (congrFun hN 3) 0
  norm_num [uniNext2, VFot2, uniStd2, uniTot2, uniFot2] at n30
  try ring_nf at n30
  have n21 := congrFun (congrFun hN 2) 1
  norm_num [uniNext2, VFot2, uniStd2, uniTot2, uniFot2] at n21
  try ring_nf at n21
  have n12 := congrFun (congrFun hN 1) 2
  norm_num [uniNext2, VFot2, uniStd2, uniTot2, uniFot2] at n12
  try ring_nf at n12
  have n03 := congrFun (congrFun hN 0) 3
  norm_num [uniNext2, VFot2, uniStd2, uniTot2, uniFot2] at n03
  try ring_nf at n03
  have n40 := congrFun (congrFun hN 4) 0
  norm_num [uniNext2, VFot2, uniStd2, uniTot2, uniFot2] at n40
  try ring_nf at n40
  have n31 := congrFun (congrFun hN 3) 1
  norm_num [uniNext2, VFot2, uniStd2, uniTot2, uniFot2] at n31
  try ring_nf at n31
  have n22 := congrFun (congrFun hN 2) 2
  norm_num [uniNext2, VFot2, uniStd2, uniTot2, uniFot2] at n22
  try ring_nf at n22
  have n13 := congrFun (congrFun hN 1) 3
  norm_num [uniNext2, VFot2, uniStd2, uniTot2, uniFot2] at n13
  try ring_nf at n13
  have n04 := congrFun (congrFun hN 0) 4
  norm_num [uniNext2, VFot2, uniStd2, uniTot2, uniFot2] at n04
  try ring_nf at n04
  rw [uniStep2_mono coreFot2_lin]
  simp only [hM, ← congrFun (congrFun hN _) _]
  clear hN hM
  have hi : i ≤ 4 := by omega
  have hj : j ≤ 4 := by omega
  interval_cases i <;> interval_cases j <;> first
    | omega
    | (clear hij hi hj
       simp only [Finset.sum_range_succ, Finset.sum_range_zero, sgnC, n00, n10, n01, n20, n11, n02, n30, n21, n12, n03, n40, n31, n22, n13, n04]
       norm_num [Nat.choose]
       try (rcases hα with rfl | rfl <;> rcases hβ with rfl | rfl <;> ring1))

/-- velocity of the divergence form, second order -/
def VDiv2 (F _H : Ar2 K) (a b α _β : K) : K := uniDiv2 F a b α

theorem coreDiv2_loc : VLoc2 (VDiv2 : Ar2 K → Ar2 K → K → K → K → K → K) := by
  intro F H F' H' a b α β hF hH; simp (disch := omega) only [VDiv2, uniDiv2, hF, hH]

theorem coreDiv2_lin : VLin2 (VDiv2 : Ar2 K → Ar2 K → K → K → K → K → K) := by
  intro F H F' H' u a b α β; unfold VDiv2 uniDiv2; ring

theorem coreDiv2 (a b α β : K) (hα : α = a ∨ α = -a) (hβ : β = b ∨ β = -b) (i j : Nat) (hij : i + j ≤ 2) :
    uniStep2 VDiv2 a b α β (fun k l => (k : K) ^ i * (l : K) ^ j) = (-a) ^ i * (-b) ^ j := by
  obtain ⟨N, hN⟩ : ∃ N : Nat → Nat → K, N = fun i j => uniNext2 VDiv2 (fun (k l : Int) => (k : K) ^ i * (l : K) ^ j) (fun _ _ => 0) a b α β := ⟨_, rfl⟩
  have hM : ∀ i j, uniNext2 VDiv2 (fun (k l : Int) => (k : K) ^ i * (l : K) ^ j) (fun (k l : Int) => (k : K) ^ i * (l : K) ^ j) a b α β = N i j := fun i j => by rw [hN]; rfl
  have n00 := congrFun (congrFun hN 0) 0
  norm_num [uniNext2, VDiv2, uniDiv2] at n00
  try ring_nf at n00
  have n10 := congrFun (congrFun hN 1) 0
  norm_num [uniNext2, VDiv2, uniDiv2] at n10
  try ring_nf at n10
  have n01 := congrFun (congrFun hN 0) 1
  norm_num [uniNext2, VDiv2, uniDiv2] at n01
  try ring_nf at n01
  have n20 := congrFun (congrFun hN 2) 0
  norm_num [uniNext2, VDiv2, uniDiv2] at n20
  try ring_nf at n20
  have n11 := congrFun (congrFun hN 1) 1
  norm_num [uniNext2, VDiv2, uniDiv2] at n11
  try ring_nf at n11
  have n02 := congrFun (congrFun hN 0) 2
  norm_num [uniNext2, VDiv2, uniDiv2] at n02
  try ring_nf at n02
  rw [uniStep2_mono coreDiv2_lin]
  simp only [hM, ← congrFun (congrFun hN _) _]
  clear hN hM
  have hi : i ≤ 2 := by omega
  have hj : j ≤ 2 := by omega
  interval_cases i <;> interval_cases j <;> first
    | omega
    | (clear hij hi hj
       simp only [Finset.sum_range_succ, Finset.sum_range_zero, sgnC, n00, n10, n01, n20, n11, n02]
       norm_num [Nat.choose]
       try (rcases hα with rfl | rfl <;> rcases hβ with rfl | rfl <;> ring1))

/-- velocity of the divergence form, third order -/
def VDiv3 (F _H : Ar2 K) (a b α _β : K) : K := uniDiv2 F a b α + uniDiv3 F a b α

theorem coreDiv3_loc : VLoc2 (VDiv3 : Ar2 K → Ar2 K → K → K → K → K → K) := by
  intro F H F' H' a b α β hF hH; simp (disch := omega) only [VDiv3, uniDiv2, uniDiv3, hF, hH]

theorem coreDiv3_lin : VLin2 (VDiv3 : Ar2 K → Ar2 K → K → K → K → K → K) := by
  intro F H F' H' u a b α β; unfold VDiv3 uniDiv2 uniDiv3; ring

theorem coreDiv3 (a b α β : K) (hα : α = a ∨ α = -a) (hβ : β = b ∨ β = -b) (i j : Nat) (hij : i + j ≤ 3) :
    uniStep2 VDiv3 a b α β (fun k l => (k : K) ^ i * (l : K) ^ j) = (-a) ^ i * (-b) ^ j := by
  obtain ⟨N, hN⟩ : ∃ N : Nat → Nat → K, N = fun i j => uniNext2 VDiv3 (fun (k l : Int) => (k : K) ^ i * (l : K) ^ j) (fun _ _ => 0) a b α β := ⟨_, rfl⟩
  have hM : ∀ i j, uniNext2 VDiv3 (fun (k l : Int) => (k : K) ^ i * (l : K) ^ j) (fun (k l : Int) => (k : K) ^ i * (l : K) ^ j) a b α β = N i j := fun i j => by rw [hN]; rfl
  have n00 := congrFun (congrFun hN 0) 0
  norm_num [uniNext2, VDiv3, uniDiv2, uniDiv3] at n00
  try ring_nf at n00
  have n10 := congrFun (congrFun hN 1) 0
  norm_num [uniNext2, VDiv3, uniDiv2, uniDiv3] at n10
  try ring_nf at n10
  have n01 := congrFun (congrFun hN 0) 1
  norm_num [uniNext2, VDiv3, uniDiv2, uniDiv3] at n01
  try ring_nf at n01
  have n20 := congrFun (congrFun hN 2) 0
  norm_num [uniNext2, VDiv3, uniDiv2, uniDiv3] at n20
  try ring_nf at n20
  have n11 := congrFun (congrFun hN 1) 1
  norm_num [uniNext2, VDiv3, uniDiv2, uniDiv3] at n11
  try ring_nf at n11
  have n02 := congrFun (congrFun hN 0) 2
  norm_num [uniNext2, VDiv3, uniDiv2, uniDiv3] at n02
  try ring_nf at n02
  have n30 := congrFun (congrFun hN 3) 0
  norm_num [uniNext2, VDiv3, uniDiv2, uniDiv3] at n30
  try ring_nf at n30
  have n21 := congrFun (congrFun hN 2) 1
  norm_num [uniNext2, VDiv3, uniDiv2, uniDiv3] at n21
  try ring_nf at n21
  have n12 := congrFun (congrFun hN 1) 2
  norm_num [uniNext2, VDiv3, uniDiv2, uniDiv3] at n12
  try ring_nf at n12
  have n03 := congrFun (congrFun hN 0) 3
  norm_num [uniNext2, VDiv3, uniDiv2, uniDiv3] at n03
  try ring_nf at n03
  rw [uniStep2_mono coreDiv3_lin]
  simp only [hM, ← congrFun (congrFun hN _) _]
  clear hN hM
  have hi : i ≤ 3 := by omega
  have hj : j ≤ 3 := by omega
  interval_cases i <;> interval_cases j <;> first
    | omega
    | (clear hij hi hj
       simp only [Finset.sum_range_succ, Finset.sum_range_zero, sgnC, n00, n10, n01, n20, n11, n02, n30, n21, n12, n03]
       norm_num [Nat.choose]
       try (rcases hα with rfl | rfl <;> rcases hβ with rfl | rfl <;> ring1))

/-- velocity of the divergence form, fourth order -/
def VDiv4 (F _H : Ar2 K) (a b α β : K) : K := uniDiv2 F a b α + uniDiv3 F a b α + uniFot2 F a b α β

theorem coreDiv4_loc : VLoc2 (VDiv4 : Ar2 K → Ar2 K → K → K → K → K → K) := by
  intro F H F' H' a b α β hF hH; simp (disch := omega) only [VDiv4, uniDiv2, uniDiv3, uniFot2, hF, hH]

theorem coreDiv4_lin : VLin2 (VDiv4 : Ar2 K → Ar2 K → K → K → K → K → K) := by
  intro F H F' H' u a b α β; unfold VDiv4 uniDiv2 uniDiv3 uniFot2; ring

theorem coreDiv4 (a b α β : K) (hα : α = a ∨ α = -a) (hβ : β = b ∨ β = -b) (i j : Nat) (hij : i + j ≤ 4) :
    uniStep2 VDiv4 a b α β (fun k l => (k : K) ^ i * (l : K) ^ j) = (-a) ^ i * (-b) ^ j := by
  obtain ⟨N, hN⟩ : ∃ N : Nat → Nat → K, N = fun i j => uniNext2 VDiv4 (fun (k l : Int) => (k : K) ^ i * (l : K) ^ j) (fun _ _ => 0) a b α β := ⟨_, rfl⟩
  have hM : ∀ i j, uniNext2 VDiv4 (fun (k l : Int) => (k : K) ^ i * (l : K) ^ j) (fun (k l : Int) => (k : K) ^ i * (l : K) ^ j) a b α β = N i j := fun i j => by rw [hN]; rfl
  have n00 := congrFun (congrFun hN 0) 0
  norm_num [uniNext2, VDiv4, uniDiv2, uniDiv3, uniFot2] at n00
  try ring_nf at n00
  have n10 := congrFun (congrFun hN 1) 0
  norm_num [uniNext2, VDiv4, uniDiv2, uniDiv3, uniFot2] at n10
  try ring_nf at n10
  have n01 := congrFun (congrFun hN 0) 1
  norm_num [uniNext2, VDiv4, uniDiv2, uniDiv3, uniFot2] at n01
  try ring_nf at n01
  have n20 := congrFun (congrFun hN 2) 0
  norm_num [uniNext2, VDiv4, uniDiv2, uniDiv3, uniFot2] at n20
  try ring_nf at n20
  have n11 := congrFun (congrFun hN 1) 1
  norm_num [uniNext2, VDiv4, uniDiv2, uniDiv3, uniFot2] at n11
  try ring_nf at n11
  have n02 := congrFun (congrFun hN 0) 2
  norm_num [uniNext2, VDiv4, uniDiv2, uniDiv3, uniFot2] at n02
  try ring_nf at n02
  have n30 := congrFun (congrFun hN 3) 0
  norm_num [uniNext2, VDiv4, uniDiv2, uniDiv3, uniFot2] at n30
  try ring_nf at n30
  have n21 := congrFun (congrFun hN 2) 1
  norm_num [uniNext2, VDiv4, uniDiv2, uniDiv3, uniFot2] at n21
  try ring_nf at n21
  have n12 := congrFun (congrFun hN 1) 2
  norm_num [uniNext2, VDiv4, uniDiv2, uniDiv3, uniFot2] at n12
  try ring_nf at n12
  have n03 := congrFun (congrFun hN 0) 3
  norm_num [uniNext2, VDiv4, uniDiv2, uniDiv3, uniFot2] at n03
  try ring_nf at n03
  have n40 := congrFun (congrFun hN 4) 0
  norm_num [uniNext2, VDiv4, uniDiv2, uniDiv3, uniFot2] at n40
  try ring_nf at n40
  have n31 := congrFun (congrFun hN 3) 1
  norm_num [uniNext2, VDiv4, uniDiv2, uniDiv3, uniFot2] at n31
  try ring_nf at n31
  have n22 := congrFun (congrFun hN 2) 2
  norm_num [uniNext2, VDiv4, uniDiv2, uniDiv3, uniFot2] at n22
  try ring_nf at n22
  have n13 := congrFun (congrFun hN 1) 3
  norm_num [uniNext2, VDiv4, uniDiv2, uniDiv3, uniFot2] at n13
  try ring_nf at n13
  have n04 := congrFun (congrFun hN 0) 4
  norm_num [uniNext2, VDiv4, uniDiv2, uniDiv3, uniFot2] at n04
  try ring_nf at n04
  rw [uniStep2_mono coreDiv4_lin]
  simp only [hM, ← congrFun (congrFun hN _) _]
  clear hN hM
  have hi : i ≤ 4 := by omega
  have hj : j ≤ 4 := by omega
  interval_cases i <;> interval_cases j <;> first
    | omega
    | (clear hij hi hj
       simp only [Finset.sum_range_succ, Finset.sum_range_zero, sgnC, n00, n10, n01, n20, n11, n02, n30, n21, n12, n03, n40, n31, n22, n13, n04]
       norm_num [Nat.choose]
       try (rcases hα with rfl | rfl <;> rcases hβ with rfl | rfl <;> ring1))

/-- velocity of the divergence form using the time derivative, third order -/
def VDt3 (F H : Ar2 K) (a b α _β : K) : K := uniDiv2 F a b α + uniDt3 F H a b α

theorem coreDt3_loc : VLoc2 (VDt3 : Ar2 K → Ar2 K → K → K → K → K → K) := by
  intro F H F' H' a b α β hF hH; simp (disch := omega) only [VDt3, uniDiv2, uniDt3, hF, hH]

theorem coreDt3_lin : VLin2 (VDt3 : Ar2 K → Ar2 K → K → K → K → K → K) := by
  intro F H F' H' u a b α β; unfold VDt3 uniDiv2 uniDt3; ring

theorem coreDt3 (a b α β : K) (hα : α = a ∨ α = -a) (hβ : β = b ∨ β = -b) (i j : Nat) (hij : i + j ≤ 3) :
    uniStep2 VDt3 a b α β (fun k l => (k : K) ^ i * (l : K) ^ j) = (-a) ^ i * (-b) ^ j := by
  obtain ⟨N, hN⟩ : ∃ N : Nat → Nat → K, N = fun i j => uniNext2 VDt3 (fun (k l : Int) => (k : K) ^ i * (l : K) ^ j) (fun _ _ => 0) a b α β := ⟨_, rfl⟩
  obtain ⟨M, hM⟩ : ∃ M : Nat → Nat → K, M = fun i j => uniNext2 VDt3 (fun (k l : Int) => (k : K) ^ i * (l : K) ^ j) (fun (k l : Int) => (k : K) ^ i * (l : K) ^ j) a b α β := ⟨_, rfl⟩
  have n00 := congrFun (congrFun hN 0) 0
  norm_num [uniNext2, VDt3, uniDiv2, uniDt3] at n00
  try ring_nf at n00
  have n10 := congrFun (congrFun hN 1) 0
  norm_num [uniNext2, VDt3, uniDiv2, uniDt3] at n10
  try ring_nf at n10
  have n01 := congrFun (congrFun hN 0) 1
  norm_num [uniNext2, VDt3, uniDiv2, uniDt3] at n01
  try ring_nf at n01
  have n20 := congrFun (congrFun hN 2) 0
  norm_num [uniNext2, VDt3, uniDiv2, uniDt3] at n20
  try ring_nf at n20
  have n11 := congrFun (congrFun hN 1) 1
  norm_num [uniNext2, VDt3, uniDiv2, uniDt3] at n11
  try ring_nf at n11
  have n02 := congrFun (congrFun hN 0) 2
  norm_num [uniNext2, VDt3, uniDiv2, uniDt3] at n02
  try ring_nf at n02
  have n30 := congrFun (congrFun hN 3) 0
  norm_num [uniNext2, VDt3, uniDiv2, uniDt3] at n30
  try ring_nf at n30
  have n21 := congrFun (congrFun hN 2) 1
  norm_num [uniNext2, VDt3, uniDiv2, uniDt3] at n21
  try ring_nf at n21
  have n12 := congrFun (congrFun hN 1) 2
  norm_num [uniNext2, VDt3, uniDiv2, uniDt3] at n12
  try ring_nf at n12
  have n03 := congrFun (congrFun hN 0) 3
  norm_num [uniNext2, VDt3, uniDiv2, uniDt3] at n03
  try ring_nf at n03
  have m00 := congrFun (congrFun hM 0) 0
  norm_num [uniNext2, VDt3, uniDiv2, uniDt3] at m00
  try ring_nf at m00
  have m10 := congrFun (congrFun hM 1) 0
  norm_num [uniNext2, VDt3, uniDiv2, uniDt3] at m10
  try ring_nf at m10
  have m01 := congrFun (congrFun hM 0) 1
  norm_num [uniNext2, VDt3, uniDiv2, uniDt3] at m01
  try ring_nf at m01
  have m20 := congrFun (congrFun hM 2) 0
  norm_num [uniNext2, VDt3, uniDiv2, uniDt3] at m20
  try ring_nf at m20
  have m11 := congrFun (congrFun hM 1) 1
  norm_num [uniNext2, VDt3, uniDiv2, uniDt3] at m11
  try ring_nf at m11
  have m02 := congrFun (congrFun hM 0) 2
  norm_num [uniNext2, VDt3, uniDiv2, uniDt3] at m02
  try ring_nf at m02
  have m30 := congrFun (congrFun hM 3) 0
  norm_num [uniNext2, VDt3, uniDiv2, uniDt3] at m30
  try ring_nf at m30
  have m21 := congrFun (congrFun hM 2) 1
  norm_num [uniNext2, VDt3, uniDiv2, uniDt3] at m21
  try ring_nf at m21
  have m12 := congrFun (congrFun hM 1) 2
  norm_num [uniNext2, VDt3, uniDiv2, uniDt3] at m12
  try ring_nf at m12
  have m03 := congrFun (congrFun hM 0) 3
  norm_num [uniNext2, VDt3, uniDiv2, uniDt3] at m03
  try ring_nf at m03
  rw [uniStep2_mono coreDt3_lin]
  simp only [← congrFun (congrFun hN _) _, ← congrFun (congrFun hM _) _]
  clear hN hM
  have hi : i ≤ 3 := by omega
  have hj : j ≤ 3 := by omega
  interval_cases i <;> interval_cases j <;> first
    | omega
    | (clear hij hi hj
       simp only [Finset.sum_range_succ, Finset.sum_range_zero, sgnC, n00, n10, n01, n20, n11, n02, n30, n21, n12, n03, m00, m10, m01, m20, m11, m02, m30, m21, m12, m03]
       norm_num [Nat.choose]
       try (rcases hα with rfl | rfl <;> rcases hβ with rfl | rfl <;> ring1))

end Mpdata
