import Verif.Props.FctN
import Verif.Props.Positive1
/-! # C13: positive definiteness in 2-D and 3-D, and of flux-corrected solvers -/
set_option linter.unusedSectionVars false
namespace Mpdata
variable {n : Nat} {K : Type} [Field K] [LinearOrder K] [IsStrictOrderedRing K]

/-! ## Bounds on the normalised differences of a non-negative field -/

theorem frac_bound1 (o : OptsT) (tiny a b : K) (ht : 0 ≤ tiny) (h1 : a ≤ b) (h2 : -b ≤ a) : |frac o tiny a b| ≤ 1 :=
  frac_abs_le_one o tiny a b ht (abs_le.2 ⟨h2, h1⟩)

theorem vabs_nonneg {o : OptsT} {x : K} (h : 0 ≤ x) : 0 ≤ vabs o x := by unfold vabs; split; exacts [abs_nonneg _, h]

section
variable (o : OptsT) (tiny : K) (ht : 0 ≤ tiny) (higa : isset o oIga = false)
include ht higa

theorem psi2_bounds (psi : Ar2 K) (hp : ∀ i j, 0 ≤ psi i j) (i j : Int) : |ndxPsi2 o tiny psi i j| ≤ 2 ∧ |ndyPsi2 o tiny psi i j| ≤ 1 ∧
    |ndxxPsi2 o tiny psi i j| ≤ 2 ∧ |ndxyPsi2 o tiny psi i j| ≤ 2 := by
  have hv : ∀ i j, 0 ≤ vabs o (psi i j) := fun i j => vabs_nonneg (hp i j)
  simp only [ndxPsi2, ndyPsi2, ndxxPsi2, ndxyPsi2, higa, Bool.false_eq_true, if_false]
  have two : ∀ x : K, |x| ≤ 1 → |2 * x| ≤ 2 := fun x hx => by rw [abs_mul, abs_two]; linarith
  refine ⟨two _ (frac_bound1 _ _ _ _ ht ?_ ?_), frac_bound1 _ _ _ _ ht ?_ ?_, two _ (frac_bound1 _ _ _ _ ht ?_ ?_), two _ (frac_bound1 _ _ _ _ ht ?_ ?_)⟩ <;>
    linarith [hv i j, hv (i + 1) j, hv (i + 2) j, hv (i - 1) j, hv i (j + 1), hv i (j - 1), hv (i + 1) (j + 1), hv (i + 1) (j - 1)]

theorem psi3_bounds (psi : Ar3 K) (hp : ∀ i j k, 0 ≤ psi i j k) (i j k : Int) : |ndxPsi3 o tiny psi i j k| ≤ 2 ∧ |ndyPsi3 o tiny psi i j k| ≤ 1 ∧
    |ndzPsi3 o tiny psi i j k| ≤ 1 ∧ |ndxxPsi3 o tiny psi i j k| ≤ 2 ∧ |ndxyPsi3 o tiny psi i j k| ≤ 2 ∧ |ndxzPsi3 o tiny psi i j k| ≤ 2 ∧ |ndyzPsi3 o tiny psi i j k| ≤ 1 := by
  have hv : ∀ i j k, 0 ≤ vabs o (psi i j k) := fun i j k => vabs_nonneg (hp i j k)
  simp only [ndxPsi3, ndyPsi3, ndzPsi3, ndxxPsi3, ndxyPsi3, ndxzPsi3, ndyzPsi3, higa, Bool.false_eq_true, if_false]
  have two : ∀ x : K, |x| ≤ 1 → |2 * x| ≤ 2 := fun x hx => by rw [abs_mul, abs_two]; linarith
  refine ⟨two _ (frac_bound1 _ _ _ _ ht ?_ ?_), frac_bound1 _ _ _ _ ht ?_ ?_, frac_bound1 _ _ _ _ ht ?_ ?_, two _ (frac_bound1 _ _ _ _ ht ?_ ?_),
    two _ (frac_bound1 _ _ _ _ ht ?_ ?_), two _ (frac_bound1 _ _ _ _ ht ?_ ?_), frac_bound1 _ _ _ _ ht ?_ ?_⟩ <;>
    linarith [hv i j k, hv (i + 1) j k, hv (i + 2) j k, hv (i - 1) j k, hv i (j + 1) k, hv i (j - 1) k, hv (i + 1) (j + 1) k, hv (i + 1) (j - 1) k,
      hv i j (k + 1), hv i j (k - 1), hv (i + 1) j (k + 1), hv (i + 1) j (k - 1),
      hv i (j + 1) (k + 1), hv i (j + 1) (k - 1), hv i (j - 1) (k + 1), hv i (j - 1) (k - 1), hv (i + 1) (j + 1) (k + 1), hv (i + 1) (j + 1) (k - 1),
      hv (i + 1) (j - 1) (k + 1), hv (i + 1) (j - 1) (k - 1)]
end

/-- options of the positivity theorem: no infinite gauge, G = 1, not in divergence form, no fourth-order terms (these need infinite gauge) -/
structure BasicOptsN (o : OptsT) : Prop extends BasicOpts o where
  fot : isset o oFot = false

theorem avg4_abs {a b c d u : K} (ha : |a| ≤ u) (hb : |b| ≤ u) (hc : |c| ≤ u) (hd : |d| ≤ u) : |(a + b + c + d) / 4| ≤ u := by
  rw [abs_le] at *; constructor <;> linarith [ha.1, ha.2, hb.1, hb.2, hc.1, hc.2, hd.1, hd.2]

theorem mul_abs_le {x y b : K} (hy : |y| ≤ b) : |x * y| ≤ |x| * b := by
  rw [abs_mul]; exact mul_le_mul_of_nonneg_left hy (abs_nonneg _)

theorem one_sub_two {a : K} (h0 : 0 ≤ a) (h : a ≤ 1) : |1 - 2 * a| ≤ 1 := by rw [abs_le]; constructor <;> linarith

/-- `x ↦ x (1 - x)` grows up to 1/2 -/
theorem logistic_mono {a u : K} (h : a ≤ u) (hu : u ≤ 1 / 2) : a * (1 - a) ≤ u * (1 - u) := by nlinarith [mul_nonneg (sub_nonneg.2 h) (by linarith : (0 : K) ≤ 1 - a - u)]

/-- the bound on a corrective velocity of the 2-D schemes when the velocities it is computed from are at most `u` -/
def velBound2 (o : OptsT) (u : K) : K :=
  u * (1 - u) + u * u / 2 + (if isset o oTot then u * (1 - u) / 3 + u * u else 0) + (if isset o oDfl then 3 / 2 * (u * u) else 0)

theorem antidiff2_bound (o : OptsT) (hb : BasicOptsN o) (si : SptlIntrp) (te : TmprlExtrp) (tiny : K) (ht : 0 ≤ tiny) (psi old ga gb nda ndb ndtt G : Ar2 K)
    (hp : ∀ i j, 0 ≤ psi i j) (u : K) (hu : u ≤ 1 / 2) (ha : ∀ i j, |ga i j| ≤ u) (hbb : ∀ i j, |gb i j| ≤ u) (i j : Int) :
    |antidiff2 o si te tiny psi old ga gb nda ndb ndtt G i j| ≤ velBound2 o u := by
  obtain ⟨b1, b2, b3, b4⟩ := psi2_bounds o tiny ht hb.iga psi hp i j
  have h0 : 0 ≤ |ga i j| := abs_nonneg _
  have hau := ha i j
  have hu0 : 0 ≤ u := h0.trans hau
  have hg : gBarX2 o G i j = 1 := by simp [gBarX2, hb.nug]
  have hB : |gc1BarXY2 gb i j| ≤ u := avg4_abs (hbb _ _) (hbb _ _) (hbb _ _) (hbb _ _)
  have hl := logistic_mono hau hu
  have h1 : 0 ≤ 1 - |ga i j| := by linarith
  have hfot : fot2 o psi ga gb G i j = 0 := by simp [fot2, hb.fot]
  have hau2 : |ga i j| * u ≤ u * u := mul_le_mul_of_nonneg_right hau hu0
  have t1 : |(|ga i j| / 2 * (1 - |ga i j| / 1) * ndxPsi2 o tiny psi i j)| ≤ u * (1 - u) := by
    have := mul_abs_le (x := |ga i j| / 2 * (1 - |ga i j| / 1)) b1
    rw [div_one, abs_of_nonneg (mul_nonneg (by linarith) h1)] at this
    rw [div_one]; linarith
  have t2 : |ga i j * gc1BarXY2 gb i j / (2 * 1) * ndyPsi2 o tiny psi i j| ≤ u * u / 2 := by
    have e : |ga i j * gc1BarXY2 gb i j / (2 * 1)| ≤ u * u / 2 := by
      rw [mul_one, abs_div, abs_two]
      have := mul_abs_le (x := ga i j) hB
      linarith
    have := mul_abs_le (x := ga i j * gc1BarXY2 gb i j / (2 * 1)) b2
    linarith
  have t3 : |tot2 o tiny psi ga gb G i j| ≤ (if isset o oTot then u * (1 - u) / 3 + u * u else 0) := by
    unfold tot2
    split
    · have e1 : |ndxxPsi2 o tiny psi i j * ndxxPsiCoeff2 o ga G i j| ≤ u * (1 - u) / 3 := by
        unfold ndxxPsiCoeff2
        rw [hg, abs_mul]
        have c := coeff_bound (ga i j) (by linarith)
        have := mul_le_mul b3 c (abs_nonneg _) (by norm_num)
        linarith
      have e2 : |ndxyPsi2 o tiny psi i j * ndxyPsiCoeff2 o ga gb G i j| ≤ u * u := by
        unfold ndxyPsiCoeff2
        rw [hg, abs_mul]
        have e : (|ga i j| - 2 * ga i j ^ 2 / 1) * gc1BarXY2 gb i j / (2 * 1) = |ga i j| / 2 * ((1 - 2 * |ga i j|) * gc1BarXY2 gb i j) := by
          rw [← sq_abs]; ring
        have f : |(1 - 2 * |ga i j|) * gc1BarXY2 gb i j| ≤ u := by
          have m := mul_abs_le (x := 1 - 2 * |ga i j|) hB
          have m2 := mul_le_mul_of_nonneg_right (one_sub_two h0 (by linarith : |ga i j| ≤ 1)) hu0
          linarith
        have g := mul_abs_le (x := |ga i j| / 2) f
        rw [abs_of_nonneg (by linarith : 0 ≤ |ga i j| / 2)] at g
        rw [e]
        have := mul_le_mul b4 g (abs_nonneg _) (by norm_num)
        linarith
      have := abs_add_le (ndxxPsi2 o tiny psi i j * ndxxPsiCoeff2 o ga G i j) (ndxyPsi2 o tiny psi i j * ndxyPsiCoeff2 o ga gb G i j)
      linarith
    · simp
  have t4 : |dfl2 o psi ga gb G i j| ≤ (if isset o oDfl then 3 / 2 * (u * u) else 0) := by
    unfold dfl2
    split
    · simp only [hb.iga, Bool.false_eq_true, if_false, hg]
      have e : |(ga (i + 1) j - ga (i - 1) j) + (gb (i + 1) j + gb i j - gb (i + 1) (j - 1) - gb i (j - 1))| ≤ 6 * u := by
        have q1 := abs_le.1 (ha (i + 1) j); have q2 := abs_le.1 (ha (i - 1) j); have q3 := abs_le.1 (hbb (i + 1) j); have q4 := abs_le.1 (hbb i j)
        have q5 := abs_le.1 (hbb (i + 1) (j - 1)); have q6 := abs_le.1 (hbb i (j - 1))
        rw [abs_le]; constructor <;> linarith [q1.1, q1.2, q2.1, q2.2, q3.1, q3.2, q4.1, q4.2, q5.1, q5.2, q6.1, q6.2]
      have := mul_abs_le (x := -(1 / 4) * ga i j / 1) e
      rw [show |-(1 / 4) * ga i j / 1| = |ga i j| / 4 by rw [div_one, abs_mul, abs_neg, abs_of_pos (by norm_num : (0 : K) < 1 / 4)]; ring] at this
      linarith
    · simp
  unfold antidiff2 velBound2
  simp only [hb.div2, hb.div3, Bool.or_self, Bool.false_eq_true, if_false, hg, hfot, add_zero]
  rw [abs_le] at *
  constructor <;> linarith [t1.1, t1.2, t2.1, t2.2, t3.1, t3.2, t4.1, t4.2]

/-- the same bound in 3-D -/
def velBound3 (o : OptsT) (u : K) : K :=
  u * (1 - u) + u * u + (if isset o oTot then u * (1 - u) / 3 + 2 * (u * u) + 2 / 3 * (u * u * u) else 0) + (if isset o oDfl then 5 / 2 * (u * u) else 0)

theorem antidiff3_bound (o : OptsT) (hb : BasicOptsN o) (si : SptlIntrp) (te : TmprlExtrp) (tiny : K) (ht : 0 ≤ tiny) (psi old ga gb gc nda ndb ndc ndtt G : Ar3 K)
    (hp : ∀ i j k, 0 ≤ psi i j k) (u : K) (hu : u ≤ 1 / 2) (ha : ∀ i j k, |ga i j k| ≤ u) (hbb : ∀ i j k, |gb i j k| ≤ u) (hcc : ∀ i j k, |gc i j k| ≤ u) (i j k : Int) :
    |antidiff3 o si te tiny psi old ga gb gc nda ndb ndc ndtt G i j k| ≤ velBound3 o u := by
  obtain ⟨b1, b2, b2', b3, b4, b5, b6⟩ := psi3_bounds o tiny ht hb.iga psi hp i j k
  have h0 : 0 ≤ |ga i j k| := abs_nonneg _
  have hau := ha i j k
  have hu0 : 0 ≤ u := h0.trans hau
  have hg : gBarX3 o G i j k = 1 := by simp [gBarX3, hb.nug]
  have hB : |gc1BarXY3 gb i j k| ≤ u := avg4_abs (hbb _ _ _) (hbb _ _ _) (hbb _ _ _) (hbb _ _ _)
  have hC : |gc2BarXZ3 gc i j k| ≤ u := avg4_abs (hcc _ _ _) (hcc _ _ _) (hcc _ _ _) (hcc _ _ _)
  have hl := logistic_mono hau hu
  have h1 : 0 ≤ 1 - |ga i j k| := by linarith
  have hau2 : |ga i j k| * u ≤ u * u := mul_le_mul_of_nonneg_right hau hu0
  have t1 : |(|ga i j k| / 2 * (1 - |ga i j k| / 1) * ndxPsi3 o tiny psi i j k)| ≤ u * (1 - u) := by
    have := mul_abs_le (x := |ga i j k| / 2 * (1 - |ga i j k| / 1)) b1
    rw [div_one, abs_of_nonneg (mul_nonneg (by linarith) h1)] at this
    rw [div_one]; linarith
  have t2 : |ga i j k / 2 * (gc1BarXY3 gb i j k * ndyPsi3 o tiny psi i j k + gc2BarXZ3 gc i j k * ndzPsi3 o tiny psi i j k) / 1| ≤ u * u := by
    have e1 := mul_abs_le (x := gc1BarXY3 gb i j k) b2
    have e2 := mul_abs_le (x := gc2BarXZ3 gc i j k) b2'
    have e3 := abs_add_le (gc1BarXY3 gb i j k * ndyPsi3 o tiny psi i j k) (gc2BarXZ3 gc i j k * ndzPsi3 o tiny psi i j k)
    have e4 := mul_abs_le (x := ga i j k / 2) (show |gc1BarXY3 gb i j k * ndyPsi3 o tiny psi i j k + gc2BarXZ3 gc i j k * ndzPsi3 o tiny psi i j k| ≤ 2 * u by linarith)
    rw [abs_div, abs_two] at e4
    rw [div_one]; linarith
  have cross : ∀ w : K, |w| ≤ u → |(|ga i j k| - 2 * ga i j k ^ 2 / 1) * w / (2 * 1)| ≤ u * u / 2 := by
    intro w hw
    have e : (|ga i j k| - 2 * ga i j k ^ 2 / 1) * w / (2 * 1) = |ga i j k| / 2 * ((1 - 2 * |ga i j k|) * w) := by
      rw [← sq_abs]; ring
    have f : |(1 - 2 * |ga i j k|) * w| ≤ u := by
      have m := mul_abs_le (x := 1 - 2 * |ga i j k|) hw
      have m2 := mul_le_mul_of_nonneg_right (one_sub_two h0 (by linarith : |ga i j k| ≤ 1)) hu0
      linarith
    have g := mul_abs_le (x := |ga i j k| / 2) f
    rw [abs_of_nonneg (by linarith : 0 ≤ |ga i j k| / 2)] at g
    rw [e]; linarith
  have t3 : |tot3 o tiny psi ga gb gc G i j k| ≤ (if isset o oTot then u * (1 - u) / 3 + 2 * (u * u) + 2 / 3 * (u * u * u) else 0) := by
    unfold tot3
    split
    · have e1 : |ndxxPsi3 o tiny psi i j k * ndxxPsiCoeff3 o ga G i j k| ≤ u * (1 - u) / 3 := by
        unfold ndxxPsiCoeff3
        rw [hg, abs_mul]
        have c := coeff_bound (ga i j k) (by linarith)
        have := mul_le_mul b3 c (abs_nonneg _) (by norm_num)
        linarith
      have e2 : |ndxyPsi3 o tiny psi i j k * ndxyPsiCoeff3 o ga gb G i j k| ≤ u * u := by
        unfold ndxyPsiCoeff3
        rw [hg, abs_mul]
        have := mul_le_mul b4 (cross _ hB) (abs_nonneg _) (by norm_num)
        linarith
      have e3 : |ndxzPsi3 o tiny psi i j k * ndxzPsiCoeff3 o ga gc G i j k| ≤ u * u := by
        unfold ndxzPsiCoeff3
        rw [hg, abs_mul]
        have := mul_le_mul b5 (cross _ hC) (abs_nonneg _) (by norm_num)
        linarith
      have e4 : |ndyzPsi3 o tiny psi i j k * ndyzPsiCoeff3 o ga gb gc G i j k| ≤ 2 / 3 * (u * u * u) := by
        unfold ndyzPsiCoeff3
        rw [hg, abs_mul]
        have f : |-2 * ga i j k * gc1BarXY3 gb i j k * gc2BarXZ3 gc i j k / 3 / 1 ^ 2| ≤ 2 / 3 * (u * u * u) := by
          have e : -2 * ga i j k * gc1BarXY3 gb i j k * gc2BarXZ3 gc i j k / 3 / 1 ^ 2 = -(2 / 3) * (ga i j k * gc1BarXY3 gb i j k * gc2BarXZ3 gc i j k) := by ring
          rw [e, abs_mul, abs_neg, abs_of_pos (by norm_num : (0 : K) < 2 / 3), abs_mul, abs_mul]
          have m1 := mul_le_mul hau hB (abs_nonneg _) hu0
          have m2 := mul_le_mul m1 hC (abs_nonneg _) (mul_nonneg hu0 hu0)
          linarith
        have := mul_le_mul b6 f (abs_nonneg _) (by norm_num)
        linarith
      rw [abs_le] at *
      constructor <;> linarith [e1.1, e1.2, e2.1, e2.2, e3.1, e3.2, e4.1, e4.2]
    · simp
  have t4 : |dfl3 o psi ga gb gc G i j k| ≤ (if isset o oDfl then 5 / 2 * (u * u) else 0) := by
    unfold dfl3
    split
    · simp only [hb.iga, Bool.false_eq_true, if_false, hg]
      have e : |(ga (i + 1) j k - ga (i - 1) j k) + (gb (i + 1) j k + gb i j k - gb (i + 1) (j - 1) k - gb i (j - 1) k)
          + (gc (i + 1) j k + gc i j k - gc (i + 1) j (k - 1) - gc i j (k - 1))| ≤ 10 * u := by
        have q1 := abs_le.1 (ha (i + 1) j k); have q2 := abs_le.1 (ha (i - 1) j k); have q3 := abs_le.1 (hbb (i + 1) j k); have q4 := abs_le.1 (hbb i j k)
        have q5 := abs_le.1 (hbb (i + 1) (j - 1) k); have q6 := abs_le.1 (hbb i (j - 1) k)
        have r3 := abs_le.1 (hcc (i + 1) j k); have r4 := abs_le.1 (hcc i j k)
        have r5 := abs_le.1 (hcc (i + 1) j (k - 1)); have r6 := abs_le.1 (hcc i j (k - 1))
        rw [abs_le]; constructor <;> linarith [q1.1, q1.2, q2.1, q2.2, q3.1, q3.2, q4.1, q4.2, q5.1, q5.2, q6.1, q6.2, r3.1, r3.2, r4.1, r4.2, r5.1, r5.2, r6.1, r6.2]
      have := mul_abs_le (x := -(1 / 4) * ga i j k / 1) e
      rw [show |-(1 / 4) * ga i j k / 1| = |ga i j k| / 4 by rw [div_one, abs_mul, abs_neg, abs_of_pos (by norm_num : (0 : K) < 1 / 4)]; ring] at this
      linarith
    · simp
  unfold antidiff3 velBound3
  simp only [hb.div2, hb.div3, Bool.or_self, Bool.false_eq_true, if_false, hg]
  rw [abs_le] at *
  constructor <;> linarith [t1.1, t1.2, t2.1, t2.2, t3.1, t3.2, t4.1, t4.2]

/-! ## Passes -/

theorem outflowN_le {C : Vec n K} {u : K} (h : ∀ d x, |C d x| ≤ u) (x : Idx n) : outflowN C x ≤ n * (2 * u) := by
  unfold outflowN
  have : ∀ d ∈ (Finset.univ : Finset (Fin n)), max 0 (C d x) - min 0 (C d (stepIdx x d (-1))) ≤ 2 * u := by
    intro d _
    have a := abs_le.1 (h d x)
    have b := abs_le.1 (h d (stepIdx x d (-1)))
    have u0 : 0 ≤ u := (abs_nonneg _).trans (h d x)
    have := max_le u0 a.2
    have := le_min (show -u ≤ 0 by linarith) b.1
    linarith
  have := Finset.sum_le_card_nsmul _ _ _ this
  simpa using this

theorem passesN_nonneg {p : SpecN.Par n K} (hF : FGood p.o p.F) (higa : isset p.o oIga = false) (hnug : isset p.o oNug = false) (he : 0 ≤ p.eps) (u w : K) (hw : (n : K) * (2 * w) ≤ 1)
    (GC : Vec n K) (hout : ∀ x, outflowN GC x ≤ 1) (hGC : ∀ d x, |GC d x| ≤ u) (k : Nat)
    (h1 : ∀ (psi old : Sca n K) (U : Vec n K), (∀ x, 0 ≤ psi x) → (∀ d x, |U d x| ≤ u) → ∀ d x, |p.F.vel d p.st psi old U x| ≤ w)
    (h2 : 2 ≤ k → ∀ (psi old : Sca n K) (U : Vec n K), (∀ x, 0 ≤ psi x) → (∀ d x, |U d x| ≤ w) → ∀ d x, |p.F.vel d p.st psi old U x| ≤ w)
    (psi0 : Sca n K) (h0 : ∀ x, 0 ≤ psi0 x) :
    (∀ x, 0 ≤ (SpecN.passes p psi0 GC k).psi x) ∧ (∀ d x, |(SpecN.passes p psi0 GC k).U d x| ≤ if k = 0 then u else w) := by
  have hg : ∀ x, gFacN p.o p.st.G x = 1 := by intro x; simp [gFacN, hnug]
  have hg' : ∀ x, 0 < gFacN p.o p.st.G x := by intro x; rw [hg]; norm_num
  induction k with
  | zero =>
    exact ⟨fun x => upwindN_ge hF psi0 _ GC x 0 (hg' x) (by simp) (by rw [hg]; exact hout x) (h0 _) (fun _ => h0 _) (fun _ => h0 _), fun d x => by rw [if_pos rfl]; exact hGC d x⟩
  | succ k ih =>
    obtain ⟨a, b⟩ := ih (fun h => h2 (by omega))
    have hA : ∀ d x, |SpecN.velocity p (SpecN.passes p psi0 GC k).psi (SpecN.passes p psi0 GC k).old (SpecN.passes p psi0 GC k).U d x| ≤ w := by
      by_cases hk : k = 0
      · rw [if_pos hk] at b; exact h1 _ _ _ a b
      · rw [if_neg hk] at b; exact h2 (by omega) _ _ _ a b
    refine ⟨fun x => ?_, fun d x => by rw [if_neg (Nat.succ_ne_zero k)]; exact hA d x⟩
    show 0 ≤ SpecN.corrective p psi0 _ _ x
    unfold SpecN.corrective
    simp only [higa, Bool.false_eq_true, if_false]
    refine upwindN_ge hF _ _ _ x 0 (hg' x) (by simp) ?_ (a _) (fun _ => a _) (fun _ => a _)
    rw [hg]
    refine (outflowN_le (u := w) (fun d y => ?_) x).trans hw
    split
    · exact (limitedN_weakens p hg' he _ _ _ d y).1.trans (hA d y)
    · exact hA d y

theorem positive_cycN {c : CfgN n K} {p : SpecN.Par n K} {P : Fin n → Nat} {ds : List (Fin n)} (h : CyclicSetupN c p P ds) (hF : FGood p.o p.F) (hn : 1 ≤ c.nIters)
    (higa : isset c.o oIga = false) (hnug : isset c.o oNug = false) (hcov : HaloCovered c.o c.nIters) (he : 0 ≤ c.eps) (u w : K) (hw : (n : K) * (2 * w) ≤ 1) (filt : Nat → Bool) {psi0 : Sca n K} {GC : Vec n K} (h0 : PeriodicN P psi0)
    (hp : ∀ d, PeriodicN P (GC d)) (hout : ∀ x, outflowN GC x ≤ 1) (hGC' : ∀ d x, |GC d x| ≤ u)
    (h1 : ∀ (psi old : Sca n K) (U : Vec n K), (∀ x, 0 ≤ psi x) → (∀ d x, |U d x| ≤ u) → ∀ d x, |p.F.vel d p.st psi old U x| ≤ w)
    (h2 : 3 ≤ c.nIters → ∀ (psi old : Sca n K) (U : Vec n K), (∀ x, 0 ≤ psi x) → (∀ d x, |U d x| ≤ w) → ∀ d x, |p.F.vel d p.st psi old U x| ≤ w) (m : MemN n K)
    (hpsi : ∀ x, InGrid P x → m.psi x = psi0 x) (hGC : ∀ d x, InFaces P d x → m.GC d x = GC d x) (hpos : ∀ x, 0 ≤ psi0 x) (t : Nat) (x : Idx n) (hx : InGrid P x) :
    0 ≤ (runProgN c filt t { m with GC := prepGC c (solverHalo c.o) m.GC }).psi x := by
  rw [cycN_run h hF hn hcov filt h0 hp m hpsi hGC t x hx]
  have : ∀ t x, 0 ≤ SpecN.run p c.nIters filt GC t psi0 x := by
    intro t
    induction t with
    | zero => exact hpos
    | succ t ih =>
      refine (passesN_nonneg hF (h.ho ▸ higa) (h.ho ▸ hnug) (h.heps ▸ he) u w hw GC hout hGC' _ h1 (fun hk => h2 ?_) _ ih).1
      split at hk <;> omega
  exact this t x

/-- C13, 2-D, about the program (partial: no infinite gauge, no divergence-form options, G = 1; with `tot` or `dfl` at most two passes). On a cyclic domain, with Courant numbers of
modulus at most 1/4 (at most 3/20 with `tot` or `dfl`), a non-negative field stays non-negative for any number of passes and time steps, with or without fct, abs, pfc, npa, khn, in
divergent flow too, and whatever the temporaries contain. -/
theorem C13_positive_definite_2d_partial (c : CfgN 2 K) (p : SpecN.Par 2 K) (P : Fin 2 → Nat) (h : CyclicSetupN c p P [0, 1]) (si : SptlIntrp) (te : TmprlExtrp) (tiny : K)
    (ht : 0 < tiny) (hform : p.F = formulae2 p.o si te tiny) (hn : 1 ≤ c.nIters) (hb : BasicOptsN c.o) (he : 0 < c.eps) (filt : Nat → Bool)
    (psi0 : Sca 2 K) (GC : Vec 2 K) (h0 : PeriodicN P psi0) (hp : ∀ d, PeriodicN P (GC d))
    (hGC' : (isset c.o oTot = false ∧ isset c.o oDfl = false ∧ ∀ d x, |GC d x| ≤ 1 / 4) ∨ (c.nIters ≤ 2 ∧ ∀ d x, |GC d x| ≤ 3 / 20))
    (m : MemN 2 K) (hpsi : ∀ x, InGrid P x → m.psi x = psi0 x) (hGC : ∀ d x, InFaces P d x → m.GC d x = GC d x) (hpos : ∀ x, 0 ≤ psi0 x) (t : Nat) (x : Idx 2) (hx : InGrid P x) :
    0 ≤ (runProgN c filt t { m with GC := prepGC c (solverHalo c.o) m.GC }).psi x := by
  have hF : FGood p.o p.F := hform ▸ formulae2_good p.o si te tiny (fun hh => by rw [← h.ho, hb.fot] at hh; cases hh)
  have hv : ∀ u : K, u ≤ 1 / 2 → ∀ (psi old : Sca 2 K) (U : Vec 2 K), (∀ x, 0 ≤ psi x) → (∀ d x, |U d x| ≤ u) → ∀ d x, |p.F.vel d p.st psi old U x| ≤ velBound2 p.o u := by
    intro u hu psi old U hpsi hU d x
    rw [hform]
    refine antidiff2_bound p.o (h.ho ▸ hb) si te tiny ht.le _ _ _ _ _ _ _ _ ?_ u hu ?_ ?_ 0 0
    exacts [fun _ _ => hpsi _, fun _ _ => hU _ _, fun _ _ => hU _ _]
  rcases hGC' with ⟨h1, h2, h3⟩ | ⟨h1, h3⟩
  · have e : velBound2 p.o (1 / 4 : K) ≤ 1 / 4 := by unfold velBound2; rw [← h.ho, h1, h2]; norm_num
    have hv' := hv (1 / 4) (by norm_num)
    refine positive_cycN h hF hn hb.iga hb.nug (.inr (.inr ⟨hb.div2, hb.div3⟩)) he.le (1 / 4) (1 / 4) (by norm_num) filt h0 hp (fun x => ?_) h3 (fun a b U h h' d x => (hv' a b U h h' d x).trans e)
      (fun _ a b U h h' d x => (hv' a b U h h' d x).trans e) m hpsi hGC hpos t x hx
    exact (outflowN_le h3 x).trans (by norm_num)
  · have e : velBound2 p.o (3 / 20 : K) ≤ 1 / 4 := by unfold velBound2; split_ifs <;> norm_num
    have hv' := hv (3 / 20) (by norm_num)
    refine positive_cycN h hF hn hb.iga hb.nug (.inr (.inr ⟨hb.div2, hb.div3⟩)) he.le (3 / 20) (1 / 4) (by norm_num) filt h0 hp (fun x => ?_) h3 (fun a b U h h' d x => (hv' a b U h h' d x).trans e)
      (fun hh => by omega) m hpsi hGC hpos t x hx
    exact (outflowN_le h3 x).trans (by norm_num)

/-- C13, 3-D (partial, same restrictions): Courant numbers of modulus at most 1/6, at most 1/11 with `tot` or `dfl`. -/
theorem C13_positive_definite_3d_partial (c : CfgN 3 K) (p : SpecN.Par 3 K) (P : Fin 3 → Nat) (h : CyclicSetupN c p P [1, 0, 2]) (si : SptlIntrp) (te : TmprlExtrp) (tiny : K)
    (ht : 0 < tiny) (hform : p.F = formulae3 p.o si te tiny) (hn : 1 ≤ c.nIters) (hb : BasicOptsN c.o) (he : 0 < c.eps) (filt : Nat → Bool)
    (psi0 : Sca 3 K) (GC : Vec 3 K) (h0 : PeriodicN P psi0) (hp : ∀ d, PeriodicN P (GC d))
    (hGC' : (isset c.o oTot = false ∧ isset c.o oDfl = false ∧ ∀ d x, |GC d x| ≤ 1 / 6) ∨ (c.nIters ≤ 2 ∧ ∀ d x, |GC d x| ≤ 1 / 11))
    (m : MemN 3 K) (hpsi : ∀ x, InGrid P x → m.psi x = psi0 x) (hGC : ∀ d x, InFaces P d x → m.GC d x = GC d x) (hpos : ∀ x, 0 ≤ psi0 x) (t : Nat) (x : Idx 3) (hx : InGrid P x) :
    0 ≤ (runProgN c filt t { m with GC := prepGC c (solverHalo c.o) m.GC }).psi x := by
  have hF : FGood p.o p.F := hform ▸ formulae3_good p.o si te tiny
  have hv : ∀ u : K, u ≤ 1 / 2 → ∀ (psi old : Sca 3 K) (U : Vec 3 K), (∀ x, 0 ≤ psi x) → (∀ d x, |U d x| ≤ u) → ∀ d x, |p.F.vel d p.st psi old U x| ≤ velBound3 p.o u := by
    intro u hu psi old U hpsi hU d x
    rw [hform]
    refine antidiff3_bound p.o (h.ho ▸ hb) si te tiny ht.le _ _ _ _ _ _ _ _ _ _ ?_ u hu ?_ ?_ ?_ 0 0 0
    exacts [fun _ _ _ => hpsi _, fun _ _ _ => hU _ _, fun _ _ _ => hU _ _, fun _ _ _ => hU _ _]
  rcases hGC' with ⟨h1, h2, h3⟩ | ⟨h1, h3⟩
  · have e : velBound3 p.o (1 / 6 : K) ≤ 1 / 6 := by unfold velBound3; rw [← h.ho, h1, h2]; norm_num
    have hv' := hv (1 / 6) (by norm_num)
    refine positive_cycN h hF hn hb.iga hb.nug (.inr (.inr ⟨hb.div2, hb.div3⟩)) he.le (1 / 6) (1 / 6) (by norm_num) filt h0 hp (fun x => ?_) h3 (fun a b U h h' d x => (hv' a b U h h' d x).trans e)
      (fun _ a b U h h' d x => (hv' a b U h h' d x).trans e) m hpsi hGC hpos t x hx
    exact (outflowN_le h3 x).trans (by norm_num)
  · have e : velBound3 p.o (1 / 11 : K) ≤ 1 / 6 := by unfold velBound3; split_ifs <;> norm_num
    have hv' := hv (1 / 11) (by norm_num)
    refine positive_cycN h hF hn hb.iga hb.nug (.inr (.inr ⟨hb.div2, hb.div3⟩)) he.le (1 / 11) (1 / 6) (by norm_num) filt h0 hp (fun x => ?_) h3 (fun a b U h h' d x => (hv' a b U h h' d x).trans e)
      (fun hh => by omega) m hpsi hGC hpos t x hx
    exact (outflowN_le h3 x).trans (by norm_num)

/-! ## With fct positivity needs only the Courant bound of the first pass -/

theorem fct_passesN_nonneg {p : SpecN.Par n K} (hF : FGood p.o p.F) (hf : isset p.o oFct = true) (hg : ∀ x, 0 < gFacN p.o p.st.G x) (he : 0 ≤ p.eps)
    (GC : Vec n K) (hc : ∀ x, outflowN GC x ≤ gFacN p.o p.st.G x) (psi0 : Sca n K) (h0 : ∀ x, 0 ≤ psi0 x) (k : Nat) : ∀ x, 0 ≤ (SpecN.passes p psi0 GC k).psi x := by
  induction k with
  | zero => exact fun x => upwindN_ge hF psi0 _ GC x 0 (hg x) (by simp) (hc x) (h0 _) (fun _ => h0 _) (fun _ => h0 _)
  | succ k ih =>
    intro x
    refine le_trans ?_ (fctN_bounds p hF hf hg he psi0 (SpecN.passes p psi0 GC k).psi _ x ⟨.inr (.inr (ih _)), fun d => ⟨.inr (.inr (ih _)), .inr (.inr (ih _))⟩⟩).1
    exact le_min ((le_nbMin_iff _ _ _).2 ⟨h0 _, fun d => ⟨h0 _, h0 _⟩⟩) ((le_nbMin_iff _ _ _).2 ⟨ih _, fun d => ⟨ih _, ih _⟩⟩)

theorem fct_positive_cycN {c : CfgN n K} {p : SpecN.Par n K} {P : Fin n → Nat} {ds : List (Fin n)} (h : CyclicSetupN c p P ds) (hF : FGood p.o p.F) (hn : 1 ≤ c.nIters)
    (hf : isset c.o oFct = true) (hg : ∀ x, 0 < gFacN p.o p.st.G x) (he : 0 ≤ c.eps) (filt : Nat → Bool) {psi0 : Sca n K} {GC : Vec n K} (h0 : PeriodicN P psi0)
    (hp : ∀ d, PeriodicN P (GC d)) (hc : ∀ x, outflowN GC x ≤ gFacN p.o p.st.G x) (m : MemN n K)
    (hpsi : ∀ x, InGrid P x → m.psi x = psi0 x) (hGC : ∀ d x, InFaces P d x → m.GC d x = GC d x) (hpos : ∀ x, 0 ≤ psi0 x) (t : Nat) (x : Idx n) (hx : InGrid P x) :
    0 ≤ (runProgN c filt t { m with GC := prepGC c (solverHalo c.o) m.GC }).psi x := by
  rw [cycN_run h hF hn (.inr (.inl hf)) filt h0 hp m hpsi hGC t x hx]
  have : ∀ t x, 0 ≤ SpecN.run p c.nIters filt GC t psi0 x := by
    intro t
    induction t with
    | zero => exact hpos
    | succ t ih => exact fct_passesN_nonneg hF (h.ho ▸ hf) hg (h.heps ▸ he) GC hc _ ih _
  exact this t x

/-- C13 with fct, 2-D, about the program: with the flux limiter, non-negative fields stay non-negative for every other option (infinite gauge and the divergence forms included),
any positive G, any number of passes and steps, in divergent flow too, as long as the outflow from any cell does not exceed G. -/
theorem C13_fct_positive_2d (c : CfgN 2 K) (p : SpecN.Par 2 K) (P : Fin 2 → Nat) (h : Solver2 c p P) (hn : 1 ≤ c.nIters)
    (hf : isset c.o oFct = true) (hg : ∀ x, 0 < gFacN p.o p.st.G x) (he : 0 ≤ c.eps) (filt : Nat → Bool) (psi0 : Sca 2 K) (GC : Vec 2 K) (h0 : PeriodicN P psi0)
    (hp : ∀ d, PeriodicN P (GC d)) (hc : ∀ x, outflowN GC x ≤ gFacN p.o p.st.G x) (m : MemN 2 K)
    (hpsi : ∀ x, InGrid P x → m.psi x = psi0 x) (hGC : ∀ d x, InFaces P d x → m.GC d x = GC d x) (hpos : ∀ x, 0 ≤ psi0 x) (t : Nat) (x : Idx 2) (hx : InGrid P x) :
    0 ≤ (runProgN c filt t { m with GC := prepGC c (solverHalo c.o) m.GC }).psi x :=
  fct_positive_cycN h.setup h.good hn hf hg he filt h0 hp hc m hpsi hGC hpos t x hx

/-- C13 with fct, 3-D -/
theorem C13_fct_positive_3d (c : CfgN 3 K) (p : SpecN.Par 3 K) (P : Fin 3 → Nat) (h : Solver3 c p P) (hn : 1 ≤ c.nIters)
    (hf : isset c.o oFct = true) (hg : ∀ x, 0 < gFacN p.o p.st.G x) (he : 0 ≤ c.eps) (filt : Nat → Bool) (psi0 : Sca 3 K) (GC : Vec 3 K) (h0 : PeriodicN P psi0)
    (hp : ∀ d, PeriodicN P (GC d)) (hc : ∀ x, outflowN GC x ≤ gFacN p.o p.st.G x) (m : MemN 3 K)
    (hpsi : ∀ x, InGrid P x → m.psi x = psi0 x) (hGC : ∀ d x, InFaces P d x → m.GC d x = GC d x) (hpos : ∀ x, 0 ≤ psi0 x) (t : Nat) (x : Idx 3) (hx : InGrid P x) :
    0 ≤ (runProgN c filt t { m with GC := prepGC c (solverHalo c.o) m.GC }).psi x :=
  fct_positive_cycN h.setup h.good hn hf hg he filt h0 hp hc m hpsi hGC hpos t x hx

/-- hypotheses met by a three-pass 2-D solver with a divergent advector and a field with zeros -/
example : BasicOptsN oAbs ∧ (∀ d x, |(fun (d : Fin 2) (x : Idx 2) => if x d % 4 = 0 then (1/4 : ℚ) else -1/8) d x| ≤ 1 / 4) ∧
    (∀ x : Idx 2, (0 : ℚ) ≤ if x 0 % 4 = 0 ∧ x 1 % 4 = 0 then 3 else 0) := by
  refine ⟨⟨⟨by decide, by decide, by decide, by decide⟩, by decide⟩, fun d x => ?_, fun x => ?_⟩
  · dsimp only; split <;> norm_num [abs_le]
  · split <;> norm_num

end Mpdata
