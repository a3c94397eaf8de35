import Verif.Props.PositiveN
/-! # C13: Courant bounds for any number of passes, and for the divergence form (`div_2nd`) -/
set_option linter.unusedSectionVars false
namespace Mpdata
variable {K : Type} [Field K] [LinearOrder K] [IsStrictOrderedRing K]

/-- options: second-order divergence form, no infinite gauge, G = 1 -/
structure Div2Opts (o : OptsT) : Prop where
  iga : isset o oIga = false
  nug : isset o oNug = false
  div2 : isset o oDiv2 = true
  div3 : isset o oDiv3 = false
  div3dt : isset o oDiv3dt = false
  fot : isset o oFot = false

/-- a fraction with numerator bounded by a multiple of the denominator -/
theorem frac_bound_mul (o : OptsT) (tiny a b m : K) (ht : 0 ≤ tiny) (hm : 0 ≤ m) (h1 : a ≤ m * b) (h2 : -(m * b) ≤ a) (hb : 0 ≤ b) :
    |frac o tiny a b| ≤ m := by
  have ha : |a| ≤ m * b := abs_le.2 ⟨h2, h1⟩
  have key : ∀ d : K, b ≤ d → |a / d| ≤ m := by
    intro d hd
    have h0 : 0 ≤ d := hb.trans hd
    rw [abs_div, abs_of_nonneg h0]
    rcases h0.eq_or_lt with h | h
    · rw [← h, div_zero]; exact hm
    · rw [div_le_iff₀ h]; exact ha.trans (mul_le_mul_of_nonneg_left hd hm)
  unfold frac
  split
  · split
    · exact key _ le_rfl
    · simpa using hm
  · exact key _ (by linarith)

theorem prod_bounds {c p u : K} (hc : |c| ≤ u) (hp : 0 ≤ p) : -(u * p) ≤ c * p ∧ c * p ≤ u * p := by
  have h := abs_le.1 hc
  constructor
  · nlinarith [mul_nonneg (by linarith [h.1] : 0 ≤ c + u) hp]
  · exact mul_le_mul_of_nonneg_right h.2 hp

theorem avg2_abs {a b u : K} (ha : |a| ≤ u) (hb : |b| ≤ u) : |(a + b) / 2| ≤ u := by
  rw [abs_le] at *; constructor <;> linarith [ha.1, ha.2, hb.1, hb.2]

/-- the divergence form: velocity `a`, upwind gradient `x`, flux divergence `y` -/
theorem div2_bound {a x y u b : K} (ha : |a| ≤ u) (hx : |x| ≤ 2) (hy : |y| ≤ b) : |(|a| / 2 * x - a / 2 * y)| ≤ u * (1 + b / 2) := by
  have h0 := abs_nonneg a
  have hu : 0 ≤ u := h0.trans ha
  have hb : 0 ≤ b := (abs_nonneg y).trans hy
  have t1 : |(|a| / 2 * x)| ≤ u := by
    rw [abs_mul, abs_div, abs_abs, abs_two]
    have := mul_le_mul ha hx (abs_nonneg _) hu
    linarith
  have t2 : |a / 2 * y| ≤ u * b / 2 := by
    rw [abs_mul, abs_div, abs_two]
    have := mul_le_mul ha hy (abs_nonneg _) hu
    linarith
  have := abs_sub (|a| / 2 * x) (a / 2 * y)
  linarith

theorem antidiff1_div_bound (p : Spec1.Par K) (hb : Div2Opts p.o) (ht : 0 ≤ p.tiny) (psi U : Int → K) (hp : ∀ i, 0 ≤ psi i) (u : K)
    (hU : ∀ i, |U i| ≤ u) (i : Int) : |Spec1.velocity p psi U i| ≤ u * (1 + u) := by
  have b1 := ndxPsi_bound p.o p.tiny ht hb.iga psi hp i
  have hg : gBarX1 p.o p.G i = 1 := by simp [gBarX1, hb.nug]
  have hu : 0 ≤ u := (abs_nonneg _).trans (hU 0)
  have hy : |nfdiv1 p.o p.tiny psi U p.G i| ≤ 2 * u := by
    unfold nfdiv1
    simp only [hb.iga, Bool.false_eq_true, if_false, abs_of_nonneg (hp _), ite_self, hg, one_mul]
    rw [abs_mul, abs_two]
    have c1 := prod_bounds (avg2_abs (hU (i + 1)) (hU (i + 1 - 1))) (hp (i + 1))
    have c0 := prod_bounds (avg2_abs (hU i) (hU (i - 1))) (hp i)
    have := frac_bound_mul p.o p.tiny (gc0BarX1 U (i + 1) * psi (i + 1) - gc0BarX1 U i * psi i) (psi (i + 1) + psi i) u ht hu
      (by unfold gc0BarX1; linarith [c1.1, c1.2, c0.1, c0.2]) (by unfold gc0BarX1; linarith [c1.1, c1.2, c0.1, c0.2]) (add_nonneg (hp _) (hp _))
    linarith
  have := div2_bound (hU i) b1 hy
  unfold Spec1.velocity antidiff1 div2nd1 div3rd1
  simp only [hb.div2, hb.div3, Bool.true_or, if_true, Bool.false_eq_true, if_false, add_zero]
  calc _ ≤ _ := this
    _ = _ := by ring

theorem antidiff2_div_bound (o : OptsT) (hb : Div2Opts o) (si : SptlIntrp) (te : TmprlExtrp) (tiny : K) (ht : 0 ≤ tiny) (psi old ga gb nda ndb ndtt G : Ar2 K)
    (hp : ∀ i j, 0 ≤ psi i j) (u : K) (ha : ∀ i j, |ga i j| ≤ u) (hbb : ∀ i j, |gb i j| ≤ u) (i j : Int) :
    |antidiff2 o si te tiny psi old ga gb nda ndb ndtt G i j| ≤ u * (1 + 9 / 2 * u) := by
  obtain ⟨b1, -⟩ := psi2_bounds o tiny ht hb.iga psi hp i j
  have hg : gBarX2 o G i j = 1 := by simp [gBarX2, hb.nug]
  have hu : 0 ≤ u := (abs_nonneg _).trans (ha 0 0)
  have hv : ∀ i j, 0 ≤ vabs o (psi i j) := fun i j => vabs_nonneg (hp i j)
  have hy : |nfdiv2 o tiny psi ga gb G i j| ≤ 9 * u := by
    unfold nfdiv2
    simp only [hb.iga, Bool.false_eq_true, if_false, hg, one_mul]
    rw [abs_mul, abs_of_pos (by norm_num : (0 : K) < 6)]
    have c1 := prod_bounds (avg2_abs (ha (i + 1) j) (ha (i + 1 - 1) j)) (hv (i + 1) j)
    have c0 := prod_bounds (avg2_abs (ha i j) (ha (i - 1) j)) (hv i j)
    have e1 := prod_bounds (avg2_abs (hbb (i + 1) j) (hbb i j)) (show 0 ≤ psiBarXY2 o psi i j by
      unfold psiBarXY2; linarith [hv (i + 1) j, hv i j, hv i (j + 1), hv (i + 1) (j + 1)])
    have e0 := prod_bounds (avg2_abs (hbb (i + 1) (j - 1)) (hbb i (j - 1))) (show 0 ≤ psiBarXY2 o psi i (j - 1) by
      unfold psiBarXY2; linarith [hv (i + 1) (j - 1), hv i (j - 1), hv i (j - 1 + 1), hv (i + 1) (j - 1 + 1)])
    have m1 := mul_nonneg hu (hv (i + 1) j)
    have m2 := mul_nonneg hu (hv i j)
    have m3 := mul_nonneg hu (hv i (j + 1))
    have m4 := mul_nonneg hu (hv (i + 1) (j + 1))
    have m5 := mul_nonneg hu (hv i (j - 1))
    have m6 := mul_nonneg hu (hv (i + 1) (j - 1))
    have := frac_bound_mul o tiny (gc0BarX2 ga (i + 1) j * vabs o (psi (i + 1) j) - gc0BarX2 ga i j * vabs o (psi i j)
        + gc1BarX2 gb i j * psiBarXY2 o psi i j - gc1BarX2 gb i (j - 1) * psiBarXY2 o psi i (j - 1))
      (vabs o (psi (i + 1) j) + vabs o (psi i j) + vabs o (psi i (j + 1)) + vabs o (psi (i + 1) (j + 1))
        + vabs o (psi i (j - 1)) + vabs o (psi (i + 1) (j - 1))) (3 / 2 * u) ht (by linarith)
      (by
        unfold psiBarXY2 at e1 e0; rw [sub_add_cancel] at e0
        unfold gc0BarX2 gc1BarX2 psiBarXY2; rw [sub_add_cancel]; linarith [c1.1, c1.2, c0.1, c0.2, e1.1, e1.2, e0.1, e0.2])
      (by
        unfold psiBarXY2 at e1 e0; rw [sub_add_cancel] at e0
        unfold gc0BarX2 gc1BarX2 psiBarXY2; rw [sub_add_cancel]; linarith [c1.1, c1.2, c0.1, c0.2, e1.1, e1.2, e0.1, e0.2])
      (by linarith [hv (i + 1) j, hv i j, hv i (j + 1), hv (i + 1) (j + 1), hv i (j - 1), hv (i + 1) (j - 1)])
    linarith
  have := div2_bound (ha i j) b1 hy
  unfold antidiff2 div2nd2 div3rd2 fot2
  simp only [hb.div2, hb.div3, hb.div3dt, hb.fot, Bool.true_or, if_true, Bool.false_eq_true, if_false, add_zero]
  calc _ ≤ _ := this
    _ = _ := by ring

theorem antidiff3_div_bound (o : OptsT) (hb : Div2Opts o) (si : SptlIntrp) (te : TmprlExtrp) (tiny : K) (ht : 0 ≤ tiny) (psi old ga gb gc nda ndb ndc ndtt G : Ar3 K)
    (hp : ∀ i j k, 0 ≤ psi i j k) (u : K) (ha : ∀ i j k, |ga i j k| ≤ u) (hbb : ∀ i j k, |gb i j k| ≤ u) (hcc : ∀ i j k, |gc i j k| ≤ u) (i j k : Int) :
    |antidiff3 o si te tiny psi old ga gb gc nda ndb ndc ndtt G i j k| ≤ u * (1 + 10 * u) := by
  obtain ⟨b1, -⟩ := psi3_bounds o tiny ht hb.iga psi hp i j k
  have hg : gBarX3 o G i j k = 1 := by simp [gBarX3, hb.nug]
  have hu : 0 ≤ u := (abs_nonneg _).trans (ha 0 0 0)
  have hv : ∀ i j k, 0 ≤ vabs o (psi i j k) := fun i j k => vabs_nonneg (hp i j k)
  have m := fun i j k => mul_nonneg hu (hv i j k)
  have hy : |nfdiv3 o tiny psi ga gb gc G i j k| ≤ 20 * u := by
    unfold nfdiv3
    simp only [hb.iga, Bool.false_eq_true, if_false, hg, one_mul]
    rw [abs_mul, abs_of_pos (by norm_num : (0 : K) < 10)]
    have c1 := prod_bounds (avg2_abs (ha (i + 1) j k) (ha (i + 1 - 1) j k)) (hv (i + 1) j k)
    have c0 := prod_bounds (avg2_abs (ha i j k) (ha (i - 1) j k)) (hv i j k)
    have e1 := prod_bounds (avg2_abs (hbb (i + 1) j k) (hbb i j k)) (show 0 ≤ psiBarXY3 o psi i j k by
      unfold psiBarXY3; linarith [hv (i + 1) j k, hv i j k, hv i (j + 1) k, hv (i + 1) (j + 1) k])
    have e0 := prod_bounds (avg2_abs (hbb (i + 1) (j - 1) k) (hbb i (j - 1) k)) (show 0 ≤ psiBarXY3 o psi i (j - 1) k by
      unfold psiBarXY3; linarith [hv (i + 1) (j - 1) k, hv i (j - 1) k, hv i (j - 1 + 1) k, hv (i + 1) (j - 1 + 1) k])
    have f1 := prod_bounds (avg2_abs (hcc (i + 1) j k) (hcc i j k)) (show 0 ≤ psiBarXZ3 o psi i j k by
      unfold psiBarXZ3; linarith [hv (i + 1) j k, hv i j k, hv i j (k + 1), hv (i + 1) j (k + 1)])
    have f0 := prod_bounds (avg2_abs (hcc (i + 1) j (k - 1)) (hcc i j (k - 1))) (show 0 ≤ psiBarXZ3 o psi i j (k - 1) by
      unfold psiBarXZ3; linarith [hv (i + 1) j (k - 1), hv i j (k - 1), hv i j (k - 1 + 1), hv (i + 1) j (k - 1 + 1)])
    unfold psiBarXY3 at e1 e0; rw [sub_add_cancel] at e0
    unfold psiBarXZ3 at f1 f0; rw [sub_add_cancel] at f0
    have := frac_bound_mul o tiny (gc0BarX3 ga (i + 1) j k * vabs o (psi (i + 1) j k) - gc0BarX3 ga i j k * vabs o (psi i j k)
        + gc1BarX3 gb i j k * psiBarXY3 o psi i j k - gc1BarX3 gb i (j - 1) k * psiBarXY3 o psi i (j - 1) k
        + gc2BarX3 gc i j k * psiBarXZ3 o psi i j k - gc2BarX3 gc i j (k - 1) * psiBarXZ3 o psi i j (k - 1))
      (sum10_3 o psi i j k) (2 * u) ht (by linarith)
      (by
        unfold gc0BarX3 gc1BarX3 gc2BarX3 psiBarXY3 psiBarXZ3 sum10_3; rw [sub_add_cancel, sub_add_cancel]
        linarith [c1.1, c1.2, c0.1, c0.2, e1.1, e1.2, e0.1, e0.2, f1.1, f1.2, f0.1, f0.2, m (i + 1) j k, m i j k, m i (j + 1) k, m (i + 1) (j + 1) k, m i (j - 1) k, m (i + 1) (j - 1) k,
          m i j (k + 1), m (i + 1) j (k + 1), m i j (k - 1), m (i + 1) j (k - 1)])
      (by
        unfold gc0BarX3 gc1BarX3 gc2BarX3 psiBarXY3 psiBarXZ3 sum10_3; rw [sub_add_cancel, sub_add_cancel]
        linarith [c1.1, c1.2, c0.1, c0.2, e1.1, e1.2, e0.1, e0.2, f1.1, f1.2, f0.1, f0.2, m (i + 1) j k, m i j k, m i (j + 1) k, m (i + 1) (j + 1) k, m i (j - 1) k, m (i + 1) (j - 1) k,
          m i j (k + 1), m (i + 1) j (k + 1), m i j (k - 1), m (i + 1) j (k - 1)])
      (by
        unfold sum10_3
        linarith [hv (i + 1) j k, hv i j k, hv i (j + 1) k, hv (i + 1) (j + 1) k, hv i (j - 1) k, hv (i + 1) (j - 1) k,
          hv i j (k + 1), hv (i + 1) j (k + 1), hv i j (k - 1), hv (i + 1) j (k - 1)])
    linarith
  have := div2_bound (ha i j k) b1 hy
  unfold antidiff3 div2nd3 div3rd3
  simp only [hb.div2, hb.div3, hb.div3dt, Bool.true_or, if_true, Bool.false_eq_true, if_false, add_zero]
  calc _ ≤ _ := this
    _ = _ := by ring

/-! ## Runs -/

/-- one time step of the reference scheme -/
theorem passes_div_nonneg (p : Spec1.Par K) (hb : Div2Opts p.o) (ht : 0 ≤ p.tiny) (he : 0 ≤ p.eps) (GC psi0 : Int → K)
    (h1 : ∀ i, |GC i| ≤ 1 / 3) (hp : ∀ i, 0 ≤ psi0 i) (k : Nat) (hk : k ≤ 1) : ∀ i, 0 ≤ (Spec1.passes p psi0 GC k).1 i := by
  have hg : ∀ i, gFac1 p.o p.G i = 1 := by intro i; simp [gFac1, hb.nug]
  have z : ∀ i, 0 ≤ (Spec1.passes p psi0 GC 0).1 i := fun i =>
    donor_half_nonneg p.o hb.nug psi0 GC p.G (fun j => (h1 j).trans (by norm_num)) hp i
  obtain rfl | rfl : k = 0 ∨ k = 1 := by omega
  · exact z
  · intro i
    show 0 ≤ Spec1.corrective p psi0 _ _ i
    unfold Spec1.corrective
    simp only [hb.iga, Bool.false_eq_true, if_false]
    have hA : ∀ j, |Spec1.velocity p (Spec1.passes p psi0 GC 0).1 (Spec1.passes p psi0 GC 0).2 j| ≤ 1 / 2 := fun j =>
      (antidiff1_div_bound p hb ht _ _ z (1 / 3) h1 j).trans (by norm_num)
    apply donor_half_nonneg p.o hb.nug _ _ _ _ z
    intro j
    split
    · exact (C16_limiter_weakens_1d p (fun i => by rw [hg]; norm_num) he _ _ _ j).1.trans (hA j)
    · exact hA j

/-- C13 in divergence form, 1-D, about the program: on a cyclic domain with Courant numbers of modulus at most 1/3 and at most two
passes (with more the program reads stale values, C20), a non-negative field stays non-negative in runs of any length. -/
theorem C13_positive_div2_1d (c : Cfg1 K) (p : Spec1.Par K) (N : Nat) (h : CyclicSetup c p N) (hn : 1 ≤ c.nIters) (hn2 : c.nIters ≤ 2)
    (hb : Div2Opts c.o) (ht : 0 < c.tiny) (he : 0 < c.eps) (filt : Nat → Bool) (psi0 GC : Int → K) (h0 : Spec1.Periodic N psi0) (hp : Spec1.Periodic N GC)
    (hC : ∀ i, |GC i| ≤ 1 / 3) (m : Mem1 K) (hpsi : ∀ i, c.ijk.first ≤ i → i ≤ c.ijk.last → m.psi i = psi0 i)
    (hGC : ∀ i, c.ijk.first ≤ i → i ≤ c.ijk.last - 1 → m.GC i = GC i) (hpos : ∀ i, 0 ≤ psi0 i) (t : Nat) :
    ∀ i, c.ijk.first ≤ i → i ≤ c.ijk.last → 0 ≤ (runProg1 c filt t { m with GC := c.fillV false m.GC }).psi i := by
  intro i h1 h2
  rw [cyc_run h hn (.inl hn2) filt h0 hp m hpsi hGC t i h1 h2]
  have : ∀ t i, 0 ≤ Spec1.run p c.nIters filt GC t psi0 i := by
    intro t
    induction t with
    | zero => exact hpos
    | succ t ih =>
      refine passes_div_nonneg p (h.ho ▸ hb) (h.htiny ▸ ht.le) (h.heps ▸ he.le) GC _ hC ih _ ?_
      split <;> omega
  exact this t i

/-- C13 in divergence form, 2-D: Courant numbers of modulus at most 1/7. -/
theorem C13_positive_div2_2d (c : CfgN 2 K) (p : SpecN.Par 2 K) (P : Fin 2 → Nat) (h : CyclicSetupN c p P [0, 1]) (si : SptlIntrp) (te : TmprlExtrp) (tiny : K)
    (ht : 0 < tiny) (hform : p.F = formulae2 p.o si te tiny) (hn : 1 ≤ c.nIters) (hn2 : c.nIters ≤ 2) (hb : Div2Opts c.o) (he : 0 < c.eps) (filt : Nat → Bool)
    (psi0 : Sca 2 K) (GC : Vec 2 K) (h0 : PeriodicN P psi0) (hp : ∀ d, PeriodicN P (GC d)) (hC : ∀ d x, |GC d x| ≤ 1 / 7)
    (m : MemN 2 K) (hpsi : ∀ x, InGrid P x → m.psi x = psi0 x) (hGC : ∀ d x, InFaces P d x → m.GC d x = GC d x) (hpos : ∀ x, 0 ≤ psi0 x) (t : Nat) (x : Idx 2) (hx : InGrid P x) :
    0 ≤ (runProgN c filt t { m with GC := prepGC c (solverHalo c.o) m.GC }).psi x := by
  have hF : FGood p.o p.F := hform ▸ formulae2_good p.o si te tiny (fun hh => by rw [← h.ho, hb.fot] at hh; cases hh)
  refine positive_cycN h hF hn hb.iga hb.nug (.inl hn2) he.le (1 / 7) (1 / 4) (by norm_num) filt h0 hp (fun x => (outflowN_le hC x).trans (by norm_num)) hC ?_
    (fun hh => by omega) m hpsi hGC hpos t x hx
  intro psi old U hpsi hU d x
  rw [hform]
  refine (antidiff2_div_bound p.o (h.ho ▸ hb) si te tiny ht.le _ _ _ _ _ _ _ _ ?_ (1 / 7) ?_ ?_ 0 0).trans (by norm_num)
  exacts [fun _ _ => hpsi _, fun _ _ => hU _ _, fun _ _ => hU _ _]

/-- C13 in divergence form, 3-D: Courant numbers of modulus at most 1/12. -/
theorem C13_positive_div2_3d (c : CfgN 3 K) (p : SpecN.Par 3 K) (P : Fin 3 → Nat) (h : CyclicSetupN c p P [1, 0, 2]) (si : SptlIntrp) (te : TmprlExtrp) (tiny : K)
    (ht : 0 < tiny) (hform : p.F = formulae3 p.o si te tiny) (hn : 1 ≤ c.nIters) (hn2 : c.nIters ≤ 2) (hb : Div2Opts c.o) (he : 0 < c.eps) (filt : Nat → Bool)
    (psi0 : Sca 3 K) (GC : Vec 3 K) (h0 : PeriodicN P psi0) (hp : ∀ d, PeriodicN P (GC d)) (hC : ∀ d x, |GC d x| ≤ 1 / 12)
    (m : MemN 3 K) (hpsi : ∀ x, InGrid P x → m.psi x = psi0 x) (hGC : ∀ d x, InFaces P d x → m.GC d x = GC d x) (hpos : ∀ x, 0 ≤ psi0 x) (t : Nat) (x : Idx 3) (hx : InGrid P x) :
    0 ≤ (runProgN c filt t { m with GC := prepGC c (solverHalo c.o) m.GC }).psi x := by
  have hF : FGood p.o p.F := hform ▸ formulae3_good p.o si te tiny
  refine positive_cycN h hF hn hb.iga hb.nug (.inl hn2) he.le (1 / 12) (1 / 6) (by norm_num) filt h0 hp (fun x => (outflowN_le hC x).trans (by norm_num)) hC ?_
    (fun hh => by omega) m hpsi hGC hpos t x hx
  intro psi old U hpsi hU d x
  rw [hform]
  refine (antidiff3_div_bound p.o (h.ho ▸ hb) si te tiny ht.le _ _ _ _ _ _ _ _ _ _ ?_ (1 / 12) ?_ ?_ ?_ 0 0 0).trans (by norm_num)
  exacts [fun _ _ _ => hpsi _, fun _ _ _ => hU _ _, fun _ _ _ => hU _ _, fun _ _ _ => hU _ _]

/-! ## Any number of passes -/

variable {n : Nat}

/-- If each correction at most doubles the bound on the velocities, Courant numbers below `w / 2 ^ k` keep all of `k` corrections below `w`. -/
theorem passesN_nonneg_geom {p : SpecN.Par n K} (hF : FGood p.o p.F) (higa : isset p.o oIga = false) (hnug : isset p.o oNug = false) (he : 0 ≤ p.eps)
    (w : K) (hw0 : 0 ≤ w) (hw : (n : K) * (2 * w) ≤ 1) (kk : Nat) (GC : Vec n K) (hGC : ∀ d x, |GC d x| ≤ w / 2 ^ kk)
    (hv : ∀ u ≤ w / 2, ∀ (psi old : Sca n K) (U : Vec n K), (∀ x, 0 ≤ psi x) → (∀ d x, |U d x| ≤ u) → ∀ d x, |p.F.vel d p.st psi old U x| ≤ 2 * u)
    (psi0 : Sca n K) (h0 : ∀ x, 0 ≤ psi0 x) (k : Nat) (hk : k ≤ kk) :
    (∀ x, 0 ≤ (SpecN.passes p psi0 GC k).psi x) ∧ (∀ d x, |(SpecN.passes p psi0 GC k).U d x| ≤ w / 2 ^ (kk - k)) := by
  have hg : ∀ x, gFacN p.o p.st.G x = 1 := by intro x; simp [gFacN, hnug]
  have hg' : ∀ x, 0 < gFacN p.o p.st.G x := by intro x; rw [hg]; norm_num
  have hle : ∀ j : Nat, w / 2 ^ j ≤ w := fun j => div_le_self hw0 (one_le_pow₀ (by norm_num))
  induction k with
  | zero =>
    refine ⟨fun x => upwindN_ge hF psi0 _ GC x 0 (hg' x) (by simp) ?_ (h0 _) (fun _ => h0 _) (fun _ => h0 _), hGC⟩
    rw [hg]
    exact (outflowN_le (u := w) (fun d y => (hGC d y).trans (hle _)) x).trans hw
  | succ k ih =>
    obtain ⟨a, b⟩ := ih (by omega)
    have e : kk - k = (kk - (k + 1)) + 1 := by omega
    have hhalf : w / 2 ^ (kk - k) ≤ w / 2 := by
      rw [e, pow_succ, ← div_div]
      exact div_le_div_of_nonneg_right (hle _) (by norm_num)
    have hA : ∀ d x, |SpecN.velocity p (SpecN.passes p psi0 GC k).psi (SpecN.passes p psi0 GC k).old (SpecN.passes p psi0 GC k).U d x| ≤ w / 2 ^ (kk - (k + 1)) := by
      intro d x
      refine (hv _ hhalf _ _ _ a b d x).trans (le_of_eq ?_)
      rw [e, pow_succ]; field_simp
    refine ⟨fun x => ?_, hA⟩
    show 0 ≤ SpecN.corrective p psi0 _ _ x
    unfold SpecN.corrective
    simp only [higa, Bool.false_eq_true, if_false]
    refine upwindN_ge hF _ _ _ x 0 (hg' x) (by simp) ?_ (a _) (fun _ => a _) (fun _ => a _)
    rw [hg]
    refine (outflowN_le (u := w) (fun d y => ?_) x).trans hw
    split
    · exact ((limitedN_weakens p hg' he _ _ _ d y).1.trans (hA d y)).trans (hle _)
    · exact (hA d y).trans (hle _)

theorem positive_cycN_geom {c : CfgN n K} {p : SpecN.Par n K} {P : Fin n → Nat} {ds : List (Fin n)} (h : CyclicSetupN c p P ds) (hF : FGood p.o p.F) (hn : 1 ≤ c.nIters)
    (hb : BasicOptsN c.o) (he : 0 ≤ c.eps) (w : K) (hw0 : 0 ≤ w) (hw : (n : K) * (2 * w) ≤ 1) (filt : Nat → Bool) {psi0 : Sca n K} {GC : Vec n K} (h0 : PeriodicN P psi0)
    (hp : ∀ d, PeriodicN P (GC d)) (hGC' : ∀ d x, |GC d x| ≤ w / 2 ^ (c.nIters - 1))
    (hv : ∀ u ≤ w / 2, ∀ (psi old : Sca n K) (U : Vec n K), (∀ x, 0 ≤ psi x) → (∀ d x, |U d x| ≤ u) → ∀ d x, |p.F.vel d p.st psi old U x| ≤ 2 * u) (m : MemN n K)
    (hpsi : ∀ x, InGrid P x → m.psi x = psi0 x) (hGC : ∀ d x, InFaces P d x → m.GC d x = GC d x) (hpos : ∀ x, 0 ≤ psi0 x) (t : Nat) (x : Idx n) (hx : InGrid P x) :
    0 ≤ (runProgN c filt t { m with GC := prepGC c (solverHalo c.o) m.GC }).psi x := by
  rw [cycN_run h hF hn (.inr (.inr ⟨hb.div2, hb.div3⟩)) filt h0 hp m hpsi hGC t x hx]
  have : ∀ t x, 0 ≤ SpecN.run p c.nIters filt GC t psi0 x := by
    intro t
    induction t with
    | zero => exact hpos
    | succ t ih =>
      refine (passesN_nonneg_geom hF (h.ho ▸ hb.iga) (h.ho ▸ hb.nug) (h.heps ▸ he) w hw0 hw _ GC hGC' hv _ ih _ ?_).1
      split <;> omega
  exact this t x

/-- C13, 2-D, about the program, any number of passes and any options that are not of divergence form or infinite gauge (`tot`, `dfl`, `fct`, `abs`,
... included), G = 1: on a cyclic domain, with Courant numbers of modulus at most `1/4 / 2^(passes - 1)`, a non-negative field stays non-negative. -/
theorem C13_positive_definite_2d (c : CfgN 2 K) (p : SpecN.Par 2 K) (P : Fin 2 → Nat) (h : CyclicSetupN c p P [0, 1]) (si : SptlIntrp) (te : TmprlExtrp) (tiny : K)
    (ht : 0 < tiny) (hform : p.F = formulae2 p.o si te tiny) (hn : 1 ≤ c.nIters) (hb : BasicOptsN c.o) (he : 0 < c.eps) (filt : Nat → Bool)
    (psi0 : Sca 2 K) (GC : Vec 2 K) (h0 : PeriodicN P psi0) (hp : ∀ d, PeriodicN P (GC d)) (hC : ∀ d x, |GC d x| ≤ 1 / 4 / 2 ^ (c.nIters - 1))
    (m : MemN 2 K) (hpsi : ∀ x, InGrid P x → m.psi x = psi0 x) (hGC : ∀ d x, InFaces P d x → m.GC d x = GC d x) (hpos : ∀ x, 0 ≤ psi0 x) (t : Nat) (x : Idx 2) (hx : InGrid P x) :
    0 ≤ (runProgN c filt t { m with GC := prepGC c (solverHalo c.o) m.GC }).psi x := by
  have hF : FGood p.o p.F := hform ▸ formulae2_good p.o si te tiny (fun hh => by rw [← h.ho, hb.fot] at hh; cases hh)
  refine positive_cycN_geom h hF hn hb he.le (1 / 4) (by norm_num) (by norm_num) filt h0 hp hC ?_ m hpsi hGC hpos t x hx
  intro u hu psi old U hpsi hU d x
  have hu0 : 0 ≤ u := (abs_nonneg _).trans (hU d x)
  rw [hform]
  refine (antidiff2_bound p.o (h.ho ▸ hb) si te tiny ht.le _ _ _ _ _ _ _ _ ?_ u (by linarith) ?_ ?_ 0 0).trans ?_
  · exact fun _ _ => hpsi _
  · exact fun _ _ => hU _ _
  · exact fun _ _ => hU _ _
  · unfold velBound2
    have := mul_le_mul_of_nonneg_left hu hu0
    have := mul_self_nonneg u
    split_ifs <;> nlinarith

/-- C13, 3-D, likewise with Courant numbers of modulus at most `1/6 / 2^(passes - 1)`. -/
theorem C13_positive_definite_3d (c : CfgN 3 K) (p : SpecN.Par 3 K) (P : Fin 3 → Nat) (h : CyclicSetupN c p P [1, 0, 2]) (si : SptlIntrp) (te : TmprlExtrp) (tiny : K)
    (ht : 0 < tiny) (hform : p.F = formulae3 p.o si te tiny) (hn : 1 ≤ c.nIters) (hb : BasicOptsN c.o) (he : 0 < c.eps) (filt : Nat → Bool)
    (psi0 : Sca 3 K) (GC : Vec 3 K) (h0 : PeriodicN P psi0) (hp : ∀ d, PeriodicN P (GC d)) (hC : ∀ d x, |GC d x| ≤ 1 / 6 / 2 ^ (c.nIters - 1))
    (m : MemN 3 K) (hpsi : ∀ x, InGrid P x → m.psi x = psi0 x) (hGC : ∀ d x, InFaces P d x → m.GC d x = GC d x) (hpos : ∀ x, 0 ≤ psi0 x) (t : Nat) (x : Idx 3) (hx : InGrid P x) :
    0 ≤ (runProgN c filt t { m with GC := prepGC c (solverHalo c.o) m.GC }).psi x := by
  have hF : FGood p.o p.F := hform ▸ formulae3_good p.o si te tiny
  refine positive_cycN_geom h hF hn hb he.le (1 / 6) (by norm_num) (by norm_num) filt h0 hp hC ?_ m hpsi hGC hpos t x hx
  intro u hu psi old U hpsi hU d x
  have hu0 : 0 ≤ u := (abs_nonneg _).trans (hU d x)
  rw [hform]
  refine (antidiff3_bound p.o (h.ho ▸ hb) si te tiny ht.le _ _ _ _ _ _ _ _ _ _ ?_ u (by linarith) ?_ ?_ ?_ 0 0 0).trans ?_
  · exact fun _ _ _ => hpsi _
  · exact fun _ _ _ => hU _ _
  · exact fun _ _ _ => hU _ _
  · exact fun _ _ _ => hU _ _
  · unfold velBound3
    have := mul_le_mul_of_nonneg_left hu hu0
    have := mul_self_nonneg u
    split_ifs <;> nlinarith

/-- hypotheses met: three passes with `tot` and `dfl` in divergent flow -/
example : BasicOptsN (oTot ||| oDfl) ∧ (∀ d x, |(fun (d : Fin 2) (x : Idx 2) => if x d % 4 = 0 then (1/16 : ℚ) else -1/20) d x| ≤ 1 / 4 / 2 ^ (3 - 1)) := by
  refine ⟨⟨⟨by decide, by decide, by decide, by decide⟩, by decide⟩, fun d x => ?_⟩
  dsimp only; split <;> norm_num [abs_le]

/-! ## The usual Courant bound does not suffice -/

/-- a cyclic 1-D solver of six cells -/
def six (o : OptsT) (n : Nat) : Cfg1 ℚ :=
  { o := o, si := .exact, te := .noextrp, nIters := n, filter := false, tiny := 1/1000, eps := 1/1000
    ijk := ⟨0, 6⟩, G := fun _ => 1, ndtGC := fun _ => 0, ndttGC := fun _ => 0
    fillS := cycFillS ⟨0, 6⟩ (solverHalo o), fillV := fun _ => cycFillV ⟨0, 6⟩ (solverHalo o) }

/-- Courant numbers: air leaves cell 0 on both sides and meets fast air in the cells beside it -/
def sixGC (i : Int) : ℚ :=
  if i % 6 = 0 then 9/20 else if i % 6 = 1 then -1 else if i % 6 = 4 then 1 else if i % 6 = 5 then -9/20 else 0

/-- a little in cell 0, much in the cells from which the fast air comes -/
def sixMem : Mem1 ℚ :=
  { demoMem 7 with psi := fun i => if i % 6 = 0 then 1 else if i % 6 = 2 ∨ i % 6 = 4 then 1000 else 0, GC := sixGC }

/-- C13 fails in divergence form under the usual bound: the outflow of each cell is at most one and the field non-negative, and
after one step with two passes it has a negative value, with `div_2nd` and with `div_2nd|div_3rd`. -/
theorem C13_fails_div2_1d :
    (∀ i, outflow oDiv2 (sixGC (i - 1)) (sixGC i) ≤ 1) ∧ (∀ i, |sixGC i| ≤ 1) ∧ (∀ i, 0 ≤ sixMem.psi i) ∧
    (advance1 (six oDiv2 2) sixMem).psi 0 < 0 ∧ (advance1 (six (oDiv2 ||| oDiv3) 2) sixMem).psi 0 < 0 := by
  have hm : ∀ i : Int, i % 6 = 0 ∨ i % 6 = 1 ∨ i % 6 = 2 ∨ i % 6 = 3 ∨ i % 6 = 4 ∨ i % 6 = 5 := by omega
  refine ⟨fun i => ?_, fun i => ?_, fun i => ?_, by decide +kernel, by decide +kernel⟩
  · have e : ∀ i : Int, sixGC i = sixGC (i % 6) := by intro i; unfold sixGC; rw [Int.emod_emod_of_dvd _ (dvd_refl _)]
    rw [e i, e (i - 1), Int.sub_emod]
    rcases hm i with h | h | h | h | h | h <;> rw [h] <;> decide +kernel
  · unfold sixGC; split_ifs <;> norm_num [abs_le]
  · show 0 ≤ (if i % 6 = 0 then (1 : ℚ) else if i % 6 = 2 ∨ i % 6 = 4 then 1000 else 0)
    split_ifs <;> norm_num

/-- hypotheses of the theorems above are met by a two-pass solver in divergent flow -/
example : Div2Opts oDiv2 ∧ CyclicSetup (six oDiv2 2) ⟨oDiv2, .exact, .noextrp, 1/1000, 1/1000, fun _ => 1, fun _ => 0, fun _ => 0⟩ 6 ∧
    (∀ i, |(fun i : Int => if i % 6 = 0 then (1/3 : ℚ) else -1/4) i| ≤ 1 / 3) := by
  refine ⟨⟨by decide, by decide, by decide, by decide, by decide, by decide⟩, ⟨rfl, rfl, rfl, rfl, rfl, rfl, by decide, rfl, rfl, ⟨fun _ => rfl, fun _ => rfl, fun _ => rfl⟩,
    fun _ _ _ => rfl, fun _ _ _ => rfl, fun _ _ _ => rfl⟩, fun i => ?_⟩
  dsimp only; split <;> norm_num [abs_le]

end Mpdata
