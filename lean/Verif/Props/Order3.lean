import Verif.Lemmas.Order3
import Verif.Props.OrderN
/-! # C54: order of accuracy in 3-D -/
set_option linter.unusedSectionVars false
namespace Mpdata
variable {K : Type} [Field K] [LinearOrder K] [IsStrictOrderedRing K]

/-- the order of accuracy the options of a 3-D infinite-gauge solver announce: two; three with `tot`, or with `div_3rd` or `div_3rd_dt` in the divergence form
(`fot` has no effect in 3-D) -/
def order3 (o : OptsT) : Nat :=
  if isset o oDiv2 || isset o oDiv3 then (if isset o oDiv3 || isset o oDiv3dt then 3 else 2) else (if isset o oTot then 3 else 2)

theorem antidiff3_uni (o : OptsT) (si te) (tiny γ g : K) (higa : isset o oIga = true) (ha : isset o oAbs = false) (hγ : gUni o g = γ) (h0 : γ ≠ 0) :
    ∃ V : Vel3 K, VLin3 V ∧ VLoc3 V ∧
      (∀ a b c α β κ : K, (α = a ∨ α = -a) → (β = b ∨ β = -b) → (κ = c ∨ κ = -c) → ∀ i j n, i + j + n ≤ order3 o →
        uniStep3 V a b c α β κ (mono3 i j n) = (-a) ^ i * (-b) ^ j * (-c) ^ n) ∧
      (∀ a b c α : K, |γ * a| = γ * α → ∀ F H, antidiff3 o si te tiny F H (fun _ _ _ => γ * a) (fun _ _ _ => γ * b) (fun _ _ _ => γ * c)
        (fun _ _ _ => 0) (fun _ _ _ => 0) (fun _ _ _ => 0) (fun _ _ _ => 0) (fun _ _ _ => g) 0 0 0 = γ * V F H a b c α) := by
  unfold order3
  cases hd : (isset o oDiv2 || isset o oDiv3)
  · rw [if_neg (by decide)]
    have std := fun (a b c α : K) (hα : |γ * a| = γ * α) F H => std3_uni o si te tiny a b c α γ g F H higa hγ h0 hα hd
    cases ht : isset o oTot
    · rw [if_neg (by decide)]
      refine ⟨VStd3, coreStd3_lin, coreStd3_loc, coreStd3, fun a b c α hα F H => ?_⟩
      rw [std a b c α hα, ht]; unfold VStd3; simp
    · rw [if_pos rfl]
      refine ⟨VTot3, coreTot3_lin, coreTot3_loc, coreTot3, fun a b c α hα F H => ?_⟩
      rw [std a b c α hα, ht]; unfold VTot3; simp; ring
  · rw [if_pos rfl]
    have dv := fun (a b c α : K) (hα : |γ * a| = γ * α) F => divA3_uni o tiny a b c α γ g F higa ha hγ h0 hα
    have e : ∀ (F H ga gb gc z1 z2 z3 z4 G : Ar3 K), antidiff3 o si te tiny F H ga gb gc z1 z2 z3 z4 G 0 0 0
        = div2nd3 o tiny F ga gb gc G 0 0 0 + div3rd3 o si te tiny F H ga gb gc z1 z2 z3 z4 G 0 0 0 := by
      intros; unfold antidiff3; rw [if_pos hd]
    cases h3 : isset o oDiv3
    · cases ht : isset o oDiv3dt
      · rw [if_neg (by decide)]
        refine ⟨VDivA3, coreDivA3_lin, coreDivA3_loc, coreDivA3, fun a b c α hα F H => ?_⟩
        rw [e, dv a b c α hα]
        unfold div3rd3 VDivA3; rw [if_neg (by rw [h3]; decide), if_neg (by rw [ht]; decide), add_zero]
      · rw [if_pos (by decide)]
        refine ⟨VDtB3, coreDtB3_lin, coreDtB3_loc, coreDtB3, fun a b c α hα F H => ?_⟩
        rw [e, dv a b c α hα, dtB3_uni o si te tiny a b c α γ g F H higa ha hγ h0 hα h3 ht]; unfold VDtB3; ring
    · rw [if_pos (by simp)]
      refine ⟨VDivB3, coreDivB3_lin, coreDivB3_loc, coreDivB3, fun a b c α hα F H => ?_⟩
      rw [e, dv a b c α hα, divB3_uni o si te tiny a b c α γ g F H higa ha hγ h0 hα h3]; unfold VDivB3; ring

theorem stepIdx30 (i j k a : Int) : stepIdx ![i, j, k] 0 a = ![i + a, j, k] := by
  funext d; fin_cases d <;> simp [stepIdx]
theorem stepIdx31 (i j k a : Int) : stepIdx ![i, j, k] 1 a = ![i, j + a, k] := by
  funext d; fin_cases d <;> simp [stepIdx]
theorem stepIdx32 (i j k a : Int) : stepIdx ![i, j, k] 2 a = ![i, j, k + a] := by
  funext d; fin_cases d <;> simp [stepIdx]
theorem view30 (i j k : Int) (f : Sca 3 K) : view3 0 ![i, j, k] f = fun a b c => f ![i + a, j + b, k + c] := by
  funext a b c; unfold view3
  show f (stepIdx (stepIdx (stepIdx _ 0 a) 1 b) 2 c) = _
  rw [stepIdx30, stepIdx31, stepIdx32]
theorem view31 (i j k : Int) (f : Sca 3 K) : view3 1 ![i, j, k] f = fun a b c => f ![i + c, j + a, k + b] := by
  funext a b c; unfold view3
  show f (stepIdx (stepIdx (stepIdx _ 1 a) 2 b) 0 c) = _
  rw [stepIdx31, stepIdx32, stepIdx30]
theorem view32 (i j k : Int) (f : Sca 3 K) : view3 2 ![i, j, k] f = fun a b c => f ![i + b, j + c, k + a] := by
  funext a b c; unfold view3
  show f (stepIdx (stepIdx (stepIdx _ 2 a) 0 b) 1 c) = _
  rw [stepIdx32, stepIdx30, stepIdx31]

/-- a two-pass step in a uniform flow is the stencil of `Lemmas/Order3` -/
theorem step3_uni (o : OptsT) (eps : K) (si te) (tiny a b c α β κ γ g : K) (V : Vel3 K) (higa : isset o oIga = true) (hf : isset o oFct = false)
    (hγ : gUni o g = γ) (h0 : γ ≠ 0)
    (hpa : pospart o (γ * a) = γ * ((a + α) / 2)) (hna : negpart o (γ * a) = γ * ((a - α) / 2))
    (hpb : pospart o (γ * b) = γ * ((b + β) / 2)) (hnb : negpart o (γ * b) = γ * ((b - β) / 2))
    (hpc : pospart o (γ * c) = γ * ((c + κ) / 2)) (hnc : negpart o (γ * c) = γ * ((c - κ) / 2))
    (hα : |γ * a| = γ * α) (hβ : |γ * b| = γ * β) (hκ : |γ * c| = γ * κ)
    (hV : ∀ a b c α : K, |γ * a| = γ * α → ∀ F H, antidiff3 o si te tiny F H (fun _ _ _ => γ * a) (fun _ _ _ => γ * b) (fun _ _ _ => γ * c)
        (fun _ _ _ => 0) (fun _ _ _ => 0) (fun _ _ _ => 0) (fun _ _ _ => 0) (fun _ _ _ => g) 0 0 0 = γ * V F H a b c α)
    (psi : Sca 3 K) (i j k : Int) :
    SpecN.step ⟨o, eps, formulae3 o si te tiny, ⟨fun _ => g, fun _ _ => 0, fun _ _ => 0⟩⟩ 2 psi (fun d _ => if d = 0 then γ * a else if d = 1 then γ * b else γ * c) ![i, j, k]
      = uniStep3 V a b c α β κ (fun p q r => psi ![i + p, j + q, k + r]) := by
  obtain ⟨p, hp⟩ : ∃ p : SpecN.Par 3 K, p = ⟨o, eps, formulae3 o si te tiny, ⟨fun _ => g, fun _ _ => 0, fun _ _ => 0⟩⟩ := ⟨_, rfl⟩
  obtain ⟨GC, hGC⟩ : ∃ GC : Vec 3 K, GC = fun d _ => if d = 0 then γ * a else if d = 1 then γ * b else γ * c := ⟨_, rfl⟩
  have n10 : ¬ (1 : Fin 3) = 0 := by decide
  have n20 : ¬ (2 : Fin 3) = 0 := by decide
  have n21 : ¬ (2 : Fin 3) = 1 := by decide
  have first_at : ∀ u v w : Int, SpecN.first p psi GC ![i + u, j + v, k + w] = uniUp3 (fun p q r => psi ![i + p, j + q, k + r]) a b c α β κ u v w := by
    intro u v w
    have hg : gFac3 o 0 (fun _ _ _ => g) (i + u) (j + v) (k + w) = γ := hγ
    rw [hp, hGC]
    show donorStep3 o (cur3 psi) _ _ _ (fun _ _ _ => g) (i + u) (j + v) (k + w) = _
    simp only [donorStep3, donorSum3_eq, hg, cur3, makeFluxN, donorF_split, stepIdx30, stepIdx31, stepIdx32, if_true, n10, n20, n21, if_false, hpa, hna, hpb, hnb, hpc, hnc, uniUp3]
    rw [show i + u - 1 + 1 = i + u by ring, show j + v - 1 + 1 = j + v by ring, show k + w - 1 + 1 = k + w by ring,
      show i + (u + 1) = i + u + 1 by ring, show i + (u - 1) = i + u - 1 by ring,
      show j + (v + 1) = j + v + 1 by ring, show j + (v - 1) = j + v - 1 by ring, show k + (w + 1) = k + w + 1 by ring, show k + (w - 1) = k + w - 1 by ring]
    field_simp
    ring
  rw [← hp, ← hGC]
  have hs : SpecN.step p 2 psi GC ![i, j, k] = donorStep3 o (cur3 (SpecN.first p psi GC)) (cur3 (SpecN.velocity p (SpecN.first p psi GC) psi GC 0))
      (cur3 (SpecN.velocity p (SpecN.first p psi GC) psi GC 1)) (cur3 (SpecN.velocity p (SpecN.first p psi GC) psi GC 2)) (fun _ _ _ => g) i j k := by
    have : SpecN.step p 2 psi GC = SpecN.corrective p psi (SpecN.first p psi GC) (SpecN.velocity p (SpecN.first p psi GC) psi GC) := rfl
    rw [this]; unfold SpecN.corrective
    have h1 : p.o = o := by rw [hp]
    simp only [h1, hf, higa, if_true, Bool.false_eq_true, if_false]
    rw [hp]; rfl
  have v0 : ∀ u v w : Int, SpecN.velocity p (SpecN.first p psi GC) psi GC 0 ![i + u, j + v, k + w]
      = γ * V (fun x y z => uniUp3 (fun p q r => psi ![i + p, j + q, k + r]) a b c α β κ (u + x) (v + y) (w + z)) (fun x y z => psi ![i + (u + x), j + (v + y), k + (w + z)]) a b c α := by
    intro u v w
    rw [← hV a b c α hα]
    have : (fun x y z => uniUp3 (fun p q r => psi ![i + p, j + q, k + r]) a b c α β κ (u + x) (v + y) (w + z)) = view3 0 ![i + u, j + v, k + w] (SpecN.first p psi GC) := by
      rw [view30]; funext x y z; rw [← first_at, add_assoc, add_assoc, add_assoc]
    rw [this]
    have : (fun x y z => psi ![i + (u + x), j + (v + y), k + (w + z)]) = view3 0 ![i + u, j + v, k + w] psi := by
      rw [view30]; funext x y z; rw [add_assoc, add_assoc, add_assoc]
    rw [this]
    unfold SpecN.velocity
    rw [hp, hGC]; rfl
  have v1 : ∀ u v w : Int, SpecN.velocity p (SpecN.first p psi GC) psi GC 1 ![i + u, j + v, k + w]
      = γ * V (fun x y z => uniUp3 (fun p q r => psi ![i + p, j + q, k + r]) a b c α β κ (u + z) (v + x) (w + y)) (fun x y z => psi ![i + (u + z), j + (v + x), k + (w + y)]) b c a β := by
    intro u v w
    rw [← hV b c a β hβ]
    have : (fun x y z => uniUp3 (fun p q r => psi ![i + p, j + q, k + r]) a b c α β κ (u + z) (v + x) (w + y)) = view3 1 ![i + u, j + v, k + w] (SpecN.first p psi GC) := by
      rw [view31]; funext x y z; rw [← first_at, add_assoc, add_assoc, add_assoc]
    rw [this]
    have : (fun x y z => psi ![i + (u + z), j + (v + x), k + (w + y)]) = view3 1 ![i + u, j + v, k + w] psi := by
      rw [view31]; funext x y z; rw [add_assoc, add_assoc, add_assoc]
    rw [this]
    unfold SpecN.velocity
    rw [hp, hGC]; rfl
  have v2 : ∀ u v w : Int, SpecN.velocity p (SpecN.first p psi GC) psi GC 2 ![i + u, j + v, k + w]
      = γ * V (fun x y z => uniUp3 (fun p q r => psi ![i + p, j + q, k + r]) a b c α β κ (u + y) (v + z) (w + x)) (fun x y z => psi ![i + (u + y), j + (v + z), k + (w + x)]) c a b κ := by
    intro u v w
    rw [← hV c a b κ hκ]
    have : (fun x y z => uniUp3 (fun p q r => psi ![i + p, j + q, k + r]) a b c α β κ (u + y) (v + z) (w + x)) = view3 2 ![i + u, j + v, k + w] (SpecN.first p psi GC) := by
      rw [view32]; funext x y z; rw [← first_at, add_assoc, add_assoc, add_assoc]
    rw [this]
    have : (fun x y z => psi ![i + (u + y), j + (v + z), k + (w + x)]) = view3 2 ![i + u, j + v, k + w] psi := by
      rw [view32]; funext x y z; rw [add_assoc, add_assoc, add_assoc]
    rw [this]
    unfold SpecN.velocity
    rw [hp, hGC]; rfl
  rw [hs]
  have hg : gFac3 o 0 (fun _ _ _ => g) i j k = γ := hγ
  have f00 := first_at 0 0 0
  have v00 := v0 0 0 0
  have v0m := v0 (-1) 0 0
  have v10 := v1 0 0 0
  have v1m := v1 0 (-1) 0
  have v20 := v2 0 0 0
  have v2m := v2 0 0 (-1)
  simp only [add_zero, zero_add, ← sub_eq_add_neg, neg_add_eq_sub] at f00 v00 v0m v10 v1m v20 v2m
  simp only [donorStep3, donorSum3_eq, hg, cur3, f00, v00, v0m, v10, v1m, v20, v2m]
  unfold uniStep3 uniNext3
  simp only [sub_eq_add_neg]
  field_simp
  ring

/-- one step around a point -/
theorem order3_core (p : SpecN.Par 3 K) (si te) (tiny : K) (hF : p.F = formulae3 p.o si te tiny) (g : K) (hst : p.st = ⟨fun _ => g, fun _ _ => 0, fun _ _ => 0⟩)
    (C : Fin 3 → K) (higa : isset p.o oIga = true) (ha : isset p.o oAbs = false) (hf : isset p.o oFct = false) (hg : gUni p.o g ≠ 0)
    (psi : Sca 3 K) (i j k : Int) (x y z : K) (co : Nat → Nat → Nat → K)
    (hpsi : ∀ u v w : Int, -3 ≤ u → u ≤ 3 → -3 ≤ v → v ≤ 3 → -3 ≤ w → w ≤ 3 → psi ![i + u, j + v, k + w] = poly3 (order3 p.o) co (x + u) (y + v) (z + w)) :
    SpecN.step p 2 psi (fun d _ => C d) ![i, j, k] = poly3 (order3 p.o) co (x - C 0 / gUni p.o g) (y - C 1 / gUni p.o g) (z - C 2 / gUni p.o g) := by
  obtain ⟨γ, hγ⟩ : ∃ γ, gUni p.o g = γ := ⟨_, rfl⟩
  rw [hγ] at hg ⊢
  obtain ⟨a, ha'⟩ : ∃ a, a = C 0 / γ := ⟨_, rfl⟩
  obtain ⟨b, hb'⟩ : ∃ b, b = C 1 / γ := ⟨_, rfl⟩
  obtain ⟨c, hc'⟩ : ∃ c, c = C 2 / γ := ⟨_, rfl⟩
  have ea : C 0 = γ * a := by rw [ha']; field_simp
  have eb : C 1 = γ * b := by rw [hb']; field_simp
  have ec : C 2 = γ * c := by rw [hc']; field_simp
  rw [← ha', ← hb', ← hc']
  obtain ⟨α, a1, a2, a3, a4⟩ := abs_split p.o γ a
  obtain ⟨β, b1, b2, b3, b4⟩ := abs_split p.o γ b
  obtain ⟨κ, c1, c2, c3, c4⟩ := abs_split p.o γ c
  obtain ⟨V, vl, vloc, ve, v0⟩ := antidiff3_uni p.o si te tiny γ g higa ha hγ hg
  have hs := step3_uni p.o p.eps si te tiny a b c α β κ γ g V higa hf hγ hg a3 a4 b3 b4 c3 c4 a1 b1 c1 v0 psi i j k
  have e1 : p = ⟨p.o, p.eps, formulae3 p.o si te tiny, ⟨fun _ => g, fun _ _ => 0, fun _ _ => 0⟩⟩ := by
    cases p; simp only at hF hst; subst hF; subst hst; rfl
  have e2 : (fun d _ => C d : Vec 3 K) = fun d _ => if d = 0 then γ * a else if d = 1 then γ * b else γ * c := by
    funext d _; fin_cases d
    · exact ea
    · exact eb
    · exact ec
  rw [e2]
  rw [← e1] at hs
  rw [hs, uniStep3_loc vloc a b c α β κ _ (fun u v w => poly3 (order3 p.o) co (x + u) (y + v) (z + w)) hpsi]
  exact exact_poly3 (uniStep3_lin vl a b c α β κ) (order3 p.o) a b c (ve a b c α β κ a2 b2 c2) x y z co

/-- C54, 3-D. In a uniform flow a two-pass infinite-gauge solver is of the order of accuracy its options announce (`order3`: two or three): wherever the initial
field is a polynomial of position of at most that total degree, the program returns after any number of steps that polynomial moved by exactly the Courant numbers per
step, at every grid point that the polynomial region still covers (each step reads three points on each side). -/
theorem C54_order_of_accuracy_3d (c : CfgN 3 K) (p : SpecN.Par 3 K) (P : Fin 3 → Nat) (h : Solver3 c p P) (hn : c.nIters = 2)
    (higa : isset c.o oIga = true) (ha : isset c.o oAbs = false) (hf : isset c.o oFct = false)
    (g : K) (hg : g ≠ 0) (hst : p.st = ⟨fun _ => g, fun _ _ => 0, fun _ _ => 0⟩)
    (C : Fin 3 → K) (psi0 : Sca 3 K) (h0 : PeriodicN P psi0) (m : MemN 3 K)
    (hpsi : ∀ x, InGrid P x → m.psi x = psi0 x) (hGC : ∀ d x, InFaces P d x → m.GC d x = C d)
    (co : Nat → Nat → Nat → K) (lo hi : Fin 3 → Int)
    (hpoly : ∀ x : Idx 3, (∀ d, lo d ≤ x d ∧ x d ≤ hi d) → psi0 x = poly3 (order3 c.o) co (x 0) (x 1) (x 2))
    (t : Nat) (x : Idx 3) (hx : InGrid P x) (hw : ∀ d, lo d + 3 * t ≤ x d ∧ x d ≤ hi d - 3 * t) :
    (runProgN c (fun _ => false) t { m with GC := prepGC c (solverHalo c.o) m.GC }).psi x
      = poly3 (order3 c.o) co (x 0 - t * (C 0 / (if isset c.o oNug then g else 1))) (x 1 - t * (C 1 / (if isset c.o oNug then g else 1)))
          (x 2 - t * (C 2 / (if isset c.o oNug then g else 1))) := by
  rw [C21_cyclic_3d_is_periodic_partial c p P h (by omega) (by unfold HaloCovered; omega) (fun _ => false) psi0 (fun d _ => C d) h0 (fun d => fun _ _ => rfl) m hpsi hGC t x hx]
  have ho := h.setup.ho
  rw [ho] at higa ha hf hpoly ⊢
  rw [hn]
  have hgu : gUni p.o g ≠ 0 := by unfold gUni; split_ifs; exacts [hg, one_ne_zero]
  obtain ⟨si, te, tiny, hF⟩ := h.form
  clear hx
  induction t generalizing x with
  | zero => simp only [SpecN.run]; rw [hpoly x (fun d => by have := hw d; omega)]; simp
  | succ t ih =>
    have hx : x = ![x 0, x 1, x 2] := by funext d; fin_cases d <;> rfl
    show SpecN.step p 2 _ _ x = _
    rw [hx]
    rw [order3_core p si te tiny hF g hst C higa ha hf hgu _ (x 0) (x 1) (x 2) (x 0 - t * (C 0 / gUni p.o g)) (x 1 - t * (C 1 / gUni p.o g)) (x 2 - t * (C 2 / gUni p.o g)) co]
    · unfold gUni; push_cast
      congr 1 <;> ring
    · intro u v w u1 u2 v1 v2 w1 w2
      rw [ih ![x 0 + u, x 1 + v, x 2 + w] ?_]
      · unfold gUni
        congr 1 <;> simp <;> ring
      · have w0 := hw 0
        have w1 := hw 1
        have w2 := hw 2
        push_cast at w0 w1 w2
        intro d; fin_cases d <;> simp <;> omega

/-- the hypotheses of C54 hold for a third-order solver on 21 x 21 x 21 points whose field is a cubic over one period -/
example : ∃ (c : CfgN 3 ℚ) (p : SpecN.Par 3 ℚ) (psi0 : Sca 3 ℚ), Solver3 c p (fun _ => 20) ∧ c.nIters = 2 ∧ isset c.o oIga = true ∧ isset c.o oAbs = false ∧ isset c.o oFct = false ∧
    order3 c.o = 3 ∧ p.st = ⟨fun _ => 1, fun _ _ => 0, fun _ _ => 0⟩ ∧ PeriodicN (fun _ => 20) psi0 ∧
    ∀ x : Idx 3, (∀ d, 0 ≤ x d ∧ x d ≤ 19) → psi0 x = poly3 (order3 c.o) (fun i j k => (i : ℚ) + 2 * j + 1 - k) (x 0 : ℚ) (x 1 : ℚ) (x 2 : ℚ) := by
  refine ⟨cycCfg (formulae3 (oIga ||| oDiv2 ||| oDiv3) .exact .noextrp (1/1000)) (oIga ||| oDiv2 ||| oDiv3) 2 (fun _ => 20) [1, 0, 2],
    ⟨oIga ||| oDiv2 ||| oDiv3, 1/1000, formulae3 (oIga ||| oDiv2 ||| oDiv3) .exact .noextrp (1/1000), ⟨fun _ => 1, fun _ _ => 0, fun _ _ => 0⟩⟩,
    fun x => poly3 3 (fun i j k => (i : ℚ) + 2 * j + 1 - k) ((x 0 % 20 : Int) : ℚ) ((x 1 % 20 : Int) : ℚ) ((x 2 % 20 : Int) : ℚ),
    ⟨⟨rfl, rfl, rfl, fun _ => rfl, fun d => by decide, by decide, rfl, fun _ => rfl, fun _ => rfl, fun _ _ => rfl, fun _ _ _ => rfl, fun _ _ _ => rfl, fun _ _ => rfl,
    fun _ _ _ => rfl, fun _ _ _ => rfl⟩, ⟨_, _, _, rfl⟩⟩, rfl, by decide, by decide, by decide, by decide, rfl, ?_, ?_⟩
  · intro x d; fin_cases d <;> simp [stepIdx]
  · intro x hx
    show poly3 3 _ _ _ _ = poly3 3 _ _ _ _
    rw [Int.emod_eq_of_lt (hx 0).1 (by have := (hx 0).2; omega), Int.emod_eq_of_lt (hx 1).1 (by have := (hx 1).2; omega), Int.emod_eq_of_lt (hx 2).1 (by have := (hx 2).2; omega)]

end Mpdata
