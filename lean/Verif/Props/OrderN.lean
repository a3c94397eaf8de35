import Verif.Lemmas.Order2
import Verif.Props.HaloN
/-! # C54: order of accuracy in 2-D and 3-D -/
set_option linter.unusedSectionVars false
namespace Mpdata
variable {K : Type} [Field K] [LinearOrder K] [IsStrictOrderedRing K]

/-- the order of accuracy the options of a 2-D infinite-gauge solver announce: two; three with `tot`, or with `div_3rd` or `div_3rd_dt` in the divergence form; four with
`fot` on top of `tot` or `div_3rd` -/
def order2 (o : OptsT) : Nat :=
  if isset o oDiv2 || isset o oDiv3 then (if isset o oDiv3 then (if isset o oFot then 4 else 3) else if isset o oDiv3dt then 3 else 2)
  else (if isset o oTot then (if isset o oFot then 4 else 3) else 2)

/-- `fot` needs a third-order scheme below it, and `tot` excludes the divergence form (static_asserts of formulae_mpdata_hot_2d.hpp:163-166 and mpdata_common.hpp) -/
def compat2 (o : OptsT) : Prop :=
  (isset o oFot = true → isset o oTot = true ∨ isset o oDiv3 = true) ∧ ((isset o oDiv2 || isset o oDiv3) = true → isset o oTot = false)

theorem antidiff2_uni (o : OptsT) (si te) (tiny a b α β γ g : K) (higa : isset o oIga = true) (ha : isset o oAbs = false)
    (hγ : gUni o g = γ) (h0 : γ ≠ 0) (hα : |γ * a| = γ * α) (hβ : |γ * b| = γ * β) (hc : compat2 o) :
    ∃ V : Ar2 K → Ar2 K → K → K → K → K → K, VLin2 V ∧ VLoc2 V ∧
      (∀ a b α β : K, (α = a ∨ α = -a) → (β = b ∨ β = -b) → ∀ i j, i + j ≤ order2 o → uniStep2 V a b α β (fun k l => (k : K) ^ i * (l : K) ^ j) = (-a) ^ i * (-b) ^ j) ∧
      (∀ F H, antidiff2 o si te tiny F H (fun _ _ => γ * a) (fun _ _ => γ * b) (fun _ _ => 0) (fun _ _ => 0) (fun _ _ => 0) (fun _ _ => g) 0 0 = γ * V F H a b α β) ∧
      (∀ F H, antidiff2 o si te tiny F H (fun _ _ => γ * b) (fun _ _ => γ * a) (fun _ _ => 0) (fun _ _ => 0) (fun _ _ => 0) (fun _ _ => g) 0 0 = γ * V F H b a β α) := by
  have nofot : ∀ a b : K, ∀ F : Ar2 K, isset o oFot = false → fot2 o F (fun _ _ => γ * a) (fun _ _ => γ * b) (fun _ _ => g) 0 0 = 0 := by
    intro a b F h; unfold fot2; rw [if_neg (by rw [h]; decide)]
  unfold order2
  cases hd : (isset o oDiv2 || isset o oDiv3)
  · rw [if_neg (by decide)]
    have std := fun (a b α : K) (hα : |γ * a| = γ * α) F H => std2_uni o si te tiny a b α γ g F H higa hγ h0 hα hd
    cases ht : isset o oTot
    · have hf : isset o oFot = false := by
        by_contra h
        rcases hc.1 (by simpa using h) with h | h
        · rw [ht] at h; cases h
        · rw [h, Bool.or_true] at hd; cases hd
      rw [if_neg (by decide)]
      refine ⟨VStd2, coreStd2_lin, coreStd2_loc, coreStd2, fun F H => ?_, fun F H => ?_⟩
      · rw [std a b α hα, nofot _ _ _ hf, ht]; unfold VStd2; simp
      · rw [std b a β hβ, nofot _ _ _ hf, ht]; unfold VStd2; simp
    · rw [if_pos rfl]
      cases hf : isset o oFot
      · rw [if_neg (by decide)]
        refine ⟨VTot2, coreTot2_lin, coreTot2_loc, coreTot2, fun F H => ?_, fun F H => ?_⟩
        · rw [std a b α hα, nofot _ _ _ hf, ht]; unfold VTot2; simp; ring
        · rw [std b a β hβ, nofot _ _ _ hf, ht]; unfold VTot2; simp; ring
      · rw [if_pos rfl]
        refine ⟨VFot2, coreFot2_lin, coreFot2_loc, coreFot2, fun F H => ?_, fun F H => ?_⟩
        · rw [std a b α hα, fot2_uni o a b α β γ g F hγ h0 hα hβ hf, ht]; unfold VFot2; simp; ring
        · rw [std b a β hβ, fot2_uni o b a β α γ g F hγ h0 hβ hα hf, ht]; unfold VFot2; simp; ring
  · rw [if_pos rfl]
    have dv := fun (a b α : K) (hα : |γ * a| = γ * α) F => div2_uni o tiny a b α γ g F higa ha hγ h0 hα
    have e : ∀ (F H ga gb z1 z2 z3 G : Ar2 K), antidiff2 o si te tiny F H ga gb z1 z2 z3 G 0 0
        = div2nd2 o tiny F ga gb G 0 0 + div3rd2 o si te tiny F H ga gb z1 z2 z3 G 0 0 + fot2 o F ga gb G 0 0 := by
      intros; unfold antidiff2; rw [if_pos hd]
    cases h3 : isset o oDiv3
    · have hf : isset o oFot = false := by
        by_contra h
        rcases hc.1 (by simpa using h) with h | h
        · rw [hc.2 hd] at h; cases h
        · rw [h3] at h; cases h
      rw [if_neg (by decide)]
      cases ht : isset o oDiv3dt
      · rw [if_neg (by decide)]
        have z : ∀ F H ga gb z1 z2 z3 G, div3rd2 o si te tiny F H ga gb z1 z2 z3 G 0 0 = 0 := by
          intros; unfold div3rd2; rw [if_neg (by rw [h3]; decide), if_neg (by rw [ht]; decide)]
        refine ⟨VDiv2, coreDiv2_lin, coreDiv2_loc, coreDiv2, fun F H => ?_, fun F H => ?_⟩
        · rw [e, dv a b α hα, z, nofot _ _ _ hf]; unfold VDiv2; ring
        · rw [e, dv b a β hβ, z, nofot _ _ _ hf]; unfold VDiv2; ring
      · rw [if_pos rfl]
        refine ⟨VDt3, coreDt3_lin, coreDt3_loc, coreDt3, fun F H => ?_, fun F H => ?_⟩
        · rw [e, dv a b α hα, dt3_uni o si te tiny a b α γ g F H higa ha hγ h0 hα h3 ht, nofot _ _ _ hf]; unfold VDt3; ring
        · rw [e, dv b a β hβ, dt3_uni o si te tiny b a β γ g F H higa ha hγ h0 hβ h3 ht, nofot _ _ _ hf]; unfold VDt3; ring
    · rw [if_pos rfl]
      cases hf : isset o oFot
      · rw [if_neg (by decide)]
        refine ⟨VDiv3, coreDiv3_lin, coreDiv3_loc, coreDiv3, fun F H => ?_, fun F H => ?_⟩
        · rw [e, dv a b α hα, div3_uni o si te tiny a b α γ g F H higa ha hγ h0 hα h3, nofot _ _ _ hf]; unfold VDiv3; ring
        · rw [e, dv b a β hβ, div3_uni o si te tiny b a β γ g F H higa ha hγ h0 hβ h3, nofot _ _ _ hf]; unfold VDiv3; ring
      · rw [if_pos rfl]
        refine ⟨VDiv4, coreDiv4_lin, coreDiv4_loc, coreDiv4, fun F H => ?_, fun F H => ?_⟩
        · rw [e, dv a b α hα, div3_uni o si te tiny a b α γ g F H higa ha hγ h0 hα h3, fot2_uni o a b α β γ g F hγ h0 hα hβ hf]; unfold VDiv4; ring
        · rw [e, dv b a β hβ, div3_uni o si te tiny b a β γ g F H higa ha hγ h0 hβ h3, fot2_uni o b a β α γ g F hγ h0 hβ hα hf]; unfold VDiv4; ring

theorem stepIdx20 (i j k : Int) : stepIdx ![i, j] 0 k = ![i + k, j] := by
  funext d; fin_cases d <;> simp [stepIdx]
theorem stepIdx21 (i j k : Int) : stepIdx ![i, j] 1 k = ![i, j + k] := by
  funext d; fin_cases d <;> simp [stepIdx]
theorem view20 (i j : Int) (f : Sca 2 K) : view2 0 ![i, j] f = fun a b => f ![i + a, j + b] := by
  funext a b; unfold view2; rw [stepIdx20]; exact congrArg f (stepIdx21 _ _ _)
theorem view21 (i j : Int) (f : Sca 2 K) : view2 1 ![i, j] f = fun a b => f ![i + b, j + a] := by
  funext a b; unfold view2; rw [stepIdx21]; exact congrArg f (stepIdx20 _ _ _)

theorem donorF_split (o : OptsT) (l r C : K) : donorF o l r C = pospart o C * l + negpart o C * r := rfl

/-- a two-pass step in a uniform flow is the stencil of `Lemmas/Order2` -/
theorem step2_uni (o : OptsT) (eps : K) (si te) (tiny a b α β γ g : K) (V : Ar2 K → Ar2 K → K → K → K → K → K) (higa : isset o oIga = true) (hf : isset o oFct = false)
    (hγ : gUni o g = γ) (h0 : γ ≠ 0)
    (hpa : pospart o (γ * a) = γ * ((a + α) / 2)) (hna : negpart o (γ * a) = γ * ((a - α) / 2))
    (hpb : pospart o (γ * b) = γ * ((b + β) / 2)) (hnb : negpart o (γ * b) = γ * ((b - β) / 2))
    (hV : ∀ F H, antidiff2 o si te tiny F H (fun _ _ => γ * a) (fun _ _ => γ * b) (fun _ _ => 0) (fun _ _ => 0) (fun _ _ => 0) (fun _ _ => g) 0 0 = γ * V F H a b α β)
    (hV' : ∀ F H, antidiff2 o si te tiny F H (fun _ _ => γ * b) (fun _ _ => γ * a) (fun _ _ => 0) (fun _ _ => 0) (fun _ _ => 0) (fun _ _ => g) 0 0 = γ * V F H b a β α)
    (psi : Sca 2 K) (i j : Int) :
    SpecN.step ⟨o, eps, formulae2 o si te tiny, ⟨fun _ => g, fun _ _ => 0, fun _ _ => 0⟩⟩ 2 psi (fun d _ => if d = 0 then γ * a else γ * b) ![i, j]
      = uniStep2 V a b α β (fun k l => psi ![i + k, j + l]) := by
  obtain ⟨p, hp⟩ : ∃ p : SpecN.Par 2 K, p = ⟨o, eps, formulae2 o si te tiny, ⟨fun _ => g, fun _ _ => 0, fun _ _ => 0⟩⟩ := ⟨_, rfl⟩
  obtain ⟨GC, hGC⟩ : ∃ GC : Vec 2 K, GC = fun d _ => if d = 0 then γ * a else γ * b := ⟨_, rfl⟩
  have first_at : ∀ k l : Int, SpecN.first p psi GC ![i + k, j + l] = uniUp2 (fun k l => psi ![i + k, j + l]) a b α β k l := by
    intro k l
    have hg : gFac2 o 0 (fun _ _ => g) (i + k) (j + l) = γ := hγ
    have n10 : ¬ (1 : Fin 2) = 0 := by decide
    rw [hp, hGC]
    show donorStep2 o (cur2 psi) _ _ (fun _ _ => g) (i + k) (j + l) = _
    simp only [donorStep2, donorSum2_eq, hg, cur2, makeFluxN, donorF_split, stepIdx20, stepIdx21, if_true, n10, if_false, hpa, hna, hpb, hnb, uniUp2]
    rw [show i + k - 1 + 1 = i + k by ring, show j + l - 1 + 1 = j + l by ring, show i + (k + 1) = i + k + 1 by ring, show i + (k - 1) = i + k - 1 by ring,
      show j + (l + 1) = j + l + 1 by ring, show j + (l - 1) = j + l - 1 by ring]
    field_simp
    ring
  rw [← hp, ← hGC]
  have hs : SpecN.step p 2 psi GC ![i, j] = donorStep2 o (cur2 (SpecN.first p psi GC)) (cur2 (SpecN.velocity p (SpecN.first p psi GC) psi GC 0)) (cur2 (SpecN.velocity p (SpecN.first p psi GC) psi GC 1)) (fun _ _ => g) i j := by
    have : SpecN.step p 2 psi GC = SpecN.corrective p psi (SpecN.first p psi GC) (SpecN.velocity p (SpecN.first p psi GC) psi GC) := rfl
    rw [this]; unfold SpecN.corrective
    have h1 : p.o = o := by rw [hp]
    simp only [h1, hf, higa, if_true, Bool.false_eq_true, if_false]
    rw [hp]; rfl
  have v0 : ∀ k l : Int, SpecN.velocity p (SpecN.first p psi GC) psi GC 0 ![i + k, j + l]
      = γ * V (fun c d => uniUp2 (fun k l => psi ![i + k, j + l]) a b α β (k + c) (l + d)) (fun c d => psi ![i + (k + c), j + (l + d)]) a b α β := by
    intro k l
    rw [← hV]
    have : (fun c d => uniUp2 (fun k l => psi ![i + k, j + l]) a b α β (k + c) (l + d)) = view2 0 ![i + k, j + l] (SpecN.first p psi GC) := by
      rw [view20]; funext c d; rw [← first_at, add_assoc, add_assoc]
    rw [this]
    have : (fun c d => psi ![i + (k + c), j + (l + d)]) = view2 0 ![i + k, j + l] psi := by
      rw [view20]; funext c d; rw [add_assoc, add_assoc]
    rw [this]
    unfold SpecN.velocity
    rw [hp, hGC]; rfl
  have v1 : ∀ k l : Int, SpecN.velocity p (SpecN.first p psi GC) psi GC 1 ![i + k, j + l]
      = γ * V (fun c d => uniUp2 (fun k l => psi ![i + k, j + l]) a b α β (k + d) (l + c)) (fun c d => psi ![i + (k + d), j + (l + c)]) b a β α := by
    intro k l
    rw [← hV']
    have : (fun c d => uniUp2 (fun k l => psi ![i + k, j + l]) a b α β (k + d) (l + c)) = view2 1 ![i + k, j + l] (SpecN.first p psi GC) := by
      rw [view21]; funext c d; rw [← first_at, add_assoc, add_assoc]
    rw [this]
    have : (fun c d => psi ![i + (k + d), j + (l + c)]) = view2 1 ![i + k, j + l] psi := by
      rw [view21]; funext c d; rw [add_assoc, add_assoc]
    rw [this]
    unfold SpecN.velocity
    rw [hp, hGC]; rfl
  rw [hs]
  have hg : gFac2 o 0 (fun _ _ => g) i j = γ := hγ
  have f00 := first_at 0 0
  have v00 := v0 0 0
  have v0m := v0 (-1) 0
  have v10 := v1 0 0
  have v1m := v1 0 (-1)
  simp only [add_zero, zero_add, ← sub_eq_add_neg, neg_add_eq_sub] at f00 v00 v0m v10 v1m
  simp only [donorStep2, donorSum2_eq, hg, cur2, f00, v00, v0m, v10, v1m]
  unfold uniStep2 uniNext2
  simp only [sub_eq_add_neg]
  field_simp
  ring

/-- sign cases of a Courant number -/
theorem abs_split (o : OptsT) (γ a : K) : ∃ α : K, |γ * a| = γ * α ∧ (α = a ∨ α = -a) ∧
    pospart o (γ * a) = γ * ((a + α) / 2) ∧ negpart o (γ * a) = γ * ((a - α) / 2) := by
  rcases le_total 0 (γ * a) with h | h
  · refine ⟨a, abs_of_nonneg h, Or.inl rfl, ?_, ?_⟩
    · rw [pospart_pos_eq _ h]; ring
    · rw [negpart_pos_eq _ h]; ring
  · refine ⟨-a, by rw [abs_of_nonpos h]; ring, Or.inr rfl, ?_, ?_⟩
    · rw [pospart_neg_eq _ h]; ring
    · rw [negpart_neg_eq _ h]; ring

/-- one step around a point -/
theorem order2_core (p : SpecN.Par 2 K) (si te) (tiny : K) (hF : p.F = formulae2 p.o si te tiny) (g : K) (hst : p.st = ⟨fun _ => g, fun _ _ => 0, fun _ _ => 0⟩)
    (C : Fin 2 → K) (higa : isset p.o oIga = true) (ha : isset p.o oAbs = false) (hf : isset p.o oFct = false) (hc : compat2 p.o) (hg : gUni p.o g ≠ 0)
    (psi : Sca 2 K) (i j : Int) (x y : K) (co : Nat → Nat → K)
    (hpsi : ∀ k l : Int, -3 ≤ k → k ≤ 3 → -3 ≤ l → l ≤ 3 → psi ![i + k, j + l] = poly2 (order2 p.o) co (x + k) (y + l)) :
    SpecN.step p 2 psi (fun d _ => C d) ![i, j] = poly2 (order2 p.o) co (x - C 0 / gUni p.o g) (y - C 1 / gUni p.o g) := by
  obtain ⟨γ, hγ⟩ : ∃ γ, gUni p.o g = γ := ⟨_, rfl⟩
  rw [hγ] at hg ⊢
  obtain ⟨a, ha'⟩ : ∃ a, a = C 0 / γ := ⟨_, rfl⟩
  obtain ⟨b, hb'⟩ : ∃ b, b = C 1 / γ := ⟨_, rfl⟩
  have ea : C 0 = γ * a := by rw [ha']; field_simp
  have eb : C 1 = γ * b := by rw [hb']; field_simp
  rw [← ha', ← hb']
  obtain ⟨α, a1, a2, a3, a4⟩ := abs_split p.o γ a
  obtain ⟨β, b1, b2, b3, b4⟩ := abs_split p.o γ b
  obtain ⟨V, vl, vloc, ve, v0, v1⟩ := antidiff2_uni p.o si te tiny a b α β γ g higa ha hγ hg a1 b1 hc
  have hs := step2_uni p.o p.eps si te tiny a b α β γ g V higa hf hγ hg a3 a4 b3 b4 v0 v1 psi i j
  have e1 : p = ⟨p.o, p.eps, formulae2 p.o si te tiny, ⟨fun _ => g, fun _ _ => 0, fun _ _ => 0⟩⟩ := by
    cases p; simp only at hF hst; subst hF; subst hst; rfl
  have e2 : (fun d _ => C d : Vec 2 K) = fun d _ => if d = 0 then γ * a else γ * b := by
    funext d _; fin_cases d
    · exact ea
    · exact eb
  rw [e2]
  rw [← e1] at hs
  rw [hs, uniStep2_loc vloc a b α β _ (fun k l => poly2 (order2 p.o) co (x + k) (y + l)) hpsi]
  exact exact_poly2 (uniStep2_lin vl a b α β) (order2 p.o) a b (ve a b α β a2 b2) x y co

/-- C54, 2-D. In a uniform flow a two-pass infinite-gauge solver is of the order of accuracy its options announce (`order2`: two, three or four): wherever the initial
field is a polynomial of position of at most that total degree, the program returns after any number of steps that polynomial moved by exactly the Courant numbers per
step, at every grid point that the polynomial region still covers (each step reads three points on each side). -/
theorem C54_order_of_accuracy_2d (c : CfgN 2 K) (p : SpecN.Par 2 K) (P : Fin 2 → Nat) (h : Solver2 c p P) (hn : c.nIters = 2)
    (higa : isset c.o oIga = true) (ha : isset c.o oAbs = false) (hf : isset c.o oFct = false) (hc : compat2 c.o)
    (g : K) (hg : g ≠ 0) (hst : p.st = ⟨fun _ => g, fun _ _ => 0, fun _ _ => 0⟩)
    (C : Fin 2 → K) (psi0 : Sca 2 K) (h0 : PeriodicN P psi0) (m : MemN 2 K)
    (hpsi : ∀ x, InGrid P x → m.psi x = psi0 x) (hGC : ∀ d x, InFaces P d x → m.GC d x = C d)
    (co : Nat → Nat → K) (lo hi : Fin 2 → Int)
    (hpoly : ∀ x : Idx 2, (∀ d, lo d ≤ x d ∧ x d ≤ hi d) → psi0 x = poly2 (order2 c.o) co (x 0) (x 1))
    (t : Nat) (x : Idx 2) (hx : InGrid P x) (hw : ∀ d, lo d + 3 * t ≤ x d ∧ x d ≤ hi d - 3 * t) :
    (runProgN c (fun _ => false) t { m with GC := prepGC c (solverHalo c.o) m.GC }).psi x
      = poly2 (order2 c.o) co (x 0 - t * (C 0 / (if isset c.o oNug then g else 1))) (x 1 - t * (C 1 / (if isset c.o oNug then g else 1))) := by
  rw [C21_cyclic_2d_is_periodic_partial c p P h (by omega) (by unfold HaloCovered; omega) (fun _ => false) psi0 (fun d _ => C d) h0 (fun d => fun _ _ => rfl) m hpsi hGC t x hx]
  have ho := h.setup.ho
  rw [ho] at higa ha hf hc hpoly ⊢
  rw [hn]
  have hgu : gUni p.o g ≠ 0 := by unfold gUni; split_ifs; exacts [hg, one_ne_zero]
  obtain ⟨si, te, tiny, hF⟩ := h.form
  clear hx
  induction t generalizing x with
  | zero => simp only [SpecN.run]; rw [hpoly x (fun d => by have := hw d; omega)]; simp
  | succ t ih =>
    have hx : x = ![x 0, x 1] := by funext d; fin_cases d <;> rfl
    show SpecN.step p 2 _ _ x = _
    rw [hx]
    rw [order2_core p si te tiny hF g hst C higa ha hf hc hgu _ (x 0) (x 1) (x 0 - t * (C 0 / gUni p.o g)) (x 1 - t * (C 1 / gUni p.o g)) co]
    · unfold gUni; push_cast
      congr 1 <;> ring
    · intro k l k1 k2 l1 l2
      rw [ih ![x 0 + k, x 1 + l] ?_]
      · unfold gUni
        congr 1 <;> simp <;> ring
      · have w0 := hw 0
        have w1 := hw 1
        push_cast at w0 w1
        intro d; fin_cases d <;> simp <;> omega

/-- the hypotheses of C54 hold for a fourth-order solver on 21 x 21 points whose field is a quartic over one period -/
example : ∃ (c : CfgN 2 ℚ) (p : SpecN.Par 2 ℚ) (psi0 : Sca 2 ℚ), Solver2 c p (fun _ => 20) ∧ c.nIters = 2 ∧ isset c.o oIga = true ∧ isset c.o oAbs = false ∧ isset c.o oFct = false ∧
    compat2 c.o ∧ order2 c.o = 4 ∧ p.st = ⟨fun _ => 1, fun _ _ => 0, fun _ _ => 0⟩ ∧ PeriodicN (fun _ => 20) psi0 ∧
    ∀ x : Idx 2, (∀ d, 0 ≤ x d ∧ x d ≤ 19) → psi0 x = poly2 (order2 c.o) (fun i j => (i : ℚ) + 2 * j + 1) (x 0 : ℚ) (x 1 : ℚ) := by
  refine ⟨cycCfg (formulae2 (oIga ||| oTot ||| oFot) .exact .noextrp (1/1000)) (oIga ||| oTot ||| oFot) 2 (fun _ => 20) [0, 1],
    ⟨oIga ||| oTot ||| oFot, 1/1000, formulae2 (oIga ||| oTot ||| oFot) .exact .noextrp (1/1000), ⟨fun _ => 1, fun _ _ => 0, fun _ _ => 0⟩⟩,
    fun x => poly2 4 (fun i j => (i : ℚ) + 2 * j + 1) ((x 0 % 20 : Int) : ℚ) ((x 1 % 20 : Int) : ℚ),
    ⟨⟨rfl, rfl, rfl, fun _ => rfl, fun d => by decide, by decide, rfl, fun _ => rfl, fun _ => rfl, fun _ _ => rfl, fun _ _ _ => rfl, fun _ _ _ => rfl, fun _ _ => rfl,
    fun _ _ _ => rfl, fun _ _ _ => rfl⟩, ⟨_, _, _, rfl⟩, by decide⟩, rfl, by decide, by decide, by decide, by unfold compat2; decide, by decide, rfl, ?_, ?_⟩
  · intro x d; fin_cases d <;> simp [stepIdx]
  · intro x hx
    show poly2 4 _ _ _ = poly2 4 _ _ _
    rw [Int.emod_eq_of_lt (hx 0).1 (by have := (hx 0).2; omega), Int.emod_eq_of_lt (hx 1).1 (by have := (hx 1).2; omega)]

end Mpdata
