import Verif.Props.ConstN
import Verif.Props.Symmetry1
import Verif.Lemmas.SymN
/-! # C19: symmetries of the scheme in 2-D and 3-D
Translation, change of sign with the variable-sign option, linearity and gauge invariance with the infinite gauge. All statements are about cyclic runs of the program. -/
set_option linter.unusedSectionVars false
namespace Mpdata
variable {n : Nat} {K : Type} [Field K] [LinearOrder K] [IsStrictOrderedRing K]

/-! ## Translation -/

theorem runN_sh {p : SpecN.Par n K} (hF : FGood p.o p.F) (N : Nat) (filt : Nat → Bool) (psi0 : Sca n K) (GC : Vec n K) (e : Fin n) (s : Int) (t : Nat) :
    SpecN.run (p.sh e s) N filt (fun d => shN e s (GC d)) t (shN e s psi0) = shN e s (SpecN.run p N filt GC t psi0) := by
  induction t with
  | zero => rfl
  | succ t ih => unfold SpecN.run SpecN.step; rw [ih]; exact (passesN_sh hF _ GC e s _).1

theorem translation_cycN {c c' : CfgN n K} {p : SpecN.Par n K} {P : Fin n → Nat} {ds ds' : List (Fin n)} (e : Fin n) (s : Int)
    (h : CyclicSetupN c p P ds) (h' : CyclicSetupN c' (p.sh e s) P ds') (hF : FGood p.o p.F) (hni : c'.nIters = c.nIters)
    (hn : 1 ≤ c.nIters) (hx : HaloCovered c.o c.nIters) (filt : Nat → Bool) {psi0 : Sca n K} {GC : Vec n K} (h0 : PeriodicN P psi0) (hg : ∀ d, PeriodicN P (GC d))
    (m m' : MemN n K) (hpsi : ∀ x, InGrid P x → m.psi x = psi0 x) (hGC : ∀ d x, InFaces P d x → m.GC d x = GC d x)
    (hpsi' : ∀ x, InGrid P x → m'.psi x = psi0 (stepIdx x e s)) (hGC' : ∀ d x, InFaces P d x → m'.GC d x = GC d (stepIdx x e s)) (t : Nat)
    (x y : Idx n) (hxg : InGrid P x) (hyg : InGrid P y) (q : Int) (hxy : y = stepIdx x e (s + q * P e)) :
    (runProgN c' filt t { m' with GC := prepGC c' (solverHalo c'.o) m'.GC }).psi x = (runProgN c filt t { m with GC := prepGC c (solverHalo c.o) m.GC }).psi y := by
  have hper : ∀ a : Sca n K, PeriodicN P a → PeriodicN P (shN e s a) := fun a ha x d => by
    unfold shN; rw [stepIdx_comm]; exact ha _ _
  rw [cycN_run h hF hn hx filt h0 hg m hpsi hGC t y hyg]
  have ho : c'.o = c.o := by rw [h'.ho, h.ho]; rfl
  rw [cycN_run h' (psi0 := shN e s psi0) (GC := fun d => shN e s (GC d)) hF (by omega) (by rw [ho, hni]; exact hx) filt (hper _ h0) (fun d => hper _ (hg d)) m' hpsi' hGC' t x hxg,
    hni, runN_sh hF, hxy, ← stepIdx_add]
  exact ((specN_run_periodic hF h.par c.nIters filt h0 hg t).mul (stepIdx x e s) e q).symm

/-- C19 (translation), 2-D: two cyclic solvers with the same options whose fields, Courant numbers and static arrays differ by a translation by `s` cells along dimension `e`
give, after any number of steps, results that differ by the same translation (modulo the period). Translations along several dimensions are compositions of these.
Partial: the divergence-form options with three or more passes and no fct are excluded. -/
theorem C19_translation_2d_partial (c c' : CfgN 2 K) (p : SpecN.Par 2 K) (P : Fin 2 → Nat) (e : Fin 2) (s : Int) (h : Solver2 c p P) (h' : Solver2 c' (p.sh e s) P)
    (hni : c'.nIters = c.nIters) (hn : 1 ≤ c.nIters) (hx : HaloCovered c.o c.nIters) (filt : Nat → Bool) (psi0 : Sca 2 K) (GC : Vec 2 K) (h0 : PeriodicN P psi0)
    (hg : ∀ d, PeriodicN P (GC d)) (m m' : MemN 2 K) (hpsi : ∀ x, InGrid P x → m.psi x = psi0 x) (hGC : ∀ d x, InFaces P d x → m.GC d x = GC d x)
    (hpsi' : ∀ x, InGrid P x → m'.psi x = psi0 (stepIdx x e s)) (hGC' : ∀ d x, InFaces P d x → m'.GC d x = GC d (stepIdx x e s)) (t : Nat)
    (x y : Idx 2) (hxg : InGrid P x) (hyg : InGrid P y) (q : Int) (hxy : y = stepIdx x e (s + q * P e)) :
    (runProgN c' filt t { m' with GC := prepGC c' (solverHalo c'.o) m'.GC }).psi x = (runProgN c filt t { m with GC := prepGC c (solverHalo c.o) m.GC }).psi y :=
  translation_cycN e s h.setup h'.setup h.good hni hn hx filt h0 hg m m' hpsi hGC hpsi' hGC' t x y hxg hyg q hxy

/-- C19 (translation), 3-D. Partial: the divergence-form options with three or more passes and no fct are excluded. -/
theorem C19_translation_3d_partial (c c' : CfgN 3 K) (p : SpecN.Par 3 K) (P : Fin 3 → Nat) (e : Fin 3) (s : Int) (h : Solver3 c p P) (h' : Solver3 c' (p.sh e s) P)
    (hni : c'.nIters = c.nIters) (hn : 1 ≤ c.nIters) (hx : HaloCovered c.o c.nIters) (filt : Nat → Bool) (psi0 : Sca 3 K) (GC : Vec 3 K) (h0 : PeriodicN P psi0)
    (hg : ∀ d, PeriodicN P (GC d)) (m m' : MemN 3 K) (hpsi : ∀ x, InGrid P x → m.psi x = psi0 x) (hGC : ∀ d x, InFaces P d x → m.GC d x = GC d x)
    (hpsi' : ∀ x, InGrid P x → m'.psi x = psi0 (stepIdx x e s)) (hGC' : ∀ d x, InFaces P d x → m'.GC d x = GC d (stepIdx x e s)) (t : Nat)
    (x y : Idx 3) (hxg : InGrid P x) (hyg : InGrid P y) (q : Int) (hxy : y = stepIdx x e (s + q * P e)) :
    (runProgN c' filt t { m' with GC := prepGC c' (solverHalo c'.o) m'.GC }).psi x = (runProgN c filt t { m with GC := prepGC c (solverHalo c.o) m.GC }).psi y :=
  translation_cycN e s h.setup h'.setup h.good hni hn hx filt h0 hg m m' hpsi hGC hpsi' hGC' t x y hxg hyg q hxy

/-! ## Sign -/

theorem makeFluxN_neg (o : OptsT) (psi : Sca n K) (A : Vec n K) : makeFluxN o (fun x => -psi x) A = fun d x => -makeFluxN o psi A d x := by
  funext d x; exact donorF_neg _ _ _ _

theorem donorN_neg {o : OptsT} {F : Formulae n K} (hF : FGood o F) (psi : Sca n K) (flx : Vec n K) (G : Sca n K) :
    F.donor (fun x => -psi x) (fun d x => -flx d x) G = fun x => -F.donor psi flx G x := by
  funext x
  rw [hF.donor_eq, hF.donor_eq]
  have : ∑ d, (-flx d (stepIdx x d (-1)) - -flx d x) = -∑ d, (flx d (stepIdx x d (-1)) - flx d x) := by
    rw [← Finset.sum_neg_distrib]; exact Finset.sum_congr rfl fun d _ => by ring
  rw [this]; ring

theorem nbMax_neg (psi : Sca n K) (x : Idx n) : nbMax (fun x => -psi x) x = -nbMin psi x := by
  unfold nbMax nbMin
  have : ∀ (l : List (Fin n)) (a : K), l.foldl (fun m d => max (max m (-psi (stepIdx x d 1))) (-psi (stepIdx x d (-1)))) (-a)
      = -l.foldl (fun m d => min (min m (psi (stepIdx x d 1))) (psi (stepIdx x d (-1)))) a := by
    intro l; induction l with
    | nil => intro a; rfl
    | cons d l ih => intro a; rw [List.foldl_cons, List.foldl_cons, max_neg_neg, max_neg_neg, ih]
  exact this _ _
theorem nbMin_neg (psi : Sca n K) (x : Idx n) : nbMin (fun x => -psi x) x = -nbMax psi x := by
  have := nbMax_neg (fun x => -psi x) x
  simp only [neg_neg] at this
  rw [this, neg_neg]

theorem betaUpN_neg (o : OptsT) (eps : K) (psi psi0 : Sca n K) (flx : Vec n K) (G : Sca n K) (x : Idx n) :
    betaUpN o eps (fun x => -psi x) (nbMax fun x => -psi0 x) (fun d x => -flx d x) G x = betaDnN o eps psi (nbMin psi0) flx G x := by
  unfold betaUpN betaDnN
  rw [nbMax_neg, nbMax_neg, max_neg_neg]
  congr 1
  · ring
  · refine Finset.sum_congr rfl fun d _ => ?_
    simp only [pospart_eq, negpart_eq]
    have e1 : ∀ x : K, max 0 (-x) = -min 0 x := fun x => by rw [← max_neg_neg, neg_zero]
    have e2 : ∀ x : K, min 0 (-x) = -max 0 x := fun x => by rw [← min_neg_neg, neg_zero]
    rw [e1, e2]; ring
theorem betaDnN_neg (o : OptsT) (eps : K) (psi psi0 : Sca n K) (flx : Vec n K) (G : Sca n K) (x : Idx n) :
    betaDnN o eps (fun x => -psi x) (nbMin fun x => -psi0 x) (fun d x => -flx d x) G x = betaUpN o eps psi (nbMax psi0) flx G x := by
  have := betaUpN_neg o eps (fun x => -psi x) (fun x => -psi0 x) (fun d x => -flx d x) G x
  simp only [neg_neg] at this
  exact this.symm

theorem correctiveN_neg {p : SpecN.Par n K} (hF : FGood p.o p.F) (ha : isset p.o oAbs = true) (higa : isset p.o oIga = false)
    (hg : ∀ x, 0 < gFacN p.o p.st.G x) (he : 0 ≤ p.eps) (psi0 psi : Sca n K) (A : Vec n K) :
    SpecN.corrective p (fun x => -psi0 x) (fun x => -psi x) A = fun x => -SpecN.corrective p psi0 psi A x := by
  unfold SpecN.corrective
  simp only [higa, Bool.false_eq_true, if_false]
  by_cases hf : isset p.o oFct = true
  · simp only [hf, if_true]
    rw [← donorN_neg hF]
    congr 1
    funext d x
    unfold makeFluxN
    rw [limitedN_eq, limitedN_eq]
    have hr : rawFluxN p (fun x => -psi x) A = fun d x => -rawFluxN p psi A d x := by
      unfold rawFluxN; simp only [higa, Bool.false_eq_true, if_false]; exact makeFluxN_neg _ _ _
    rw [hr]
    simp only [betaUpN_neg, betaDnN_neg]
    rcases mono_neg p.o ha higa (psi x) (psi (stepIdx x d 1)) (betaUpN p.o p.eps psi (nbMax psi0) (rawFluxN p psi A) p.st.G x)
      (betaDnN p.o p.eps psi (nbMin psi0) (rawFluxN p psi A) p.st.G x) (betaUpN p.o p.eps psi (nbMax psi0) (rawFluxN p psi A) p.st.G (stepIdx x d 1))
      (betaDnN p.o p.eps psi (nbMin psi0) (rawFluxN p psi A) p.st.G (stepIdx x d 1)) (A d x) with h | h
    · exact h
    · exact absurd ⟨betaUpN_nonneg _ _ _ _ _ (hg _) he, betaDnN_nonneg _ _ _ _ _ (hg _) he, betaUpN_nonneg _ _ _ _ _ (hg _) he, betaDnN_nonneg _ _ _ _ _ (hg _) he⟩ h
  · simp only [hf]
    rw [← donorN_neg hF, ← makeFluxN_neg]; rfl

/-- velocities that do not see the sign of the field -/
def EvenVel (F : Formulae n K) : Prop :=
  ∀ d (st : Stat n K) psi old U, F.vel d st (fun x => -psi x) (fun x => -old x) U = F.vel d st psi old U

theorem passesN_neg {p : SpecN.Par n K} (hF : FGood p.o p.F) (hE : EvenVel p.F) (ha : isset p.o oAbs = true) (higa : isset p.o oIga = false)
    (hg : ∀ x, 0 < gFacN p.o p.st.G x) (he : 0 ≤ p.eps) (psi0 : Sca n K) (GC : Vec n K) (k : Nat) :
    SpecN.passes p (fun x => -psi0 x) GC k = ⟨fun x => -(SpecN.passes p psi0 GC k).psi x, fun x => -(SpecN.passes p psi0 GC k).old x, (SpecN.passes p psi0 GC k).U⟩ := by
  induction k with
  | zero => simp only [SpecN.passes, SpecN.first, makeFluxN_neg, donorN_neg hF]
  | succ k ih =>
    simp only [SpecN.passes, ih]
    have hv : SpecN.velocity p (fun x => -(SpecN.passes p psi0 GC k).psi x) (fun x => -(SpecN.passes p psi0 GC k).old x) (SpecN.passes p psi0 GC k).U
        = SpecN.velocity p (SpecN.passes p psi0 GC k).psi (SpecN.passes p psi0 GC k).old (SpecN.passes p psi0 GC k).U := by
      funext d; exact hE _ _ _ _ _
    rw [hv, correctiveN_neg hF ha higa hg he]

theorem sign_cycN {c : CfgN n K} {p : SpecN.Par n K} {P : Fin n → Nat} {ds : List (Fin n)} (h : CyclicSetupN c p P ds) (hF : FGood p.o p.F) (hE : EvenVel p.F)
    (ha : isset p.o oAbs = true) (higa : isset p.o oIga = false) (hG : ∀ x, 0 < gFacN p.o p.st.G x) (he : 0 ≤ p.eps)
    (hn : 1 ≤ c.nIters) (hx : HaloCovered c.o c.nIters) (filt : Nat → Bool) {psi0 : Sca n K} {GC : Vec n K} (h0 : PeriodicN P psi0) (hg : ∀ d, PeriodicN P (GC d))
    (m m' : MemN n K) (hpsi : ∀ x, InGrid P x → m.psi x = psi0 x) (hGC : ∀ d x, InFaces P d x → m.GC d x = GC d x)
    (hpsi' : ∀ x, InGrid P x → m'.psi x = -m.psi x) (hGC' : ∀ d x, InFaces P d x → m'.GC d x = m.GC d x) (t : Nat) (x : Idx n) (hxg : InGrid P x) :
    (runProgN c filt t { m' with GC := prepGC c (solverHalo c.o) m'.GC }).psi x = -(runProgN c filt t { m with GC := prepGC c (solverHalo c.o) m.GC }).psi x := by
  rw [cycN_run h hF hn hx filt h0 hg m hpsi hGC t x hxg,
    cycN_run h (psi0 := fun x => -psi0 x) hF hn hx filt (fun x d => by simp only; rw [h0 x d]) hg m' (fun x hx => by rw [hpsi' x hx, hpsi x hx])
      (fun d x hx => by rw [hGC' d x hx, hGC d x hx]) t x hxg]
  have : ∀ t, SpecN.run p c.nIters filt GC t (fun x => -psi0 x) = fun x => -SpecN.run p c.nIters filt GC t psi0 x := by
    intro t
    induction t with
    | zero => rfl
    | succ t ih =>
      unfold SpecN.run SpecN.step
      rw [ih, passesN_neg hF hE ha higa hG he]
  rw [this]

/-- C19 (sign), 2-D: with the variable-sign option the cyclic run started from the negated field gives the negated result, with or without fct, tot, dfl and the
divergence-form options, for any number of passes, steps, positive G and advector. `hfot`: the fourth-order option needs the infinite gauge (static_assert), which excludes
`abs`. Partial: the divergence-form options with three or more passes and no fct are excluded. -/
theorem C19_sign_2d_partial (c : CfgN 2 K) (p : SpecN.Par 2 K) (P : Fin 2 → Nat) (h : Solver2 c p P) (ha : isset p.o oAbs = true) (higa : isset p.o oIga = false)
    (hfot : isset p.o oFot = false) (hG : ∀ x, 0 < gFacN p.o p.st.G x) (he : 0 ≤ p.eps)
    (hn : 1 ≤ c.nIters) (hx : HaloCovered c.o c.nIters) (filt : Nat → Bool) (psi0 : Sca 2 K) (GC : Vec 2 K) (h0 : PeriodicN P psi0) (hg : ∀ d, PeriodicN P (GC d))
    (m m' : MemN 2 K) (hpsi : ∀ x, InGrid P x → m.psi x = psi0 x) (hGC : ∀ d x, InFaces P d x → m.GC d x = GC d x)
    (hpsi' : ∀ x, InGrid P x → m'.psi x = -m.psi x) (hGC' : ∀ d x, InFaces P d x → m'.GC d x = m.GC d x) (t : Nat) (x : Idx 2) (hxg : InGrid P x) :
    (runProgN c filt t { m' with GC := prepGC c (solverHalo c.o) m'.GC }).psi x = -(runProgN c filt t { m with GC := prepGC c (solverHalo c.o) m.GC }).psi x := by
  refine sign_cycN h.setup h.good ?_ ha higa hG he hn hx filt h0 hg m m' hpsi hGC hpsi' hGC' t x hxg
  obtain ⟨si, te, tiny, hF⟩ := h.form
  intro d st psi old U
  funext x
  rw [hF]
  exact antidiff2_neg ha higa hfot si te tiny _ _ _ _ _ _ _ _ 0 0

/-- C19 (sign), 3-D. Partial: the divergence-form options with three or more passes and no fct are excluded. -/
theorem C19_sign_3d_partial (c : CfgN 3 K) (p : SpecN.Par 3 K) (P : Fin 3 → Nat) (h : Solver3 c p P) (ha : isset p.o oAbs = true) (higa : isset p.o oIga = false)
    (hfot : isset p.o oFot = false) (hG : ∀ x, 0 < gFacN p.o p.st.G x) (he : 0 ≤ p.eps)
    (hn : 1 ≤ c.nIters) (hx : HaloCovered c.o c.nIters) (filt : Nat → Bool) (psi0 : Sca 3 K) (GC : Vec 3 K) (h0 : PeriodicN P psi0) (hg : ∀ d, PeriodicN P (GC d))
    (m m' : MemN 3 K) (hpsi : ∀ x, InGrid P x → m.psi x = psi0 x) (hGC : ∀ d x, InFaces P d x → m.GC d x = GC d x)
    (hpsi' : ∀ x, InGrid P x → m'.psi x = -m.psi x) (hGC' : ∀ d x, InFaces P d x → m'.GC d x = m.GC d x) (t : Nat) (x : Idx 3) (hxg : InGrid P x) :
    (runProgN c filt t { m' with GC := prepGC c (solverHalo c.o) m'.GC }).psi x = -(runProgN c filt t { m with GC := prepGC c (solverHalo c.o) m.GC }).psi x := by
  refine sign_cycN h.setup h.good ?_ ha higa hG he hn hx filt h0 hg m m' hpsi hGC hpsi' hGC' t x hxg
  obtain ⟨si, te, tiny, hF⟩ := h.form
  intro d st psi old U
  funext x
  rw [hF]
  exact antidiff3_neg ha higa hfot si te tiny _ _ _ _ _ _ _ _ _ _ 0 0 0

/-! ## Infinite gauge -/

/-- velocities linear in the pair (field, previous field) -/
def LinVel (F : Formulae n K) : Prop :=
  ∀ d (st : Stat n K) (a b : K) (x y x' y' : Sca n K) U z,
    F.vel d st (fun i => a * x i + b * y i) (fun i => a * x' i + b * y' i) U z = a * F.vel d st x x' U z + b * F.vel d st y y' U z

theorem makeFluxN_lin (o : OptsT) (a b : K) (x y : Sca n K) (A : Vec n K) :
    makeFluxN o (fun i => a * x i + b * y i) A = fun d i => a * makeFluxN o x A d i + b * makeFluxN o y A d i := by
  funext d i; unfold makeFluxN donorF; ring

theorem donorN_lin {o : OptsT} {F : Formulae n K} (hF : FGood o F) (a b : K) (x y : Sca n K) (f g : Vec n K) (G : Sca n K) :
    F.donor (fun i => a * x i + b * y i) (fun d i => a * f d i + b * g d i) G = fun i => a * F.donor x f G i + b * F.donor y g G i := by
  funext i
  simp only [hF.donor_eq]
  have : ∑ d, (a * f d (stepIdx i d (-1)) + b * g d (stepIdx i d (-1)) - (a * f d i + b * g d i))
      = a * ∑ d, (f d (stepIdx i d (-1)) - f d i) + b * ∑ d, (g d (stepIdx i d (-1)) - g d i) := by
    rw [Finset.mul_sum, Finset.mul_sum, ← Finset.sum_add_distrib]
    exact Finset.sum_congr rfl fun d _ => by ring
  rw [this]; ring

theorem stepN_lin {p : SpecN.Par n K} (hF : FGood p.o p.F) (hL : LinVel p.F) (higa : isset p.o oIga = true) (hf : isset p.o oFct = false)
    (N : Nat) (hN : N ≤ 2) (a b : K) (x y : Sca n K) (GC : Vec n K) :
    SpecN.step p N (fun i => a * x i + b * y i) GC = fun i => a * SpecN.step p N x GC i + b * SpecN.step p N y GC i := by
  have h1 : SpecN.first p (fun i => a * x i + b * y i) GC = fun i => a * SpecN.first p x GC i + b * SpecN.first p y GC i := by
    unfold SpecN.first; rw [makeFluxN_lin, donorN_lin hF]
  unfold SpecN.step
  rcases Nat.lt_or_ge N 2 with h | h
  · rw [show N - 1 = 0 by omega]; exact h1
  · rw [show N - 1 = 1 by omega]
    simp only [SpecN.passes, SpecN.corrective, hf, higa, Bool.false_eq_true, if_false, if_true, h1]
    have hv : SpecN.velocity p (fun i => a * SpecN.first p x GC i + b * SpecN.first p y GC i) (fun i => a * x i + b * y i) GC
        = fun d i => a * SpecN.velocity p (SpecN.first p x GC) x GC d i + b * SpecN.velocity p (SpecN.first p y GC) y GC d i := by
      funext d i; exact hL _ _ _ _ _ _ _ _ _ _
    rw [hv, donorN_lin hF]

theorem linear_cycN {c : CfgN n K} {p : SpecN.Par n K} {P : Fin n → Nat} {ds : List (Fin n)} (h : CyclicSetupN c p P ds) (hF : FGood p.o p.F) (hL : LinVel p.F)
    (higa : isset p.o oIga = true) (hf : isset p.o oFct = false) (hn : 1 ≤ c.nIters) (hn2 : c.nIters ≤ 2) (filt : Nat → Bool)
    {x0 y0 : Sca n K} {GC : Vec n K} (h0 : PeriodicN P x0) (h0' : PeriodicN P y0) (hg : ∀ d, PeriodicN P (GC d)) (a b : K) (mx my m : MemN n K)
    (hpx : ∀ x, InGrid P x → mx.psi x = x0 x) (hpy : ∀ x, InGrid P x → my.psi x = y0 x) (hp : ∀ x, InGrid P x → m.psi x = a * mx.psi x + b * my.psi x)
    (hGx : ∀ d x, InFaces P d x → mx.GC d x = GC d x) (hGy : ∀ d x, InFaces P d x → my.GC d x = GC d x) (hGm : ∀ d x, InFaces P d x → m.GC d x = GC d x)
    (t : Nat) (x : Idx n) (hxg : InGrid P x) :
    (runProgN c filt t { m with GC := prepGC c (solverHalo c.o) m.GC }).psi x = a * (runProgN c filt t { mx with GC := prepGC c (solverHalo c.o) mx.GC }).psi x
      + b * (runProgN c filt t { my with GC := prepGC c (solverHalo c.o) my.GC }).psi x := by
  have hx : HaloCovered c.o c.nIters := .inl hn2
  rw [cycN_run h hF hn hx filt h0 hg mx hpx hGx t x hxg, cycN_run h hF hn hx filt h0' hg my hpy hGy t x hxg,
    cycN_run h (psi0 := fun i => a * x0 i + b * y0 i) hF hn hx filt (fun x d => by simp only; rw [h0 x d, h0' x d]) hg m
      (fun x hx => by rw [hp x hx, hpx x hx, hpy x hx]) hGm t x hxg]
  have : ∀ t, SpecN.run p c.nIters filt GC t (fun i => a * x0 i + b * y0 i) = fun i => a * SpecN.run p c.nIters filt GC t x0 i + b * SpecN.run p c.nIters filt GC t y0 i := by
    intro t
    induction t with
    | zero => rfl
    | succ t ih =>
      unfold SpecN.run
      rw [ih, stepN_lin hF hL higa hf _ (by split <;> omega)]
  rw [this]

theorem linVel2 {o : OptsT} (ha : isset o oAbs = false) (higa : isset o oIga = true) (si : SptlIntrp) (te : TmprlExtrp) (tiny : K) : LinVel (formulae2 o si te tiny) := by
  intro d st a b x y x' y' U z
  exact antidiff2_lin ha higa si te tiny _ _ _ _ _ _ 0 0 a b (view2 d z x) (view2 d z y) (view2 d z x') (view2 d z y')
theorem linVel3 {o : OptsT} (ha : isset o oAbs = false) (higa : isset o oIga = true) (si : SptlIntrp) (te : TmprlExtrp) (tiny : K) : LinVel (formulae3 o si te tiny) := by
  intro d st a b x y x' y' U z
  exact antidiff3_lin ha higa si te tiny _ _ _ _ _ _ _ _ 0 0 0 a b (view3 d z x) (view3 d z y) (view3 d z x') (view3 d z y')

/-- C19 (linearity), 2-D: with the infinite gauge and without fct, runs of any number of steps are linear in the initial field: the run of `a·x + b·y` is `a` times the run of
`x` plus `b` times the run of `y`, for every advector and option set. One or two passes is all the program allows with that option. -/
theorem C19_iga_linear_2d (c : CfgN 2 K) (p : SpecN.Par 2 K) (P : Fin 2 → Nat) (h : Solver2 c p P) (ha : isset p.o oAbs = false) (higa : isset p.o oIga = true)
    (hf : isset p.o oFct = false) (hn : 1 ≤ c.nIters) (hn2 : c.nIters ≤ 2) (filt : Nat → Bool)
    (x0 y0 : Sca 2 K) (GC : Vec 2 K) (h0 : PeriodicN P x0) (h0' : PeriodicN P y0) (hg : ∀ d, PeriodicN P (GC d)) (a b : K) (mx my m : MemN 2 K)
    (hpx : ∀ x, InGrid P x → mx.psi x = x0 x) (hpy : ∀ x, InGrid P x → my.psi x = y0 x) (hp : ∀ x, InGrid P x → m.psi x = a * mx.psi x + b * my.psi x)
    (hGx : ∀ d x, InFaces P d x → mx.GC d x = GC d x) (hGy : ∀ d x, InFaces P d x → my.GC d x = GC d x) (hGm : ∀ d x, InFaces P d x → m.GC d x = GC d x)
    (t : Nat) (x : Idx 2) (hxg : InGrid P x) :
    (runProgN c filt t { m with GC := prepGC c (solverHalo c.o) m.GC }).psi x = a * (runProgN c filt t { mx with GC := prepGC c (solverHalo c.o) mx.GC }).psi x
      + b * (runProgN c filt t { my with GC := prepGC c (solverHalo c.o) my.GC }).psi x := by
  refine linear_cycN h.setup h.good ?_ higa hf hn hn2 filt h0 h0' hg a b mx my m hpx hpy hp hGx hGy hGm t x hxg
  obtain ⟨si, te, tiny, hF⟩ := h.form
  rw [hF]; exact linVel2 ha higa si te tiny

/-- C19 (linearity), 3-D. -/
theorem C19_iga_linear_3d (c : CfgN 3 K) (p : SpecN.Par 3 K) (P : Fin 3 → Nat) (h : Solver3 c p P) (ha : isset p.o oAbs = false) (higa : isset p.o oIga = true)
    (hf : isset p.o oFct = false) (hn : 1 ≤ c.nIters) (hn2 : c.nIters ≤ 2) (filt : Nat → Bool)
    (x0 y0 : Sca 3 K) (GC : Vec 3 K) (h0 : PeriodicN P x0) (h0' : PeriodicN P y0) (hg : ∀ d, PeriodicN P (GC d)) (a b : K) (mx my m : MemN 3 K)
    (hpx : ∀ x, InGrid P x → mx.psi x = x0 x) (hpy : ∀ x, InGrid P x → my.psi x = y0 x) (hp : ∀ x, InGrid P x → m.psi x = a * mx.psi x + b * my.psi x)
    (hGx : ∀ d x, InFaces P d x → mx.GC d x = GC d x) (hGy : ∀ d x, InFaces P d x → my.GC d x = GC d x) (hGm : ∀ d x, InFaces P d x → m.GC d x = GC d x)
    (t : Nat) (x : Idx 3) (hxg : InGrid P x) :
    (runProgN c filt t { m with GC := prepGC c (solverHalo c.o) m.GC }).psi x = a * (runProgN c filt t { mx with GC := prepGC c (solverHalo c.o) mx.GC }).psi x
      + b * (runProgN c filt t { my with GC := prepGC c (solverHalo c.o) my.GC }).psi x := by
  refine linear_cycN h.setup h.good ?_ higa hf hn hn2 filt h0 h0' hg a b mx my m hpx hpy hp hGx hGy hGm t x hxg
  obtain ⟨si, te, tiny, hF⟩ := h.form
  rw [hF]; exact linVel3 ha higa si te tiny

/-! ### gauge: adding a constant -/

theorem nbMax_shift (psi : Sca n K) (s : K) (x : Idx n) : nbMax (fun x => psi x + s) x = nbMax psi x + s := by
  unfold nbMax
  have : ∀ (l : List (Fin n)) (a : K), l.foldl (fun m d => max (max m (psi (stepIdx x d 1) + s)) (psi (stepIdx x d (-1)) + s)) (a + s)
      = l.foldl (fun m d => max (max m (psi (stepIdx x d 1))) (psi (stepIdx x d (-1)))) a + s := by
    intro l; induction l with
    | nil => intro a; rfl
    | cons d l ih => intro a; rw [List.foldl_cons, List.foldl_cons, max_add_add_right, max_add_add_right, ih]
  exact this _ _
theorem nbMin_shift (psi : Sca n K) (s : K) (x : Idx n) : nbMin (fun x => psi x + s) x = nbMin psi x + s := by
  unfold nbMin
  have : ∀ (l : List (Fin n)) (a : K), l.foldl (fun m d => min (min m (psi (stepIdx x d 1) + s)) (psi (stepIdx x d (-1)) + s)) (a + s)
      = l.foldl (fun m d => min (min m (psi (stepIdx x d 1))) (psi (stepIdx x d (-1)))) a + s := by
    intro l; induction l with
    | nil => intro a; rfl
    | cons d l ih => intro a; rw [List.foldl_cons, List.foldl_cons, min_add_add_right, min_add_add_right, ih]
  exact this _ _

theorem limitedN_shift {p : SpecN.Par n K} (higa : isset p.o oIga = true) (psi0 psi : Sca n K) (A : Vec n K) (s : K) :
    SpecN.limited p (fun x => psi0 x + s) (fun x => psi x + s) A = SpecN.limited p psi0 psi A := by
  have hr : ∀ f : Sca n K, rawFluxN p f A = A := fun f => by unfold rawFluxN; simp [higa]
  funext d x
  rw [limitedN_eq, limitedN_eq, hr, hr]
  have eu : ∀ y, betaUpN p.o p.eps (fun x => psi x + s) (nbMax fun x => psi0 x + s) A p.st.G y = betaUpN p.o p.eps psi (nbMax psi0) A p.st.G y := by
    intro y; unfold betaUpN; simp only [nbMax_shift, max_add_add_right, add_sub_add_right_eq_sub]
  have ed : ∀ y, betaDnN p.o p.eps (fun x => psi x + s) (nbMin fun x => psi0 x + s) A p.st.G y = betaDnN p.o p.eps psi (nbMin psi0) A p.st.G y := by
    intro y; unfold betaDnN; simp only [nbMin_shift, min_add_add_right, add_sub_add_right_eq_sub]
  simp only [eu, ed]
  unfold monoCoef
  simp [higa]

theorem stepN_shift {p : SpecN.Par n K} (hF : FGood p.o p.F) (hL : LinVel p.F) (higa : isset p.o oIga = true)
    (N : Nat) (hN : N ≤ 2) (x : Sca n K) (GC : Vec n K) (hd : ∀ x, divN GC x = 0) (hc : ∀ d x, p.F.vel d p.st (fun _ => 1) (fun _ => 1) GC x = 0) (s : K) :
    SpecN.step p N (fun i => x i + s) GC = fun i => SpecN.step p N x GC i + s := by
  have e : ∀ z : Sca n K, (fun i => z i + s) = fun i => 1 * z i + s * (fun _ => (1 : K)) i := fun z => by funext i; ring
  have h1 : SpecN.first p (fun i => x i + s) GC = fun i => SpecN.first p x GC i + s := by
    have hc1 := donorN_const hF p.st.G 1 GC hd
    rw [e]; unfold SpecN.first; rw [makeFluxN_lin, donorN_lin hF, hc1]; funext i; ring
  unfold SpecN.step
  rcases Nat.lt_or_ge N 2 with h | h
  · rw [show N - 1 = 0 by omega]; exact h1
  · rw [show N - 1 = 1 by omega]
    simp only [SpecN.passes, SpecN.corrective, higa, if_true, h1]
    have hv : SpecN.velocity p (fun i => SpecN.first p x GC i + s) (fun i => x i + s) GC = SpecN.velocity p (SpecN.first p x GC) x GC := by
      funext d i
      rw [e, e]
      exact (hL _ _ _ _ _ _ _ _ _ _).trans (by rw [hc]; simp [SpecN.velocity])
    rw [hv, limitedN_shift higa]
    funext i
    rw [hF.donor_eq, hF.donor_eq]; ring

theorem shift_cycN {c : CfgN n K} {p : SpecN.Par n K} {P : Fin n → Nat} {ds : List (Fin n)} (h : CyclicSetupN c p P ds) (hF : FGood p.o p.F) (hL : LinVel p.F)
    (higa : isset p.o oIga = true) (hn : 1 ≤ c.nIters) (hn2 : c.nIters ≤ 2) (filt : Nat → Bool)
    {x0 : Sca n K} {GC : Vec n K} (h0 : PeriodicN P x0) (hg : ∀ d, PeriodicN P (GC d)) (hd : ∀ x, divN GC x = 0)
    (hc : ∀ d x, p.F.vel d p.st (fun _ => 1) (fun _ => 1) GC x = 0) (s : K) (m m' : MemN n K)
    (hp : ∀ x, InGrid P x → m.psi x = x0 x) (hp' : ∀ x, InGrid P x → m'.psi x = m.psi x + s)
    (hG : ∀ d x, InFaces P d x → m.GC d x = GC d x) (hG' : ∀ d x, InFaces P d x → m'.GC d x = GC d x) (t : Nat) (x : Idx n) (hxg : InGrid P x) :
    (runProgN c filt t { m' with GC := prepGC c (solverHalo c.o) m'.GC }).psi x = (runProgN c filt t { m with GC := prepGC c (solverHalo c.o) m.GC }).psi x + s := by
  have hx : HaloCovered c.o c.nIters := .inl hn2
  rw [cycN_run h hF hn hx filt h0 hg m hp hG t x hxg,
    cycN_run h (psi0 := fun i => x0 i + s) hF hn hx filt (fun x d => by simp only; rw [h0 x d]) hg m' (fun x hx => by rw [hp' x hx, hp x hx]) hG' t x hxg]
  have : ∀ t, SpecN.run p c.nIters filt GC t (fun i => x0 i + s) = fun i => SpecN.run p c.nIters filt GC t x0 i + s := by
    intro t
    induction t with
    | zero => rfl
    | succ t ih =>
      unfold SpecN.run
      rw [ih, stepN_shift hF hL higa _ (by split <;> omega) _ GC hd hc]
  rw [this]

/-- C19 (gauge), 2-D: in a non-divergent flow, uniform or not, with the infinite gauge (with or without fct) adding a constant to the initial field adds it to the result of a
run of any length. Partial: with the third-order divergence-form options only where `ThirdOrderOk`, without which constants are not preserved. -/
theorem C19_iga_shift_2d_partial (c : CfgN 2 K) (p : SpecN.Par 2 K) (P : Fin 2 → Nat) (h : CyclicSetupN c p P [0, 1]) (si : SptlIntrp) (te : TmprlExtrp) (tiny : K)
    (hform : p.F = formulae2 p.o si te tiny) (hfot : isset p.o oFot = true → isset p.o oTot = true ∨ isset p.o oDiv3 = true)
    (ha : isset p.o oAbs = false) (higa : isset p.o oIga = true) (hn : 1 ≤ c.nIters) (hn2 : c.nIters ≤ 2) (filt : Nat → Bool)
    (x0 : Sca 2 K) (GC : Vec 2 K) (h0 : PeriodicN P x0) (hg : ∀ d, PeriodicN P (GC d)) (hd : ∀ x, divN GC x = 0) (h3 : ThirdOrderOk p.o si p.st GC)
    (s : K) (m m' : MemN 2 K) (hp : ∀ x, InGrid P x → m.psi x = x0 x) (hp' : ∀ x, InGrid P x → m'.psi x = m.psi x + s)
    (hG : ∀ d x, InFaces P d x → m.GC d x = GC d x) (hG' : ∀ d x, InFaces P d x → m'.GC d x = GC d x) (t : Nat) (x : Idx 2) (hxg : InGrid P x) :
    (runProgN c filt t { m' with GC := prepGC c (solverHalo c.o) m'.GC }).psi x = (runProgN c filt t { m with GC := prepGC c (solverHalo c.o) m.GC }).psi x + s :=
  have hs : Solver2 c p P := ⟨h, ⟨si, te, tiny, hform⟩, hfot⟩
  shift_cycN h hs.good (hform ▸ linVel2 ha higa si te tiny) higa hn hn2 filt h0 hg hd
    (hform ▸ vel2_const te tiny 1 (fun _ => ha) p.st GC hd h3) s m m' hp hp' hG hG' t x hxg

/-- C19 (gauge), 3-D. Partial: with the third-order divergence-form options only where `ThirdOrderOk`. -/
theorem C19_iga_shift_3d_partial (c : CfgN 3 K) (p : SpecN.Par 3 K) (P : Fin 3 → Nat) (h : CyclicSetupN c p P [1, 0, 2]) (si : SptlIntrp) (te : TmprlExtrp) (tiny : K)
    (hform : p.F = formulae3 p.o si te tiny)
    (ha : isset p.o oAbs = false) (higa : isset p.o oIga = true) (hn : 1 ≤ c.nIters) (hn2 : c.nIters ≤ 2) (filt : Nat → Bool)
    (x0 : Sca 3 K) (GC : Vec 3 K) (h0 : PeriodicN P x0) (hg : ∀ d, PeriodicN P (GC d)) (hd : ∀ x, divN GC x = 0) (h3 : ThirdOrderOk p.o si p.st GC)
    (s : K) (m m' : MemN 3 K) (hp : ∀ x, InGrid P x → m.psi x = x0 x) (hp' : ∀ x, InGrid P x → m'.psi x = m.psi x + s)
    (hG : ∀ d x, InFaces P d x → m.GC d x = GC d x) (hG' : ∀ d x, InFaces P d x → m'.GC d x = GC d x) (t : Nat) (x : Idx 3) (hxg : InGrid P x) :
    (runProgN c filt t { m' with GC := prepGC c (solverHalo c.o) m'.GC }).psi x = (runProgN c filt t { m with GC := prepGC c (solverHalo c.o) m.GC }).psi x + s :=
  have hs : Solver3 c p P := ⟨h, ⟨si, te, tiny, hform⟩⟩
  shift_cycN h hs.good (hform ▸ linVel3 ha higa si te tiny) higa hn hn2 filt h0 hg hd
    (hform ▸ vel3_const te tiny 1 (fun _ => ha) p.st GC hd h3) s m m' hp hp' hG hG' t x hxg

/-- hypotheses met: a flux-corrected three-pass variable-sign solver, its translate, an infinite-gauge fourth-order solver, the vortex flow and a field of both signs -/
example : Solver2 (demo2 (oAbs ||| oFct ||| oTot) 3)
      ⟨oAbs ||| oFct ||| oTot, 1/1000, formulae2 (oAbs ||| oFct ||| oTot) .exact .noextrp (1/1000), ⟨fun _ => 1, fun _ _ => 0, fun _ _ => 0⟩⟩ (fun _ => 4) ∧
    Solver2 (demo2 (oAbs ||| oFct ||| oTot) 3)
      (SpecN.Par.sh ⟨oAbs ||| oFct ||| oTot, 1/1000, formulae2 (oAbs ||| oFct ||| oTot) .exact .noextrp (1/1000), ⟨fun _ => 1, fun _ _ => 0, fun _ _ => 0⟩⟩ 1 3) (fun _ => 4) ∧
    isset (oAbs ||| oFct ||| oTot) oAbs = true ∧ isset (oAbs ||| oFct ||| oTot) oIga = false ∧ isset (oAbs ||| oFct ||| oTot) oFot = false ∧
    Solver2 (demo2 (oIga ||| oTot ||| oFot) 2)
      ⟨oIga ||| oTot ||| oFot, 1/1000, formulae2 (oIga ||| oTot ||| oFot) .exact .noextrp (1/1000), ⟨fun _ => 1, fun _ _ => 0, fun _ _ => 0⟩⟩ (fun _ => 4) ∧
    isset (oIga ||| oTot ||| oFot) oAbs = false ∧ isset (oIga ||| oTot ||| oFot) oIga = true ∧ isset (oIga ||| oTot ||| oFot) oFct = false ∧
    ThirdOrderOk (oIga ||| oTot ||| oFot) .exact (⟨fun _ => 1, fun _ _ => 0, fun _ _ => 0⟩ : Stat 2 ℚ) vortex ∧
    PeriodicN (fun _ => 4) (vortex 0) ∧ (∀ x, divN vortex x = 0) ∧ vortex 0 ![0, 0] = 1/10 ∧ vortex 0 ![0, 1] = -1/10 := by
  refine ⟨⟨⟨rfl, rfl, rfl, fun _ => rfl, fun d => by decide, by decide, rfl, fun _ => rfl, fun _ => rfl, fun _ _ => rfl, fun _ _ _ => rfl, fun _ _ _ => rfl, fun _ _ => rfl,
      fun _ _ _ => rfl, fun _ _ _ => rfl⟩, ⟨_, _, _, rfl⟩, by decide⟩,
    ⟨⟨rfl, rfl, rfl, fun _ => rfl, fun d => by decide, by decide, rfl, fun _ => rfl, fun _ => rfl, fun _ _ => rfl, fun _ _ _ => rfl, fun _ _ _ => rfl, fun _ _ => rfl,
      fun _ _ _ => rfl, fun _ _ _ => rfl⟩, ⟨_, _, _, rfl⟩, by decide⟩, by decide, by decide, by decide,
    ⟨⟨rfl, rfl, rfl, fun _ => rfl, fun d => by decide, by decide, rfl, fun _ => rfl, fun _ => rfl, fun _ _ => rfl, fun _ _ _ => rfl, fun _ _ _ => rfl, fun _ _ => rfl,
      fun _ _ _ => rfl, fun _ _ _ => rfl⟩, ⟨_, _, _, rfl⟩, by decide⟩, by decide, by decide, by decide, fun h => ?_, vortex_periodic 0, vortex_div, by decide +kernel, by decide +kernel⟩
  exact absurd h (by decide)

end Mpdata
