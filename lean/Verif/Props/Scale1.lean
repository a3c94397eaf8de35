import Verif.Props.VarDt
import Verif.Props.Symmetry1
import Verif.Props.Solver
/-! # C07 for the 1-D operator: which option sets make the scaling hint harmless -/
set_option linter.unusedSectionVars false
namespace Mpdata
open Spec1
variable {K : Type} [Field K] [LinearOrder K] [IsStrictOrderedRing K]

theorem frac_scale (o : OptsT) (hp : isset o oPfc = true) (tiny c n d : K) (hc : 0 < c) :
    frac o tiny (c * n) (c * d) = frac o tiny n d := by
  unfold frac
  simp only [hp, if_true]
  by_cases hd : d = 0
  · simp [hd]
  · rw [if_pos (mul_ne_zero hc.ne' hd), if_pos hd, mul_div_mul_left _ _ hc.ne']

theorem frac_scale' (o : OptsT) (hp : isset o oPfc = true) (tiny c n d n' d' : K) (hc : 0 < c) (h1 : n' = c * n) (h2 : d' = c * d) :
    frac o tiny n' d' = frac o tiny n d := by rw [h1, h2, frac_scale o hp tiny c n d hc]

theorem abs_pos_mul (c x : K) (hc : 0 < c) : |c * x| = c * |x| := by rw [abs_mul, abs_of_pos hc]

theorem fdivCentre1_scale (o : OptsT) (c : K) (hc : 0 < c) (psi GC G : Int → K) (i : Int) :
    fdivCentre1 o (fun i => c * psi i) GC G i = c * fdivCentre1 o psi GC G i := by
  unfold fdivCentre1 psiBarX1
  simp only [abs_pos_mul _ _ hc]
  split_ifs <;> ring

theorem velocity_scale (p : Par K) (hp : isset p.o oPfc = true) (higa : isset p.o oIga = false) (c : K) (hc : 0 < c) (psi U : Int → K) :
    velocity p (fun i => c * psi i) U = velocity p psi U := by
  have e1 : ∀ i, ndxPsi1 p.o p.tiny (fun i => c * psi i) i = ndxPsi1 p.o p.tiny psi i := by
    intro i; simp only [ndxPsi1, higa, Bool.false_eq_true, if_false, abs_pos_mul _ _ hc]
    split_ifs <;> rw [frac_scale' p.o hp _ c _ _ _ _ hc] <;> ring
  have e2 : ∀ i, ndxxPsi1 p.o p.tiny (fun i => c * psi i) i = ndxxPsi1 p.o p.tiny psi i := by
    intro i; simp only [ndxxPsi1, higa, Bool.false_eq_true, if_false, abs_pos_mul _ _ hc]
    split_ifs <;> rw [frac_scale' p.o hp _ c _ _ _ _ hc] <;> ring
  have e3 : ∀ U i, nfdiv1 p.o p.tiny (fun i => c * psi i) U p.G i = nfdiv1 p.o p.tiny psi U p.G i := by
    intro U i; simp only [nfdiv1, higa, Bool.false_eq_true, if_false, abs_pos_mul _ _ hc]
    split_ifs <;> rw [frac_scale' p.o hp _ c _ _ _ _ hc] <;> ring
  have e4 : ∀ i, nfdivFdiv1 p.o p.tiny (fun i => c * psi i) U p.G i = nfdivFdiv1 p.o p.tiny psi U p.G i := by
    intro i; simp only [nfdivFdiv1, higa, Bool.false_eq_true, if_false, abs_pos_mul _ _ hc, fdivCentre1_scale _ c hc]
    split_ifs <;> rw [frac_scale' p.o hp _ c _ _ _ _ hc] <;> ring
  have e5 : ∀ i, ndxFdiv1 p.o p.tiny (fun i => c * psi i) U p.G i = ndxFdiv1 p.o p.tiny psi U p.G i := by
    intro i; simp only [ndxFdiv1, higa, Bool.false_eq_true, if_false, abs_pos_mul _ _ hc, fdivCentre1_scale _ c hc]
    split_ifs <;> rw [frac_scale' p.o hp _ c _ _ _ _ hc] <;> ring
  funext i
  simp only [velocity, antidiff1, div2nd1, div3rd1, div3rdUpwind1, div3rdSpatial1, div3rdSpatialHelper1, div3rdTemporal1,
    ndxxGC01, ndttGC01, tot1, dfl1, higa, Bool.false_eq_true, if_false, e1, e2, e3, e4, e5]

theorem makeFlux1_scale (o : OptsT) (c : K) (psi C : Int → K) : makeFlux1 o (fun i => c * psi i) C = fun i => c * makeFlux1 o psi C i := by
  funext i; unfold makeFlux1 donorF; ring

theorem donorStep1_scale (o : OptsT) (c : K) (psi F G : Int → K) :
    donorStep1 o (fun i => c * psi i) (fun i => c * F i) G = fun i => c * donorStep1 o psi F G i := by
  funext i; unfold donorStep1; rw [donorSum1_eq, donorSum1_eq]; ring

theorem passes_scale (p : Par K) (hp : isset p.o oPfc = true) (higa : isset p.o oIga = false) (hf : isset p.o oFct = false)
    (c : K) (hc : 0 < c) (psi0 GC : Int → K) (k : Nat) :
    passes p (fun i => c * psi0 i) GC k = ((fun i => c * (passes p psi0 GC k).1 i), (passes p psi0 GC k).2) := by
  induction k with
  | zero => simp only [passes, first, makeFlux1_scale, donorStep1_scale]
  | succ k ih =>
    simp only [passes, ih, velocity_scale p hp higa c hc, corrective, hf, higa, Bool.false_eq_true, if_false, makeFlux1_scale,
      donorStep1_scale]

/-- C07 (1-D operator): with the exact-zero-division option (pfc) and without fct — or with infinite gauge, at most two passes, no fct —
one advection step of any number of passes gives the same result whether or not the field is scaled by the hint exponent around it. -/
theorem C07_step_unaffected_1d (p : Par K) (hf : isset p.o oFct = false) (n : Nat)
    (h : (isset p.o oPfc = true ∧ isset p.o oIga = false) ∨ (isset p.o oIga = true ∧ isset p.o oAbs = false ∧ n ≤ 2))
    (GC : Int → K) (e : Int) (psi : Int → K) :
    (fun i => scaleBy (-e) (step p n (fun i => scaleBy e (psi i)) GC i)) = step p n psi GC := by
  apply C07_homogeneous_unaffected e (fun psi => step p n psi GC)
  intro c hc f
  rcases h with ⟨hp, higa⟩ | ⟨higa, ha, hn⟩
  · simp only [step, passes_scale p hp higa hf c hc]
  · funext i
    have := C19_iga_linear_1d p higa ha hf n hn c 0 f f GC i
    simpa using this

/-- C07, program level: the cyclic program started from the scaled field, then scaled back, agrees with the unscaled program on the grid. -/
theorem C07_program_unaffected_1d (c : Cfg1 K) (p : Par K) (N : Nat) (h : CyclicSetup c p N) (hf : isset c.o oFct = false)
    (hopt : (isset c.o oPfc = true ∧ isset c.o oIga = false) ∨ (isset c.o oIga = true ∧ isset c.o oAbs = false ∧ c.nIters ≤ 2))
    (hn : 1 ≤ c.nIters) (hx : HaloCovered c.o c.nIters) (filt : Nat → Bool) (hfilt : filt 0 = false) (m m' : Mem1 K) (e : Int)
    (hper : m.psi c.ijk.last = m.psi c.ijk.first)
    (hpsi : ∀ i, c.ijk.first ≤ i → i ≤ c.ijk.last → m'.psi i = scaleBy e (m.psi i))
    (hGC : ∀ i, c.ijk.first ≤ i → i < c.ijk.last → m'.GC i = m.GC i) :
    ∀ i, c.ijk.first ≤ i → i ≤ c.ijk.last →
      scaleBy (-e) ((runProg1 c filt 1 { m' with GC := c.fillV false m'.GC }).psi i)
      = (runProg1 c filt 1 { m with GC := c.fillV false m.GC }).psi i := by
  have hl : c.ijk.last = c.ijk.first + N := by have := h.hN; omega
  have P0 := perExt_periodic c.ijk.first N m.psi
  have G0 := perExt_periodic c.ijk.first N m.GC
  have A0 := perExt_agree' c.ijk.first N m.psi (by rw [← hl]; exact hper)
  have hr := cyc_run h hn hx filt P0 G0 m (by rw [hl]; exact A0) (by rw [hl]; exact perExt_agree _ _ _) 1
  have hr' := cyc_run h hn hx filt (psi0 := fun i => scaleBy e (perExt c.ijk.first N m.psi i)) (fun i => by simp only; rw [P0 i]) G0 m'
    (fun i a b => by rw [hpsi i a b, A0 i a (by omega)])
    (fun i a b => by rw [hGC i a (by omega), perExt_agree c.ijk.first N m.GC i a (by omega)]) 1
  intro i a b
  rw [hr i a b, hr' i a b]
  simp only [Spec1.run, hfilt, Bool.false_eq_true, if_false]
  exact congrFun (C07_step_unaffected_1d p (by rw [← h.ho]; exact hf) c.nIters (by rw [← h.ho]; exact hopt) _ e _) i

/-- C07 for whole runs: take any solver whose halo exchange and passes commute with the power-of-two scaling (fields: any type with
such a scaling). Then after any number of steps every field the user reads is the one computed with all hints set to zero, for
all hint exponents, equation numbers, delayed masks, hooks and iteration counts. In particular hooks always see unscaled fields. -/
theorem C07_run_unaffected {X} (c : Cfg X) (hn : 1 ≤ c.nEqns) (hit : 1 ≤ c.nIters) (hd : DelayedOk c)
    (hz : ∀ x, c.scale 0 x = x) (hinv : ∀ a x, c.scale (-a) (c.scale a x) = x)
    (hx : ∀ a x, c.xchng (c.scale a x) = c.scale a (c.xchng x))
    (hp0 : ∀ ts e a x, c.pass0 ts e (c.scale a x) = c.scale a (c.pass0 ts e x))
    (hp : ∀ ts e it a x y, c.pass ts e it (c.scale a x) (c.scale a y) = c.scale a (c.pass ts e it x y))
    (init : Nat → Nat → X) (k e : Nat) (he : e < c.nEqns) :
    ((oneStep c)^[k] (initSt init)).advectee e
      = ((oneStep { c with hintScale := fun _ => 0 })^[k] (initSt init)).advectee e := by
  rw [C02_advectee_is_newest c hn hit hd, C02_advectee_is_newest { c with hintScale := fun _ => 0 } hn hit hd]
  · have hs : ∀ ts e k it a x y, specIters c ts e k it (c.scale a x) (c.scale a y) = c.scale a (specIters c ts e k it x y) := by
      intro ts e k
      induction k with
      | zero => intro it a x y; rfl
      | succ k ih => intro it a x y; simp only [specIters]; rw [hx, hp, ih]
    have hs' : ∀ ts e k it x y, specIters { c with hintScale := fun _ => 0 } ts e k it x y = specIters c ts e k it x y := by
      intro ts e k
      induction k with
      | zero => intro it x y; rfl
      | succ k ih => intro it x y; simp only [specIters]; rw [ih]
    have ha : ∀ ts e x, advect { c with hintScale := fun _ => 0 } ts e x = advect c ts e x := by
      intro ts e x
      simp only [advect, neg_zero, hz]
      rw [hx, hp0, hs, hinv, hs']
      rfl
    have : ∀ k ts f, specRun c k ts f = specRun { c with hintScale := fun _ => 0 } k ts f := by
      intro k
      induction k with
      | zero => intro ts f; rfl
      | succ k ih => intro ts f; simp only [specRun]; rw [ih]; simp only [specStep, ha]
    rw [this]
  · exact he
  · exact he

/-- the hypotheses are met by fields over the rationals scaled pointwise, with linear kernels -/
example : (∀ x : Int → ℚ, (fun i => scaleBy 0 (x i)) = x) ∧
    (∀ a (x : Int → ℚ), (fun i => scaleBy (-a) (scaleBy a (x i))) = x) ∧
    (∀ a (x : Int → ℚ), (fun i => (scaleBy a (x i) + scaleBy a (x (i + 1))) / 2) = fun i => scaleBy a ((x i + x (i + 1)) / 2)) := by
  refine ⟨fun x => by simp [scaleBy], fun a x => funext fun i => C07_scale_roundtrip a (x i), fun a x => funext fun i => ?_⟩
  obtain ⟨c, _, h⟩ := scaleBy_eq_mul (K := ℚ) a
  rw [h, h, h]; ring

/-- a test field -/
def scaleDemo (i : Int) : ℚ := if i % 4 = 0 then 1 else if i % 4 = 1 then 5 else 2

/-- C07 needs these options: the limiter's denominators contain a fixed `eps`, so with fct the scaling hint changes the result,
and so do the denominators of the antidiffusive velocities without pfc. -/
theorem C07_fails_with_fct_or_without_pfc :
    (scaleBy (-10) ((advance1 (demo1 (oFct ||| oPfc) 2) { demoMem 7 with psi := fun i => scaleBy 10 (scaleDemo i) }).psi 0)
      ≠ (advance1 (demo1 (oFct ||| oPfc) 2) { demoMem 7 with psi := scaleDemo }).psi 0) ∧
    (scaleBy (-10) ((advance1 (demo1 0 2) { demoMem 7 with psi := fun i => scaleBy 10 (scaleDemo i) }).psi 0)
      ≠ (advance1 (demo1 0 2) { demoMem 7 with psi := scaleDemo }).psi 0) := by
  have t : Int.toNat 10 = 10 := rfl
  have e1 : ∀ x : ℚ, scaleBy 10 x = x * (1 / 1024) := by intro x; norm_num [scaleBy, t]; ring
  have e2 : ∀ x : ℚ, scaleBy (-10) x = x * 1024 := by intro x; norm_num [scaleBy, t]
  simp only [e1, e2]
  constructor <;> decide +kernel

end Mpdata
