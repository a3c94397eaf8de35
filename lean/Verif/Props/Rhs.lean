import Verif.Model.Rhs
import Verif.Props.Opts
import Mathlib.Tactic.LinearCombination
/-!
# C30: right-hand sides
-/
set_option linter.unusedSectionVars false
namespace Mpdata
variable {K : Type} [Field K] {X : Type}

theorem isset_bit_eq (m e : Nat) : isset m (bit e) = m.testBit e := by
  unfold isset bit
  rw [Nat.shiftLeft_eq, one_mul]
  cases h : m.testBit e
  · have : m &&& 2 ^ e = 0 := by
      apply Nat.eq_of_testBit_eq; intro i
      rw [Nat.testBit_and, Nat.testBit_two_pow, Nat.zero_testBit]
      by_cases hi : e = i
      · subst hi; simp [h]
      · simp [hi]
    rw [this]; rfl
  · have : (m &&& 2 ^ e).testBit e = true := by
      rw [Nat.testBit_and, Nat.testBit_two_pow, h]; simp
    simp only [bne_iff_ne, ne_eq]
    intro h0
    rw [h0] at this; simp at this

/-- equation `e` has a right-hand side: it exists and its bit in the mask is clear -/
def HasRhs (c : RhsCfg K X) (e : Nat) : Prop := e < c.nEqns ∧ c.norhs.testBit e = false

instance (c : RhsCfg K X) (e : Nat) : Decidable (HasRhs c e) := inferInstanceAs (Decidable (_ ∧ _))

/-- the user's override adds `R psi` to the right-hand-side arrays of the equations that have one (it may do anything with the others) -/
def Adds (c : RhsCfg K X) (R : (Nat → X → K) → Nat → X → K) : Prop :=
  ∀ dt a psi rhs e x, HasRhs c e → c.force dt a psi rhs e x = rhs e x + R psi e x

/-- `psi` plus `w` times `r`, in the equations that have a right-hand side -/
def plusRhs (c : RhsCfg K X) (psi : Nat → X → K) (w : K) (r : Nat → X → K) : Nat → X → K :=
  fun e x => if HasRhs c e then psi e x + w * r e x else psi e x

theorem hasRhs_iff (c : RhsCfg K X) (e : Nat) : (e < c.nEqns ∧ ¬ isset c.norhs (bit e) = true) ↔ HasRhs c e := by
  unfold HasRhs; rw [isset_bit_eq, Bool.not_eq_true]

theorem applyRhs_psi (c : RhsCfg K X) (w : K) (s : RhsSt K X) : (applyRhs c w s).psi = plusRhs c s.psi w s.rhs := by
  funext e x
  simp only [applyRhs, plusRhs, hasRhs_iff]

theorem updateRhs_rhs (c : RhsCfg K X) (R) (hR : Adds c R) (dt : K) (a : Bool) (s : RhsSt K X) (e : Nat) (x : X) (he : HasRhs c e) :
    (updateRhs c dt a s).rhs e x = R s.psi e x := by
  simp only [updateRhs]
  rw [hR _ _ _ _ _ _ he, if_pos ((hasRhs_iff c e).2 he), zero_add]

theorem plusRhs_congr (c : RhsCfg K X) (psi : Nat → X → K) (w : K) (r r' : Nat → X → K)
    (h : ∀ e x, HasRhs c e → r e x = r' e x) : plusRhs c psi w r = plusRhs c psi w r' := by
  funext e x; unfold plusRhs; split_ifs with he
  · rw [h e x he]
  · rfl

theorem rhsRun_succ (c : RhsCfg K X) (sch : Scheme) (dt : K) (n : Nat) (s : RhsSt K X) :
    rhsRun c sch dt (n + 1) s = rhsStep c sch dt (rhsRun c sch dt n s) := by
  unfold rhsRun; rw [Function.iterate_succ_apply']

/-- C30: with `euler_a`, in every step of every run, the new fields are the advected fields plus `dt` times the right-hand side evaluated
at the fields before the step; equations flagged as having no right-hand side are only advected. -/
theorem C30_euler_a (c : RhsCfg K X) (R) (hR : Adds c R) (dt : K) (s : RhsSt K X) (n : Nat) :
    (rhsRun c .eulerA dt (n + 1) s).psi
      = plusRhs c (c.adv (rhsRun c .eulerA dt n s).psi) dt (R (rhsRun c .eulerA dt n s).psi) := by
  rw [rhsRun_succ]
  generalize rhsRun c .eulerA dt n s = t
  simp only [rhsStep, rhsAnteStep, rhsPostStep, applyRhs_psi]
  exact plusRhs_congr _ _ _ _ _ (fun e x he => updateRhs_rhs c R hR _ _ _ e x he)

/-- C30: with `euler_b` the new fields are the advected (fields plus `dt` times the right-hand side at the fields before the step). -/
theorem C30_euler_b (c : RhsCfg K X) (R) (hR : Adds c R) (dt : K) (s : RhsSt K X) (n : Nat) :
    (rhsRun c .eulerB dt (n + 1) s).psi
      = c.adv (plusRhs c (rhsRun c .eulerB dt n s).psi dt (R (rhsRun c .eulerB dt n s).psi)) := by
  rw [rhsRun_succ]
  generalize rhsRun c .eulerB dt n s = t
  simp only [rhsStep, rhsAnteStep, rhsPostStep, applyRhs_psi]
  congr 1
  exact plusRhs_congr _ _ _ _ _ (fun e x he => updateRhs_rhs c R hR _ _ _ e x he)

/-- the trapezoidal scheme as a recurrence on the pair (fields, right-hand side to apply at the start of the next step):
half of the stored right-hand side, advection, new right-hand side evaluated at the advected fields, half of that. -/
def trapSpec (c : RhsCfg K X) (R : (Nat → X → K) → Nat → X → K) (dt : K) (psi0 : Nat → X → K) : Nat → (Nat → X → K) × (Nat → X → K)
  | 0 => (psi0, R psi0)
  | n + 1 =>
    let a := c.adv (plusRhs c (trapSpec c R dt psi0 n).1 (dt / 2) (trapSpec c R dt psi0 n).2)
    (plusRhs c a (dt / 2) (R a), R a)

/-- C30: with `trapez` the fields after any number of steps are those of the recurrence `trapSpec`: half of the right-hand side before
and half of it after advection. -/
theorem C30_trapez (c : RhsCfg K X) (R) (hR : Adds c R) (dt : K) (s : RhsSt K X) (n : Nat) :
    (rhsRun c .trapez dt n s).psi = (trapSpec c R dt s.psi n).1 := by
  suffices h : (rhsRun c .trapez dt n s).psi = (trapSpec c R dt s.psi n).1 ∧
      ∀ e x, HasRhs c e → (rhsRun c .trapez dt n s).rhs e x = (trapSpec c R dt s.psi n).2 e x from h.1
  induction n with
  | zero =>
    refine ⟨rfl, fun e x he => ?_⟩
    show (updateRhs c (dt / 2) false s).rhs e x = _
    rw [updateRhs_rhs c R hR _ _ _ e x he]; rfl
  | succ n ih =>
    rw [rhsRun_succ]
    generalize hg : rhsRun c .trapez dt n s = t at ih
    obtain ⟨h1, h2⟩ := ih
    have ha : (applyRhs c (dt / 2) t).psi = plusRhs c (trapSpec c R dt s.psi n).1 (dt / 2) (trapSpec c R dt s.psi n).2 := by
      rw [applyRhs_psi, h1]; exact plusRhs_congr _ _ _ _ _ h2
    simp only [rhsStep, rhsAnteStep, rhsPostStep]
    constructor
    · rw [applyRhs_psi]
      show plusRhs c (c.adv (applyRhs c (dt / 2) t).psi) _ _ = _
      rw [ha]
      simp only [trapSpec]
      refine plusRhs_congr _ _ _ _ _ (fun e x he => ?_)
      rw [updateRhs_rhs c R hR _ _ _ e x he]
    · intro e x he
      show (updateRhs c (dt / 2) true _).rhs e x = _
      rw [updateRhs_rhs c R hR _ _ _ e x he]
      show R (c.adv (applyRhs c (dt / 2) t).psi) e x = _
      rw [ha]
      rfl

/-- C30: whatever the override writes, an equation flagged as having no right-hand side never receives any: in one step of any scheme its
field is the one produced by advection. -/
theorem C30_norhs_untouched (c : RhsCfg K X) (sch : Scheme) (dt : K) (s : RhsSt K X) (e : Nat) (he : c.norhs.testBit e = true) (x : X) :
    (rhsAnteStep c sch dt s).psi e x = s.psi e x ∧ (rhsPostStep c sch dt s).psi e x = s.psi e x := by
  have hn : ¬ HasRhs c e := fun h => by rw [h.2] at he; exact absurd he (by decide)
  have ha : ∀ w t, (applyRhs c w t).psi e x = t.psi e x := by
    intro w t; rw [applyRhs_psi]; unfold plusRhs; rw [if_neg hn]
  cases sch <;> exact ⟨by simp only [rhsAnteStep, ha] <;> rfl, by simp only [rhsPostStep, ha] <;> rfl⟩

/-- C30: for a constant right-hand side, and advection that leaves spatially constant fields alone, every scheme adds exactly
`dt` times the right-hand side in each step, for every number of steps. -/
theorem C30_constant_rhs (c : RhsCfg K X) (r a : Nat → K) (hR : Adds c (fun _ e _ => r e))
    (hadv : ∀ b : Nat → K, c.adv (fun e _ => b e) = fun e _ => b e) (h2 : (2 : K) ≠ 0) (sch : Scheme) (dt : K) (s : RhsSt K X)
    (hs : s.psi = fun e _ => a e) (n : Nat) (e : Nat) (x : X) :
    (rhsRun c sch dt n s).psi e x = if HasRhs c e then a e + n * (dt * r e) else a e := by
  have hpl : ∀ (b : Nat → K) (w : K), plusRhs c (fun e (_ : X) => b e) w (fun e _ => r e)
      = fun e _ => (fun e => if HasRhs c e then b e + w * r e else b e) e := fun b w => rfl
  suffices h : (rhsRun c sch dt n s).psi = fun e _ => (fun e => if HasRhs c e then a e + n * (dt * r e) else a e) e by rw [h]
  cases sch with
  | eulerA =>
    induction n with
    | zero => funext e x; show s.psi e x = _; rw [hs]; simp
    | succ n ih =>
      rw [C30_euler_a c _ hR, ih, hadv, hpl]
      funext e x; simp only; split_ifs <;> push_cast <;> ring
  | eulerB =>
    induction n with
    | zero => funext e x; show s.psi e x = _; rw [hs]; simp
    | succ n ih =>
      rw [C30_euler_b c _ hR, ih, hpl, hadv]
      funext e x; simp only; split_ifs <;> push_cast <;> ring
  | trapez =>
    rw [C30_trapez c _ hR]
    suffices h : (trapSpec c (fun _ e _ => r e) dt s.psi n).1 = (fun e _ => (fun e => if HasRhs c e then a e + n * (dt * r e) else a e) e)
        ∧ (trapSpec c (fun _ e (_ : X) => r e) dt s.psi n).2 = fun e _ => r e from h.1
    induction n with
    | zero => refine ⟨?_, rfl⟩; funext e x; show s.psi e x = _; rw [hs]; simp
    | succ n ih =>
      refine ⟨?_, by simp only [trapSpec]⟩
      simp only [trapSpec]
      rw [ih.1, ih.2, hpl, hadv, hpl]
      funext e x; simp only; split_ifs
      · push_cast; field_simp; ring
      · rfl

/-- two equations, the second flagged as having no right-hand side, three points, a shift as advection, `R = -psi` -/
def demoRhs : RhsCfg ℚ (Fin 3) :=
  { nEqns := 2, norhs := 2, adv := fun psi e x => psi e (x + 1), force := fun _ _ psi rhs e x => rhs e x + -psi e x }

example : Adds demoRhs (fun psi e x => -psi e x) := fun _ _ _ _ _ _ _ => rfl
example : HasRhs demoRhs 0 ∧ ¬ HasRhs demoRhs 1 := by decide
example : ∀ b : Nat → ℚ, demoRhs.adv (fun e _ => b e) = fun e _ => b e := fun _ => rfl
example : (rhsRun demoRhs .trapez 1 2 ⟨fun e x => e + x.val, fun _ _ => 7⟩).psi 0 0 = 0 := by decide +kernel
example : (rhsRun demoRhs .trapez 1 2 ⟨fun e x => e + x.val, fun _ _ => 7⟩).psi 1 0 = 3 := by decide +kernel

/-- C30, negation of the literal trapezoidal rule: from the second step on, the half right-hand side applied before advection is not the one of the fields at the
beginning of the step but of the fields before the previous half was added (`trapez` is called a paraphrase of the rule in the source). For
`dpsi/dt = -psi` without advection, `dt = 1`, two steps give 0 where applying `R(psi^n)` would give 1/16. -/
theorem C30_trapez_uses_previous_rhs : ∃ (c : RhsCfg ℚ Unit) (s : RhsSt ℚ Unit), Adds c (fun psi e x => -psi e x) ∧ c.adv = id ∧
    (rhsRun c .trapez 1 2 s).psi 0 () ≠
      (let p := (rhsRun c .trapez 1 1 s).psi 0 ()
       let a := p + 1 / 2 * (-p)
       a + 1 / 2 * (-a)) :=
  ⟨{ nEqns := 1, norhs := 0, adv := id, force := fun _ _ psi rhs e x => rhs e x + -psi e x }, ⟨fun _ _ => 1, fun _ _ => 0⟩,
    fun _ _ _ _ _ _ _ => rfl, rfl, by decide +kernel⟩

end Mpdata
