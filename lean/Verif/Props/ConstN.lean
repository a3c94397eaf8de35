import Verif.Props.HaloN
import Verif.Lemmas.ConstN
/-! # C18: constant fields in 2-D and 3-D -/
set_option linter.unusedSectionVars false
namespace Mpdata
variable {n : Nat} {K : Type} [Field K] [LinearOrder K] [IsStrictOrderedRing K]

theorem donorN_const {o : OptsT} {F : Formulae n K} (hF : FGood o F) (G : Sca n K) (v : K) (U : Vec n K) (hd : ∀ x, divN U x = 0) :
    F.donor (fun _ => v) (makeFluxN o (fun _ => v) U) G = fun _ => v := by
  funext x
  rw [hF.donor_eq]
  have e : ∀ d y, makeFluxN o (fun _ => v) U d y = v * U d y := by
    intro d y; unfold makeFluxN donorF; simp only; rw [← add_mul, pos_add_neg, mul_comm]
  have : ∑ d, (makeFluxN o (fun _ => v) U d (stepIdx x d (-1)) - makeFluxN o (fun _ => v) U d x) = -v * divN U x := by
    unfold divN
    rw [Finset.mul_sum]
    exact Finset.sum_congr rfl fun d _ => by rw [e, e]; ring
  rw [this, hd]; simp

theorem divN_zero (x : Idx n) : divN (fun _ _ => (0 : K)) x = 0 := by simp [divN]

theorem passesN_const {p : SpecN.Par n K} (hF : FGood p.o p.F) (v : K) (GC : Vec n K) (hd : ∀ x, divN GC x = 0)
    (h0 : ∀ d x, p.F.vel d p.st (fun _ => v) (fun _ => v) GC x = 0) (h1 : ∀ d x, p.F.vel d p.st (fun _ => v) (fun _ => v) (fun _ _ => 0) x = 0) (k : Nat) :
    (SpecN.passes p (fun _ => v) GC k).psi = (fun _ => v) ∧ (SpecN.passes p (fun _ => v) GC k).old = (fun _ => v)
    ∧ SpecN.velocity p (fun _ => v) (fun _ => v) (SpecN.passes p (fun _ => v) GC k).U = fun _ _ => 0 := by
  induction k with
  | zero => exact ⟨donorN_const hF _ v GC hd, rfl, by funext d x; exact h0 d x⟩
  | succ k ih =>
    obtain ⟨a, b, c⟩ := ih
    refine ⟨?_, a, ?_⟩
    · show SpecN.corrective p _ (SpecN.passes p (fun _ => v) GC k).psi (SpecN.velocity p (SpecN.passes p (fun _ => v) GC k).psi (SpecN.passes p (fun _ => v) GC k).old _) = _
      rw [a, b, c]
      unfold SpecN.corrective
      have hl : SpecN.limited p (fun _ => v) (fun _ => v) (fun _ _ => 0) = fun _ _ => 0 := by
        funext d x; rw [limitedN_eq, zero_mul]
      simp only [hl, ite_self]
      have e := donorN_const hF p.st.G v (fun _ _ => 0) divN_zero
      have hm : makeFluxN p.o (fun _ => v) (fun _ _ => (0 : K)) = fun (_ : Fin n) _ => 0 := by
        funext d x; simp [makeFluxN, donorF, pospart_eq, negpart_eq]
      simp only [hm, ite_self] at e ⊢
      exact e
    · show SpecN.velocity p _ _ (SpecN.velocity p (SpecN.passes p (fun _ => v) GC k).psi (SpecN.passes p (fun _ => v) GC k).old _) = _
      rw [a, b, c]; funext d x; exact h1 d x

theorem runN_const {p : SpecN.Par n K} (hF : FGood p.o p.F) (v : K) (GC : Vec n K) (hd : ∀ x, divN GC x = 0)
    (h0 : ∀ d x, p.F.vel d p.st (fun _ => v) (fun _ => v) GC x = 0) (h1 : ∀ d x, p.F.vel d p.st (fun _ => v) (fun _ => v) (fun _ _ => 0) x = 0)
    (N : Nat) (filt : Nat → Bool) (t : Nat) : SpecN.run p N filt GC t (fun _ => v) = fun _ => v := by
  induction t with
  | zero => rfl
  | succ t ih => unfold SpecN.run SpecN.step; rw [ih]; exact (passesN_const hF v GC hd h0 h1 _).1

theorem view2_div (d : Fin 2) (x : Idx 2) (U : Vec 2 K) (i j : Int) :
    view2 d x (U d) i j - view2 d x (U d) (i - 1) j + (view2 d x (U (d + 1)) i j - view2 d x (U (d + 1)) i (j - 1))
      = divN U (stepIdx (stepIdx x d i) (d + 1) j) := by
  have e1 : ∀ a : Sca 2 K, view2 d x a (i - 1) j = a (stepIdx (stepIdx (stepIdx x d i) (d + 1) j) d (-1)) := by
    intro a; rw [stepIdx_comm _ (d + 1) d, stepIdx_add]; rfl
  have e2 : ∀ a : Sca 2 K, view2 d x a i (j - 1) = a (stepIdx (stepIdx (stepIdx x d i) (d + 1) j) (d + 1) (-1)) := by
    intro a; rw [stepIdx_add]; rfl
  rw [e1, e2]
  unfold divN view2
  rw [Fin.sum_univ_two]
  fin_cases d
  · rfl
  · show _ + _ = _; exact add_comm _ _

theorem view3_div (d : Fin 3) (x : Idx 3) (U : Vec 3 K) (i j k : Int) :
    view3 d x (U d) i j k - view3 d x (U d) (i - 1) j k + (view3 d x (U (d + 1)) i j k - view3 d x (U (d + 1)) i (j - 1) k)
      + (view3 d x (U (d + 2)) i j k - view3 d x (U (d + 2)) i j (k - 1))
      = divN U (stepIdx (stepIdx (stepIdx x d i) (d + 1) j) (d + 2) k) := by
  have e1 : ∀ a : Sca 3 K, view3 d x a (i - 1) j k = a (stepIdx (stepIdx (stepIdx (stepIdx x d i) (d + 1) j) (d + 2) k) d (-1)) := by
    intro a; rw [stepIdx_comm _ (d + 2) d, stepIdx_comm _ (d + 1) d, stepIdx_add]; rfl
  have e2 : ∀ a : Sca 3 K, view3 d x a i (j - 1) k = a (stepIdx (stepIdx (stepIdx (stepIdx x d i) (d + 1) j) (d + 2) k) (d + 1) (-1)) := by
    intro a; rw [stepIdx_comm _ (d + 2) (d + 1), stepIdx_add]; rfl
  have e3 : ∀ a : Sca 3 K, view3 d x a i j (k - 1) = a (stepIdx (stepIdx (stepIdx (stepIdx x d i) (d + 1) j) (d + 2) k) (d + 2) (-1)) := by
    intro a; rw [stepIdx_add]; rfl
  rw [e1, e2, e3]
  unfold divN view3
  rw [Fin.sum_univ_three]
  fin_cases d
  · rfl
  · show _ + _ + _ = _; rw [add_rotate, add_rotate]; rfl
  · show _ + _ + _ = _; rw [add_rotate]; rfl

/-- what the third-order divergence-form options need beyond a non-divergent advector: `ndt_GC` non-divergent and `ndtt_GC` zero (both are zero for a stationary
advector), and either the `aver4` interpolation of the advector or an advector component without curvature along its own dimension -/
def ThirdOrderOk (o : OptsT) (si : SptlIntrp) (st : Stat n K) (GC : Vec n K) : Prop :=
  isset o oDiv3 = true ∨ isset o oDiv3dt = true → (∀ x, divN st.ndt x = 0) ∧ (∀ d x, st.ndtt d x = 0)
    ∧ (si = .aver4 ∨ ∀ d x, GC d (stepIdx x d 1) + GC d (stepIdx x d (-1)) - 2 * GC d x = 0)

theorem vel2_const {o : OptsT} {si : SptlIntrp} (te : TmprlExtrp) (tiny v : K) (hab : isset o oIga = true → isset o oAbs = false) (st : Stat 2 K) (GC : Vec 2 K)
    (hd : ∀ x, divN GC x = 0) (h3 : ThirdOrderOk o si st GC) (d : Fin 2) (x : Idx 2) :
    (formulae2 o si te tiny).vel d st (fun _ => v) (fun _ => v) GC x = 0 := by
  apply antidiff2_const o tiny v hab
  · intro i j; rw [view2_div]; exact hd _
  · intro h
    obtain ⟨a, b, c⟩ := h3 h
    refine ⟨fun i j => by rw [view2_div]; exact a _, fun i j => b _ _, c.imp id fun c i j => ?_⟩
    have := c d (stepIdx (stepIdx x d i) (d + 1) j)
    rw [stepIdx_comm _ (d + 1) d, stepIdx_add, stepIdx_comm _ (d + 1) d, stepIdx_add] at this
    exact this

theorem vel3_const {o : OptsT} {si : SptlIntrp} (te : TmprlExtrp) (tiny v : K) (hab : isset o oIga = true → isset o oAbs = false) (st : Stat 3 K) (GC : Vec 3 K)
    (hd : ∀ x, divN GC x = 0) (h3 : ThirdOrderOk o si st GC) (d : Fin 3) (x : Idx 3) :
    (formulae3 o si te tiny).vel d st (fun _ => v) (fun _ => v) GC x = 0 := by
  apply antidiff3_const o tiny v hab
  · intro i j k; rw [view3_div]; exact hd _
  · intro h
    obtain ⟨a, b, c⟩ := h3 h
    refine ⟨fun i j k => by rw [view3_div]; exact a _, fun i j k => b _ _, c.imp id fun c i j k => ?_⟩
    have := c d (stepIdx (stepIdx (stepIdx x d i) (d + 1) j) (d + 2) k)
    rw [stepIdx_comm _ (d + 2) d, stepIdx_comm _ (d + 1) d, stepIdx_add, stepIdx_comm _ (d + 2) d, stepIdx_comm _ (d + 1) d, stepIdx_add] at this
    exact this

theorem ThirdOrderOk.zero {o : OptsT} {si : SptlIntrp} {st : Stat n K} {GC : Vec n K} (h : ThirdOrderOk o si st GC) :
    ThirdOrderOk o si st (fun _ _ => (0 : K)) := fun h' => by
  obtain ⟨a, b, -⟩ := h h'; exact ⟨a, b, .inr fun _ _ => by ring⟩

/-- C18, 2-D, about the program (partial: with the third-order divergence-form options only where `ThirdOrderOk`, outside of which it fails, see
`C18_fails_div3_nonuniform_2d`). In any non-divergent flow, uniform or not, on a cyclic domain, a constant field of either sign is a fixed point of runs of any length, for every
G, number of passes, pattern of upwind-filter steps and contents of the temporaries. `hab` is the static_assert of the code. -/
theorem C18_constant_is_fixed_point_2d_partial (c : CfgN 2 K) (p : SpecN.Par 2 K) (P : Fin 2 → Nat) (h : CyclicSetupN c p P [0, 1]) (si : SptlIntrp) (te : TmprlExtrp) (tiny : K)
    (hform : p.F = formulae2 p.o si te tiny) (hfot : isset p.o oFot = true → isset p.o oTot = true ∨ isset p.o oDiv3 = true)
    (hab : isset p.o oIga = true → isset p.o oAbs = false) (hn : 1 ≤ c.nIters) (hx : HaloCovered c.o c.nIters) (filt : Nat → Bool) (v : K) (GC : Vec 2 K)
    (hg : ∀ d, PeriodicN P (GC d)) (hd : ∀ x, divN GC x = 0) (h3 : ThirdOrderOk p.o si p.st GC)
    (m : MemN 2 K) (hpsi : ∀ x, InGrid P x → m.psi x = v) (hGC : ∀ d x, InFaces P d x → m.GC d x = GC d x) (t : Nat) :
    ∀ x, InGrid P x → (runProgN c filt t { m with GC := prepGC c (solverHalo c.o) m.GC }).psi x = v := by
  intro x hxg
  have hs : Solver2 c p P := ⟨h, ⟨si, te, tiny, hform⟩, hfot⟩
  rw [C21_cyclic_2d_is_periodic_partial c p P hs hn hx filt (fun _ => v) GC (fun _ _ => rfl) hg m hpsi hGC t x hxg]
  have hv := fun U hU h3 d x => hform ▸ vel2_const te tiny v hab p.st U hU h3 d x
  rw [runN_const hs.good v GC hd (hv GC hd h3) (hv _ divN_zero h3.zero)]

/-- C18, 3-D, about the program (partial: with the third-order divergence-form options only where `ThirdOrderOk`). In any non-divergent flow, uniform or not, on a cyclic
domain, a constant field of either sign is a fixed point of runs of any length. -/
theorem C18_constant_is_fixed_point_3d_partial (c : CfgN 3 K) (p : SpecN.Par 3 K) (P : Fin 3 → Nat) (h : CyclicSetupN c p P [1, 0, 2]) (si : SptlIntrp) (te : TmprlExtrp) (tiny : K)
    (hform : p.F = formulae3 p.o si te tiny)
    (hab : isset p.o oIga = true → isset p.o oAbs = false) (hn : 1 ≤ c.nIters) (hx : HaloCovered c.o c.nIters) (filt : Nat → Bool) (v : K) (GC : Vec 3 K)
    (hg : ∀ d, PeriodicN P (GC d)) (hd : ∀ x, divN GC x = 0) (h3 : ThirdOrderOk p.o si p.st GC)
    (m : MemN 3 K) (hpsi : ∀ x, InGrid P x → m.psi x = v) (hGC : ∀ d x, InFaces P d x → m.GC d x = GC d x) (t : Nat) :
    ∀ x, InGrid P x → (runProgN c filt t { m with GC := prepGC c (solverHalo c.o) m.GC }).psi x = v := by
  intro x hxg
  have hs : Solver3 c p P := ⟨h, ⟨si, te, tiny, hform⟩⟩
  rw [C21_cyclic_3d_is_periodic_partial c p P hs hn hx filt (fun _ => v) GC (fun _ _ => rfl) hg m hpsi hGC t x hxg]
  have hv := fun U hU h3 d x => hform ▸ vel3_const te tiny v hab p.st U hU h3 d x
  rw [runN_const hs.good v GC hd (hv GC hd h3) (hv _ divN_zero h3.zero)]

/-! ## A non-uniform non-divergent flow, and the failing case -/

/-- streamfunction of a vortex at the origin of a doubly periodic domain of period 4 -/
def vortexS (i j : Int) : ℚ := if i % 4 = 0 ∧ j % 4 = 0 then 1/10 else 0
/-- its advector -/
def vortex : Vec 2 ℚ := ![fun x => vortexS (x 0) (x 1) - vortexS (x 0) (x 1 - 1), fun x => vortexS (x 0 - 1) (x 1) - vortexS (x 0) (x 1)]

theorem vortex_div (x : Idx 2) : divN vortex x = 0 := by
  unfold divN
  rw [Fin.sum_univ_two]
  have e0 : stepIdx x 0 (-1) 1 = x 1 := stepIdx_other _ (by decide) _
  have e1 : stepIdx x 1 (-1) 0 = x 0 := stepIdx_other _ (by decide) _
  show vortexS (x 0) (x 1) - vortexS (x 0) (x 1 - 1) - (vortexS (stepIdx x 0 (-1) 0) (stepIdx x 0 (-1) 1) - vortexS (stepIdx x 0 (-1) 0) (stepIdx x 0 (-1) 1 - 1))
    + (vortexS (x 0 - 1) (x 1) - vortexS (x 0) (x 1) - (vortexS (stepIdx x 1 (-1) 0 - 1) (stepIdx x 1 (-1) 1) - vortexS (stepIdx x 1 (-1) 0) (stepIdx x 1 (-1) 1))) = 0
  rw [e0, e1, stepIdx_self, stepIdx_self, ← sub_eq_add_neg, ← sub_eq_add_neg]
  ring
theorem vortex_periodic (d : Fin 2) : PeriodicN (fun _ => 4) (vortex d) := by
  intro x e
  have hS : ∀ i j i' j', i % 4 = i' % 4 → j % 4 = j' % 4 → vortexS i j = vortexS i' j' := by
    intro i j i' j' h1 h2; unfold vortexS; rw [h1, h2]
  have h4 : ∀ (f : Fin 2) (r : Int), (stepIdx x e ((4 : Nat) : Int) f + r) % 4 = (x f + r) % 4 := by
    intro f r; unfold stepIdx; split <;> omega
  have h0 : ∀ f : Fin 2, (stepIdx x e ((4 : Nat) : Int) f) % 4 = x f % 4 := by
    intro f; unfold stepIdx; split <;> omega
  have h5 : ∀ f : Fin 2, (stepIdx x e ((4 : Nat) : Int) f - 1) % 4 = (x f - 1) % 4 := fun f => h4 f (-1)
  fin_cases d
  · show vortexS (stepIdx x e _ 0) (stepIdx x e _ 1) - vortexS (stepIdx x e _ 0) (stepIdx x e _ 1 - 1) = vortexS (x 0) (x 1) - vortexS (x 0) (x 1 - 1)
    rw [hS _ _ _ _ (h0 0) (h0 1), hS _ _ _ _ (h0 0) (h5 1)]
  · show vortexS (stepIdx x e _ 0 - 1) (stepIdx x e _ 1) - vortexS (stepIdx x e _ 0) (stepIdx x e _ 1) = vortexS (x 0 - 1) (x 1) - vortexS (x 0) (x 1)
    rw [hS _ _ _ _ (h0 0) (h0 1), hS _ _ _ _ (h5 0) (h0 1)]

/-- hypotheses of C18 met by a vortex, for the plain, divergent-flow and flux-corrected options and, with `aver4`, for the third-order divergence form -/
example : (∀ x, divN vortex x = 0) ∧ (∃ x y, vortex 0 x ≠ vortex 0 y) ∧
    ThirdOrderOk (oFct ||| oTot ||| oDfl) .exact (⟨fun _ => 1, fun _ _ => 0, fun _ _ => 0⟩ : Stat 2 ℚ) vortex ∧
    ThirdOrderOk (oDiv2 ||| oDiv3) .aver4 (⟨fun _ => 1, fun _ _ => 0, fun _ _ => 0⟩ : Stat 2 ℚ) vortex := by
  refine ⟨vortex_div, ⟨![0, 0], ![1, 0], by decide +kernel⟩, fun h => ?_, fun _ => ⟨fun x => by simp [divN], fun _ _ => rfl, .inl rfl⟩⟩
  exact absurd h (by decide)

/-- C18 fails for the third-order divergence form with the default (`exact`) interpolation: the program changes a constant field in a steady non-divergent non-uniform
flow (two passes, doubly periodic, whatever the temporaries contain). The correction `-ndxx_GC0/24` is not divergence-free. -/
theorem C18_fails_div3_nonuniform_2d (junk : ℚ) :
    (∀ x, divN vortex x = 0) ∧
    (runProgN (demo2 (oDiv2 ||| oDiv3) 2) (fun _ => false) 1
      { demoMemN (fun _ => 1) vortex junk with GC := prepGC (demo2 (oDiv2 ||| oDiv3) 2) (solverHalo (oDiv2 ||| oDiv3)) vortex }).psi ![2, 0] ≠ 1 := by
  refine ⟨vortex_div, ?_⟩
  have hs : Solver2 (demo2 (oDiv2 ||| oDiv3) 2)
      ⟨oDiv2 ||| oDiv3, 1/1000, formulae2 (oDiv2 ||| oDiv3) .exact .noextrp (1/1000), ⟨fun _ => 1, fun _ _ => 0, fun _ _ => 0⟩⟩ (fun _ => 4) :=
    ⟨⟨rfl, rfl, rfl, fun _ => rfl, fun d => by decide, by decide, rfl, fun _ => rfl, fun _ => rfl, fun _ _ => rfl, fun _ _ _ => rfl, fun _ _ _ => rfl, fun _ _ => rfl,
      fun _ _ _ => rfl, fun _ _ _ => rfl⟩, ⟨_, _, _, rfl⟩, by decide⟩
  have h := C21_cyclic_2d_is_periodic_partial _ _ _ hs (by decide) (by unfold HaloCovered; decide) (fun _ => false) (fun _ => 1) vortex (fun _ _ => rfl) vortex_periodic
    (demoMemN (fun _ => 1) vortex junk) (fun _ _ => rfl) (fun _ _ _ => rfl) 1 ![2, 0] (by intro d; fin_cases d <;> simp)
  refine ne_of_eq_of_ne h ?_
  have hf := donorN_const hs.good (fun _ => 1) 1 vortex vortex_div
  unfold SpecN.run SpecN.step SpecN.run
  simp only [demo2, cycCfg, Bool.false_eq_true, if_false, SpecN.passes, SpecN.first]
  rw [hf]
  decide +kernel

end Mpdata
