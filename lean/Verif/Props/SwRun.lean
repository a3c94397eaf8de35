import Verif.Props.VipRun
import Verif.Props.ShallowWater
import Verif.Model.SwProg
/-! # C43, C61: the shallow-water solver as a whole program on cyclic domains

Mass, momentum, rest and sign of the depth for runs of any length of the assembled solver: advector from momentum and depth, forcing, advection. Partial as C61 is. -/
set_option linter.unusedSectionVars false
namespace Mpdata.VP
variable {K : Type} [Field K] [LinearOrder K] [IsStrictOrderedRing K] {n : Nat}

/-! ## The shallow-water solver is an instance of C61 -/

theorem swProg1 (g : K) (u : User K Int 1) {a : Cfg1 K} {p : Spec1.Par K} {N : Nat} (h : CyclicSetup a p N) (hn : 1 ≤ a.nIters) (hx : HaloCovered a.o a.nIters)
    (hc : Spec1.Periodic N u.coeff) (hr : ∀ d, Spec1.Periodic N (u.relax d)) : Prog1 (swUser1 g u) a p N := by
  refine ⟨h, hn, hx, ⟨fun _ => by simp [swUser1], fun e he => by simp only [swUser1, Option.some.injEq] at he ⊢; omega⟩, hc, hr, ?_⟩
  intro dt b psi psi' r r' p1 e1 p2 e2 e he
  have hh := one_le_haloI a.o
  have hper := p1
  refine ⟨fun q x => ?_, fun x hx => ?_⟩
  · show swForce1 g u.dx dt b psi' r' e (x + N) = swForce1 g u.dx dt b psi' r' e x
    have q1 : ∀ y, psi' 1 (y + N) = psi' 1 y := fun y => p1 1 () y
    have q2 : r' e (x + N) = r' e x := p2 e he () x
    unfold swForce1
    rw [q1, show x + (N : Int) + 1 = (x + 1) + N by ring, show x + (N : Int) - 1 = (x - 1) + N by ring, q1, q1, q2]
  · show swForce1 g u.dx dt b psi r e x = swForce1 g u.dx dt b psi' r' e x
    have hm : a.ijk.Mem x := of_decide_eq_true hx
    have l1 : (1 : Nat) < (solver1 (swUser1 g u) a).nEqns := by simp [solver1, swUser1]
    unfold swForce1
    rw [e1 1 l1 x ⟨by have := hm.1; omega, by have := hm.2; omega⟩, e1 1 l1 (x + 1) ⟨by have := hm.1; omega, by have := hm.2; omega⟩,
      e1 1 l1 (x - 1) ⟨by have := hm.1; omega, by have := hm.2; omega⟩, e2 e he x hx]

theorem swProgN {S : Prop} (hS : S) (g : K) (u : User K (Idx n) n) {a : CfgN n K} {p : SpecN.Par n K} {P : Fin n → Nat} {ds : List (Fin n)} (h : CyclicSetupN a p P ds) (hn : 1 ≤ a.nIters)
    (hx : HaloCovered a.o a.nIters) (hc : PeriodicN P u.coeff) (hr : ∀ d, PeriodicN P (u.relax d)) : ProgN S (swUserN g u) a P := by
  refine ⟨hS, hn, hx, ⟨fun d => by simp only [swUserN]; omega, fun e he => by simp only [swUserN, Option.some.injEq] at he ⊢; omega⟩, hc, hr, ?_⟩
  intro dt b psi psi' r r' p1 e1 p2 e2 e he
  have hh := one_le_haloI a.o
  refine ⟨fun q x => ?_, fun x hx => ?_⟩
  · show swForce g u.dx dt b psi' r' e (stepIdx x q (P q)) = swForce g u.dx dt b psi' r' e x
    have q1 : ∀ y, psi' n (stepIdx y q (P q)) = psi' n y := fun y => p1 n q y
    have q2 : r' e (stepIdx x q (P q)) = r' e x := p2 e he q x
    unfold swForce gradC
    rw [q2]
    split_ifs with h1
    · rw [q1, stepIdx_comm x q, stepIdx_comm x q, q1, q1]
    · rfl
  · show swForce g u.dx dt b psi r e x = swForce g u.dx dt b psi' r' e x
    have hm : InGrid P x := (cellBox_iff h _).1 (of_decide_eq_true hx)
    have l1 : n < (solverN (swUserN g u) (solverHalo a.o) a).nEqns := by simp [solverN, swUserN]
    have hb := h.hbox
    have inH : ∀ (d : Fin n) (k : Int), -1 ≤ k → k ≤ 1 → Bx a.box (fun _ => solverHalo a.o) (fun _ => solverHalo a.o) (stepIdx x d k) := by
      intro d k h1 h2 e'
      have := hm e'
      rw [hb e']
      unfold stepIdx
      split_ifs <;> constructor <;> simp only <;> omega
    unfold swForce gradC
    rw [e2 e he x hx]
    split_ifs with h1
    · have e0 := e1 n l1 x (by have := inH ⟨e, h1⟩ 0 (by omega) (by omega); rwa [stepIdx_zero] at this)
      rw [e0, e1 n l1 _ (inH ⟨e, h1⟩ 1 (by omega) (by omega)), e1 n l1 _ (inH ⟨e, h1⟩ (-1) (by omega) (by omega))]
    · rfl

/-- settings used in the examples: trapezoidal rule, adaptive steps, third-order stash, explicit absorber in the momentum -/
def demoU1 : User ℚ Int 1 :=
  { nEqns := 0, norhs := 0, delayed := 0, vip := fun _ => 0, den := none, veps := 0, dx := fun _ => 1, sch := .trapez, vc := ⟨true, true⟩, vab := .noab
    coeff := fun _ => 0, relax := fun _ _ => 0, force := fun _ _ _ r => r }
/-- the same in 2-D and 3-D -/
def demoUN (n : Nat) : User ℚ (Idx n) n :=
  { nEqns := 0, norhs := 0, delayed := 0, vip := fun _ => 0, den := none, veps := 0, dx := fun _ => 1, sch := .trapez, vc := ⟨true, true⟩, vab := .noab
    coeff := fun _ => 0, relax := fun _ _ => 0, force := fun _ _ _ r => r }

/-- `Prog1` holds for shallow water on five points with a flux-corrected third-order three-pass scheme -/
example : Prog1 (swUser1 (10 : ℚ) demoU1) (demo1 (oFct ||| oTot ||| oDfl) 3)
    ⟨oFct ||| oTot ||| oDfl, .exact, .noextrp, 1/1000, 1/1000, fun _ => 1, fun _ => 0, fun _ => 0⟩ 4 :=
  swProg1 _ _ ⟨rfl, rfl, rfl, rfl, rfl, rfl, by decide, rfl, rfl, ⟨fun _ => rfl, fun _ => rfl, fun _ => rfl⟩, fun _ _ _ => rfl, fun _ _ _ => rfl, fun _ _ _ => rfl⟩
    (by decide) (by unfold HaloCovered; decide) (fun _ => rfl) (fun _ _ => rfl)

/-- `Prog2` holds for shallow water on 5 by 5 points -/
example : Prog2 (swUserN (10 : ℚ) (demoUN 2)) (demo2 (oFct ||| oTot ||| oDfl) 3)
    ⟨oFct ||| oTot ||| oDfl, 1/1000, formulae2 (oFct ||| oTot ||| oDfl) .exact .noextrp (1/1000), ⟨fun _ => 1, fun _ _ => 0, fun _ _ => 0⟩⟩ (fun _ => 4) := by
  have hc : CyclicSetupN (demo2 (oFct ||| oTot ||| oDfl) 3) ⟨oFct ||| oTot ||| oDfl, 1/1000, formulae2 (oFct ||| oTot ||| oDfl) .exact .noextrp (1/1000), ⟨fun _ => 1, fun _ _ => 0, fun _ _ => 0⟩⟩
      (fun _ => 4) [0, 1] := ⟨rfl, rfl, rfl, fun _ => rfl, fun d => by decide, by decide, rfl, fun _ => rfl, fun _ => rfl, fun _ _ => rfl, fun _ _ _ => rfl, fun _ _ _ => rfl, fun _ _ => rfl,
    fun _ _ _ => rfl, fun _ _ _ => rfl⟩
  exact swProgN ⟨hc, ⟨_, _, _, rfl⟩, by decide⟩ _ _ hc (by decide) (by unfold HaloCovered; decide) (fun _ _ => rfl) (fun _ _ _ => rfl)

/-! ## Mass -/

/-- C43, 1-D, whole program: the G-weighted total depth is the same at all times, for every right-hand side scheme, absorber, sequence of (trial) time steps, advection option and initial
state. -/
theorem C43_program_mass_1d_partial (g : K) (u : User K Int 1) (a : Cfg1 K) (p : Spec1.Par K) (N : Nat) (h : Prog1 (swUser1 g u) a p N) (hG : ∀ i, gFac1 p.o p.G i ≠ 0)
    (psi0 : Nat → Int → K) (h0 : ∀ e, Spec1.Periodic N (psi0 e)) (s : St K Int 1 (Mem1 K)) (hs : Begin (solver1 (swUser1 g u) a) psi0 s)
    (dt0 : K) (filt : Nat → Bool) (first : Nat → K) (more : Nat → List K) (t : Nat) :
    tot1 a N ((run (solver1 (swUser1 g u) a) dt0 filt first more s t).psi 1) = tot1 a N (s.psi 1) := by
  refine C61_totals_1d_partial (swUser1 g u) a p N h hG psi0 h0 s hs dt0 filt first more 1 (by simp [swUser1]) ⟨.inr fun dt b psi z _ hz => ?_, .inr fun _ => by simp [swUser1]⟩ t
  show tot1 a N (swForce1 g u.dx dt b psi z 1) = 0
  unfold tot1
  refine Finset.sum_eq_zero fun i _ => ?_
  simp [swForce1, hz]

/-- C43, 2-D, whole program: total depth, as in 1-D. -/
theorem C43_program_mass_2d_partial (g : K) (u : User K (Idx 2) 2) (a : CfgN 2 K) (p : SpecN.Par 2 K) (P : Fin 2 → Nat) (h : Prog2 (swUserN g u) a p P) (hG : ∀ x, gFacN p.o p.st.G x ≠ 0)
    (psi0 : Nat → Idx 2 → K) (h0 : ∀ e, PeriodicN P (psi0 e)) (s : St K (Idx 2) 2 (MemN 2 K)) (hs : Begin (solverN (swUserN g u) (solverHalo a.o) a) psi0 s)
    (dt0 : K) (filt : Nat → Bool) (first : Nat → K) (more : Nat → List K) (t : Nat) :
    totN a P ((run (solverN (swUserN g u) (solverHalo a.o) a) dt0 filt first more s t).psi 2) = totN a P (s.psi 2) := by
  refine C61_totals_2d_partial (swUserN g u) a p P h hG psi0 h0 s hs dt0 filt first more 2 (by simp [swUserN])
    ⟨.inr fun dt b psi z _ hz => ?_, .inr fun d => by show (d : Nat) ≠ 2; omega⟩ t
  show totN a P (swForce g u.dx dt b psi z 2) = 0
  unfold totN
  refine Finset.sum_eq_zero fun i _ => ?_
  simp [swForce, hz]

/-! ## Momentum -/

/-- C43, 1-D, whole program: without absorber and G the total momentum is the same at all times. -/
theorem C43_program_momentum_1d_partial (g : K) (u : User K Int 1) (a : Cfg1 K) (p : Spec1.Par K) (N : Nat) (h : Prog1 (swUser1 g u) a p N) (hv : u.vab = .noab) (hnug : isset a.o oNug = false)
    (psi0 : Nat → Int → K) (h0 : ∀ e, Spec1.Periodic N (psi0 e)) (s : St K Int 1 (Mem1 K)) (hs : Begin (solver1 (swUser1 g u) a) psi0 s)
    (dt0 : K) (filt : Nat → Bool) (first : Nat → K) (more : Nat → List K) (t : Nat) :
    ∑ i ∈ Finset.range N, (run (solver1 (swUser1 g u) a) dt0 filt first more s t).psi 0 (a.ijk.first + i) = ∑ i ∈ Finset.range N, s.psi 0 (a.ijk.first + i) := by
  have hG : ∀ f : Int → K, tot1 a N f = ∑ i ∈ Finset.range N, f (a.ijk.first + i) := by
    intro f; unfold tot1; exact Finset.sum_congr rfl fun i _ => by simp [gFac1, hnug]
  have hG' : ∀ i, gFac1 p.o p.G i ≠ 0 := by intro i; rw [← h.setup.ho]; simp [gFac1, hnug]
  rw [← hG, ← hG]
  refine C61_totals_1d_partial (swUser1 g u) a p N h hG' psi0 h0 s hs dt0 filt first more 0 (by simp [swUser1]) ⟨.inr fun dt b psi z hp hz => ?_, .inl hv⟩ t
  show tot1 a N (swForce1 g u.dx dt b psi z 0) = 0
  rw [hG]
  obtain ⟨F, hF⟩ : ∃ F : Nat → K, ∀ k : Nat, F k = psi 1 (a.ijk.first + k) * psi 1 (a.ijk.first + k - 1) := ⟨_, fun _ => rfl⟩
  have e : ∀ i : Nat, swForce1 g u.dx dt b psi z 0 (a.ijk.first + i) = - (g / u.dx 0 / 2) * (F (i + 1) - F i) := by
    intro i
    rw [hF, hF]
    simp only [swForce1, if_true, hz]
    push_cast
    rw [show a.ijk.first + ((i : Int) + 1) - 1 = a.ijk.first + i by ring, show a.ijk.first + ((i : Int) + 1) = a.ijk.first + i + 1 by ring]
    ring
  rw [Finset.sum_congr rfl fun i _ => e i, ← Finset.mul_sum, Finset.sum_range_sub, hF, hF]
  have q : ∀ y : Int, psi 1 (y + N) = psi 1 y := fun y => hp 1 y
  have q1 := q (a.ijk.first)
  have q2 := q (a.ijk.first - 1)
  simp only [Nat.cast_zero, add_zero]
  rw [show a.ijk.first + (N : Int) - 1 = a.ijk.first - 1 + N by ring, q1, q2]
  ring

/-- C43, 2-D, whole program: both components of total momentum, as in 1-D. -/
theorem C43_program_momentum_2d_partial (g : K) (u : User K (Idx 2) 2) (a : CfgN 2 K) (p : SpecN.Par 2 K) (P : Fin 2 → Nat) (h : Prog2 (swUserN g u) a p P) (hv : u.vab = .noab)
    (hnug : isset a.o oNug = false) (psi0 : Nat → Idx 2 → K) (h0 : ∀ e, PeriodicN P (psi0 e)) (s : St K (Idx 2) 2 (MemN 2 K)) (hs : Begin (solverN (swUserN g u) (solverHalo a.o) a) psi0 s)
    (dt0 : K) (filt : Nat → Bool) (first : Nat → K) (more : Nat → List K) (d : Fin 2) (t : Nat) :
    ∑ x ∈ period P, (run (solverN (swUserN g u) (solverHalo a.o) a) dt0 filt first more s t).psi d x = ∑ x ∈ period P, s.psi d x := by
  have hG : ∀ f : Idx 2 → K, totN a P f = ∑ x ∈ period P, f x := by
    intro f; unfold totN; exact Finset.sum_congr rfl fun i _ => by simp [gFacN, hnug]
  have hG' : ∀ x, gFacN p.o p.st.G x ≠ 0 := by intro i; rw [← h.solver.setup.ho]; simp [gFacN, hnug]
  have hP : ∀ d, 1 ≤ P d := fun d => by
    have h1 := one_le_haloI a.o
    have := h.solver.setup.hhP d; omega
  rw [← hG, ← hG]
  refine C61_totals_2d_partial (swUserN g u) a p P h hG' psi0 h0 s hs dt0 filt first more d (by simp only [swUserN]; omega) ⟨.inr fun dt b psi z hp hz => ?_, .inl hv⟩ t
  show totN a P (swForce g u.dx dt b psi z d) = 0
  rw [hG, ← C43_momentum_conserved g u.dx P hP dt b psi z (hp 2) d]
  exact Finset.sum_congr rfl fun x _ => by rw [hz x, sub_zero]

/-! ## Lake at rest -/

/-- C43, 1-D, whole program: a lake at rest (uniform depth, no momentum) stays exactly at rest; depth zero included. -/
theorem C43_program_lake_at_rest_1d_partial (g : K) (u : User K Int 1) (a : Cfg1 K) (p : Spec1.Par K) (N : Nat) (h : Prog1 (swUser1 g u) a p N) (hv : u.vab = .noab) (depth : K)
    (s : St K Int 1 (Mem1 K)) (hs : Begin (solver1 (swUser1 g u) a) (fun e _ => if e = 1 then depth else 0) s)
    (dt0 : K) (filt : Nat → Bool) (first : Nat → K) (more : Nat → List K) (t : Nat) (x : Int) (hx : a.ijk.Mem x) :
    (run (solver1 (swUser1 g u) a) dt0 filt first more s t).psi 0 x = 0 ∧ (run (solver1 (swUser1 g u) a) dt0 filt first more s t).psi 1 x = depth := by
  have hr : AtRest (swUser1 g u) (fun e => if e = 1 then depth else 0) := by
    refine ⟨fun d => by simp [swUser1], hv, fun dt b psi z h1 h2 e he hn x => ?_⟩
    show swForce1 g u.dx dt b psi z e x = 0
    unfold swForce1
    rw [h2 e he hn x, h1 1 (by simp [swUser1]), h1 1 (by simp [swUser1]), h1 1 (by simp [swUser1])]
    split_ifs <;> simp
  have := fun e he => C61_rest_1d_partial (swUser1 g u) a p N h (fun e => if e = 1 then depth else 0) hr s hs dt0 filt first more t e he x hx
  exact ⟨by rw [this 0 (by simp [swUser1])]; simp, by rw [this 1 (by simp [swUser1])]; simp⟩

/-- C43, 2-D, whole program: lake at rest, as in 1-D. -/
theorem C43_program_lake_at_rest_2d_partial (g : K) (u : User K (Idx 2) 2) (a : CfgN 2 K) (p : SpecN.Par 2 K) (P : Fin 2 → Nat) (h : Prog2 (swUserN g u) a p P) (hv : u.vab = .noab)
    (hab : isset p.o oIga = true → isset p.o oAbs = false) (depth : K)
    (s : St K (Idx 2) 2 (MemN 2 K)) (hs : Begin (solverN (swUserN g u) (solverHalo a.o) a) (fun e _ => if e = 2 then depth else 0) s)
    (dt0 : K) (filt : Nat → Bool) (first : Nat → K) (more : Nat → List K) (t : Nat) (x : Idx 2) (hx : InGrid P x) :
    (∀ d : Fin 2, (run (solverN (swUserN g u) (solverHalo a.o) a) dt0 filt first more s t).psi d x = 0) ∧
      (run (solverN (swUserN g u) (solverHalo a.o) a) dt0 filt first more s t).psi 2 x = depth := by
  have hr : AtRest (swUserN g u) (fun e => if e = 2 then depth else 0) := by
    refine ⟨fun d => if_neg (by show ¬ (d : Nat) = 2; omega), hv, fun dt b psi z h1 h2 e he hn x => ?_⟩
    show swForce g u.dx dt b psi z e x = 0
    have l : 2 < (swUserN g u).nEqns := by simp [swUserN]
    unfold swForce gradC
    rw [h2 e he hn x]
    split_ifs
    · rw [h1 2 l, h1 2 l, h1 2 l]; simp
    · rfl
  have := fun e he => C61_rest_2d_partial (swUserN g u) a p P h hab (fun e => if e = 2 then depth else 0) hr s hs dt0 filt first more t e he x hx
  refine ⟨fun d => ?_, by rw [this 2 (by simp [swUserN])]; simp⟩
  rw [this d (by simp only [swUserN]; omega)]
  exact if_neg (by omega)

/-! ## The depth never becomes negative: the assertions at the end of each hook hold -/

/-- C43, 1-D, whole program: a depth that is non-negative at the beginning (dry cells included) stays non-negative, under the conditions of `C61_nonneg_1d_partial` on the advectors the
program computes. -/
theorem C43_program_depth_nonneg_1d_partial (g : K) (u : User K Int 1) (a : Cfg1 K) (p : Spec1.Par K) (N : Nat) (h : Prog1 (swUser1 g u) a p N) (hg : ∀ i, 0 < gFac1 p.o p.G i)
    (ht : 0 ≤ a.tiny) (hep : 0 ≤ a.eps)
    (psi0 : Nat → Int → K) (h0 : ∀ e, Spec1.Periodic N (psi0 e)) (s : St K Int 1 (Mem1 K)) (hs : Begin (solver1 (swUser1 g u) a) psi0 s)
    (dt0 : K) (filt : Nat → Bool) (first : Nat → K) (more : Nat → List K) (t : Nat)
    (hc : ∀ q, q < t → ∀ x, a.ijk.Mem x → let C := (run (solver1 (swUser1 g u) a) dt0 filt first more s (q + 1)).GC 0; max 0 (C x) - min 0 (C (x - 1)) ≤ gFac1 a.o a.G x)
    (ho : isset a.o oFct = true ∨ BasicOpts a.o ∧ ∀ q, q < t → ∀ x, a.ijk.Mem x →
      let C := (run (solver1 (swUser1 g u) a) dt0 filt first more s (q + 1)).GC 0; |C x| ≤ 1 ∧ (isset a.o oDfl = true → |C x| ≤ 1 / 2))
    (hp : ∀ x, a.ijk.Mem x → 0 ≤ s.psi 1 x) (x : Int) (hx : a.ijk.Mem x) :
    0 ≤ (run (solver1 (swUser1 g u) a) dt0 filt first more s t).psi 1 x :=
  C61_nonneg_1d_partial (swUser1 g u) a p N h hg ht hep psi0 h0 s hs dt0 filt first more 1 (by simp [swUser1])
    ⟨.inr fun dt b psi z hz x => by show swForce1 g u.dx dt b psi z 1 x = 0; simp [swForce1, hz], .inr fun _ => by simp [swUser1]⟩ t hc ho hp x hx

/-- C43, 2-D, whole program: sign of the depth with the flux limiter. -/
theorem C43_program_depth_nonneg_2d_partial (g : K) (u : User K (Idx 2) 2) (a : CfgN 2 K) (p : SpecN.Par 2 K) (P : Fin 2 → Nat) (h : Prog2 (swUserN g u) a p P)
    (hg : ∀ x, 0 < gFacN p.o p.st.G x) (hep : 0 ≤ a.eps) (hf : isset a.o oFct = true)
    (psi0 : Nat → Idx 2 → K) (h0 : ∀ e, PeriodicN P (psi0 e)) (s : St K (Idx 2) 2 (MemN 2 K)) (hs : Begin (solverN (swUserN g u) (solverHalo a.o) a) psi0 s)
    (dt0 : K) (filt : Nat → Bool) (first : Nat → K) (more : Nat → List K) (t : Nat)
    (hc : ∀ q, q < t → ∀ x, InGrid P x → outflowN (run (solverN (swUserN g u) (solverHalo a.o) a) dt0 filt first more s (q + 1)).GC x ≤ gFacN a.o a.st.G x)
    (hp : ∀ x, InGrid P x → 0 ≤ s.psi 2 x) (x : Idx 2) (hx : InGrid P x) :
    0 ≤ (run (solverN (swUserN g u) (solverHalo a.o) a) dt0 filt first more s t).psi 2 x :=
  C61_nonneg_2d_partial (swUserN g u) a p P h hg hep hf psi0 h0 s hs dt0 filt first more 2 (by simp [swUserN])
    ⟨.inr fun dt b psi z hz x => by show swForce g u.dx dt b psi z 2 x = 0; simp [swForce, hz], .inr fun d => by show (d : Nat) ≠ 2; omega⟩ t hc hp x hx

/-! ## The assertion on the kind of call -/

/-- C43: with the trapezoidal scheme the assertion in `update_rhs` holds in every call of runs of any length. -/
theorem C43_assert_trapez (t : Nat) : ∀ q ∈ rhsCalls .trapez t, swAssert q = true := by
  induction t with
  | zero => simp [rhsCalls, swAssert]
  | succ t ih =>
    intro q hq
    simp only [rhsCalls, List.mem_append, List.mem_singleton] at hq
    rcases hq with h | h
    · exact ih q h
    · subst h; simp [swAssert]

/-- with `euler_a` or `euler_b`, which nothing excludes at compile time, the assertion fails in the second step of every run of two or more steps -/
theorem C43_fails_assert_euler (sch : Scheme) (h : sch ≠ .trapez) (t : Nat) (ht : 2 ≤ t) : ∃ q ∈ rhsCalls sch t, swAssert q = false := by
  refine ⟨(1, false), ?_, rfl⟩
  have key : ∀ t, 2 ≤ t → (1, false) ∈ rhsCalls sch t := by
    intro t ht
    induction t, ht using Nat.le_induction with
    | base => cases sch <;> simp [rhsCalls] <;> exact absurd rfl h
    | succ t _ ih => unfold rhsCalls; exact List.mem_append_left _ ih
  exact key t ht

end Mpdata.VP
