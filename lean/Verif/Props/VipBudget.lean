import Verif.Props.VipRun
import Verif.Lemmas.VipBudget
/-! # C61: budgets. The total of a field changes by what the forcing supplies, in the way the right-hand side scheme promises -/
set_option linter.unusedSectionVars false
namespace Mpdata.VP
variable {K X : Type} [Field K] [LinearOrder K] [IsStrictOrderedRing K] {n : Nat} {T I : Type}

/-- the time step taken: the last one tried -/
def dtOf (first : K) (more : List K) : K := (first :: more).getLast (by simp)

/-- `tot` of equation `e` along the run `r` obeys the budget of the right-hand side scheme. Euler schemes (`eulerA` applies the right-hand sides after advection, `eulerB` before): in every
step it grows by the time step times the total of the source evaluated on the fields at the beginning of the step. Trapezoidal scheme: half a step with the previous right-hand sides `R t`,
advection to the fields `m`, new right-hand sides from `m`, half a step with these. -/
def Budget (c : Cfg K X n T) (tot : (X → K) → K) (dt0 : K) (dt : Nat → K) (psi0 : Nat → X → K) (r : Nat → Nat → X → K) : Prop :=
  (c.sch ≠ .trapez → ∀ t e, e < c.nEqns → NoAbs c.toUser e → tot (r (t + 1) e) = tot (r t e) + dt t * tot (source c (dt t) false (r t) e)) ∧
  (c.sch = .trapez → ∃ (R : Nat → Nat → X → K) (m : Nat → Nat → X → K),
    (∀ e, e < c.nEqns → ∀ x, c.grid x = true → R 0 e x = source c (dt0 / 2) false psi0 e x) ∧
    ∀ t e, e < c.nEqns → NoAbs c.toUser e →
      tot (m t e) = tot (r t e) + dt t / 2 * tot (R t e) ∧
      (∀ x, c.grid x = true → R (t + 1) e x = source c (dt t / 2) true (m t) e x) ∧
      ∀ x, c.grid x = true → r (t + 1) e x = m t e x + dt t / 2 * R (t + 1) e x)

theorem run_budget {c : Cfg K X n T} {tr : I → X → X} {H : X → Prop} {HF : Fin n → X → Prop} {G coeff : X → K} {relax : Fin n → X → K}
    {adv : (GC ndt ndtt : Fin n → X → K) → Bool → (X → K) → (X → K)} {S : (X → K) → K} (hL : Link c tr H HF G coeff relax adv) (hw : Wf c.toUser)
    (ha : AdvKeeps c tr adv S) (hS : OnGrid c S) (lin : ∀ f g (k : K), S (fun x => f x + k * g x) = S f + k * S g) (dt0 : K) (filt : Nat → Bool) (first : Nat → K) (more : Nat → List K)
    {s : St K X n T} {psi0 : Nat → X → K} (ts : s.timestep = 0) (d0 : s.ds0 = 0) (d1 : s.ds1 = 0)
    (perPsi : ∀ e, PerT tr (psi0 e)) (psi : ∀ e, e < c.nEqns → ∀ x, c.grid x = true → s.psi e x = psi0 e x) :
    Budget c S dt0 (fun t => dtOf (first t) (more t)) s.psi (fun t => (run c dt0 filt first more s t).psi) := by
  have hrel := fun t => run_rel hL hw dt0 filt first more ts d0 d1 perPsi psi t
  have hvz := fun t => run_VZ hL hw ha hS lin dt0 filt first more ts d0 d1 perPsi psi t
  have hst := fun t => step_budget hL hw ha hS lin (filt t) (first t) (more t) (hrel t) (hvz t)
  refine ⟨fun hsch t e he hv => (hst t).2.1 hsch e he hv, fun hsch => ?_⟩
  choose m hm using fun t => (hst t).2.2 hsch
  refine ⟨fun t e x => if hasRhs c e then (run c dt0 filt first more s t).rhs e x else 0, m, fun e he x hx => ?_, fun t e he hv => ?_⟩
  · beta_reduce
    cases hr : hasRhs c e
    · rw [source_none hr, if_neg (by simp)]
    · rw [if_pos rfl]; exact (anteLoop_budget hL dt0 perPsi psi).2.2 hsch e hr x hx
  · obtain ⟨m1, m2, m3⟩ := hm t e he hv
    have h2 : ∀ x, c.grid x = true → (if hasRhs c e = true then (run c dt0 filt first more s (t + 1)).rhs e x else 0) = source c (dtOf (first t) (more t) / 2) true (m t) e x := by
      intro x hx
      cases hr : hasRhs c e
      · rw [source_none hr, if_neg (by simp)]
      · rw [if_pos rfl]; exact m2 hr x hx
    exact ⟨m1, h2, fun x hx => by beta_reduce; rw [h2 x hx]; exact m3 x hx⟩

theorem tot1_onGrid {u : User K Int 1} {a : Cfg1 K} {p : Spec1.Par K} {N : Nat} (h : CyclicSetup a p N) : OnGrid (solver1 u a) (tot1 a N) := fun f g hfg => by
  rw [tot1_eq h (f := f) (g := g) (fun x hx => hfg x (decide_eq_true hx)), ← tot1_eq h (f := g) (fun _ _ => rfl)]

theorem totN_onGrid {u : User K (Idx n) n} {a : CfgN n K} {p : SpecN.Par n K} {P : Fin n → Nat} {ds : List (Fin n)} (h : CyclicSetupN a p P ds) :
    OnGrid (solverN u (solverHalo a.o) a) (totN a P) := fun f g hfg => by
  rw [totN_eq h (f := f) (g := g) (fun x hx => hfg x (decide_eq_true ((cellBox_iff h _).2 hx))), ← totN_eq h (f := g) (fun _ _ => rfl)]

/-- C61, 1-D: the G-weighted total of every equation without absorber follows the budget of the right-hand side scheme, whatever the velocities do. -/
theorem C61_budget_1d_partial (u : User K Int 1) (a : Cfg1 K) (p : Spec1.Par K) (N : Nat) (h : Prog1 u a p N) (hG : ∀ i, gFac1 p.o p.G i ≠ 0)
    (psi0 : Nat → Int → K) (h0 : ∀ e, Spec1.Periodic N (psi0 e)) (s : St K Int 1 (Mem1 K)) (hs : Begin (solver1 u a) psi0 s)
    (dt0 : K) (filt : Nat → Bool) (first : Nat → K) (more : Nat → List K) :
    Budget (solver1 u a) (tot1 a N) dt0 (fun t => dtOf (first t) (more t)) s.psi (fun t => (run (solver1 u a) dt0 filt first more s t).psi) :=
  run_budget h.link h.wf (keeps1 h.setup hG) (tot1_onGrid h.setup) (tot1_lin a N) dt0 filt first more hs.ts hs.ds0 hs.ds1 (fun e => perT1.2 (h0 e)) hs.psi

theorem budgetN {S : Prop} {u : User K (Idx n) n} {a : CfgN n K} {p : SpecN.Par n K} {P : Fin n → Nat} {ds : List (Fin n)} (h : ProgN S u a P) (hc : CyclicSetupN a p P ds) (hF : FGood p.o p.F)
    (hG : ∀ x, gFacN p.o p.st.G x ≠ 0) {psi0 : Nat → Idx n → K} (h0 : ∀ e, PeriodicN P (psi0 e)) {s : St K (Idx n) n (MemN n K)} (hs : Begin (solverN u (solverHalo a.o) a) psi0 s)
    (dt0 : K) (filt : Nat → Bool) (first : Nat → K) (more : Nat → List K) :
    Budget (solverN u (solverHalo a.o) a) (totN a P) dt0 (fun t => dtOf (first t) (more t)) s.psi (fun t => (run (solverN u (solverHalo a.o) a) dt0 filt first more s t).psi) := by
  have hP : ∀ d, 1 ≤ P d := fun d => by
    have h1 := one_le_haloI a.o
    have := hc.hhP d; omega
  exact run_budget (h.link hc hF) h.wf (keepsN hc hF hP hG) (totN_onGrid hc) (totN_lin a P) dt0 filt first more hs.ts hs.ds0 hs.ds1 (fun e => perTN.2 (h0 e)) hs.psi

/-- C61, 2-D: budgets, as in 1-D. -/
theorem C61_budget_2d_partial (u : User K (Idx 2) 2) (a : CfgN 2 K) (p : SpecN.Par 2 K) (P : Fin 2 → Nat) (h : Prog2 u a p P) (hG : ∀ x, gFacN p.o p.st.G x ≠ 0)
    (psi0 : Nat → Idx 2 → K) (h0 : ∀ e, PeriodicN P (psi0 e)) (s : St K (Idx 2) 2 (MemN 2 K)) (hs : Begin (solverN u (solverHalo a.o) a) psi0 s)
    (dt0 : K) (filt : Nat → Bool) (first : Nat → K) (more : Nat → List K) :
    Budget (solverN u (solverHalo a.o) a) (totN a P) dt0 (fun t => dtOf (first t) (more t)) s.psi (fun t => (run (solverN u (solverHalo a.o) a) dt0 filt first more s t).psi) :=
  budgetN h h.solver.setup h.solver.good hG h0 hs dt0 filt first more

/-- C61, 3-D: budgets, as in 1-D. -/
theorem C61_budget_3d_partial (u : User K (Idx 3) 3) (a : CfgN 3 K) (p : SpecN.Par 3 K) (P : Fin 3 → Nat) (h : Prog3 u a p P) (hG : ∀ x, gFacN p.o p.st.G x ≠ 0)
    (psi0 : Nat → Idx 3 → K) (h0 : ∀ e, PeriodicN P (psi0 e)) (s : St K (Idx 3) 3 (MemN 3 K)) (hs : Begin (solverN u (solverHalo a.o) a) psi0 s)
    (dt0 : K) (filt : Nat → Bool) (first : Nat → K) (more : Nat → List K) :
    Budget (solverN u (solverHalo a.o) a) (totN a P) dt0 (fun t => dtOf (first t) (more t)) s.psi (fun t => (run (solverN u (solverHalo a.o) a) dt0 filt first more s t).psi) :=
  budgetN h h.solver.setup h.solver.good hG h0 hs dt0 filt first more

/-! ## Two closed forms -/

theorem hasRhs_of {c : Cfg K X n T} {e : Nat} (he : e < c.nEqns) (hr : isset c.norhs (bit e) = false) : hasRhs c e = true := by
  unfold hasRhs; rw [hr, decide_eq_true he]; rfl

/-- A source of constant total: the total grows by it times the elapsed time, with every scheme. -/
theorem Budget.constant {c : Cfg K X n T} {tot : (X → K) → K} {dt0 : K} {dt : Nat → K} {psi0 : Nat → X → K} {r : Nat → Nat → X → K} (h : Budget c tot dt0 dt psi0 r) (hS : OnGrid c tot)
    (lin : ∀ f g (k : K), tot (fun x => f x + k * g x) = tot f + k * tot g) {e : Nat} (he : e < c.nEqns) (hv : NoAbs c.toUser e) {Q : K}
    (hQ : ∀ dt b psi, tot (source c dt b psi e) = Q) (t : Nat) : tot (r t e) = tot (r 0 e) + Q * ∑ k ∈ Finset.range t, dt k := by
  induction t with
  | zero => simp
  | succ t ih =>
    rw [Finset.sum_range_succ, mul_add, ← add_assoc, ← ih]
    by_cases hs : c.sch = .trapez
    · obtain ⟨R, m, h0, h1⟩ := h.2 hs
      have hR : ∀ t, tot (R t e) = Q := by
        intro t
        cases t with
        | zero => rw [hS _ _ (h0 e he), hQ]
        | succ t => rw [hS _ _ ((h1 t e he hv).2.1), hQ]
      obtain ⟨a, _, b⟩ := h1 t e he hv
      rw [hS _ _ b, lin, hR, a, hR]; ring
    · rw [h.1 hs t e he hv, hQ]; ring

/-- C61, 1-D: the total of an equation with a source of constant total `Q` (for example a constant one) is the initial one plus `Q` times the elapsed time, with every scheme. -/
theorem C61_constant_source_1d_partial (u : User K Int 1) (a : Cfg1 K) (p : Spec1.Par K) (N : Nat) (h : Prog1 u a p N) (hG : ∀ i, gFac1 p.o p.G i ≠ 0)
    (psi0 : Nat → Int → K) (h0 : ∀ e, Spec1.Periodic N (psi0 e)) (s : St K Int 1 (Mem1 K)) (hs : Begin (solver1 u a) psi0 s)
    (dt0 : K) (filt : Nat → Bool) (first : Nat → K) (more : Nat → List K) (e : Nat) (he : e < u.nEqns) (hr : isset u.norhs (bit e) = false) (hv : NoAbs u e) (Q : K)
    (hQ : ∀ dt b psi, tot1 a N (u.force dt b psi (fun _ _ => 0) e) = Q) (t : Nat) :
    tot1 a N ((run (solver1 u a) dt0 filt first more s t).psi e) = tot1 a N (s.psi e) + Q * ∑ k ∈ Finset.range t, dtOf (first k) (more k) := by
  have hb := C61_budget_1d_partial u a p N h hG psi0 h0 s hs dt0 filt first more
  rw [hb.constant (tot1_onGrid h.setup) (tot1_lin a N) (e := e) he hv (Q := Q) (fun dt b psi => by
    unfold source; rw [if_pos (hasRhs_of (c := solver1 u a) he hr)]; exact hQ _ _ _) t]
  congr 1
  exact tot1_onGrid (u := u) h.setup _ _ (fun x hx => (anteLoop_budget h.link dt0 (fun e => perT1.2 (h0 e)) hs.psi).2.1 e he x hx)

theorem constantN {S : Prop} {u : User K (Idx n) n} {a : CfgN n K} {p : SpecN.Par n K} {P : Fin n → Nat} {ds : List (Fin n)} (h : ProgN S u a P) (hc : CyclicSetupN a p P ds) (hF : FGood p.o p.F)
    (hG : ∀ x, gFacN p.o p.st.G x ≠ 0) {psi0 : Nat → Idx n → K} (h0 : ∀ e, PeriodicN P (psi0 e)) {s : St K (Idx n) n (MemN n K)} (hs : Begin (solverN u (solverHalo a.o) a) psi0 s)
    (dt0 : K) (filt : Nat → Bool) (first : Nat → K) (more : Nat → List K) (e : Nat) (he : e < u.nEqns) (hr : isset u.norhs (bit e) = false) (hv : NoAbs u e) (Q : K)
    (hQ : ∀ dt b psi, totN a P (u.force dt b psi (fun _ _ => 0) e) = Q) (t : Nat) :
    totN a P ((run (solverN u (solverHalo a.o) a) dt0 filt first more s t).psi e) = totN a P (s.psi e) + Q * ∑ k ∈ Finset.range t, dtOf (first k) (more k) := by
  have hb := budgetN h hc hF hG h0 hs dt0 filt first more
  rw [hb.constant (totN_onGrid hc) (totN_lin a P) (e := e) he hv (Q := Q) (fun dt b psi => by
    unfold source; rw [if_pos (hasRhs_of (c := solverN u (solverHalo a.o) a) he hr)]; exact hQ _ _ _) t]
  congr 1
  exact totN_onGrid (u := u) hc _ _ (fun x hx => (anteLoop_budget (h.link hc hF) dt0 (fun e => perTN.2 (h0 e)) hs.psi).2.1 e he x hx)

/-- C61, 2-D: constant source, as in 1-D. -/
theorem C61_constant_source_2d_partial (u : User K (Idx 2) 2) (a : CfgN 2 K) (p : SpecN.Par 2 K) (P : Fin 2 → Nat) (h : Prog2 u a p P) (hG : ∀ x, gFacN p.o p.st.G x ≠ 0)
    (psi0 : Nat → Idx 2 → K) (h0 : ∀ e, PeriodicN P (psi0 e)) (s : St K (Idx 2) 2 (MemN 2 K)) (hs : Begin (solverN u (solverHalo a.o) a) psi0 s)
    (dt0 : K) (filt : Nat → Bool) (first : Nat → K) (more : Nat → List K) (e : Nat) (he : e < u.nEqns) (hr : isset u.norhs (bit e) = false) (hv : NoAbs u e) (Q : K)
    (hQ : ∀ dt b psi, totN a P (u.force dt b psi (fun _ _ => 0) e) = Q) (t : Nat) :
    totN a P ((run (solverN u (solverHalo a.o) a) dt0 filt first more s t).psi e) = totN a P (s.psi e) + Q * ∑ k ∈ Finset.range t, dtOf (first k) (more k) :=
  constantN h h.solver.setup h.solver.good hG h0 hs dt0 filt first more e he hr hv Q hQ t

/-- C61, 3-D: constant source, as in 1-D. -/
theorem C61_constant_source_3d_partial (u : User K (Idx 3) 3) (a : CfgN 3 K) (p : SpecN.Par 3 K) (P : Fin 3 → Nat) (h : Prog3 u a p P) (hG : ∀ x, gFacN p.o p.st.G x ≠ 0)
    (psi0 : Nat → Idx 3 → K) (h0 : ∀ e, PeriodicN P (psi0 e)) (s : St K (Idx 3) 3 (MemN 3 K)) (hs : Begin (solverN u (solverHalo a.o) a) psi0 s)
    (dt0 : K) (filt : Nat → Bool) (first : Nat → K) (more : Nat → List K) (e : Nat) (he : e < u.nEqns) (hr : isset u.norhs (bit e) = false) (hv : NoAbs u e) (Q : K)
    (hQ : ∀ dt b psi, totN a P (u.force dt b psi (fun _ _ => 0) e) = Q) (t : Nat) :
    totN a P ((run (solverN u (solverHalo a.o) a) dt0 filt first more s t).psi e) = totN a P (s.psi e) + Q * ∑ k ∈ Finset.range t, dtOf (first k) (more k) :=
  constantN h h.solver.setup h.solver.good hG h0 hs dt0 filt first more e he hr hv Q hQ t

/-- C61, 1-D: with linear damping at rate `k` and an Euler scheme the total is multiplied by `1 - k dt` in every step. -/
theorem C61_linear_damping_1d_partial (u : User K Int 1) (a : Cfg1 K) (p : Spec1.Par K) (N : Nat) (h : Prog1 u a p N) (hG : ∀ i, gFac1 p.o p.G i ≠ 0)
    (psi0 : Nat → Int → K) (h0 : ∀ e, Spec1.Periodic N (psi0 e)) (s : St K Int 1 (Mem1 K)) (hs : Begin (solver1 u a) psi0 s)
    (dt0 : K) (filt : Nat → Bool) (first : Nat → K) (more : Nat → List K) (e : Nat) (he : e < u.nEqns) (hr : isset u.norhs (bit e) = false) (hv : NoAbs u e) (hsch : u.sch ≠ .trapez) (k : K)
    (hk : ∀ dt b psi r x, u.force dt b psi r e x = r e x - k * psi e x) (t : Nat) :
    tot1 a N ((run (solver1 u a) dt0 filt first more s (t + 1)).psi e) = (1 - k * dtOf (first t) (more t)) * tot1 a N ((run (solver1 u a) dt0 filt first more s t).psi e) := by
  have hb := (C61_budget_1d_partial u a p N h hG psi0 h0 s hs dt0 filt first more).1 hsch t e he hv
  rw [hb]
  have hrel := run_rel h.link h.wf dt0 filt first more hs.ts hs.ds0 hs.ds1 (fun e => perT1.2 (h0 e)) hs.psi t
  have : tot1 a N (source (solver1 u a) (dtOf (first t) (more t)) false (run (solver1 u a) dt0 filt first more s t).psi e) = -k * tot1 a N ((run (solver1 u a) dt0 filt first more s t).psi e) := by
    have h1 : tot1 a N (source (solver1 u a) (dtOf (first t) (more t)) false (run (solver1 u a) dt0 filt first more s t).psi e)
        = tot1 a N (fun x => 0 + -k * (run (solver1 u a) dt0 filt first more s t).psi e x) := by
      refine tot1_onGrid (u := u) h.setup _ _ fun x hx => ?_
      unfold source
      rw [if_pos (hasRhs_of (c := solver1 u a) he hr)]
      show u.force _ _ _ _ e x = _
      rw [hk]
      have : full (solver1 u a) (run (solver1 u a) dt0 filt first more s t).psi e x = (run (solver1 u a) dt0 filt first more s t).psi e x := by
        unfold full
        rw [if_pos (show e < (solver1 u a).nEqns from he)]
        exact (h.link.xchng _ _ (hrel.perPsi e) (hrel.psi e he) x (h.link.gridH x hx)).trans (hrel.psi e he x hx).symm
      rw [this]; ring
    rw [h1, tot1_lin a N (fun _ => 0) _ (-k)]
    have : tot1 a N (fun _ => (0 : K)) = 0 := by unfold tot1; simp
    rw [this]; ring
  rw [this]; ring

/-! ## Satisfiability -/

/-- velocity 0 damped at rate 1/3, a tracer 1 with a source of 2 per unit time, absorber off -/
def dampU (sch : Scheme) : User ℚ Int 1 :=
  { nEqns := 2, norhs := 0, delayed := 0, vip := fun _ => 0, den := none, veps := 0, dx := fun _ => 1, sch := sch, vc := ⟨false, false⟩, vab := .noab
    coeff := fun _ => 0, relax := fun _ _ => 0, force := fun _ _ psi r e x => if e = 0 then r e x - 1/3 * psi e x else r e x + 2 }

example (sch : Scheme) : Prog1 (dampU sch) (demo1 oFct 2) ⟨oFct, .exact, .noextrp, 1/1000, 1/1000, fun _ => 1, fun _ => 0, fun _ => 0⟩ 4 ∧ NoAbs (dampU sch) 0 ∧ NoAbs (dampU sch) 1 ∧
    (∀ dt b psi r x, (dampU sch).force dt b psi r 0 x = r 0 x - 1/3 * psi 0 x) ∧ (∀ dt b psi, tot1 (demo1 oFct 2) 4 ((dampU sch).force dt b psi (fun _ _ => 0) 1) = 8) ∧
    Begin (solver1 (dampU sch) (demo1 oFct 2)) (fun _ _ => 2) derSt := by
  refine ⟨⟨⟨rfl, rfl, rfl, rfl, rfl, rfl, by decide, rfl, rfl, ⟨fun _ => rfl, fun _ => rfl, fun _ => rfl⟩, fun _ _ _ => rfl, fun _ _ _ => rfl, fun _ _ _ => rfl⟩,
    by decide, by unfold HaloCovered; decide, ⟨fun _ => by simp [dampU], fun e he => by simp [dampU] at he⟩, fun _ => rfl, fun _ _ => rfl, ?_⟩, .inl rfl, .inl rfl,
    fun _ _ _ _ _ => rfl, fun _ _ _ => ?_, ⟨rfl, rfl, rfl, fun _ _ _ _ => rfl⟩⟩
  · intro dt b psi psi' r r' h1 h2 h3 h4 e he
    have hle : e < 2 := by simp only [hasRhs, Bool.and_eq_true, decide_eq_true_eq] at he; exact he.1
    refine ⟨fun i x => ?_, fun x hx => ?_⟩
    · show (if e = 0 then r' e (tr1 (4 : Nat) i x) - 1/3 * psi' e (tr1 (4 : Nat) i x) else r' e (tr1 (4 : Nat) i x) + 2) = if e = 0 then r' e x - 1/3 * psi' e x else r' e x + 2
      rw [h3 e he i x, h1 e i x]
    · show (if e = 0 then r e x - 1/3 * psi e x else r e x + 2) = if e = 0 then r' e x - 1/3 * psi' e x else r' e x + 2
      rw [h4 e he x hx, h2 e hle x (by have hm : (demo1 oFct 2).ijk.Mem x := of_decide_eq_true hx; have h5 := hm.1; have h6 := hm.2; constructor <;> omega)]
  · show tot1 (demo1 oFct 2) 4 (fun _ => 0 + 2) = (8 : ℚ)
    decide +kernel

end Mpdata.VP
