import Verif.Lemmas.VipLink
import Verif.Lemmas.VipRest
import Verif.Props.Conserve1
import Verif.Props.ConserveN
import Verif.Props.ConstN
import Verif.Props.Positive1
import Verif.Props.PositiveN
/-! # C61: whole runs of solvers with prognosed velocities on cyclic domains

A solver whose advector comes from the advected velocities or momenta (`mpdata_rhs_vip`), with any forcing, right-hand side scheme, absorber, time steps (constant or adaptive, any trial
steps), upwind-filter steps, delayed equations, and advection options, in one, two and three dimensions. Partial: divergence-form options with three or more passes and no fct are
excluded (`HaloCovered`, where already the advection of one field fails, C20), and boundaries are cyclic. -/
set_option linter.unusedSectionVars false
namespace Mpdata.VP
variable {K X : Type} [Field K] [LinearOrder K] [IsStrictOrderedRing K] {n : Nat} {T I : Type}

/-- memory before the first step: no step done yet, the fields at the grid points are `psi0`; everything else (halos, right-hand sides, stash, advector, temporaries) is arbitrary -/
structure Begin (c : Cfg K X n T) (psi0 : Nat → X → K) (s : St K X n T) : Prop where
  ts : s.timestep = 0
  ds0 : s.ds0 = 0
  ds1 : s.ds1 = 0
  psi : ∀ e, e < c.nEqns → ∀ x, c.grid x = true → s.psi e x = psi0 e x

/-- a 1-D cyclic solver `a` of period `N` with the program's settings `u` -/
structure Prog1 (u : User K Int 1) (a : Cfg1 K) (p : Spec1.Par K) (N : Nat) : Prop where
  setup : CyclicSetup a p N
  passes : 1 ≤ a.nIters
  covered : HaloCovered a.o a.nIters
  wf : Wf u
  coeff : Spec1.Periodic N u.coeff
  relax : ∀ d, Spec1.Periodic N (u.relax d)
  force : ForceOk (solver1 u a) (tr1 N) (fun x => a.ijk.first - solverHalo a.o ≤ x ∧ x ≤ a.ijk.last + solverHalo a.o)

/-- the same in 2-D (`S` is `Solver2 a p P`) and 3-D (`S` is `Solver3 a p P`) -/
structure ProgN (S : Prop) (u : User K (Idx n) n) (a : CfgN n K) (P : Fin n → Nat) : Prop where
  solver : S
  passes : 1 ≤ a.nIters
  covered : HaloCovered a.o a.nIters
  wf : Wf u
  coeff : PeriodicN P u.coeff
  relax : ∀ d, PeriodicN P (u.relax d)
  force : ForceOk (solverN u (solverHalo a.o) a) (trN P) (Bx a.box (fun _ => solverHalo a.o) (fun _ => solverHalo a.o))

abbrev Prog2 (u : User K (Idx 2) 2) (a : CfgN 2 K) (p : SpecN.Par 2 K) (P : Fin 2 → Nat) : Prop := ProgN (Solver2 a p P) u a P
abbrev Prog3 (u : User K (Idx 3) 3) (a : CfgN 3 K) (p : SpecN.Par 3 K) (P : Fin 3 → Nat) : Prop := ProgN (Solver3 a p P) u a P

/-- the same solver on the unbounded 1-D grid -/
abbrev ideal1 (u : User K Int 1) (a : Cfg1 K) (p : Spec1.Par K) : Cfg K Int 1 Unit := ideal (solver1 u a) (fun _ => 1) u.coeff u.relax (adv1 u p a.nIters)

/-- the same solver on the unbounded 2-D or 3-D grid -/
abbrev idealN (u : User K (Idx n) n) (a : CfgN n K) (p : SpecN.Par n K) : Cfg K (Idx n) n Unit :=
  ideal (solverN u (solverHalo a.o) a) (gFacN p.o p.st.G) u.coeff u.relax (advN u p a.nIters)

theorem Prog1.link {u : User K Int 1} {a : Cfg1 K} {p : Spec1.Par K} {N : Nat} (h : Prog1 u a p N) :
    Link (solver1 u a) (tr1 N) (fun x => a.ijk.first - solverHalo a.o ≤ x ∧ x ≤ a.ijk.last + solverHalo a.o)
      (fun _ x => a.ijk.first - solverHalo a.o ≤ x ∧ x ≤ a.ijk.last + solverHalo a.o - 1) (fun _ => 1) u.coeff u.relax (adv1 u p a.nIters) :=
  link1 h.setup h.passes h.covered u h.coeff h.relax (fun _ _ => rfl) (fun _ _ _ => rfl) h.force

theorem ProgN.link {S : Prop} {u : User K (Idx n) n} {a : CfgN n K} {p : SpecN.Par n K} {P : Fin n → Nat} {ds : List (Fin n)} (h : ProgN S u a P) (hc : CyclicSetupN a p P ds) (hF : FGood p.o p.F) :
    Link (solverN u (solverHalo a.o) a) (trN P) (Bx a.box (fun _ => solverHalo a.o) (fun _ => solverHalo a.o))
      (fun d => Bx a.box (fun _ => solverHalo a.o) (fun e => if e = d then (solverHalo a.o : Int) - 1 else solverHalo a.o)) (gFacN p.o p.st.G) u.coeff u.relax (advN u p a.nIters) :=
  linkN hc hF h.passes h.covered u h.coeff h.relax (fun _ _ => rfl) (fun _ _ _ => rfl) h.force

theorem one_le_haloI (o : OptsT) : (1 : Int) ≤ solverHalo o := by unfold solverHalo; split <;> simp

/-! ## The halo is invisible -/

/-- C61, 1-D: at every grid point and time the program holds what the same loop computes on the unbounded grid from the periodic data; halo contents, temporaries and the initial
contents of memory do not matter. -/
theorem C61_cyclic_is_periodic_1d_partial (u : User K Int 1) (a : Cfg1 K) (p : Spec1.Par K) (N : Nat) (h : Prog1 u a p N) (psi0 : Nat → Int → K) (h0 : ∀ e, Spec1.Periodic N (psi0 e))
    (s : St K Int 1 (Mem1 K)) (hs : Begin (solver1 u a) psi0 s) (dt0 : K) (filt : Nat → Bool) (first : Nat → K) (more : Nat → List K) (t e : Nat) (he : e < u.nEqns)
    (x : Int) (hx : a.ijk.Mem x) :
    (run (solver1 u a) dt0 filt first more s t).psi e x = (run (ideal1 u a p) dt0 filt first more (start psi0) t).psi e x :=
  (run_rel h.link h.wf dt0 filt first more hs.ts hs.ds0 hs.ds1 (fun e => perT1.2 (h0 e)) hs.psi t).psi e he x (decide_eq_true hx)

theorem cycN {S : Prop} {u : User K (Idx n) n} {a : CfgN n K} {p : SpecN.Par n K} {P : Fin n → Nat} {ds : List (Fin n)} (h : ProgN S u a P) (hc : CyclicSetupN a p P ds) (hF : FGood p.o p.F)
    {psi0 : Nat → Idx n → K} (h0 : ∀ e, PeriodicN P (psi0 e)) {s : St K (Idx n) n (MemN n K)} (hs : Begin (solverN u (solverHalo a.o) a) psi0 s)
    (dt0 : K) (filt : Nat → Bool) (first : Nat → K) (more : Nat → List K) (t e : Nat) (he : e < u.nEqns) {x : Idx n} (hx : InGrid P x) :
    (run (solverN u (solverHalo a.o) a) dt0 filt first more s t).psi e x = (run (idealN u a p) dt0 filt first more (start psi0) t).psi e x :=
  (run_rel (h.link hc hF) h.wf dt0 filt first more hs.ts hs.ds0 hs.ds1 (fun e => perTN.2 (h0 e)) hs.psi t).psi e he x (decide_eq_true ((cellBox_iff hc _).2 hx))

/-- C61, 2-D: as in 1-D. -/
theorem C61_cyclic_is_periodic_2d_partial (u : User K (Idx 2) 2) (a : CfgN 2 K) (p : SpecN.Par 2 K) (P : Fin 2 → Nat) (h : Prog2 u a p P) (psi0 : Nat → Idx 2 → K)
    (h0 : ∀ e, PeriodicN P (psi0 e)) (s : St K (Idx 2) 2 (MemN 2 K)) (hs : Begin (solverN u (solverHalo a.o) a) psi0 s) (dt0 : K) (filt : Nat → Bool) (first : Nat → K)
    (more : Nat → List K) (t e : Nat) (he : e < u.nEqns) (x : Idx 2) (hx : InGrid P x) :
    (run (solverN u (solverHalo a.o) a) dt0 filt first more s t).psi e x = (run (idealN u a p) dt0 filt first more (start psi0) t).psi e x :=
  cycN h h.solver.setup h.solver.good h0 hs dt0 filt first more t e he hx

/-- C61, 3-D: as in 1-D. -/
theorem C61_cyclic_is_periodic_3d_partial (u : User K (Idx 3) 3) (a : CfgN 3 K) (p : SpecN.Par 3 K) (P : Fin 3 → Nat) (h : Prog3 u a p P) (psi0 : Nat → Idx 3 → K)
    (h0 : ∀ e, PeriodicN P (psi0 e)) (s : St K (Idx 3) 3 (MemN 3 K)) (hs : Begin (solverN u (solverHalo a.o) a) psi0 s) (dt0 : K) (filt : Nat → Bool) (first : Nat → K)
    (more : Nat → List K) (t e : Nat) (he : e < u.nEqns) (x : Idx 3) (hx : InGrid P x) :
    (run (solverN u (solverHalo a.o) a) dt0 filt first more s t).psi e x = (run (idealN u a p) dt0 filt first more (start psi0) t).psi e x :=
  cycN h h.solver.setup h.solver.good h0 hs dt0 filt first more t e he hx

/-! ## Totals -/

/-- equation `e` has no net source: it is excluded from forcing (`hint_norhs`), or on periodic fields the right-hand sides the forcing makes of zeros have a zero total; and no absorber
acts on it -/
def NoNetSource (u : User K X n) (per : (X → K) → Prop) (tot : (X → K) → K) (e : Nat) : Prop :=
  (isset u.norhs (bit e) = true ∨ ∀ dt b psi z, (∀ e, per (psi e)) → (∀ x, z e x = 0) → tot (u.force dt b psi z e) = 0) ∧ (u.vab = .noab ∨ ∀ d, u.vip d ≠ e)

theorem quiet_of {c : Cfg K X n T} {tr : I → X → X} {per : (X → K) → Prop} {S : (X → K) → K} {e : Nat} (hp : ∀ f, PerT tr f → per f)
    (lin : ∀ f g (k : K), S (fun x => f x + k * g x) = S f + k * S g) (h : NoNetSource c.toUser per S e) : Quiet c tr S e := by
  refine ⟨lin, fun he dt b psi z h1 h2 => ?_, h.2⟩
  rcases h.1 with h3 | h3
  · unfold hasRhs at he
    rw [h3] at he; simp at he
  · exact h3 dt b psi z (fun e => hp _ (h1 e)) h2

/-- the G-weighted total of a field over the grid points of one period -/
def tot1 (a : Cfg1 K) (N : Nat) (f : Int → K) : K := ∑ i ∈ Finset.range N, gFac1 a.o a.G (a.ijk.first + i) * f (a.ijk.first + i)
/-- the same in more dimensions -/
def totN (a : CfgN n K) (P : Fin n → Nat) (f : Idx n → K) : K := ∑ x ∈ period P, gFacN a.o a.st.G x * f x

theorem tot1_eq {a : Cfg1 K} {p : Spec1.Par K} {N : Nat} (h : CyclicSetup a p N) {f g : Int → K} (hfg : ∀ x, a.ijk.Mem x → f x = g x) : tot1 a N f = total p.o p.G a.ijk.first N g := by
  unfold tot1 total
  refine Finset.sum_congr rfl fun i hi => ?_
  have hN := h.hN
  have hi' : (i : Int) < N := by exact_mod_cast Finset.mem_range.1 hi
  have m : a.ijk.Mem (a.ijk.first + i) := ⟨by omega, by omega⟩
  rw [hfg _ m]
  unfold gFac1
  have : a.G (a.ijk.first + i) = p.G (a.ijk.first + i) := h.hG _ (by omega) (by have := m.2; omega)
  rw [h.ho, this]

theorem totN_eq {a : CfgN n K} {p : SpecN.Par n K} {P : Fin n → Nat} {ds : List (Fin n)} (h : CyclicSetupN a p P ds) {f g : Idx n → K} (hfg : ∀ x, InGrid P x → f x = g x) :
    totN a P f = ∑ x ∈ period P, gFacN p.o p.st.G x * g x :=
  Finset.sum_congr rfl fun x hx => by rw [gFac_cyc h (inGrid_of_period hx), hfg x (inGrid_of_period hx)]

theorem keeps1 {u : User K Int 1} {a : Cfg1 K} {p : Spec1.Par K} {N : Nat} (h : CyclicSetup a p N) (hG : ∀ i, gFac1 p.o p.G i ≠ 0) :
    AdvKeeps (solver1 u a) (tr1 N) (adv1 u p a.nIters) (tot1 a N) := by
  intro GC ndt ndtt f psi h1 h2 h3 h4
  rw [tot1_eq h (f := psi) (fun _ _ => rfl), tot1_eq h (fun _ _ => rfl)]
  refine passes_total (par1 p u.vc.div3 ndt ndtt) N a.ijk.first ⟨h.per.G, ?_, ?_⟩ hG (perT1.1 h1) (perT1.1 (h2 0)) _
  · unfold par1
    by_cases hd : u.vc.div3 = true
    · simp only [hd, if_true]; exact perT1.1 (h3 hd 0)
    · simp only [hd]; exact fun _ => rfl
  · unfold par1
    by_cases hd : u.vc.div3 = true
    · simp only [hd, if_true]; exact perT1.1 (h4 hd 0)
    · simp only [hd]; exact fun _ => rfl

theorem keepsN {u : User K (Idx n) n} {a : CfgN n K} {p : SpecN.Par n K} {P : Fin n → Nat} {ds : List (Fin n)} (h : CyclicSetupN a p P ds) (hF : FGood p.o p.F)
    (hP : ∀ d, 1 ≤ P d) (hG : ∀ x, gFacN p.o p.st.G x ≠ 0) :
    AdvKeeps (solverN u (solverHalo a.o) a) (trN P) (advN u p a.nIters) (totN a P) := by
  intro GC ndt ndtt f psi h1 h2 h3 h4
  rw [totN_eq h (f := psi) (fun _ _ => rfl), totN_eq h (fun _ _ => rfl)]
  refine passesN_total (p := parN p u.vc.div3 ndt ndtt) hF hP ⟨h.perG, ?_, ?_⟩ hG (perTN.1 h1) (fun d => perTN.1 (h2 d)) _
  · unfold parN
    by_cases hd : u.vc.div3 = true
    · simp only [hd, if_true]; exact fun d => perTN.1 (h3 hd d)
    · simp only [hd]; exact fun _ _ _ => rfl
  · unfold parN
    by_cases hd : u.vc.div3 = true
    · simp only [hd, if_true]; exact fun d => perTN.1 (h4 hd d)
    · simp only [hd]; exact fun _ _ _ => rfl

theorem tot1_lin (a : Cfg1 K) (N : Nat) (f g : Int → K) (k : K) : tot1 a N (fun x => f x + k * g x) = tot1 a N f + k * tot1 a N g := by
  unfold tot1
  rw [Finset.mul_sum, ← Finset.sum_add_distrib]
  exact Finset.sum_congr rfl fun i _ => by ring

theorem totN_lin (a : CfgN n K) (P : Fin n → Nat) (f g : Idx n → K) (k : K) : totN a P (fun x => f x + k * g x) = totN a P f + k * totN a P g := by
  unfold totN
  rw [Finset.mul_sum, ← Finset.sum_add_distrib]
  exact Finset.sum_congr rfl fun i _ => by ring

/-- C61, 1-D: the G-weighted total of an equation without net source is the same at all times, whatever the velocities do. -/
theorem C61_totals_1d_partial (u : User K Int 1) (a : Cfg1 K) (p : Spec1.Par K) (N : Nat) (h : Prog1 u a p N) (hG : ∀ i, gFac1 p.o p.G i ≠ 0)
    (psi0 : Nat → Int → K) (h0 : ∀ e, Spec1.Periodic N (psi0 e)) (s : St K Int 1 (Mem1 K)) (hs : Begin (solver1 u a) psi0 s)
    (dt0 : K) (filt : Nat → Bool) (first : Nat → K) (more : Nat → List K) (e : Nat) (he : e < u.nEqns) (hq : NoNetSource u (Spec1.Periodic N) (tot1 a N) e) (t : Nat) :
    tot1 a N ((run (solver1 u a) dt0 filt first more s t).psi e) = tot1 a N (s.psi e) := by
  have h1 := (run_total h.link h.wf (keeps1 h.setup hG) (quiet_of (c := solver1 u a) (fun f hf => perT1.1 hf) (tot1_lin a N) hq) dt0 filt first more
    hs.ts hs.ds0 hs.ds1 (fun e => perT1.2 (h0 e)) hs.psi t).1
  rw [tot1_eq h.setup (fun x hx => C61_cyclic_is_periodic_1d_partial u a p N h psi0 h0 s hs dt0 filt first more t e he x hx),
    tot1_eq h.setup (f := s.psi e) (fun x hx => hs.psi e he x (decide_eq_true hx)), ← tot1_eq h.setup (fun _ _ => rfl), ← tot1_eq h.setup (fun _ _ => rfl)]
  exact h1

theorem totalsN {S : Prop} {u : User K (Idx n) n} {a : CfgN n K} {p : SpecN.Par n K} {P : Fin n → Nat} {ds : List (Fin n)} (h : ProgN S u a P) (hc : CyclicSetupN a p P ds) (hF : FGood p.o p.F)
    (hG : ∀ x, gFacN p.o p.st.G x ≠ 0) {psi0 : Nat → Idx n → K} (h0 : ∀ e, PeriodicN P (psi0 e)) {s : St K (Idx n) n (MemN n K)} (hs : Begin (solverN u (solverHalo a.o) a) psi0 s)
    (dt0 : K) (filt : Nat → Bool) (first : Nat → K) (more : Nat → List K) (e : Nat) (he : e < u.nEqns) (hq : NoNetSource u (PeriodicN P) (totN a P) e) (t : Nat) :
    totN a P ((run (solverN u (solverHalo a.o) a) dt0 filt first more s t).psi e) = totN a P (s.psi e) := by
  have hP : ∀ d, 1 ≤ P d := fun d => by
    have h1 := one_le_haloI a.o
    have := hc.hhP d; omega
  have h1 := (run_total (h.link hc hF) h.wf (keepsN hc hF hP hG) (quiet_of (c := solverN u (solverHalo a.o) a) (fun f hf => perTN.1 hf) (totN_lin a P) hq) dt0 filt first more
    hs.ts hs.ds0 hs.ds1 (fun e => perTN.2 (h0 e)) hs.psi t).1
  rw [totN_eq hc (fun x hx => cycN h hc hF h0 hs dt0 filt first more t e he hx),
    totN_eq hc (f := s.psi e) (fun x hx => hs.psi e he x (decide_eq_true ((cellBox_iff hc _).2 hx))), ← totN_eq hc (fun _ _ => rfl), ← totN_eq hc (fun _ _ => rfl)]
  exact h1

/-- C61, 2-D: totals, as in 1-D. -/
theorem C61_totals_2d_partial (u : User K (Idx 2) 2) (a : CfgN 2 K) (p : SpecN.Par 2 K) (P : Fin 2 → Nat) (h : Prog2 u a p P) (hG : ∀ x, gFacN p.o p.st.G x ≠ 0)
    (psi0 : Nat → Idx 2 → K) (h0 : ∀ e, PeriodicN P (psi0 e)) (s : St K (Idx 2) 2 (MemN 2 K)) (hs : Begin (solverN u (solverHalo a.o) a) psi0 s)
    (dt0 : K) (filt : Nat → Bool) (first : Nat → K) (more : Nat → List K) (e : Nat) (he : e < u.nEqns) (hq : NoNetSource u (PeriodicN P) (totN a P) e) (t : Nat) :
    totN a P ((run (solverN u (solverHalo a.o) a) dt0 filt first more s t).psi e) = totN a P (s.psi e) :=
  totalsN h h.solver.setup h.solver.good hG h0 hs dt0 filt first more e he hq t

/-- C61, 3-D: totals, as in 1-D. -/
theorem C61_totals_3d_partial (u : User K (Idx 3) 3) (a : CfgN 3 K) (p : SpecN.Par 3 K) (P : Fin 3 → Nat) (h : Prog3 u a p P) (hG : ∀ x, gFacN p.o p.st.G x ≠ 0)
    (psi0 : Nat → Idx 3 → K) (h0 : ∀ e, PeriodicN P (psi0 e)) (s : St K (Idx 3) 3 (MemN 3 K)) (hs : Begin (solverN u (solverHalo a.o) a) psi0 s)
    (dt0 : K) (filt : Nat → Bool) (first : Nat → K) (more : Nat → List K) (e : Nat) (he : e < u.nEqns) (hq : NoNetSource u (PeriodicN P) (totN a P) e) (t : Nat) :
    totN a P ((run (solverN u (solverHalo a.o) a) dt0 filt first more s t).psi e) = totN a P (s.psi e) :=
  totalsN h h.solver.setup h.solver.good hG h0 hs dt0 filt first more e he hq t

/-! ## Rest -/

/-- the uniform state `v` is at rest: zero velocity variables, no absorber, and on it the forcing makes zeros of zeros -/
structure AtRest (u : User K X n) (v : Nat → K) : Prop where
  still : ∀ d, v (u.vip d) = 0
  vab : u.vab = .noab
  force : ∀ dt b psi z, (∀ e, e < u.nEqns → ∀ x, psi e x = v e) → (∀ e, e < u.nEqns → isset u.norhs (bit e) = false → ∀ x, z e x = 0) →
    ∀ e, e < u.nEqns → isset u.norhs (bit e) = false → ∀ x, u.force dt b psi z e x = 0

theorem AtRest.ok {c : Cfg K X n T} {adv : (GC ndt ndtt : Fin n → X → K) → Bool → (X → K) → (X → K)} {v : Nat → K} (h : AtRest c.toUser v)
    (ha : ∀ f (k : K), adv (fun _ _ => 0) (fun _ _ => 0) (fun _ _ => 0) f (fun _ => k) = fun _ => k) : RestOk c adv v := by
  have hr : ∀ e, hasRhs c e = true ↔ e < c.nEqns ∧ isset c.norhs (bit e) = false := by intro e; unfold hasRhs; simp
  refine ⟨h.still, h.vab, fun dt b psi z h1 h2 e he x => ?_, ha⟩
  exact h.force dt b psi z h1 (fun e a b => h2 e ((hr e).2 ⟨a, b⟩)) e ((hr e).1 he).1 ((hr e).1 he).2 x

/-- C61, 1-D: a uniform state at rest stays exactly as it is. -/
theorem C61_rest_1d_partial (u : User K Int 1) (a : Cfg1 K) (p : Spec1.Par K) (N : Nat) (h : Prog1 u a p N) (v : Nat → K) (hv : AtRest u v)
    (s : St K Int 1 (Mem1 K)) (hs : Begin (solver1 u a) (fun e _ => v e) s) (dt0 : K) (filt : Nat → Bool) (first : Nat → K) (more : Nat → List K) (t e : Nat) (he : e < u.nEqns)
    (x : Int) (hx : a.ijk.Mem x) :
    (run (solver1 u a) dt0 filt first more s t).psi e x = v e := by
  rw [C61_cyclic_is_periodic_1d_partial u a p N h _ (fun e _ => rfl) s hs dt0 filt first more t e he x hx]
  refine (run_rest (c := solver1 u a) h.wf (AtRest.ok (v := v) hv ?_) dt0 filt first more (fun _ _ _ => rfl) t).psi e he x
  intro f k
  exact (passes_constant (par1 p u.vc.div3 (fun _ _ => 0) (fun _ _ => 0)) k 0 0 0 (fun i => by simp [par1]) (fun i => by simp [par1]) (fun _ => rfl) _).1

theorem restN {S : Prop} {u : User K (Idx n) n} {a : CfgN n K} {p : SpecN.Par n K} {P : Fin n → Nat} {ds : List (Fin n)} (h : ProgN S u a P) (hc : CyclicSetupN a p P ds) (hF : FGood p.o p.F)
    (hz : ∀ (k : K) d x, p.F.vel d ⟨p.st.G, fun _ _ => 0, fun _ _ => 0⟩ (fun _ => k) (fun _ => k) (fun _ _ => 0) x = 0)
    {v : Nat → K} (hv : AtRest u v) {s : St K (Idx n) n (MemN n K)} (hs : Begin (solverN u (solverHalo a.o) a) (fun e _ => v e) s)
    (dt0 : K) (filt : Nat → Bool) (first : Nat → K) (more : Nat → List K) (t e : Nat) (he : e < u.nEqns) {x : Idx n} (hx : InGrid P x) :
    (run (solverN u (solverHalo a.o) a) dt0 filt first more s t).psi e x = v e := by
  rw [cycN h hc hF (fun e x d => rfl) hs dt0 filt first more t e he hx]
  refine (run_rest (c := solverN u (solverHalo a.o) a) h.wf (AtRest.ok (v := v) hv ?_) dt0 filt first more (fun _ _ _ => rfl) t).psi e he x
  intro f k
  have e1 : parN p u.vc.div3 (fun _ _ => (0 : K)) (fun _ _ => 0) = { p with st := ⟨p.st.G, fun _ _ => 0, fun _ _ => 0⟩ } := by unfold parN; simp
  show (SpecN.passes (parN p u.vc.div3 (fun _ _ => (0 : K)) (fun _ _ => 0)) (fun _ => k) (fun _ _ => 0) _).psi = _
  rw [e1]
  exact (passesN_const (p := { p with st := ⟨p.st.G, fun _ _ => 0, fun _ _ => 0⟩ }) hF k (fun _ _ => 0) divN_zero (hz k) (hz k) _).1

/-- C61, 2-D: rest, as in 1-D (the infinite gauge together with `abs` is excluded, as in C18). -/
theorem C61_rest_2d_partial (u : User K (Idx 2) 2) (a : CfgN 2 K) (p : SpecN.Par 2 K) (P : Fin 2 → Nat) (h : Prog2 u a p P) (hab : isset p.o oIga = true → isset p.o oAbs = false)
    (v : Nat → K) (hv : AtRest u v) (s : St K (Idx 2) 2 (MemN 2 K)) (hs : Begin (solverN u (solverHalo a.o) a) (fun e _ => v e) s)
    (dt0 : K) (filt : Nat → Bool) (first : Nat → K) (more : Nat → List K) (t e : Nat) (he : e < u.nEqns) (x : Idx 2) (hx : InGrid P x) :
    (run (solverN u (solverHalo a.o) a) dt0 filt first more s t).psi e x = v e := by
  refine restN h h.solver.setup h.solver.good (fun k d x => ?_) hv hs dt0 filt first more t e he hx
  obtain ⟨si, te, tiny, hF⟩ := h.solver.form
  rw [hF]
  exact vel2_const te tiny k hab _ _ divN_zero (fun _ => ⟨divN_zero, fun _ _ => rfl, .inr fun _ _ => by simp⟩) d x

/-- C61, 3-D: rest, as in 2-D. -/
theorem C61_rest_3d_partial (u : User K (Idx 3) 3) (a : CfgN 3 K) (p : SpecN.Par 3 K) (P : Fin 3 → Nat) (h : Prog3 u a p P) (hab : isset p.o oIga = true → isset p.o oAbs = false)
    (v : Nat → K) (hv : AtRest u v) (s : St K (Idx 3) 3 (MemN 3 K)) (hs : Begin (solverN u (solverHalo a.o) a) (fun e _ => v e) s)
    (dt0 : K) (filt : Nat → Bool) (first : Nat → K) (more : Nat → List K) (t e : Nat) (he : e < u.nEqns) (x : Idx 3) (hx : InGrid P x) :
    (run (solverN u (solverHalo a.o) a) dt0 filt first more s t).psi e x = v e := by
  refine restN h h.solver.setup h.solver.good (fun k d x => ?_) hv hs dt0 filt first more t e he hx
  obtain ⟨si, te, tiny, hF⟩ := h.solver.form
  rw [hF]
  exact vel3_const te tiny k hab _ _ divN_zero (fun _ => ⟨divN_zero, fun _ _ => rfl, .inr fun _ _ => by simp⟩) d x

/-! ## Sign -/

/-- equation `e` is never changed by forcing or absorber: it is excluded by `hint_norhs`, or the forcing leaves zeros in its right-hand side -/
def Unforced (u : User K X n) (e : Nat) : Prop :=
  (isset u.norhs (bit e) = true ∨ ∀ dt b psi z, (∀ x, z e x = 0) → ∀ x, u.force dt b psi z e x = 0) ∧ (u.vab = .noab ∨ ∀ d, u.vip d ≠ e)

theorem Unforced.inert {c : Cfg K X n T} {tr : I → X → X} {e : Nat} (h : Unforced c.toUser e) : Inert c tr e := by
  refine ⟨fun he dt b psi z _ h2 x => ?_, h.2⟩
  rcases h.1 with h3 | h3
  · unfold hasRhs at he
    rw [h3] at he; simp at he
  · exact h3 dt b psi z h2 x

/-- C61, 1-D: an unforced equation (a density, a layer depth) that is non-negative at the beginning stays non-negative as long as in no step more than the content of a cell flows out of
it, with the flux limiter or with the options of `BasicOpts` (then `GC` also within 1, within 1/2 with `dfl`). The condition is on the advectors the program computes itself. -/
theorem C61_nonneg_1d_partial (u : User K Int 1) (a : Cfg1 K) (p : Spec1.Par K) (N : Nat) (h : Prog1 u a p N) (hg : ∀ i, 0 < gFac1 p.o p.G i) (ht : 0 ≤ a.tiny) (hep : 0 ≤ a.eps)
    (psi0 : Nat → Int → K) (h0 : ∀ e, Spec1.Periodic N (psi0 e)) (s : St K Int 1 (Mem1 K)) (hs : Begin (solver1 u a) psi0 s)
    (dt0 : K) (filt : Nat → Bool) (first : Nat → K) (more : Nat → List K) (e : Nat) (he : e < u.nEqns) (hu : Unforced u e) (t : Nat)
    (hc : ∀ q, q < t → ∀ x, a.ijk.Mem x → let C := (run (solver1 u a) dt0 filt first more s (q + 1)).GC 0; max 0 (C x) - min 0 (C (x - 1)) ≤ gFac1 a.o a.G x)
    (ho : isset a.o oFct = true ∨ BasicOpts a.o ∧ ∀ q, q < t → ∀ x, a.ijk.Mem x → let C := (run (solver1 u a) dt0 filt first more s (q + 1)).GC 0; |C x| ≤ 1 ∧ (isset a.o oDfl = true → |C x| ≤ 1 / 2))
    (hp : ∀ x, a.ijk.Mem x → 0 ≤ s.psi e x) (x : Int) (hx : a.ijk.Mem x) :
    0 ≤ (run (solver1 u a) dt0 filt first more s t).psi e x := by
  have hN : (0 : Int) < N := by have := h.setup.hhN; have h1 : (1 : Int) ≤ solverHalo a.o := one_le_haloI _
                                omega
  have hl := h.setup.hN
  -- every location has an image in the grid
  have img : ∀ i : Int, ∃ j k : Int, a.ijk.Mem j ∧ j < a.ijk.last ∧ i = j + k * N := by
    intro i
    refine ⟨a.ijk.first + (i - a.ijk.first) % N, (i - a.ijk.first) / N, ⟨?_, ?_⟩, ?_, ?_⟩
    · have := Int.emod_nonneg (i - a.ijk.first) hN.ne'; omega
    · have := Int.emod_lt_of_pos (i - a.ijk.first) hN; omega
    · have := Int.emod_lt_of_pos (i - a.ijk.first) hN; omega
    · have := Int.mul_ediv_add_emod (i - a.ijk.first) N; rw [mul_comm] at this; omega
  have perk : ∀ {f : Int → K}, Spec1.Periodic N f → ∀ (j k : Int), f (j + k * N) = f j := by
    intro f hf j k
    induction k using Int.induction_on with
    | zero => simp
    | succ k ih => rw [← ih, show j + ((k : Int) + 1) * N = (j + k * N) + N by ring, hf]
    | pred k ih => rw [← ih, show j + (-(k : Int)) * N = (j + (-(k : Int) - 1) * N) + N by ring, hf]
  rw [C61_cyclic_is_periodic_1d_partial u a p N h psi0 h0 s hs dt0 filt first more t e he x hx]
  refine (run_pred h.link h.wf (Unforced.inert (c := solver1 u a) hu) dt0 filt first more (fun f => ∀ i, 0 ≤ f i) hs.ts hs.ds0 hs.ds1 (fun e => perT1.2 (h0 e)) hs.psi t ?_ ?_).1 x
  · intro q hq psi hpsi
    obtain ⟨g1, g2⟩ := step_relG h.link h.wf (filt q) (first q) (more q) (run_rel h.link h.wf dt0 filt first more hs.ts hs.ds0 hs.ds1 (fun e => perT1.2 (h0 e)) hs.psi q)
    generalize hC : (step (ideal (solver1 u a) (fun _ => 1) u.coeff u.relax (adv1 u p a.nIters)) (filt q) (first q) (more q) (run (ideal (solver1 u a) (fun _ => 1) u.coeff u.relax (adv1 u p a.nIters)) dt0 filt first more (start psi0) q)).GC = C at g1 g2
    have hC' : (run (ideal (solver1 u a) (fun _ => 1) u.coeff u.relax (adv1 u p a.nIters)) dt0 filt first more (start psi0) (q + 1)).GC = C := hC
    rw [hC']
    have gp := perT1.1 (g1 0)
    have hh : (1 : Int) ≤ solverHalo a.o := one_le_haloI _
    have gG : ∀ j, a.ijk.Mem j → gFac1 a.o a.G j = gFac1 p.o p.G j := by
      intro j hj; unfold gFac1; rw [h.setup.ho, h.setup.hG j (by have := hj.1; omega) (by have := hj.2; omega)]
    have gper : Spec1.Periodic N (gFac1 p.o p.G) := by intro i; unfold gFac1; rw [h.setup.per.G i]
    have outb : ∀ i, max 0 (C 0 i) - min 0 (C 0 (i - 1)) ≤ gFac1 p.o p.G i := by
      intro i
      obtain ⟨j, k, hj, hj', rfl⟩ := img i
      rw [show j + k * N - 1 = (j - 1) + k * N by ring, perk gp, perk gp, perk gper, ← gG j hj]
      have := hc q hq j hj
      simp only at this
      rwa [show (run (solver1 u a) dt0 filt first more s (q + 1)).GC 0 j = C 0 j from g2 0 j ⟨by have := hj.1; omega, by omega⟩,
        show (run (solver1 u a) dt0 filt first more s (q + 1)).GC 0 (j - 1) = C 0 (j - 1) from g2 0 (j - 1) ⟨by have := hj.1; omega, by omega⟩] at this
    rcases ho with hf | ⟨hb, hb'⟩
    · refine fct_passes_nonneg (par1 p u.vc.div3 _ _) (h.setup.ho ▸ hf) hg (h.setup.heps ▸ hep) (C 0) psi (fun i => ?_) hpsi _
      unfold outflow; rw [pospart_eq, negpart_eq]; exact outb i
    · have g1' : ∀ i, gFac1 p.o p.G i = 1 := by intro i; have := hb.nug; rw [h.setup.ho] at this; simp [gFac1, this]
      have bd : ∀ i, |C 0 i| ≤ 1 ∧ (isset a.o oDfl = true → |C 0 i| ≤ 1 / 2) := by
        intro i
        obtain ⟨j, k, hj, hj', rfl⟩ := img i
        rw [perk gp]
        have := hb' q hq j hj
        simp only at this
        rwa [show (run (solver1 u a) dt0 filt first more s (q + 1)).GC 0 j = C 0 j from g2 0 j ⟨by have := hj.1; omega, by omega⟩] at this
      refine (passes_nonneg (par1 p u.vc.div3 _ _) (h.setup.ho ▸ hb) (h.setup.htiny ▸ ht) (h.setup.heps ▸ hep) (C 0) psi (fun i => ?_) (fun i => (bd i).1) (fun hd i => (bd i).2 ?_) hpsi _).1
      · unfold outflow; rw [pospart_eq, negpart_eq, ← g1' i]; exact outb i
      · rw [h.setup.ho]; exact hd
  · intro i
    obtain ⟨j, k, hj, _, rfl⟩ := img i
    rw [perk (h0 e), ← hs.psi e he j (decide_eq_true hj)]
    exact hp j hj

/-- a statement about the values of a periodic field needs to be checked in one period only -/
theorem forall_of_period {P : Fin n → Nat} (hP : ∀ d, 1 ≤ P d) {f : Idx n → K} (h : PeriodicN P f) {Q : K → Prop} (hq : ∀ x, x ∈ period P → Q (f x)) (x : Idx n) : Q (f x) := by
  have key : ∀ l : List (Fin n), ∃ y, f y = f x ∧ ∀ d ∈ l, 0 ≤ y d ∧ y d < P d := by
    intro l
    induction l with
    | nil => exact ⟨x, rfl, by simp⟩
    | cons d l ih =>
      obtain ⟨y, h1, h2⟩ := ih
      have hd : (0 : Int) < P d := by have := hP d; omega
      refine ⟨wrapIdx P d y, ?_, fun e he => ?_⟩
      · rw [wrap_eq, h.mul, h1]
      · by_cases hed : e = d
        · subst hed
          simp only [wrapIdx, if_true]
          exact ⟨Int.emod_nonneg _ hd.ne', Int.emod_lt_of_pos _ hd⟩
        · simp only [wrapIdx, hed, if_false]
          exact h2 e (by simpa [hed] using he)
  obtain ⟨y, h1, h2⟩ := key (List.finRange n)
  rw [← h1]
  exact hq y (mem_period.2 fun d => h2 d (List.mem_finRange d))

theorem outflowN_periodic {P : Fin n → Nat} {C : Vec n K} (h : ∀ d, PeriodicN P (C d)) : PeriodicN P (outflowN C) := by
  intro x d
  unfold outflowN
  refine Finset.sum_congr rfl fun e _ => ?_
  rw [stepIdx_comm, h e x d, h e _ d]

theorem nonnegN {S : Prop} {u : User K (Idx n) n} {a : CfgN n K} {p : SpecN.Par n K} {P : Fin n → Nat} {ds : List (Fin n)} (h : ProgN S u a P) (hcy : CyclicSetupN a p P ds) (hF : FGood p.o p.F)
    (hg : ∀ x, 0 < gFacN p.o p.st.G x) (hep : 0 ≤ a.eps) (hf : isset a.o oFct = true)
    {psi0 : Nat → Idx n → K} (h0 : ∀ e, PeriodicN P (psi0 e)) {s : St K (Idx n) n (MemN n K)} (hs : Begin (solverN u (solverHalo a.o) a) psi0 s)
    (dt0 : K) (filt : Nat → Bool) (first : Nat → K) (more : Nat → List K) (e : Nat) (he : e < u.nEqns) (hu : Unforced u e) (t : Nat)
    (hc : ∀ q, q < t → ∀ x, InGrid P x → outflowN (run (solverN u (solverHalo a.o) a) dt0 filt first more s (q + 1)).GC x ≤ gFacN a.o a.st.G x)
    (hp : ∀ x, InGrid P x → 0 ≤ s.psi e x) {x : Idx n} (hx : InGrid P x) :
    0 ≤ (run (solverN u (solverHalo a.o) a) dt0 filt first more s t).psi e x := by
  have hh : (1 : Int) ≤ solverHalo a.o := one_le_haloI _
  have hP : ∀ d, 1 ≤ P d := fun d => by have := hcy.hhP d; omega
  rw [cycN h hcy hF h0 hs dt0 filt first more t e he hx]
  have hL := h.link hcy hF
  refine (run_pred hL h.wf (Unforced.inert (c := solverN u (solverHalo a.o) a) hu) dt0 filt first more (fun f => ∀ i, 0 ≤ f i) hs.ts hs.ds0 hs.ds1 (fun e => perTN.2 (h0 e)) hs.psi t ?_ ?_).1 x
  · intro q hq psi hpsi
    obtain ⟨g1, g2⟩ := step_relG hL h.wf (filt q) (first q) (more q) (run_rel hL h.wf dt0 filt first more hs.ts hs.ds0 hs.ds1 (fun e => perTN.2 (h0 e)) hs.psi q)
    generalize hC : (step (ideal (solverN u (solverHalo a.o) a) (gFacN p.o p.st.G) u.coeff u.relax (advN u p a.nIters)) (filt q) (first q) (more q) (run (ideal (solverN u (solverHalo a.o) a) (gFacN p.o p.st.G) u.coeff u.relax (advN u p a.nIters)) dt0 filt first more (start psi0) q)).GC = C at g1 g2
    have hC' : (run (ideal (solverN u (solverHalo a.o) a) (gFacN p.o p.st.G) u.coeff u.relax (advN u p a.nIters)) dt0 filt first more (start psi0) (q + 1)).GC = C := hC
    rw [hC']
    refine fct_passesN_nonneg (p := parN p u.vc.div3 _ _) hF (hcy.ho ▸ hf) hg (hcy.heps ▸ hep) C (fun i => ?_) psi hpsi _
    have key : ∀ y, y ∈ period P → outflowN C y ≤ gFacN p.o p.st.G y := by
      intro y hy
      rw [← gFac_cyc hcy (inGrid_of_period hy)]
      refine le_trans (le_of_eq ?_) (hc q hq y (inGrid_of_period hy))
      have hb := hcy.hbox
      have hm := mem_period.1 hy
      unfold outflowN
      refine Finset.sum_congr rfl fun d _ => ?_
      rw [show (run (solverN u (solverHalo a.o) a) dt0 filt first more s (q + 1)).GC d y = C d y from g2 d y (fun e' => ?_),
        show (run (solverN u (solverHalo a.o) a) dt0 filt first more s (q + 1)).GC d (stepIdx y d (-1)) = C d (stepIdx y d (-1)) from g2 d _ (fun e' => ?_)]
      · have := hm e'
        rw [hb e']
        by_cases h1 : e' = d
        · subst h1; simp [stepIdx]; omega
        · simp [stepIdx, h1]; omega
      · have := hm e'
        rw [hb e']
        by_cases h1 : e' = d
        · subst h1; simp; omega
        · simp [h1]; omega
    have po : PeriodicN P (fun y => gFacN p.o p.st.G y - outflowN C y) := PeriodicN.map2 (· - ·) (gFac_per hcy.perG) (outflowN_periodic fun d => perTN.1 (g1 d))
    have := forall_of_period hP po (Q := fun v => 0 ≤ v) (fun y hy => sub_nonneg.2 (key y hy)) i
    exact sub_nonneg.1 this
  · refine forall_of_period hP (h0 e) (Q := fun v => 0 ≤ v) (fun y hy => ?_)
    rw [← hs.psi e he y (decide_eq_true ((cellBox_iff hcy _).2 (inGrid_of_period hy)))]
    exact hp y (inGrid_of_period hy)

/-- C61, 2-D: sign, as in 1-D, with the flux limiter. -/
theorem C61_nonneg_2d_partial (u : User K (Idx 2) 2) (a : CfgN 2 K) (p : SpecN.Par 2 K) (P : Fin 2 → Nat) (h : Prog2 u a p P) (hg : ∀ x, 0 < gFacN p.o p.st.G x) (hep : 0 ≤ a.eps)
    (hf : isset a.o oFct = true) (psi0 : Nat → Idx 2 → K) (h0 : ∀ e, PeriodicN P (psi0 e)) (s : St K (Idx 2) 2 (MemN 2 K)) (hs : Begin (solverN u (solverHalo a.o) a) psi0 s)
    (dt0 : K) (filt : Nat → Bool) (first : Nat → K) (more : Nat → List K) (e : Nat) (he : e < u.nEqns) (hu : Unforced u e) (t : Nat)
    (hc : ∀ q, q < t → ∀ x, InGrid P x → outflowN (run (solverN u (solverHalo a.o) a) dt0 filt first more s (q + 1)).GC x ≤ gFacN a.o a.st.G x)
    (hp : ∀ x, InGrid P x → 0 ≤ s.psi e x) (x : Idx 2) (hx : InGrid P x) :
    0 ≤ (run (solverN u (solverHalo a.o) a) dt0 filt first more s t).psi e x :=
  nonnegN h h.solver.setup h.solver.good hg hep hf h0 hs dt0 filt first more e he hu t hc hp hx

/-- C61, 3-D: sign, as in 2-D. -/
theorem C61_nonneg_3d_partial (u : User K (Idx 3) 3) (a : CfgN 3 K) (p : SpecN.Par 3 K) (P : Fin 3 → Nat) (h : Prog3 u a p P) (hg : ∀ x, 0 < gFacN p.o p.st.G x) (hep : 0 ≤ a.eps)
    (hf : isset a.o oFct = true) (psi0 : Nat → Idx 3 → K) (h0 : ∀ e, PeriodicN P (psi0 e)) (s : St K (Idx 3) 3 (MemN 3 K)) (hs : Begin (solverN u (solverHalo a.o) a) psi0 s)
    (dt0 : K) (filt : Nat → Bool) (first : Nat → K) (more : Nat → List K) (e : Nat) (he : e < u.nEqns) (hu : Unforced u e) (t : Nat)
    (hc : ∀ q, q < t → ∀ x, InGrid P x → outflowN (run (solverN u (solverHalo a.o) a) dt0 filt first more s (q + 1)).GC x ≤ gFacN a.o a.st.G x)
    (hp : ∀ x, InGrid P x → 0 ≤ s.psi e x) (x : Idx 3) (hx : InGrid P x) :
    0 ≤ (run (solverN u (solverHalo a.o) a) dt0 filt first more s t).psi e x :=
  nonnegN h h.solver.setup h.solver.good hg hep hf h0 hs dt0 filt first more e he hu t hc hp hx

/-! ## Concrete cases -/

/-- momentum 0 and density 1 on a cyclic 1-D domain, third-order option, no forcing -/
def derU : User ℚ Int 1 :=
  { nEqns := 2, norhs := 0, delayed := 0, vip := fun _ => 0, den := some 1, veps := 0, dx := fun _ => 1, sch := .eulerB, vc := ⟨false, true⟩, vab := .noab
    coeff := fun _ => 0, relax := fun _ _ => 0, force := fun _ _ _ r => r }
/-- uniform momentum 2 and density 2: velocity 1 everywhere -/
def derSt : St ℚ Int 1 (Mem1 ℚ) :=
  { psi := fun _ _ => 2, old := fun _ _ => 0, rhs := fun _ _ => 0, stash := fun _ _ _ => 0, vrhs := fun _ _ => 0, GC := fun _ _ => 0, ndt := fun _ _ => 0, ndtt := fun _ _ => 0
    tmp := demoMem 0, timestep := 0, ds0 := 0, ds1 := 0 }

/-- the same on three dimensions: three momenta and a density -/
def derU3 : User ℚ (Idx 3) 3 :=
  { nEqns := 4, norhs := 0, delayed := 0, vip := fun d => d.1, den := some 3, veps := 0, dx := fun _ => 1, sch := .trapez, vc := ⟨true, true⟩, vab := .impl
    coeff := fun _ => 1, relax := fun _ _ => 1/2, force := fun _ _ _ r => r }

theorem forceOk_id {c : Cfg K X n T} {tr : I → X → X} {H : X → Prop} (h : c.force = fun _ _ _ r => r) : ForceOk c tr H := by
  intro dt b psi psi' r r' _ _ p2 e2 e he
  rw [h]; exact ⟨p2 e he, e2 e he⟩

/-- `Prog1`, `Begin`, `NoNetSource` and `Unforced` hold for the demonstration solver with the fully third-order option and uniform flow at velocity 1 -/
example : Prog1 derU (demo1 oDiv3 2) ⟨oDiv3, .exact, .noextrp, 1/1000, 1/1000, fun _ => 1, fun _ => 0, fun _ => 0⟩ 4 ∧ Begin (solver1 derU (demo1 oDiv3 2)) (fun _ _ => 2) derSt ∧
    NoNetSource derU (Spec1.Periodic 4) (tot1 (demo1 oDiv3 2) 4) 0 ∧ Unforced derU 1 :=
  ⟨⟨⟨rfl, rfl, rfl, rfl, rfl, rfl, by decide, rfl, rfl, ⟨fun _ => rfl, fun _ => rfl, fun _ => rfl⟩, fun _ _ _ => rfl, fun _ _ _ => rfl, fun _ _ _ => rfl⟩,
    by decide, by unfold HaloCovered; decide, ⟨fun _ => by simp [derU], fun e he => by simp only [derU, Option.some.injEq] at he ⊢; omega⟩, fun _ => rfl, fun _ _ => rfl, forceOk_id rfl⟩,
    ⟨rfl, rfl, rfl, fun _ _ _ _ => rfl⟩, ⟨.inr fun dt b psi z _ hz => by
      show tot1 (demo1 oDiv3 2) 4 (z 0) = 0
      rw [show z 0 = fun _ => 0 from funext hz]; simp [tot1], .inl rfl⟩, ⟨.inr fun _ _ _ z hz => hz, .inl rfl⟩⟩

/-- `Prog3` holds for a three-pass flux-corrected 3-D solver with an implicit absorber -/
example : Prog3 derU3 (demo3 (oFct ||| oTot ||| oDfl) 3)
    ⟨oFct ||| oTot ||| oDfl, 1/1000, formulae3 (oFct ||| oTot ||| oDfl) .exact .noextrp (1/1000), ⟨fun _ => 1, fun _ _ => 0, fun _ _ => 0⟩⟩ (fun _ => 4) :=
  ⟨⟨⟨rfl, rfl, rfl, fun _ => rfl, fun d => by decide, by decide, rfl, fun _ => rfl, fun _ => rfl, fun _ _ => rfl, fun _ _ _ => rfl, fun _ _ _ => rfl, fun _ _ => rfl,
    fun _ _ _ => rfl, fun _ _ _ => rfl⟩, ⟨_, _, _, rfl⟩⟩, by decide, by unfold HaloCovered; decide,
    ⟨fun d => by simp only [derU3]; omega, fun e he => by simp only [derU3, Option.some.injEq] at he ⊢; omega⟩, fun _ _ => rfl, fun _ _ _ => rfl, forceOk_id rfl⟩

/-- the condition of the sign theorem is met by the advector of the first step, which is 1/4 everywhere -/
example : ∀ x ∈ [(0 : Int), 1, 2, 3, 4], let C := (run (solver1 derU (demo1 oFct 2)) (1/4) (fun _ => false) (fun _ => 1/4) (fun _ => []) derSt 1).GC 0
    C x = 1/4 ∧ max 0 (C x) - min 0 (C (x - 1)) ≤ gFac1 oFct (demo1 oFct 2).G x := by decide +kernel

/-! ## Time derivatives of the advector with a density variable -/

/-- With the option `div_3rd` and a density variable the time derivative of the advector handed to the scheme is not the derivative of velocity: `calc_ndt_gc` subtracts the stored velocity from
the undivided momentum. In a uniform steady flow (momentum 2, density 2) the velocity is 1 at all times, and after the first step the derivative stored is 1/8, not 0. -/
theorem C31_fails_derivative_with_density :
    let c := solver1 derU (demo1 oDiv3 1)
    let s := { fillSt c derSt with timestep := 1, ds0 := 1 / 2 }
    (∀ i, vel c derSt.psi 0 i = 1 ∧ vel c s.psi 0 i = 1) ∧ (calcNdt c (1 / 4) s).ndt 0 1 = 1 / 8 := by
  refine ⟨fun i => ⟨?_, ?_⟩, ?_⟩
  · show velOf (some (2 : ℚ)) 0 2 = 1; decide +kernel
  · show velOf (some (2 : ℚ)) 0 2 = 1; decide +kernel
  · decide +kernel

end Mpdata.VP
