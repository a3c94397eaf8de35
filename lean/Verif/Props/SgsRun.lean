import Verif.Lemmas.SgsRun
import Verif.Props.PrsStep
/-! # Properties: whole runs of incompressible solvers with subgrid-scale forces

C64: whatever forces a subgrid-scale model adds to the velocity equations, velocities and advectors remain non-divergent and the scalars keep their totals; total momentum changes by exactly the
time step times the net force, so that with the compact stress of the library it is constant on cyclic domains. The program is `PP.runF`: the solver of C62 with forces added in every step. In the
library forces are added with a factor 2 because they are multiplied by half the time step afterwards. -/
set_option linter.unusedSectionVars false
set_option linter.unusedVariables false
namespace Mpdata
namespace PP
open Prs (inBox)
variable {K : Type} [Field K] [LinearOrder K] [IsStrictOrderedRing K] {n : Nat} [NeZero n]

/-- C64: at the end of every step the velocities are non-divergent within the tolerance, at rest on rigid walls in the normal direction and as prescribed at open boundaries - for all forces,
depending in any way on the step and on the whole memory. -/
theorem C64_velocity_nondivergent (u : VP.User K (Idx n) n) (N : Fin n → Nat) (kind : Fin n → BcKind) (halo : Int) (a : CfgN n K) (tol : K) (cap : Nat) (prs : Scheme) (δ : K) (hδ : Guarantees prs N tol δ) (h : Setup u N halo a)
    (hf : NoAbsorberOnOpen u N kind) (F : Nat → St K n (MemN n K) → Fin n → Idx n → K) (ne : Nonempty (Prs.Pts N)) (dt0 : K) (filt : Nat → Bool) (first : Nat → K) (more : Nat → List K)
    (s p : St K n (MemN n K)) (t : Nat) (hr : runF (solver u N kind halo a tol cap prs) F ne dt0 filt first more s t = some p) :
    (∀ x, inBox N x → |flowDiv N (fun d => kind d = .cyclic) u.dx (gFacN a.o a.st.G) (fun d => p.psi (u.vip d)) x| ≤ δ) ∧
    (∀ d x, inBox N x → (x d = 0 ∨ x d = (N d : Int) - 1) → (kind d = .rigid → p.psi (u.vip d) x = 0) ∧ (kind d = .opened → p.psi (u.vip d) x = s.psi (u.vip d) x)) := by
  have ok : Ok (solver u N kind halo a tol cap prs) := h.ok
  have hf' : EdgeFree (solver u N kind halo a tol cap prs) := edgeFree_of hf
  obtain ⟨_, g⟩ := runF_good ok hf' F ne dt0 filt first more t hr
  refine ⟨fun x hx => ?_, fun d x hx hw => ⟨fun hk => ?_, fun hk => ?_⟩⟩
  · have h1 := g.div δ hδ x hx
    rw [dvg_flowDiv _ h.two _ hx] at h1
    exact h1
  · have h1 := g.edge d x hx ⟨by show kind d ≠ _; rw [hk]; decide, hw⟩
    refine h1.trans (if_neg ?_)
    show kind d ≠ _
    rw [hk]; decide
  · have h1 := g.edge d x hx ⟨by show kind d ≠ _; rw [hk]; decide, hw⟩
    exact h1.trans (if_pos hk)

/-- C64 (partial: in cyclic dimensions the first and the last point are left out here): the advector of every step is non-divergent in every cell as in C62. -/
theorem C64_advector_nondivergent_partial (u : VP.User K (Idx n) n) (N : Fin n → Nat) (kind : Fin n → BcKind) (halo : Int) (a : CfgN n K) (tol : K) (cap : Nat) (prs : Scheme) (δ : K) (hδ : Guarantees prs N tol δ) (h : Setup u N halo a)
    (hf : NoAbsorberOnOpen u N kind) (hb : GAtBoundary N kind (gFacN a.o a.st.G)) (F : Nat → St K n (MemN n K) → Fin n → Idx n → K) (ne : Nonempty (Prs.Pts N)) (dt0 : K) (filt : Nat → Bool)
    (first : Nat → K) (more : Nat → List K) (h1 : OneDt u more) (s p : St K n (MemN n K)) (h0 : s.ds0 = 0) (t : Nat)
    (hr : runF (solver u N kind halo a tol cap prs) F ne dt0 filt first more s (t + 1) = some p)
    (x : Idx n) (hx : inBox N x) (hG : gFacN a.o a.st.G x ≠ 0) (hc : ∀ d, kind d = .cyclic → 0 < x d ∧ x d < (N d : Int) - 1) :
    |divN p.GC x| ≤ |dtOf first more t| * |gFacN a.o a.st.G x| * (δ * (1 + 2 * |wOf first more t|)) := by
  have ok : Ok (solver u N kind halo a tol cap prs) := h.ok
  have hf' : EdgeFree (solver u N kind halo a tol cap prs) := edgeFree_of hf
  obtain ⟨b, hb1, hb2, hb3⟩ := runF_advector ok h.faces ⟨hb.cyclic, hb.rigidL, hb.rigidR, hb.openL, hb.openR⟩ hf' F ne dt0 filt first more h1 h0 hx hG t (.inr hc) hδ hr
  have : b = wOf first more t := by
    cases t with
    | zero => exact hb2 rfl
    | succ t => exact (hb3 t rfl)
  rw [← this]
  exact hb1

/-- C64, trapezoidal scheme: the momentum equation of C62 with the added force. `q` is the state before the step, `B` the one handed to advection, `A` the one advection returns, `p` the one after. -/
theorem C64_momentum_equation (u : VP.User K (Idx n) n) (N : Fin n → Nat) (kind : Fin n → BcKind) (halo : Int) (a : CfgN n K) (tol : K) (cap : Nat) (prs : Scheme) (h : Setup u N halo a)
    (hs : u.sch = .trapez) (hvip : ∀ d, u.vip d < u.nEqns) (F : Nat → St K n (MemN n K) → Fin n → Idx n → K) (ne : Nonempty (Prs.Pts N)) (dt0 : K) (filt : Nat → Bool) (first : Nat → K)
    (more : Nat → List K) (s p : St K n (MemN n K)) (t : Nat) (hr : runF (solver u N kind halo a tol cap prs) F ne dt0 filt first more s (t + 1) = some p) :
    ∃ q, runF (solver u N kind halo a tol cap prs) F ne dt0 filt first more s t = some q ∧
      let c := (solver u N kind halo a tol cap prs).toCfg
      let dt := dtOf first more t
      let B := VP.anteStep c dt (VP.calcNdt c dt ((first t :: more t).foldl (VP.calcGc c) (addForce (solver u N kind halo a tol cap prs) (F t) q).toSt))
      let A := (VP.eqOrder c).foldl (VP.advEq c (filt t)) B
      let R : VP.St K (Idx n) n (MemN n K) → Fin n → Idx n → K := fun s d x => if isset u.norhs (bit (u.vip d)) then 0 else s.rhs (u.vip d) x
      ∀ d x, inBox N x → dt ≠ 0 →
        B.psi (u.vip d) x = q.psi (u.vip d) x + dt / 2 * (R q.toSt d x + q.vrhs d x + F t q d x + if u.vab = .expl then - 2 * u.coeff x * (q.psi (u.vip d) x - u.relax d x) else 0) ∧
        p.psi (u.vip d) x = A.psi (u.vip d) x + dt / 2 * (R p.toSt d x + p.vrhs d x) ∧
        (¬ (kind d ≠ .cyclic ∧ (x d = 0 ∨ x d = (N d : Int) - 1)) → (u.vab = .impl → 1 + 1 / 2 * dt * u.coeff x ≠ 0) →
          p.vrhs d x = (if u.vab = .impl then - u.coeff x * (p.psi (u.vip d) x - u.relax d x) else 0) - slope N (fun d => kind d = .cyclic) p.Phi d x / u.dx d / (dt / 2)) := by
  obtain ⟨q, hq, hst⟩ := runF_pred hr
  refine ⟨q, hq, ?_⟩
  have ok : Ok (solver u N kind halo a tol cap prs) := h.ok
  have key := momentum_step u N kind halo a tol cap prs h hs hvip ne (filt t) (first t) (more t) (addForce (solver u N kind halo a tol cap prs) (F t) q) p hst
  intro c dt B A R d x hx hdt
  obtain ⟨k1, k2, k3⟩ := key d x hx hdt
  refine ⟨k1.trans ?_, k2, k3⟩
  have e : (addForce (solver u N kind halo a tol cap prs) (F t) q).vrhs d x = q.vrhs d x + F t q d x := if_pos ((ok.grid x).2 hx)
  rw [e]
  show q.psi (u.vip d) x + dt / 2 * (R q.toSt d x + (q.vrhs d x + F t q d x) + _) = _
  rw [add_assoc (R q.toSt d x) (q.vrhs d x)]
  rfl

/-! ## Cyclic domains -/

/-- the forces of periodic fields are periodic -/
def ForcePer {T : Type} (c : Cfg K n T) (P : Fin n → Nat) (F : Nat → St K n T → Fin n → Idx n → K) : Prop := ∀ t s, (∀ e, e < c.nEqns → Ext P (s.psi e)) → ∀ d, Ext P (F t s d)

theorem mom_totN {S : Prop} {u : VP.User K (Idx n) n} {P : Fin n → Nat} {a : CfgN n K} {tol : K} {cap : Nat} {prs : Scheme} (hP : ∀ d, 1 ≤ P d) {g : K} (hU : ∀ x, InGrid P x → gFacN a.o a.st.G x = g) :
    Mom (cycSolver u P a tol cap prs) P (VP.totN a P) := by
  refine ⟨fun f f' hff => ?_, VP.totN_lin a P, fun f hf d => ?_⟩
  · unfold VP.totN
    exact Finset.sum_congr rfl fun x hx => by rw [hff x (inGrid_of_period hx)]
  · unfold VP.totN
    have : ∀ x ∈ period P, gFacN a.o a.st.G x * calcGrad (cycSolver u P a tol cap prs).dx f d x = g / u.dx d / 2 * (f (stepIdx x d 1) - f (stepIdx x d (-1))) := fun x hx => by
      rw [hU x (inGrid_of_period hx)]
      show g * ((f (stepIdx x d 1) - f (stepIdx x d (-1))) / u.dx d / 2) = _
      ring
    rw [Finset.sum_congr rfl this, ← Finset.mul_sum, Finset.sum_sub_distrib, sum_shift hP hf, sum_shift hP hf, sub_self, mul_zero]

/-- C64: with uniform density and no absorber the total momentum in every direction changes in every step by the time step times half of what the subgrid model adds to the forces (which the
library adds twice); at the start of the loop it is that of the initial condition. -/
theorem C64_momentum_budget_cyclic {S : Prop} (u : VP.User K (Idx n) n) (P : Fin n → Nat) (a : CfgN n K) (p0 : SpecN.Par n K) (ds : List (Fin n)) (tol : K) (cap : Nat) (prs : Scheme)
    (h : VP.ProgN S u a P) (hc : CyclicSetupN a p0 P ds) (hF : FGood p0.o p0.F) (hG : ∀ x, gFacN p0.o p0.st.G x ≠ 0) (hden : u.den = none) (hinj : Function.Injective u.vip) (hv : u.vab = .noab)
    (g : K) (hU : ∀ x, InGrid P x → gFacN a.o a.st.G x = g)
    (F : Nat → St K n (MemN n K) → Fin n → Idx n → K) (hFp : ForcePer (cycSolver u P a tol cap prs) P F)
    (ne : Nonempty (Prs.Pts fun d => P d + 1)) (psi0 : Nat → Idx n → K) (hp0 : ∀ e, PeriodicN P (psi0 e)) (dt0 : K) (filt : Nat → Bool) (first : Nat → K) (more : Nat → List K)
    (s : St K n (MemN n K)) (hs : VP.Begin (cycSolver u P a tol cap prs).toCfg psi0 s.toSt) (d : Fin n) (hq : VP.NoNetSource u (PeriodicN P) (VP.totN a P) (u.vip d)) :
    (∀ p, runF (cycSolver u P a tol cap prs) F ne dt0 filt first more s 0 = some p → VP.totN a P (p.psi (u.vip d)) = VP.totN a P (s.psi (u.vip d))) ∧
    ∀ t p, runF (cycSolver u P a tol cap prs) F ne dt0 filt first more s (t + 1) = some p →
      ∃ q, runF (cycSolver u P a tol cap prs) F ne dt0 filt first more s t = some q ∧
        VP.totN a P (p.psi (u.vip d)) = VP.totN a P (q.psi (u.vip d)) + 1 / 2 * dtOf first more t * VP.totN a P (F t q d) := by
  have C := cyc_of h hc hF hden hinj tol cap prs
  have hk : VP.AdvKeeps (cycSolver u P a tol cap prs).toCfg (VP.trN P) (VP.advN u p0 a.nIters) (VP.totN a P) := by
    rw [solver_cyc hc]; exact VP.keepsN hc hF C.pos hG
  have hqt : VP.Quiet (cycSolver u P a tol cap prs).toCfg (VP.trN P) (VP.totN a P) (u.vip d) :=
    VP.quiet_of (c := (cycSolver u P a tol cap prs).toCfg) (fun f hf => VP.perTN.1 hf) (VP.totN_lin a P) hq
  have m : Mom (cycSolver u P a tol cap prs) P (VP.totN a P) := mom_totN (S := S) C.pos hU
  have hn : ∀ dt d x, (cycSolver u P a tol cap prs).nrm dt d x = 1 := fun dt d x => if_neg (by rw [hv]; decide)
  refine ⟨fun p hp => ?_, fun t p hp => ?_⟩
  · refine ((C.runF hv hn ne m d hk hqt F dt0 filt first more hp0 hs hFp 0 hp).2.1 rfl).trans ?_
    exact m.on _ _ fun x hx => (hs.psi _ (C.wf.vip d) x ((C.grid x).2 hx)).symm
  · exact (C.runF hv hn ne m d hk hqt F dt0 filt first more hp0 hs hFp (t + 1) hp).2.2 t rfl

/-- C64: if the forces have no net sum in direction `d`, total momentum in this direction is the same at all times. -/
theorem C64_momentum_constant_cyclic {S : Prop} (u : VP.User K (Idx n) n) (P : Fin n → Nat) (a : CfgN n K) (p0 : SpecN.Par n K) (ds : List (Fin n)) (tol : K) (cap : Nat) (prs : Scheme)
    (h : VP.ProgN S u a P) (hc : CyclicSetupN a p0 P ds) (hF : FGood p0.o p0.F) (hG : ∀ x, gFacN p0.o p0.st.G x ≠ 0) (hden : u.den = none) (hinj : Function.Injective u.vip) (hv : u.vab = .noab)
    (g : K) (hU : ∀ x, InGrid P x → gFacN a.o a.st.G x = g)
    (F : Nat → St K n (MemN n K) → Fin n → Idx n → K) (hFp : ForcePer (cycSolver u P a tol cap prs) P F)
    (ne : Nonempty (Prs.Pts fun d => P d + 1)) (psi0 : Nat → Idx n → K) (hp0 : ∀ e, PeriodicN P (psi0 e)) (dt0 : K) (filt : Nat → Bool) (first : Nat → K) (more : Nat → List K)
    (s : St K n (MemN n K)) (hs : VP.Begin (cycSolver u P a tol cap prs).toCfg psi0 s.toSt) (d : Fin n) (hq : VP.NoNetSource u (PeriodicN P) (VP.totN a P) (u.vip d))
    (hF0 : ∀ t s, VP.totN a P (F t s d) = 0) (t : Nat) : ∀ p, runF (cycSolver u P a tol cap prs) F ne dt0 filt first more s t = some p →
      VP.totN a P (p.psi (u.vip d)) = VP.totN a P (s.psi (u.vip d)) := by
  obtain ⟨b0, b1⟩ := C64_momentum_budget_cyclic u P a p0 ds tol cap prs h hc hF hG hden hinj hv g hU F hFp ne psi0 hp0 dt0 filt first more s hs d hq
  induction t with
  | zero => exact b0
  | succ t ih =>
    intro p hp
    obtain ⟨q, hq', e⟩ := b1 t p hp
    rw [e, hF0, mul_zero, add_zero, ih q hq']

/-- C64: the G-weighted totals of transported scalars without net source are the same at all times, whatever the (periodic) forces on the velocities. -/
theorem C64_totals_cyclic {S : Prop} (u : VP.User K (Idx n) n) (P : Fin n → Nat) (a : CfgN n K) (p0 : SpecN.Par n K) (ds : List (Fin n)) (tol : K) (cap : Nat) (prs : Scheme)
    (h : VP.ProgN S u a P) (hc : CyclicSetupN a p0 P ds) (hF : FGood p0.o p0.F) (hG : ∀ x, gFacN p0.o p0.st.G x ≠ 0) (hden : u.den = none) (hinj : Function.Injective u.vip)
    (F : Nat → St K n (MemN n K) → Fin n → Idx n → K) (hFp : ForcePer (cycSolver u P a tol cap prs) P F)
    (ne : Nonempty (Prs.Pts fun d => P d + 1)) (psi0 : Nat → Idx n → K) (hp0 : ∀ e, PeriodicN P (psi0 e)) (dt0 : K) (filt : Nat → Bool) (first : Nat → K) (more : Nat → List K)
    (s p : St K n (MemN n K)) (hs : VP.Begin (cycSolver u P a tol cap prs).toCfg psi0 s.toSt) (t : Nat) (hr : runF (cycSolver u P a tol cap prs) F ne dt0 filt first more s t = some p)
    (e : Nat) (he : e < u.nEqns) (hv : ∀ d, u.vip d ≠ e) (hq : VP.NoNetSource u (PeriodicN P) (VP.totN a P) e) :
    VP.totN a P (p.psi e) = VP.totN a P (s.psi e) := by
  have C := cyc_of h hc hF hden hinj tol cap prs
  have hk : VP.AdvKeeps (cycSolver u P a tol cap prs).toCfg (VP.trN P) (VP.advN u p0 a.nIters) (VP.totN a P) := by
    rw [solver_cyc hc]; exact VP.keepsN hc hF C.pos hG
  have hqt : VP.Quiet (cycSolver u P a tol cap prs).toCfg (VP.trN P) (VP.totN a P) e :=
    VP.quiet_of (c := (cycSolver u P a tol cap prs).toCfg) (fun f hf => VP.perTN.1 hf) (VP.totN_lin a P) hq
  obtain ⟨s', r, _, _, k⟩ := C.runF_known ne hv hk hqt F hFp dt0 filt first more hp0 hs t hr
  have e1 : ∀ x, InGrid P x → p.psi e x = s'.psi e x := fun x hx => r.psi e he x ((C.grid x).2 hx)
  have e2 : ∀ x, InGrid P x → s.psi e x = psi0 e x := fun x hx => hs.psi e he x ((C.grid x).2 hx)
  rw [VP.totN_eq hc e1, VP.totN_eq hc e2, ← VP.totN_eq hc (fun _ _ => rfl), ← VP.totN_eq hc (fun _ _ => rfl)]
  exact k

/-- C64: the advector of every step is non-divergent in every cell of a domain with cyclic boundaries in all dimensions. -/
theorem C64_advector_nondivergent_cyclic {S : Prop} (u : VP.User K (Idx n) n) (P : Fin n → Nat) (a : CfgN n K) (p0 : SpecN.Par n K) (ds : List (Fin n)) (tol : K) (cap : Nat) (prs : Scheme) (δ : K) (hδ : Guarantees prs (fun d => P d + 1) tol δ)
    (h : VP.ProgN S u a P) (hc : CyclicSetupN a p0 P ds) (hF : FGood p0.o p0.F) (hden : u.den = none) (hinj : Function.Injective u.vip)
    (F : Nat → St K n (MemN n K) → Fin n → Idx n → K) (hFp : ForcePer (cycSolver u P a tol cap prs) P F) (ne : Nonempty (Prs.Pts fun d => P d + 1))
    (psi0 : Nat → Idx n → K) (hp0 : ∀ e, PeriodicN P (psi0 e)) (dt0 : K) (filt : Nat → Bool) (first : Nat → K) (more : Nat → List K)
    (h1 : OneDt u more) (s p : St K n (MemN n K)) (hs : VP.Begin (cycSolver u P a tol cap prs).toCfg psi0 s.toSt) (t : Nat)
    (hr : runF (cycSolver u P a tol cap prs) F ne dt0 filt first more s (t + 1) = some p) (x : Idx n) (hx : InGrid P x) (hG : gFacN a.o a.st.G x ≠ 0) :
    |divN p.GC x| ≤ |dtOf first more t| * |gFacN a.o a.st.G x| * (δ * (1 + 2 * |wOf first more t|)) := by
  have C := cyc_of h hc hF hden hinj tol cap prs
  have hh : (1 : Int) ≤ solverHalo a.o := VP.one_le_haloI _
  have st : Setup u (fun d => P d + 1) (solverHalo a.o) a :=
    ⟨fun d => by have := C.pos d; omega, hh, fun d => by rw [hc.hbox]; congr 1; push_cast; ring, fun f x hx => C.ok.xchng f x hx, hden, hinj⟩
  have hf' : EdgeFree (cycSolver u P a tol cap prs) := fun _ d x _ _ ho => absurd (show BcKind.cyclic = _ from ho) (by decide)
  obtain ⟨b, hb1, hb2, hb3⟩ := runF_advector C.ok st.faces (edgeG_cyc C) hf' F ne dt0 filt first more h1 hs.ds0 ((grid_box (N := fun d => P d + 1) (fun _ => rfl) x).2 hx) hG t
    (.inl (fun q r _ hq => C.dupF ne F hFp dt0 filt first more hp0 hs q hq)) hδ hr
  have : b = wOf first more t := by
    cases t with
    | zero => exact hb2 rfl
    | succ t => exact (hb3 t rfl)
  rw [← this]
  exact hb1

/-! ## The models of the library with compact differencing -/

theorem wrap_per (P : Fin n → Nat) (f : Idx n → K) : PeriodicN P (wrap P f) := by
  intro x d
  unfold wrap
  congr 1
  funext e
  show (if e = d then x e + (P d : Int) else x e) % (P e : Int) = _
  split_ifs with he
  · subst he; exact Int.add_emod_right _ _
  · rfl

theorem wrap_period {P : Fin n → Nat} (f : Idx n → K) {x : Idx n} (hx : x ∈ period P) : wrap P f x = f x := by
  unfold wrap
  congr 1
  funext e
  have := Finset.mem_Ico.1 (Fintype.mem_piFinset.1 hx e)
  exact Int.emod_eq_of_lt this.1 this.2

theorem deformOf_per {T : Type} (c : Cfg K n T) (P : Fin n → Nat) (hasG : Bool) (z : Fin n) (s : St K n T) (d e : Fin n) : PeriodicN P (deformOf c P hasG z s d e) :=
  deformCmpct_periodic z c.dx P _ _ (fun d => wrap_per P _) (by cases hasG; exact fun _ _ => rfl; exact vipDiv_periodic z c.dx P _ _ (fun d => wrap_per P _) (wrap_per P _)) d e

theorem smgKm_per (P : Fin n → Nat) (k : K) (dx : Fin n → K) (tau : Fin n → Fin n → Idx n → K) (h : ∀ d e, PeriodicN P (tau d e)) : PeriodicN P (smgKm k dx tau) := by
  intro x e
  have h1 := fun d f => h d f x e
  have h2 := fun d f g => (h d f).shift g (-1) x e
  have h3 := fun d f g g' => ((h d f).shift g' (-1)).shift g (-1) x e
  simp only at h2 h3
  unfold smgKm tdefSqCmpct
  simp only [h1, h2, h3]

theorem stress_per (P : Fin n → Nat) (dx : Fin n → K) (G : Idx n → K) (hG : PeriodicN P G) (k : K) (tau : Fin n → Fin n → Idx n → K) (h : ∀ d e, PeriodicN P (tau d e)) (d : Fin n) :
    PeriodicN P (stressRhs dx G k tau d) := by
  intro x e
  have h1 := fun d f => h d f x e
  have h2 := fun d f g => (h d f).shift g (-1) x e
  have h3 := fun d f g g' => ((h d f).shift g' (-1)).shift g (-1) x e
  simp only at h2 h3
  unfold stressRhs
  simp only [h1, h2, h3, hG x e]

theorem dnsTau_per {T : Type} (c : Cfg K n T) (P : Fin n → Nat) (hasG : Bool) (z : Fin n) (eta : K) (s : St K n T) (d e : Fin n) : PeriodicN P (multEta eta (deformOf c P hasG z s) d e) :=
  PeriodicN.map (fun a => a * eta) (deformOf_per c P hasG z s d e)

theorem smgTau_per {T : Type} (c : Cfg K n T) (P : Fin n → Nat) (hasG : Bool) (z : Fin n) (k : K) (s : St K n T) (d e : Fin n) :
    PeriodicN P (multKm 1 (smgKm k c.dx (deformOf c P hasG z s)) (wrap P c.G) (deformOf c P hasG z s) d e) :=
  PeriodicN.map2 (fun a b => a * b) (deformOf_per c P hasG z s d e)
    (PeriodicN.map2 (fun a b => 1 * a * b) (stgrAvg_periodic P _ (smgKm_per P k c.dx _ (deformOf_per c P hasG z s)) d e) (stgrAvg_periodic P _ (wrap_per P _) d e))

theorem stress_tot {u : VP.User K (Idx n) n} {P : Fin n → Nat} {a : CfgN n K} {tol : K} {cap : Nat} {prs : Scheme} (hP : ∀ d, 1 ≤ P d) (hG : ∀ x, InGrid P x → gFacN a.o a.st.G x ≠ 0) (k : K)
    (tau : Fin n → Fin n → Idx n → K) (ht : ∀ d e, PeriodicN P (tau d e)) (d : Fin n) :
    VP.totN a P (stressRhs (cycSolver u P a tol cap prs).dx (wrap P (cycSolver u P a tol cap prs).G) k tau d) = 0 := by
  have hw : ∀ x, wrap P (cycSolver u P a tol cap prs).G x ≠ 0 := fun x => hG _ fun e => by
    have : (0 : Int) < P e := by have := hP e; omega
    have h1 := Int.emod_nonneg (x e) this.ne'
    have h2 := Int.emod_lt_of_pos (x e) this
    omega
  rw [← C42_momentum_any_stress (cycSolver u P a tol cap prs).dx P hP (wrap P (cycSolver u P a tol cap prs).G) hw k tau ht d]
  unfold VP.totN
  exact Finset.sum_congr rfl fun x hx => by rw [wrap_period (cycSolver u P a tol cap prs).G hx]; rfl

/-- C64: with the constant-viscosity model total momentum in every direction is the same at all times. -/
theorem C64_dns_momentum_constant {S : Prop} (u : VP.User K (Idx n) n) (P : Fin n → Nat) (a : CfgN n K) (p0 : SpecN.Par n K) (ds : List (Fin n)) (tol : K) (cap : Nat) (prs : Scheme)
    (h : VP.ProgN S u a P) (hc : CyclicSetupN a p0 P ds) (hF : FGood p0.o p0.F) (hG : ∀ x, gFacN p0.o p0.st.G x ≠ 0) (hden : u.den = none) (hinj : Function.Injective u.vip) (hv : u.vab = .noab)
    (g : K) (hg : g ≠ 0) (hU : ∀ x, InGrid P x → gFacN a.o a.st.G x = g) (z : Fin n) (eta : K)
    (ne : Nonempty (Prs.Pts fun d => P d + 1)) (psi0 : Nat → Idx n → K) (hp0 : ∀ e, PeriodicN P (psi0 e)) (dt0 : K) (filt : Nat → Bool) (first : Nat → K) (more : Nat → List K)
    (s p : St K n (MemN n K)) (hs : VP.Begin (cycSolver u P a tol cap prs).toCfg psi0 s.toSt) (d : Fin n) (hq : VP.NoNetSource u (PeriodicN P) (VP.totN a P) (u.vip d)) (t : Nat)
    (hr : runF (cycSolver u P a tol cap prs) (fun _ => forceDns (cycSolver u P a tol cap prs) P (isset a.o oNug) z eta) ne dt0 filt first more s t = some p) :
    VP.totN a P (p.psi (u.vip d)) = VP.totN a P (s.psi (u.vip d)) := by
  have C := cyc_of h hc hF hden hinj tol cap prs
  refine C64_momentum_constant_cyclic u P a p0 ds tol cap prs h hc hF hG hden hinj hv g hU _ (fun t s _ d => ?_) ne psi0 hp0 dt0 filt first more s hs d hq (fun t s => ?_) t p hr
  · exact ⟨_, stress_per P _ _ (wrap_per P _) 2 _ (dnsTau_per _ P _ z eta s) d, fun _ _ => rfl⟩
  · exact stress_tot C.pos (fun x hx => by rw [hU x hx]; exact hg) 2 _ (dnsTau_per _ P _ z eta s) d

/-- C64: the same with the Smagorinsky model. -/
theorem C64_smg_momentum_constant {S : Prop} (u : VP.User K (Idx n) n) (P : Fin n → Nat) (a : CfgN n K) (p0 : SpecN.Par n K) (ds : List (Fin n)) (tol : K) (cap : Nat) (prs : Scheme)
    (h : VP.ProgN S u a P) (hc : CyclicSetupN a p0 P ds) (hF : FGood p0.o p0.F) (hG : ∀ x, gFacN p0.o p0.st.G x ≠ 0) (hden : u.den = none) (hinj : Function.Injective u.vip) (hv : u.vab = .noab)
    (g : K) (hg : g ≠ 0) (hU : ∀ x, InGrid P x → gFacN a.o a.st.G x = g) (z : Fin n) (smgC : K)
    (ne : Nonempty (Prs.Pts fun d => P d + 1)) (psi0 : Nat → Idx n → K) (hp0 : ∀ e, PeriodicN P (psi0 e)) (dt0 : K) (filt : Nat → Bool) (first : Nat → K) (more : Nat → List K)
    (s p : St K n (MemN n K)) (hs : VP.Begin (cycSolver u P a tol cap prs).toCfg psi0 s.toSt) (d : Fin n) (hq : VP.NoNetSource u (PeriodicN P) (VP.totN a P) (u.vip d)) (t : Nat)
    (hr : runF (cycSolver u P a tol cap prs) (fun _ => forceSmg (cycSolver u P a tol cap prs) P (isset a.o oNug) z smgC) ne dt0 filt first more s t = some p) :
    VP.totN a P (p.psi (u.vip d)) = VP.totN a P (s.psi (u.vip d)) := by
  have C := cyc_of h hc hF hden hinj tol cap prs
  refine C64_momentum_constant_cyclic u P a p0 ds tol cap prs h hc hF hG hden hinj hv g hU _ (fun t s _ d => ?_) ne psi0 hp0 dt0 filt first more s hs d hq (fun t s => ?_) t p hr
  · exact ⟨_, stress_per P _ _ (wrap_per P _) 2 _ (smgTau_per _ P _ z smgC s) d, fun _ _ => rfl⟩
  · exact stress_tot C.pos (fun x hx => by rw [hU x hx]; exact hg) 2 _ (smgTau_per _ P _ z smgC s) d

/-- the hypotheses hold in the 2-D cyclic demonstration solver with two velocities and a scalar, with a flow that is not at rest -/
def sgS : St ℚ 2 (MemN 2 ℚ) := { chS with psi := fun e x => if e = 0 then (if x 1 % 4 = 1 then 1 else 0) else if e = 2 then 5 else 0 }
theorem sgPer : ∀ e, PeriodicN (fun _ : Fin 2 => 4) (sgS.psi e) := by
  intro e x d
  have key : (stepIdx x d ((4 : Nat) : Int)) 1 % 4 = x 1 % 4 := by
    show (if (1 : Fin 2) = d then x 1 + 4 else x 1) % 4 = _
    split_ifs <;> omega
  show (if e = 0 then (if (stepIdx x d ((4 : Nat) : Int)) 1 % 4 = 1 then (1 : ℚ) else 0) else if e = 2 then 5 else 0) = _
  rw [key]; rfl
example (tol : ℚ) (prs : Scheme) (t : Nat) (p : St ℚ 2 (MemN 2 ℚ)) (z d : Fin 2)
    (hr : runF (cycSolver chU (fun _ => 4) (demo2 cyO 3) tol 20 prs) (fun _ => forceSmg (cycSolver chU (fun _ => 4) (demo2 cyO 3) tol 20 prs) (fun _ => 4) (isset cyO oNug) z (1/6)) cyNe (1/4) (fun _ => false) (fun _ => 1/4) (fun _ => []) sgS t = some p) :
    VP.totN (demo2 cyO 3) (fun _ => 4) (p.psi d.1) = VP.totN (demo2 cyO 3) (fun _ => 4) (sgS.psi d.1) := by
  have hj : Function.Injective chU.vip := fun d e h => Fin.ext h
  have g1 : ∀ G : Idx 2 → ℚ, ∀ x, gFacN cyO G x = 1 := fun G x => if_neg (by decide)
  refine C64_smg_momentum_constant chU (fun _ => 4) (demo2 cyO 3) cyP [0, 1] tol 20 prs cyProg cyProg.solver.setup cyProg.solver.good (fun x => by rw [show cyP.o = cyO from rfl, g1]; norm_num) rfl hj rfl
    1 one_ne_zero (fun x _ => g1 _ x) z (1/6) cyNe sgS.psi sgPer (1/4) (fun _ => false) (fun _ => 1/4) (fun _ => []) sgS p ⟨rfl, rfl, rfl, fun _ _ _ _ => rfl⟩ d ⟨.inr fun dt b psi r _ hz => ?_, .inl rfl⟩ t hr
  show VP.totN _ _ (r (chU.vip d)) = 0
  rw [show r (chU.vip d) = fun _ => 0 from funext hz]
  unfold VP.totN; simp
/-- ... and the run starts: the pressure solver converges -/
example : (runF (cycSolver chU (fun _ => 4) (demo2 cyO 3) (1/50) 20 (.gcr 0)) (fun _ => forceSmg (cycSolver chU (fun _ => 4) (demo2 cyO 3) (1/50) 20 (.gcr 0)) (fun _ => 4) (isset cyO oNug) 1 (1/6)) cyNe (1/4) (fun _ => false) (fun _ => 1/4)
    (fun _ => []) sgS 0).isSome = true := by decide +kernel

end PP
end Mpdata
