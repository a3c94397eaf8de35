import Verif.Lemmas.PrsScheme
import Verif.Props.PrsRun
import Verif.Props.VipScheme
/-! # C67: incompressible solvers compute the intended semi-implicit scheme

`Flow` (`Verif.Spec.PrsScheme`) gives the scheme as formulae on the unbounded grid; advection in it is the plain scheme of `SpecN`. -/
set_option linter.unusedSectionVars false
namespace Mpdata
namespace PP
open Prs (inBox)
variable {K : Type} [Field K] [LinearOrder K] [IsStrictOrderedRing K] {n : Nat}

section
variable [NeZero n]

theorem flow_run {S : Prop} (u : VP.User K (Idx n) n) (P : Fin n → Nat) (a : CfgN n K) (p0 : SpecN.Par n K) (ds : List (Fin n)) (tol : K) (cap : Nat) (prs : Scheme) (δ : K) (hδ : Guarantees prs (fun d => P d + 1) tol δ)
    (h : VP.ProgN S u a P) (hc : CyclicSetupN a p0 P ds) (hF : FGood p0.o p0.F) (hden : u.den = none) (ne : Nonempty (Prs.Pts fun d => P d + 1))
    (psi0 : Nat → Idx n → K) (hp0 : ∀ e, PeriodicN P (psi0 e)) (dt0 : K) (filt : Nat → Bool) (first : Nat → K) (more : Nat → List K) (hu : VP.Sound u first more)
    (s : St K n (MemN n K)) (hs : VP.Begin (cycSolver u P a tol cap prs).toCfg psi0 s.toSt) (t : Nat) :
    ∀ p, run (cycSolver u P a tol cap prs) ne dt0 filt first more s t = some p →
      Follows (cycSolver u P a tol cap prs) P (fun d => Bx a.box (fun _ => solverHalo a.o) (fun e => if e = d then (solverHalo a.o : Int) - 1 else solverHalo a.o)) (gFacN p0.o p0.st.G)
        (VP.advN u p0 a.nIters) δ dt0 filt (dtOf first more) psi0 t p := by
  have C := cyc_of h hc hF hden hu.vip tol cap prs
  have hf' : EdgeFree (cycSolver u P a tol cap prs) := fun _ d x _ _ ho => absurd (show BcKind.cyclic = _ from ho) (by decide)
  have hG : ∀ x, InGrid P x → (cycSolver u P a tol cap prs).G x = gFacN p0.o p0.st.G x := by
    intro x hx
    have hb : a.st.G x = p0.st.G x := hc.hG x (C.link.gridH x ((C.grid x).2 hx))
    show gFacN a.o a.st.G x = gFacN p0.o p0.st.G x
    rw [← hc.ho]
    unfold gFacN
    simp only [hb]
  have hd : ∀ t p, run (cycSolver u P a tol cap prs) ne dt0 filt first more s t = some p →
      ∀ x, inBox (cycSolver u P a tol cap prs).N x → |flowDiv (cycSolver u P a tol cap prs).N (fun d => (cycSolver u P a tol cap prs).kind d = .cyclic) (cycSolver u P a tol cap prs).dx (cycSolver u P a tol cap prs).G
        (fun d => p.psi ((cycSolver u P a tol cap prs).vip d)) x| ≤ δ := by
    intro t p hr x hx
    obtain ⟨_, g⟩ := run_good C.ok hf' ne dt0 filt first more t hr
    have h1 := g.div δ hδ x hx
    rw [dvg_flowDiv _ C.two _ hx] at h1
    exact h1
  induction t with
  | zero => exact fun p hr => C.flow_start hG hu.own ne δ dt0 filt (dtOf first more) hp0 hs hr (hd 0 p hr)
  | succ t ih =>
    intro p hr
    obtain ⟨q, hq, hst⟩ := run_pred hr
    exact C.flow_step rfl hG hu.coeff hu.own rfl ne δ dt0 filt (dtOf first more) psi0 t (first t) (more t) (fun h' => hu.trial h' t) rfl (hu.pos t) (ih q hq) hst (hd (t + 1) p hr)

end

/-- **C67, 2-D**: if a run on a periodic domain gets to the end of step `t` (the pressure solver did not give up), then there is a history of `t` steps of the scheme that starts from the periodic initial
data and ends with the fields and the potential found in memory, at every grid point and for every field. Any forcing, absorber, right-hand-side scheme, time steps, contents of memory; the velocities of the history are non-divergent within the bound `δ` that goes with
the pressure scheme and its tolerance. -/
theorem C67_semi_implicit_2d_partial (u : VP.User K (Idx 2) 2) (P : Fin 2 → Nat) (a : CfgN 2 K) (p0 : SpecN.Par 2 K) (tol : K) (cap : Nat) (prs : Scheme) (δ : K) (hδ : Guarantees prs (fun d => P d + 1) tol δ) (h : VP.Prog2 u a p0 P) (hden : u.den = none)
    (ne : Nonempty (Prs.Pts fun d => P d + 1)) (psi0 : Nat → Idx 2 → K) (hp0 : ∀ e, PeriodicN P (psi0 e)) (dt0 : K) (filt : Nat → Bool) (first : Nat → K) (more : Nat → List K)
    (hu : VP.Sound u first more) (s p : St K 2 (MemN 2 K)) (hs : VP.Begin (cycSolver u P a tol cap prs).toCfg psi0 s.toSt) (t : Nat)
    (hr : run (cycSolver u P a tol cap prs) ne dt0 filt first more s t = some p) :
    ∃ hist F Phi, Flow u P (gFacN p0.o p0.st.G) (VP.advN u p0 a.nIters) δ dt0 filt (dtOf first more) psi0 t hist F Phi ∧
      (∀ e, e < u.nEqns → ∀ x, InGrid P x → p.psi e x = hist.now e x) ∧ ∀ x, InGrid P x → p.Phi x = Phi x := by
  obtain ⟨s', hist, F, Phi, r, _, h2, ag, fl⟩ := flow_run u P a p0 _ tol cap prs δ hδ h h.solver.setup h.solver.good hden ne psi0 hp0 dt0 filt first more hu s hs t p hr
  have C := cyc_of h h.solver.setup h.solver.good hden hu.vip tol cap prs
  exact ⟨hist, F, Phi, fl, fun e he x hx => (r.psi e he x ((C.grid x).2 hx)).trans (congrFun (congrFun ag.psi e) x), h2⟩

/-- **C67, 3-D** -/
theorem C67_semi_implicit_3d_partial (u : VP.User K (Idx 3) 3) (P : Fin 3 → Nat) (a : CfgN 3 K) (p0 : SpecN.Par 3 K) (tol : K) (cap : Nat) (prs : Scheme) (δ : K) (hδ : Guarantees prs (fun d => P d + 1) tol δ) (h : VP.Prog3 u a p0 P) (hden : u.den = none)
    (ne : Nonempty (Prs.Pts fun d => P d + 1)) (psi0 : Nat → Idx 3 → K) (hp0 : ∀ e, PeriodicN P (psi0 e)) (dt0 : K) (filt : Nat → Bool) (first : Nat → K) (more : Nat → List K)
    (hu : VP.Sound u first more) (s p : St K 3 (MemN 3 K)) (hs : VP.Begin (cycSolver u P a tol cap prs).toCfg psi0 s.toSt) (t : Nat)
    (hr : run (cycSolver u P a tol cap prs) ne dt0 filt first more s t = some p) :
    ∃ hist F Phi, Flow u P (gFacN p0.o p0.st.G) (VP.advN u p0 a.nIters) δ dt0 filt (dtOf first more) psi0 t hist F Phi ∧
      (∀ e, e < u.nEqns → ∀ x, InGrid P x → p.psi e x = hist.now e x) ∧ ∀ x, InGrid P x → p.Phi x = Phi x := by
  obtain ⟨s', hist, F, Phi, r, _, h2, ag, fl⟩ := flow_run u P a p0 _ tol cap prs δ hδ h h.solver.setup h.solver.good hden ne psi0 hp0 dt0 filt first more hu s hs t p hr
  have C := cyc_of h h.solver.setup h.solver.good hden hu.vip tol cap prs
  exact ⟨hist, F, Phi, fl, fun e he x hx => (r.psi e he x ((C.grid x).2 hx)).trans (congrFun (congrFun ag.psi e) x), h2⟩

/-- **C67**: the scheme leaves nothing open but the potential: fields and force at the end of a step are determined by those before it and by the new potential, although the force of the absorber is given
implicitly -/
theorem C67_determined_by_potential (u : VP.User K (Idx n) n) (G : Idx n → K) (adv : (GC ndt ndtt : Fin n → Idx n → K) → Bool → (Idx n → K) → (Idx n → K)) (hv : Function.Injective u.vip)
    (hco : ∀ x, 0 ≤ u.coeff x) (filt : Bool) (dt : K) (hdt : 0 < dt) (F F1 F2 : Fin n → Idx n → K) (Phi : Idx n → K) (p p1 p2 : VP.Past K (Idx n) n)
    (e1 : p1 = flowStep u G adv filt dt F F1 p) (e2 : p2 = flowStep u G adv filt dt F F2 p)
    (f1 : ∀ d x, F1 d x = drag u p1.now d x - ddx u.dx Phi d x / (dt / 2)) (f2 : ∀ d x, F2 d x = drag u p2.now d x - ddx u.dx Phi d x / (dt / 2)) : F1 = F2 ∧ p1 = p2 := by
  obtain ⟨B, hB⟩ : ∃ B : Nat → Idx n → K, ∀ F', (flowStep u G adv filt dt F F' p).now = VP.onVel u (fun d x v => v + dt / 2 * F' d x) B := ⟨_, fun _ => rfl⟩
  have key : F1 = F2 := by
    funext d x
    have g1 : p1.now (u.vip d) x = B (u.vip d) x + dt / 2 * F1 d x := by rw [e1, hB, VP.onVel_vip hv]
    have g2 : p2.now (u.vip d) x = B (u.vip d) x + dt / 2 * F2 d x := by rw [e2, hB, VP.onVel_vip hv]
    have h1 := f1 d x
    have h2 := f2 d x
    unfold drag at h1 h2
    rw [g1] at h1
    rw [g2] at h2
    by_cases hi : u.vab = .impl
    · rw [if_pos hi] at h1 h2
      have hc0 : (1 + dt / 2 * u.coeff x : K) ≠ 0 := by have := mul_nonneg (le_of_lt (by positivity : (0 : K) < dt / 2)) (hco x); positivity
      refine mul_left_cancel₀ hc0 ?_
      linear_combination h1 - h2
    · rw [if_neg hi] at h1 h2
      rw [h1, h2]
  subst key
  exact ⟨rfl, e1.trans e2.symm⟩

/-- the hypotheses hold in the periodic box of `Props/PrsRun` for runs of any length, which succeed -/
example (prs : Scheme) (tol δ : ℚ) (htol : 0 ≤ tol) (hδ : Guarantees prs (fun _ : Fin 2 => 4 + 1) tol δ) (t : Nat) : ∃ q hist F Phi, run (cycSolver chU (fun _ => 4) (demo2 cyO 3) tol 20 prs) cyNe (1/4) (fun _ => false) (fun _ => 1/4) (fun _ => []) cyS t = some q ∧
    Flow chU (fun _ => 4) (gFacN cyP.o cyP.st.G) (VP.advN chU cyP 3) δ (1/4) (fun _ => false) (dtOf (fun _ => 1/4) (fun _ => [])) (fun e _ => if e = 2 then 5 else 0) t hist F Phi ∧
    ∀ x, InGrid (fun _ => 4) x → q.psi 2 x = hist.now 2 x := by
  have hj : Function.Injective chU.vip := fun d e h => Fin.ext h
  obtain ⟨q, hq, _⟩ := C62_rest_cyclic_2d chU (fun _ => 4) (demo2 cyO 3) cyP tol htol 20 prs (by decide) cyProg (by decide) rfl hj cyNe _ cyRest cyS (cyBegin tol 20 prs)
    (1/4) (fun _ => false) (fun _ => 1/4) (fun _ => []) t
  obtain ⟨hist, F, Phi, h1, h2, _⟩ := C67_semi_implicit_2d_partial chU (fun _ => 4) (demo2 cyO 3) cyP tol 20 prs δ hδ cyProg rfl cyNe (fun e _ => if e = 2 then 5 else 0) (fun _ _ _ => rfl) (1/4) (fun _ => false)
    (fun _ => 1/4) (fun _ => []) ⟨hj, fun _ => le_refl _, fun _ _ => rfl, fun _ => by norm_num, fun _ _ _ _ _ h => h⟩ cyS q (cyBegin tol 20 prs) t hq
  exact ⟨q, hist, F, Phi, hq, h1, h2 2 (by decide)⟩

end PP
end Mpdata
