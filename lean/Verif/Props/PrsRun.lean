import Verif.Lemmas.PrsRest
import Verif.Spec.FlowDiv
/-! # Properties: whole runs of incompressible solvers

C62: with the minimal-residual pressure solver the velocities at the end of every step, and the advectors computed from them by the parent solver in the next one, are non-divergent within the
tolerance; the transported scalars keep their totals. The program is `PP.run` on `PP.solver` (2-D and 3-D with cyclic, rigid and open boundaries): `none` stands for the exception of the pressure
solver. -/
set_option linter.unusedSectionVars false
set_option linter.unusedVariables false
namespace Mpdata
namespace PP
open Prs (inBox)
variable {K : Type} [Field K] [LinearOrder K] [IsStrictOrderedRing K] {n : Nat} [NeZero n]

theorem dvg_flowDiv {T : Type} (c : Cfg K n T) (two : ∀ d, 2 ≤ c.N d) (v : Fin n → Idx n → K) {x : Idx n} (hx : inBox c.N x) :
    dvg c v x = flowDiv c.N (fun d => c.kind d = .cyclic) c.dx c.G v x := by
  unfold dvg flowDiv Prs.Cfg.divG divC
  show (∑ d, _) / c.G x = _
  congr 1
  refine Finset.sum_congr rfl fun d _ => ?_
  have h2 := two d
  have hd := hx d
  set m : Idx n → K := fun y => v d y * c.G y with hm
  have hm' : (fun y => c.G y * v d y) = m := by funext y; rw [hm, mul_comm]
  rw [hm']
  show (Prs.presFill c.N (prsCfg c 0 (fun _ _ => 0)).bc m (stepIdx x d 1) - Prs.presFill c.N (prsCfg c 0 (fun _ _ => 0)).bc m (stepIdx x d (-1))) / c.dx d / 2 = _
  have hin1 : x d + 1 ≤ (c.N d : Int) - 1 → Prs.presFill c.N (prsCfg c 0 (fun _ _ => 0)).bc m (stepIdx x d 1) = m (stepIdx x d 1) :=
    fun h => presFill_in _ _ _ (box_step hx d 1 (by omega) h)
  have hin2 : 0 ≤ x d + -1 → Prs.presFill c.N (prsCfg c 0 (fun _ _ => 0)).bc m (stepIdx x d (-1)) = m (stepIdx x d (-1)) :=
    fun h => presFill_in _ _ _ (box_step hx d (-1) h (by omega))
  unfold slope
  simp only
  rw [step_zero]
  by_cases h0 : x d = 0
  · rw [if_pos h0, hin1 (by omega), presFill_left c.N two _ m hx d h0]
    by_cases hk : c.kind d = .cyclic
    · have : (prsCfg c 0 (fun _ _ => 0)).bc d = .cyclic := if_pos hk
      rw [if_pos hk, this]; simp only; ring
    · have : (prsCfg c 0 (fun _ _ => 0)).bc d = .wall := if_neg hk
      rw [if_neg hk, this]; simp only; ring
  · rw [if_neg h0, hin2 (by omega)]
    by_cases h1 : x d = (c.N d : Int) - 1
    · rw [if_pos h1, presFill_rght c.N two _ m hx d h1]
      by_cases hk : c.kind d = .cyclic
      · have : (prsCfg c 0 (fun _ _ => 0)).bc d = .cyclic := if_pos hk
        rw [if_pos hk, this]; simp only; ring
      · have : (prsCfg c 0 (fun _ _ => 0)).bc d = .wall := if_neg hk
        rw [if_neg hk, this]; simp only; ring
    · rw [if_neg h1, hin1 (by omega)]; ring

/-- an implicit absorber is switched off on open boundaries (it would damp the prescribed normal velocity) -/
def NoAbsorberOnOpen (u : VP.User K (Idx n) n) (N : Fin n → Nat) (kind : Fin n → BcKind) : Prop :=
  u.vab = .impl → ∀ d x, inBox N x → kind d = .opened → (x d = 0 ∨ x d = (N d : Int) - 1) → u.coeff x = 0

theorem edgeFree_of {u : VP.User K (Idx n) n} {N : Fin n → Nat} {kind : Fin n → BcKind} {halo : Int} {a : CfgN n K} {tol : K} {cap : Nat} {prs : Scheme} (hf : NoAbsorberOnOpen u N kind) :
    EdgeFree (solver u N kind halo a tol cap prs) := by
  intro dt d x hx hw ho
  show (if u.vab = .impl then 1 / (1 + 1 / 2 * dt * u.coeff x) else (1 : K)) = 1
  split_ifs with hv
  · rw [hf hv d x hx ho hw.2]; simp
  · rfl

/-- C62: at the end of `hook_ante_loop` and of every time step the velocities are non-divergent at every grid point within the tolerance of the pressure solver, the normal velocity on rigid
walls is zero and on open boundaries it is what it was in the initial condition. Any forcing, absorber, right-hand-side scheme, advection options, time steps and contents of memory. -/
theorem C62_velocity_nondivergent (u : VP.User K (Idx n) n) (N : Fin n → Nat) (kind : Fin n → BcKind) (halo : Int) (a : CfgN n K) (tol : K) (cap : Nat) (prs : Scheme) (δ : K) (hδ : Guarantees prs N tol δ) (h : Setup u N halo a)
    (hf : NoAbsorberOnOpen u N kind) (ne : Nonempty (Prs.Pts N)) (dt0 : K) (filt : Nat → Bool) (first : Nat → K) (more : Nat → List K) (s p : St K n (MemN n K)) (t : Nat)
    (hr : run (solver u N kind halo a tol cap prs) ne dt0 filt first more s t = some p) :
    (∀ x, inBox N x → |flowDiv N (fun d => kind d = .cyclic) u.dx (gFacN a.o a.st.G) (fun d => p.psi (u.vip d)) x| ≤ δ) ∧
    (∀ d x, inBox N x → (x d = 0 ∨ x d = (N d : Int) - 1) → (kind d = .rigid → p.psi (u.vip d) x = 0) ∧ (kind d = .opened → p.psi (u.vip d) x = s.psi (u.vip d) x)) := by
  have ok : Ok (solver u N kind halo a tol cap prs) := h.ok
  have hf' : EdgeFree (solver u N kind halo a tol cap prs) := edgeFree_of hf
  obtain ⟨_, g⟩ := run_good ok hf' ne dt0 filt first more t hr
  refine ⟨fun x hx => ?_, fun d x hx hw => ⟨fun hk => ?_, fun hk => ?_⟩⟩
  · have h1 := g.div δ hδ x hx
    rw [dvg_flowDiv _ h.two _ hx] at h1
    exact h1
  · have h1 := g.edge d x hx ⟨by show kind d ≠ _; rw [hk]; decide, hw⟩
    refine h1.trans (if_neg ?_)
    show kind d ≠ _
    rw [hk]; decide
  · have h1 := g.edge d x hx ⟨by show kind d ≠ _; rw [hk]; decide, hw⟩
    exact h1.trans (if_pos hk)

/-- the G-factor at the boundaries: equal at the two ends of a cyclic dimension; its halo mirrored at rigid walls; at open boundaries, where the halo is filled with the edge value, uniform over the
first two points. All of it holds without the option `nug`. -/
structure GAtBoundary (N : Fin n → Nat) (kind : Fin n → BcKind) (G : Idx n → K) : Prop where
  cyclic : ∀ d x, kind d = .cyclic → inBox N x → x d = 0 → G (stepIdx x d ((N d : Int) - 1)) = G x
  rigidL : ∀ d x, kind d = .rigid → inBox N x → x d = 0 → G (stepIdx x d (-1)) = G (stepIdx x d 1)
  rigidR : ∀ d x, kind d = .rigid → inBox N x → x d = (N d : Int) - 1 → G (stepIdx x d 1) = G (stepIdx x d (-1))
  openL : ∀ d x, kind d = .opened → inBox N x → x d = 0 → G (stepIdx x d (-1)) = G x ∧ G (stepIdx x d 1) = G x
  openR : ∀ d x, kind d = .opened → inBox N x → x d = (N d : Int) - 1 → G (stepIdx x d 1) = G x ∧ G (stepIdx x d (-1)) = G x

/-- Courant numbers are computed once per step, or extrapolation takes place with the final time step -/
def OneDt (u : VP.User K (Idx n) n) (more : Nat → List K) : Prop := u.vc.varDt = true ∨ u.vc.div3 = true ∨ ∀ t, more t = []

/-- time step used in step `t` -/
def dtOf (first : Nat → K) (more : Nat → List K) (t : Nat) : K := (first t :: more t).getLast (by simp)

/-- extrapolation weight of step `t` in "velocity + weight (velocity - previous velocity)": half the ratio of time steps, none in the first step -/
def wOf (first : Nat → K) (more : Nat → List K) : Nat → K
  | 0 => 0
  | t + 1 => if 0 < dtOf first more t then dtOf first more (t + 1) / (2 * dtOf first more t) else 0

/-- C62 (partial: in cyclic dimensions the first and the last point are left out here, see `C62_advector_nondivergent_cyclic` for domains cyclic in all dimensions): the advector used in every
step, extrapolated in time and interpolated to the faces by the parent solver, is non-divergent in every cell, those at the walls included, within the time step times `G` times the
tolerance times `1 + 2 w`. -/
theorem C62_advector_nondivergent_partial (u : VP.User K (Idx n) n) (N : Fin n → Nat) (kind : Fin n → BcKind) (halo : Int) (a : CfgN n K) (tol : K) (cap : Nat) (prs : Scheme) (δ : K) (hδ : Guarantees prs N tol δ) (h : Setup u N halo a)
    (hf : NoAbsorberOnOpen u N kind) (hb : GAtBoundary N kind (gFacN a.o a.st.G)) (ne : Nonempty (Prs.Pts N)) (dt0 : K) (filt : Nat → Bool) (first : Nat → K) (more : Nat → List K)
    (h1 : OneDt u more) (s p : St K n (MemN n K)) (h0 : s.ds0 = 0) (t : Nat) (hr : run (solver u N kind halo a tol cap prs) ne dt0 filt first more s (t + 1) = some p)
    (x : Idx n) (hx : inBox N x) (hG : gFacN a.o a.st.G x ≠ 0) (hc : ∀ d, kind d = .cyclic → 0 < x d ∧ x d < (N d : Int) - 1) :
    |divN p.GC x| ≤ |dtOf first more t| * |gFacN a.o a.st.G x| * (δ * (1 + 2 * |wOf first more t|)) := by
  have ok : Ok (solver u N kind halo a tol cap prs) := h.ok
  have hf' : EdgeFree (solver u N kind halo a tol cap prs) := edgeFree_of hf
  obtain ⟨b, hb1, hb2, hb3⟩ := run_advector ok h.faces ⟨hb.cyclic, hb.rigidL, hb.rigidR, hb.openL, hb.openR⟩ hf' ne dt0 filt first more h1 h0 hx hG t (.inr hc) hδ hr
  have : b = wOf first more t := by
    cases t with
    | zero => exact hb2 rfl
    | succ t => exact (hb3 t rfl)
  rw [← this]
  exact hb1

/-- C62: the same in every cell of a domain with cyclic boundaries in all dimensions. -/
theorem C62_advector_nondivergent_cyclic {S : Prop} (u : VP.User K (Idx n) n) (P : Fin n → Nat) (a : CfgN n K) (p0 : SpecN.Par n K) (ds : List (Fin n)) (tol : K) (cap : Nat) (prs : Scheme) (δ : K) (hδ : Guarantees prs (fun d => P d + 1) tol δ)
    (h : VP.ProgN S u a P) (hc : CyclicSetupN a p0 P ds) (hF : FGood p0.o p0.F) (hden : u.den = none) (hinj : Function.Injective u.vip) (ne : Nonempty (Prs.Pts fun d => P d + 1))
    (psi0 : Nat → Idx n → K) (hp0 : ∀ e, PeriodicN P (psi0 e)) (dt0 : K) (filt : Nat → Bool) (first : Nat → K) (more : Nat → List K)
    (h1 : OneDt u more) (s p : St K n (MemN n K)) (hs : VP.Begin (cycSolver u P a tol cap prs).toCfg psi0 s.toSt) (t : Nat)
    (hr : run (cycSolver u P a tol cap prs) ne dt0 filt first more s (t + 1) = some p) (x : Idx n) (hx : InGrid P x) (hG : gFacN a.o a.st.G x ≠ 0) :
    |divN p.GC x| ≤ |dtOf first more t| * |gFacN a.o a.st.G x| * (δ * (1 + 2 * |wOf first more t|)) := by
  have C := cyc_of h hc hF hden hinj tol cap prs
  have hh : (1 : Int) ≤ solverHalo a.o := VP.one_le_haloI _
  have st : Setup u (fun d => P d + 1) (solverHalo a.o) a :=
    ⟨fun d => by have := C.pos d; omega, hh, fun d => by rw [hc.hbox]; congr 1; push_cast; ring, fun f x hx => C.ok.xchng f x hx, hden, hinj⟩
  have pG := C.perG
  have eg : EdgeG (cycSolver u P a tol cap prs) := by
    refine ⟨fun d x _ hx h0 => ?_, fun d x hk => ?_, fun d x hk => ?_, fun d x hk => ?_, fun d x hk => ?_⟩
    · obtain ⟨g, g1, g2⟩ := pG
      have hx' : InGrid P x := (grid_box (fun _ => rfl) x).1 hx
      have hN : (((fun d => P d + 1) d : Nat) : Int) - 1 = P d := by push_cast; ring
      show (cycSolver u P a tol cap prs).G (stepIdx x d ((((fun d => P d + 1) d : Nat) : Int) - 1)) = _
      rw [hN, g2 x hx', g2 _ ((grid_box (N := fun d => P d + 1) (fun _ => rfl) _).1 (box_step hx d _ (by omega) (show x d + (P d : Int) ≤ ((P d + 1 : Nat) : Int) - 1 by rw [h0]; push_cast; omega)))]
      exact g1 x d
    all_goals exact absurd (show BcKind.cyclic = _ from hk) (by decide)
  have hf' : EdgeFree (cycSolver u P a tol cap prs) := fun _ d x _ _ ho => absurd (show BcKind.cyclic = _ from ho) (by decide)
  obtain ⟨b, hb1, hb2, hb3⟩ := run_advector C.ok st.faces eg hf' ne dt0 filt first more h1 hs.ds0 ((grid_box (N := fun d => P d + 1) (fun _ => rfl) x).2 hx) hG t
    (.inl (fun q r _ hq => C.dup ne dt0 filt first more hp0 hs q hq)) hδ hr
  have : b = wOf first more t := by
    cases t with
    | zero => exact hb2 rfl
    | succ t => exact (hb3 t rfl)
  rw [← this]
  exact hb1

/-- C62: with a fixed time step `dt` and the tolerance the code derives from the parameter `prs_tol` (`prs_tol / dt`), no cell ever gains or loses more than twice the bound that goes with `prs_tol` times `G` by the
divergence of the advector. -/
theorem C62_advector_fixed_dt_cyclic {S : Prop} (u : VP.User K (Idx n) n) (P : Fin n → Nat) (a : CfgN n K) (p0 : SpecN.Par n K) (ds : List (Fin n)) (prsTol dt : K) (hdt : 0 < dt) (cap : Nat) (prs : Scheme) (δ : K)
    (hδ : Guarantees prs (fun d => P d + 1) prsTol δ)
    (h : VP.ProgN S u a P) (hc : CyclicSetupN a p0 P ds) (hF : FGood p0.o p0.F) (hden : u.den = none) (hinj : Function.Injective u.vip) (ne : Nonempty (Prs.Pts fun d => P d + 1))
    (psi0 : Nat → Idx n → K) (hp0 : ∀ e, PeriodicN P (psi0 e)) (filt : Nat → Bool) (s p : St K n (MemN n K)) (hs : VP.Begin (cycSolver u P a (prsTol / dt) cap prs).toCfg psi0 s.toSt)
    (t : Nat) (hr : run (cycSolver u P a (prsTol / dt) cap prs) ne dt filt (fun _ => dt) (fun _ => []) s (t + 1) = some p) (x : Idx n) (hx : InGrid P x) (hG : gFacN a.o a.st.G x ≠ 0) :
    |divN p.GC x| ≤ 2 * δ * |gFacN a.o a.st.G x| := by
  refine (C62_advector_nondivergent_cyclic u P a p0 ds (prsTol / dt) cap prs (δ / dt) (hδ.div hdt) h hc hF hden hinj ne psi0 hp0 dt filt (fun _ => dt) (fun _ => []) (.inr (.inr fun _ => rfl)) s p hs t hr x hx hG).trans ?_
  have ht : 0 ≤ δ / dt := by
    obtain ⟨q, hq, _⟩ := run_pred hr
    have C := cyc_of h hc hF hden hinj (prsTol / dt) cap prs
    have hf' : EdgeFree (cycSolver u P a (prsTol / dt) cap prs) := fun _ d x _ _ ho => absurd (show BcKind.cyclic = _ from ho) (by decide)
    obtain ⟨_, g⟩ := run_good C.ok hf' ne dt filt (fun _ => dt) (fun _ => []) t hq
    exact (abs_nonneg _).trans (g.div (δ / dt) (hδ.div hdt) x ((grid_box (N := fun d => P d + 1) (fun _ => rfl) x).2 hx))
  have hd : dtOf (fun _ => dt) (fun _ => []) t = dt := rfl
  have hw : |wOf (fun _ => dt) (fun _ => []) t| ≤ 1 / 2 := by
    cases t with
    | zero => simp [wOf]
    | succ t =>
      have : wOf (fun _ => dt) (fun _ => []) (t + 1) = 1 / 2 := by
        show (if 0 < dt then dt / (2 * dt) else 0) = 1 / 2
        rw [if_pos hdt]; field_simp
      rw [this, abs_of_pos (by norm_num)]
  rw [hd, abs_of_pos hdt]
  have hG0 := abs_nonneg (gFacN a.o a.st.G x)
  calc dt * |gFacN a.o a.st.G x| * (δ / dt * (1 + 2 * |wOf (fun _ => dt) (fun _ => []) t|))
      ≤ dt * |gFacN a.o a.st.G x| * (δ / dt * 2) := by
        refine mul_le_mul_of_nonneg_left (mul_le_mul_of_nonneg_left (by linarith) ht) (by positivity)
    _ = 2 * δ * |gFacN a.o a.st.G x| := by field_simp

/-- C62: in such a run the G-weighted total of every transported scalar without net source is the same at all times. -/
theorem C62_totals_cyclic {S : Prop} (u : VP.User K (Idx n) n) (P : Fin n → Nat) (a : CfgN n K) (p0 : SpecN.Par n K) (ds : List (Fin n)) (tol : K) (cap : Nat) (prs : Scheme)
    (h : VP.ProgN S u a P) (hc : CyclicSetupN a p0 P ds) (hF : FGood p0.o p0.F) (hG : ∀ x, gFacN p0.o p0.st.G x ≠ 0) (hden : u.den = none) (hinj : Function.Injective u.vip)
    (ne : Nonempty (Prs.Pts fun d => P d + 1)) (psi0 : Nat → Idx n → K) (hp0 : ∀ e, PeriodicN P (psi0 e)) (dt0 : K) (filt : Nat → Bool) (first : Nat → K) (more : Nat → List K)
    (s p : St K n (MemN n K)) (hs : VP.Begin (cycSolver u P a tol cap prs).toCfg psi0 s.toSt) (t : Nat) (hr : run (cycSolver u P a tol cap prs) ne dt0 filt first more s t = some p)
    (e : Nat) (he : e < u.nEqns) (hv : ∀ d, u.vip d ≠ e) (hq : VP.NoNetSource u (PeriodicN P) (VP.totN a P) e) :
    VP.totN a P (p.psi e) = VP.totN a P (s.psi e) := by
  have C := cyc_of h hc hF hden hinj tol cap prs
  have hk : VP.AdvKeeps (cycSolver u P a tol cap prs).toCfg (VP.trN P) (VP.advN u p0 a.nIters) (VP.totN a P) := by
    rw [solver_cyc hc]; exact VP.keepsN hc hF C.pos hG
  have hqt : VP.Quiet (cycSolver u P a tol cap prs).toCfg (VP.trN P) (VP.totN a P) e :=
    VP.quiet_of (c := (cycSolver u P a tol cap prs).toCfg) (fun f hf => VP.perTN.1 hf) (VP.totN_lin a P) hq
  obtain ⟨s', r, _, _, k⟩ := C.run ne hv hk hqt dt0 filt first more hp0 hs t hr
  have e1 : ∀ x, InGrid P x → p.psi e x = s'.psi e x := fun x hx => r.psi e he x ((C.grid x).2 hx)
  have e2 : ∀ x, InGrid P x → s.psi e x = psi0 e x := fun x hx => hs.psi e he x ((C.grid x).2 hx)
  rw [VP.totN_eq hc e1, VP.totN_eq hc e2, ← VP.totN_eq hc (fun _ _ => rfl), ← VP.totN_eq hc (fun _ _ => rfl)]
  exact k

theorem prs_restN {S : Prop} {u : VP.User K (Idx n) n} {P : Fin n → Nat} {a : CfgN n K} {p0 : SpecN.Par n K} {ds : List (Fin n)} {tol : K} (htol : 0 ≤ tol) {cap : Nat} {prs : Scheme} (hcap : 1 ≤ cap)
    (h : VP.ProgN S u a P) (hc : CyclicSetupN a p0 P ds) (hF : FGood p0.o p0.F) (hz : ∀ (k : K) d x, p0.F.vel d ⟨p0.st.G, fun _ _ => 0, fun _ _ => 0⟩ (fun _ => k) (fun _ => k) (fun _ _ => 0) x = 0)
    (hden : u.den = none) (hinj : Function.Injective u.vip) (ne : Nonempty (Prs.Pts fun d => P d + 1)) {v : Nat → K} (hv : VP.AtRest u v) {s : St K n (MemN n K)}
    (hs : VP.Begin (cycSolver u P a tol cap prs).toCfg (fun e _ => v e) s.toSt) (dt0 : K) (filt : Nat → Bool) (first : Nat → K) (more : Nat → List K) (t : Nat) :
    ∃ q, run (cycSolver u P a tol cap prs) ne dt0 filt first more s t = some q ∧ ∀ e, e < u.nEqns → ∀ x, InGrid P x → q.psi e x = v e := by
  have C := cyc_of h hc hF hden hinj tol cap prs
  have hr : VP.RestOk (cycSolver u P a tol cap prs).toCfg (VP.advN u p0 a.nIters) v := by
    refine VP.AtRest.ok (v := v) hv fun f k => ?_
    have e1 : VP.parN p0 u.vc.div3 (fun _ _ => (0 : K)) (fun _ _ => 0) = { p0 with st := ⟨p0.st.G, fun _ _ => 0, fun _ _ => 0⟩ } := by unfold VP.parN; simp
    show (SpecN.passes (VP.parN p0 u.vc.div3 (fun _ _ => (0 : K)) (fun _ _ => 0)) (fun _ => k) (fun _ _ => 0) _).psi = _
    rw [e1]
    exact (passesN_const (p := { p0 with st := ⟨p0.st.G, fun _ _ => 0, fun _ _ => 0⟩ }) hF k (fun _ _ => 0) divN_zero (hz k) (hz k) _).1
  obtain ⟨q, hq, s', r, hI, _⟩ := C.run_rest ne htol hcap hr dt0 filt first more hs t
  exact ⟨q, hq, fun e he x hx => (r.psi e he x ((C.grid x).2 hx)).trans (hI.psi e he x)⟩

/-- C62, 2-D: a uniform state at rest stays exactly as it is, and the pressure solver always accepts it: the run never stops with its exception. Any tolerance (zero too), any contents of memory. -/
theorem C62_rest_cyclic_2d (u : VP.User K (Idx 2) 2) (P : Fin 2 → Nat) (a : CfgN 2 K) (p0 : SpecN.Par 2 K) (tol : K) (htol : 0 ≤ tol) (cap : Nat) (prs : Scheme) (hcap : 1 ≤ cap) (h : VP.Prog2 u a p0 P)
    (hab : isset p0.o oIga = true → isset p0.o oAbs = false) (hden : u.den = none) (hinj : Function.Injective u.vip) (ne : Nonempty (Prs.Pts fun d => P d + 1))
    (v : Nat → K) (hv : VP.AtRest u v) (s : St K 2 (MemN 2 K)) (hs : VP.Begin (cycSolver u P a tol cap prs).toCfg (fun e _ => v e) s.toSt)
    (dt0 : K) (filt : Nat → Bool) (first : Nat → K) (more : Nat → List K) (t : Nat) :
    ∃ q, run (cycSolver u P a tol cap prs) ne dt0 filt first more s t = some q ∧ ∀ e, e < u.nEqns → ∀ x, InGrid P x → q.psi e x = v e := by
  refine prs_restN htol hcap h h.solver.setup h.solver.good (fun k d x => ?_) hden hinj ne hv hs dt0 filt first more t
  obtain ⟨si, te, tiny, hF⟩ := h.solver.form
  rw [hF]
  exact vel2_const te tiny k hab _ _ divN_zero (fun _ => ⟨divN_zero, fun _ _ => rfl, .inr fun _ _ => by simp⟩) d x

/-- C62, 3-D: rest, as in 2-D. -/
theorem C62_rest_cyclic_3d (u : VP.User K (Idx 3) 3) (P : Fin 3 → Nat) (a : CfgN 3 K) (p0 : SpecN.Par 3 K) (tol : K) (htol : 0 ≤ tol) (cap : Nat) (prs : Scheme) (hcap : 1 ≤ cap) (h : VP.Prog3 u a p0 P)
    (hab : isset p0.o oIga = true → isset p0.o oAbs = false) (hden : u.den = none) (hinj : Function.Injective u.vip) (ne : Nonempty (Prs.Pts fun d => P d + 1))
    (v : Nat → K) (hv : VP.AtRest u v) (s : St K 3 (MemN 3 K)) (hs : VP.Begin (cycSolver u P a tol cap prs).toCfg (fun e _ => v e) s.toSt)
    (dt0 : K) (filt : Nat → Bool) (first : Nat → K) (more : Nat → List K) (t : Nat) :
    ∃ q, run (cycSolver u P a tol cap prs) ne dt0 filt first more s t = some q ∧ ∀ e, e < u.nEqns → ∀ x, InGrid P x → q.psi e x = v e := by
  refine prs_restN htol hcap h h.solver.setup h.solver.good (fun k d x => ?_) hden hinj ne hv hs dt0 filt first more t
  obtain ⟨si, te, tiny, hF⟩ := h.solver.form
  rw [hF]
  exact vel3_const te tiny k hab _ _ divN_zero (fun _ => ⟨divN_zero, fun _ _ => rfl, .inr fun _ _ => by simp⟩) d x

/-! ## Concrete cases -/

def chN : Fin 2 → Nat := fun _ => 3
/-- a channel: open to the left and right, rigid walls at the bottom and the top -/
def chK : Fin 2 → BcKind := fun d => if d = 0 then .opened else .rigid
/-- donor-cell advection in the channel, halos filled accordingly -/
def chA : CfgN 2 ℚ :=
  { o := 0, F := formulae2 0 .exact .noextrp (1/1000), nIters := 1, eps := 1/1000, box := fun _ => ⟨0, 2⟩, st := ⟨fun _ => 1, fun _ _ => 0, fun _ _ => 0⟩
    fillS := xchngSclr (bnd chN chK 1) [0, 1] 1 false, fillA := xchngAlng (bnd chN chK 1), fillN := xchngNrml (bnd chN chK 1), filter := false }
/-- two velocities and a scalar -/
def chU : VP.User ℚ (Idx 2) 2 :=
  { nEqns := 3, norhs := 0, delayed := 0, vip := fun d => d.1, den := none, veps := 0, dx := fun _ => 1, sch := .trapez, vc := ⟨false, false⟩, vab := .noab
    coeff := fun _ => 0, relax := fun _ _ => 0, force := fun _ _ _ r => r }
/-- flow through the channel with a divergent perturbation in the middle, a scalar with a gradient, junk elsewhere -/
def chS : St ℚ 2 (MemN 2 ℚ) :=
  { psi := fun e x => if e = 0 then 1 + (if x = fun _ => 1 then 1/10 else 0) else if e = 1 then 0 else x 0, old := fun _ _ => 0, rhs := fun _ _ => 0, stash := fun _ _ _ => 0, vrhs := fun _ _ => 0
    GC := fun _ _ => 0, ndt := fun _ _ => 0, ndtt := fun _ _ => 0, tmp := demoMemN (fun _ => 7) (fun _ _ => 7) 7, timestep := 0, ds0 := 0, ds1 := 0, Phi := fun _ => 7, beta := 7, edge := fun _ _ => 7
    alpha := fun _ => 7, tmpDen := fun _ => 7, pErr := fun _ _ => 7, lapErr := fun _ _ => 7 }
theorem chNe : Nonempty (Prs.Pts chN) := ⟨⟨fun _ => 0, by decide⟩⟩

/-- the hypotheses of `C62_velocity_nondivergent` and `C62_advector_nondivergent_partial` hold in the channel -/
example : Setup chU chN 1 chA ∧ NoAbsorberOnOpen chU chN chK ∧ GAtBoundary chN chK (gFacN chA.o chA.st.G) ∧ OneDt chU (fun _ => []) ∧ chS.ds0 = 0 ∧
    (∀ d, chK d = .cyclic → (0 : Int) < 0) :=
  ⟨⟨by decide, by decide, fun d => by decide +revert, fun f x hx => C60_sclr_keeps_domain (bnd chN chK 1) [0, 1] 1 false f (x := x) hx, rfl, fun d e h => Fin.ext h⟩,
    fun h => by simp [chU] at h, ⟨fun _ _ _ _ _ => rfl, fun _ _ _ _ _ => rfl, fun _ _ _ _ _ => rfl, fun _ _ _ _ _ => ⟨rfl, rfl⟩, fun _ _ _ _ _ => ⟨rfl, rfl⟩⟩, .inr (.inr fun _ => rfl), rfl,
    fun d h => by revert h; revert d; decide⟩

/-- the pressure solver converges there, and before it the flow was not non-divergent -/
example : (run (solver chU chN chK 1 chA (1/50) 20 .mr) chNe (1/4) (fun _ => false) (fun _ => 1/4) (fun _ => []) chS 0).isSome = true ∧
    flowDiv chN (fun d => chK d = .cyclic) chU.dx (fun _ => 1) (fun d => chS.psi (chU.vip d)) ![0, 1] = 1/10 := by decide +kernel

/-- so do the conjugate-residual schemes -/
example : (run (solver chU chN chK 1 chA (1/50) 20 (.gcr 0)) chNe (1/4) (fun _ => false) (fun _ => 1/4) (fun _ => []) chS 0).isSome = true := by decide +kernel

/-- the 2-D cyclic demonstration solver with two velocities at rest and a scalar 5, junk in memory -/
def cyS : St ℚ 2 (MemN 2 ℚ) := { chS with psi := fun e _ => if e = 2 then 5 else 0 }
def cyO : OptsT := oFct ||| oTot ||| oDfl
def cyP : SpecN.Par 2 ℚ := ⟨cyO, 1/1000, formulae2 cyO .exact .noextrp (1/1000), ⟨fun _ => 1, fun _ _ => 0, fun _ _ => 0⟩⟩
theorem cyNe : Nonempty (Prs.Pts fun _ : Fin 2 => 4 + 1) := ⟨⟨fun _ => 0, by decide⟩⟩
theorem cyProg : VP.Prog2 chU (demo2 cyO 3) cyP (fun _ => 4) :=
  ⟨⟨⟨rfl, rfl, rfl, fun _ => rfl, fun d => by decide, by decide, rfl, fun _ => rfl, fun _ => rfl, fun _ _ => rfl, fun _ _ _ => rfl, fun _ _ _ => rfl, fun _ _ => rfl,
    fun _ _ _ => rfl, fun _ _ _ => rfl⟩, ⟨_, _, _, rfl⟩, by decide⟩, by decide, by unfold HaloCovered; decide,
    ⟨fun d => by simp only [chU]; omega, fun e he => by simp [chU] at he⟩, fun _ _ => rfl, fun _ _ _ => rfl, VP.forceOk_id rfl⟩
theorem cyRest : VP.AtRest chU (fun e => if e = 2 then (5 : ℚ) else 0) :=
  ⟨fun d => if_neg (show d.1 ≠ 2 by have := d.2; omega), rfl, fun _ _ _ z _ hz e he h x => hz e he h x⟩
theorem cyBegin (tol : ℚ) (cap : Nat) (prs : Scheme) : VP.Begin (cycSolver chU (fun _ => 4) (demo2 cyO 3) tol cap prs).toCfg (fun e _ => if e = 2 then 5 else 0) cyS.toSt := ⟨rfl, rfl, rfl, fun _ _ _ _ => rfl⟩

/-- the hypotheses of the cyclic theorems of C62 hold there, and runs of any length succeed -/
example (prs : Scheme) (tol δ : ℚ) (htol : 0 ≤ tol) (hδ : Guarantees prs (fun _ : Fin 2 => 4 + 1) (tol * (1/4)) δ) (t : Nat) : ∃ q, run (cycSolver chU (fun _ => 4) (demo2 cyO 3) tol 20 prs) cyNe (1/4) (fun _ => false) (fun _ => 1/4) (fun _ => []) cyS (t + 1) = some q ∧
    |divN q.GC (fun _ => 0)| ≤ 2 * δ * |gFacN cyO (fun _ : Idx 2 => (1 : ℚ)) (fun _ => 0)| := by
  have hj : Function.Injective chU.vip := fun d e h => Fin.ext h
  obtain ⟨q, hq, _⟩ := C62_rest_cyclic_2d chU (fun _ => 4) (demo2 cyO 3) cyP tol htol 20 prs (by decide) cyProg (by decide) rfl hj cyNe _ cyRest cyS (cyBegin tol 20 prs)
    (1/4) (fun _ => false) (fun _ => 1/4) (fun _ => []) (t + 1)
  refine ⟨q, hq, ?_⟩
  have e : tol * (1/4) / (1/4) = tol := by ring
  refine C62_advector_fixed_dt_cyclic chU (fun _ => 4) (demo2 cyO 3) cyP [0, 1] (tol * (1/4)) (1/4) (by norm_num) 20 prs δ hδ cyProg cyProg.solver.setup cyProg.solver.good rfl hj cyNe
    (fun e _ => if e = 2 then 5 else 0) (fun e _ _ => rfl) (fun _ => false) cyS q (by rw [e]; exact cyBegin tol 20 prs) t (by rw [e]; exact hq) (fun _ => 0) (fun _ => by constructor <;> simp) ?_
  show gFacN cyO (fun _ : Idx 2 => (1 : ℚ)) _ ≠ 0
  decide

/-! ## Open boundaries where G varies -/

/-- G is 1 on the left edge of the channel and 2 elsewhere; the halo as the scalar exchange fills it (open: the edge value; rigid: mirrored) -/
def chG : Idx 2 → ℚ := fun x => if x 0 ≤ 0 then 1 else 2
def chAG : CfgN 2 ℚ := { chA with o := oNug, st := ⟨chG, fun _ _ => 0, fun _ _ => 0⟩ }
/-- `G v = 1` everywhere along the channel: non-divergent -/
def chSG : St ℚ 2 (MemN 2 ℚ) := { chS with psi := fun e x => if e = 0 then 1 / chG x else 0 }
theorem chG_filled : ∀ a ∈ [(-1 : Int), 0, 1, 2, 3], ∀ b ∈ [(-1 : Int), 0, 1, 2, 3], xchngSclr (bnd chN chK 1) [0, 1] 1 false chG ![a, b] = chG ![a, b] := by decide +kernel

/-- C62 fails next to an open boundary where the G-factor varies: velocities are extrapolated linearly into the halo (so that one-sided differences of `G v` would need `G v` extrapolated), G is
filled with the edge value. The flow below is exactly non-divergent and remains so; the advector computed from it has the divergence -1/16 in the cell on the left edge. -/
theorem C62_fails_open_nonuniform_G :
    let c := solver chU chN chK 1 chAG (1/50) 20 .mr
    ∃ q, run c chNe (1/4) (fun _ => false) (fun _ => 1/4) (fun _ => []) chSG 0 = some q ∧
      (∀ i ∈ [(0 : Int), 1, 2], ∀ j ∈ [(0 : Int), 1, 2], flowDiv chN (fun d => chK d = .cyclic) chU.dx chG (fun d => q.psi (chU.vip d)) ![i, j] = 0) ∧
      divN (VP.calcGc c.toCfg q.toSt (1/4)).GC ![0, 1] = -1/16 := by
  intro c
  have h : (match run c chNe (1/4) (fun _ => false) (fun _ => 1/4) (fun _ => []) chSG 0 with
      | none => false
      | some q => decide ((∀ i ∈ [(0 : Int), 1, 2], ∀ j ∈ [(0 : Int), 1, 2], flowDiv chN (fun d => chK d = .cyclic) chU.dx chG (fun d => q.psi (chU.vip d)) ![i, j] = 0) ∧
        divN (VP.calcGc c.toCfg q.toSt (1/4)).GC ![0, 1] = -1/16)) = true := by decide +kernel
  cases hr : run c chNe (1/4) (fun _ => false) (fun _ => 1/4) (fun _ => []) chSG 0 with
  | none => rw [hr] at h; cases h
  | some q => rw [hr] at h; exact ⟨q, rfl, of_decide_eq_true h⟩

end PP
end Mpdata
