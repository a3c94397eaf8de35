import Verif.Lemmas.BoxRun
import Verif.Props.BsqStart
import Verif.Lemmas.SgsRun
/-! # C62, C63: incompressible and Boussinesq flow in a closed box
Rigid walls on all sides. What the solver transports stays in the box: the total of every scalar, with half weight on the walls, changes only by what its right-hand side supplies. -/
set_option linter.unusedSectionVars false
namespace Mpdata.PP
open Prs (inBox)
variable {K : Type} [Field K] [LinearOrder K] [IsStrictOrderedRing K] {n : Nat}

/-- the content of a box of `P d + 1` points per dimension: the sum over the grid points, weighted with `G` (1 without the `nug` option) and with one half for every wall the point is on -/
def boxTot (a : CfgN n K) (P : Fin n → Nat) (f : Idx n → K) : K := ∑ x ∈ gridPts P, trapW P x * (gFacN a.o a.st.G x * f x)

theorem boxTot_grid (a : CfgN n K) (P : Fin n → Nat) (f g : Idx n → K) (h : ∀ x, inBox (fun d => P d + 1) x → f x = g x) : boxTot a P f = boxTot a P g := by
  refine Finset.sum_congr rfl (fun x hx => ?_)
  rw [h x (fun e => by have := mem_gridPts.1 hx e; push_cast; omega)]

theorem boxTot_lin (a : CfgN n K) (P : Fin n → Nat) (f g : Idx n → K) (k : K) : boxTot a P (fun x => f x + k * g x) = boxTot a P f + k * boxTot a P g := by
  unfold boxTot
  rw [Finset.mul_sum, ← Finset.sum_add_distrib]
  exact Finset.sum_congr rfl (fun x _ => by ring)

section
variable [NeZero n] {u : VP.User K (Idx n) n} {P : Fin n → Nat} {a : CfgN n K} {p0 : SpecN.Par n K} {ds : List (Fin n)} {tol : K} {cap : Nat} {prs : Scheme}

theorem box_adv (h : WallSetupN (fun _ => true) a p0 P ds) (hF : FGood p0.o p0.F) (hM : FMir p0.F) (hf : isset a.o oFct = false) (hn : 1 ≤ a.nIters) (hx : HaloCovered a.o a.nIters)
    (hG : ∀ x, gFacN p0.o p0.st.G x ≠ 0) (hd3 : u.vc.div3 = false) {GC V : Vec n K} (hg : ∀ d, AgN (RG a.box (solverHalo a.o) d) (GC d) (extV P V d)) (filt : Bool)
    (ndt ndtt : Vec n K) (t : MemN n K) (psi old : Idx n → K) :
    boxTot a P ((solver u (fun d => P d + 1) (fun _ => .rigid) (solverHalo a.o) a tol cap prs).advop GC ndt ndtt filt t psi old).2.1 = boxTot a P psi := by
  have hP : ∀ d, 1 ≤ P d := fun d => by have := h.hhP d; have := (solverHalo_ge a.o).1; omega
  set c' : CfgN n K := { a with filter := filt, st := { a.st with ndt := fun _ _ => 0, ndtt := fun _ _ => 0 } } with hc'
  set p' : SpecN.Par n K := { p0 with st := { p0.st with ndt := fun _ _ => 0, ndtt := fun _ _ => 0 } } with hp'
  have z : ContV (fun _ => true) P (fun _ _ => 0 : Vec n K) := ⟨fun _ _ _ _ => rfl, fun _ _ _ _ => rfl, fun _ _ _ => by simp, fun _ _ _ _ _ => rfl⟩
  have h' : WallSetupN (fun _ => true) c' p' P ds := ⟨h.ho, h.heps, h.hF, h.hbox, h.hhP, h.hds, h.hS, h.hA, h.hN, h.contG, z, z, h.hG, fun _ _ _ => rfl, fun _ _ _ => rfl⟩
  set m : MemN n K := { t with psi := psi, psiN := old, GC := GC } with hm
  have e1 : ((solver u (fun d => P d + 1) (fun _ => .rigid) (solverHalo a.o) a tol cap prs).advop GC ndt ndtt filt t psi old).2.1 = (advanceN c' m).psi := by
    show (advanceN { a with filter := filt, st := { a.st with ndt := if u.vc.div3 then ndt else fun _ _ => 0, ndtt := if u.vc.div3 then ndtt else fun _ _ => 0 } } m).psi = _
    rw [hd3]
    rfl
  have hs := wallN_step h' hF hM hf hn hx (extS_cont hP psi) (extV_cont hP V) m (fun x hx => extS_eq hP psi x ((wall_cellBox_iff h' x).1 hx)) hg
  rw [e1]
  exact conserve_of_mirror h' hF hM hG (fun _ => filt) (extS_cont hP psi) (extV_cont hP V) (m := m) (m' := advanceN c' m) (extS_eq hP psi) 1
    (fun x hx => hs x ((wall_cellBox_iff h' x).2 hx))

/-- one step from a state without flow through the walls -/
theorem box_core (h : WallSetupN (fun _ => true) a p0 P ds) (hF : FGood p0.o p0.F) (hM : FMir p0.F) (hf : isset a.o oFct = false) (hn : 1 ≤ a.nIters) (hx : HaloCovered a.o a.nIters)
    (hG : ∀ x, gFacN p0.o p0.st.G x ≠ 0) (hd3 : u.vc.div3 = false) (hd : u.den = none) (hi : Function.Injective u.vip) (ne : Nonempty (Prs.Pts fun d => P d + 1)) (filt : Bool) (first : K) (more : List K)
    (hts : u.vc.varDt = true ∨ more = []) {q p : St K n (MemN n K)}
    (hq : ∀ d x, inBox (fun d => P d + 1) x → (x d = 0 ∨ x d = (((P d + 1 : Nat) : Int) - 1)) → q.psi (u.vip d) x = 0)
    (hstash : extrpBeta ((first :: more).getLast (by simp)) q.ds0 = 0 ∨
      ∀ d x, inBox (fun d => P d + 1) x → (x d = 0 ∨ x d = (((P d + 1 : Nat) : Int) - 1)) → q.stash (stashBlk u.vc q.timestep 1) d x = 0)
    (hp : step (solver u (fun d => P d + 1) (fun _ => .rigid) (solverHalo a.o) a tol cap prs) ne filt first more q = some p) (e : Nat) (he : ∀ d, u.vip d ≠ e) :
      let R : St K n (MemN n K) → Idx n → K := fun s x => if e < u.nEqns ∧ isset u.norhs (bit e) = false then s.rhs e x else 0
      let dt := (first :: more).getLast (by simp)
      boxTot a P (p.psi e) = boxTot a P (q.psi e) + (if u.sch = .trapez then dt / 2 * (boxTot a P (R q) + boxTot a P (R p)) else dt * boxTot a P (R p)) := by
  set c := solver u (fun d => P d + 1) (fun _ => .rigid) (solverHalo a.o) a tol cap prs with hc
  have st := setup_of_wall h hd hi
  have ok : Ok c := st.ok
  have hts' : c.vc.varDt = true ∨ c.vc.div3 = true ∨ more = [] := hts.imp id Or.inr
  set dt := (first :: more).getLast (by simp) with hdt
  obtain ⟨junk, dst, hgc⟩ := gc_val ok first more hts' q.toSt
  obtain ⟨V, hV⟩ := box_gc (u := u) (tol := tol) (cap := cap) (prs := prs) h dt (fun d x => if c.grid x then (1 + extrpBeta dt q.ds0) * q.psi (c.vip d) x - extrpBeta dt q.ds0 * q.stash (stashBlk c.vc q.timestep 1) d x
      else junk d x) dst (fun d x hx hw => by
    have hw' : x d = 0 ∨ x d = ((P d + 1 : Nat) : Int) - 1 := by push_cast; omega
    show (if c.grid x then _ else _) = _
    rw [if_pos ((ok.grid x).2 hx), show q.psi (c.vip d) x = 0 from hq d x hx hw']
    rcases hstash with hb | hs
    · rw [hb]; ring
    · rw [show q.stash (stashBlk c.vc q.timestep 1) d x = 0 from hs d x hx hw']; ring)
  intro R dt'
  have hR : ∀ s : St K n (MemN n K), R s = effR c.toCfg s.rhs e := by
    intro s
    funext x
    show (if e < u.nEqns ∧ isset u.norhs (bit e) = false then s.rhs e x else 0) = if (decide (e < u.nEqns) && !isset u.norhs (bit e)) = true then s.rhs e x else 0
    congr 1
    simp
  rw [hR, hR]
  exact step_tot ok st.two ne (fun _ _ => rfl) (boxTot_grid a P) (boxTot_lin a P) filt first more hp
    (fun ndt ndtt t' psi old => box_adv h hF hM hf hn hx hG hd3 (by rw [hgc]; exact hV) filt ndt ndtt t' psi old) e he

/-- one step of a run, with forces added to the equations of the velocities -/
theorem box_stepF (h : WallSetupN (fun _ => true) a p0 P ds) (hF : FGood p0.o p0.F) (hM : FMir p0.F) (hf : isset a.o oFct = false) (hn : 1 ≤ a.nIters) (hx : HaloCovered a.o a.nIters)
    (hG : ∀ x, gFacN p0.o p0.st.G x ≠ 0) (hd3 : u.vc.div3 = false) (hd : u.den = none) (hi : Function.Injective u.vip) (ne : Nonempty (Prs.Pts fun d => P d + 1)) (dt0 : K) (filt : Nat → Bool) (F : Nat → St K n (MemN n K) → Fin n → Idx n → K)
    (first : Nat → K) (more : Nat → List K) (hts : u.vc.varDt = true ∨ ∀ t, more t = []) {s p : St K n (MemN n K)} (h0 : s.ds0 = 0) (t : Nat)
    (hr : runF (solver u (fun d => P d + 1) (fun _ => .rigid) (solverHalo a.o) a tol cap prs) F ne dt0 filt first more s (t + 1) = some p) :
    ∃ q, runF (solver u (fun d => P d + 1) (fun _ => .rigid) (solverHalo a.o) a tol cap prs) F ne dt0 filt first more s t = some q ∧ ∀ e, (∀ d, u.vip d ≠ e) →
      let R : St K n (MemN n K) → Idx n → K := fun s x => if e < u.nEqns ∧ isset u.norhs (bit e) = false then s.rhs e x else 0
      let dt := (first t :: more t).getLast (by simp)
      boxTot a P (p.psi e) = boxTot a P (q.psi e) + (if u.sch = .trapez then dt / 2 * (boxTot a P (R q) + boxTot a P (R p)) else dt * boxTot a P (R p)) := by
  set c := solver u (fun d => P d + 1) (fun _ => .rigid) (solverHalo a.o) a tol cap prs with hc
  have st := setup_of_wall h hd hi
  have ok : Ok c := st.ok
  have hfree : EdgeFree c := fun _ _ _ _ _ hk => by cases hk
  obtain ⟨q, hq, hp⟩ := runF_pred hr
  obtain ⟨e1, g1⟩ := runF_good ok hfree F ne dt0 filt first more t hq
  refine ⟨q, hq, fun e he => ?_⟩
  refine box_core (q := addForce c (F t) q) h hF hM hf hn hx hG hd3 hd hi ne (filt t) (first t) (more t) (hts.imp id fun h => h t) (fun d x hx hw => g1.noFlow d x rfl hx hw) ?_ hp e he
  rcases t with _ | v
  · left
    have hds : q.ds0 = 0 := by rw [(anteLoop_good ok ne dt0 hq).2.2.2, h0]
    show extrpBeta _ q.ds0 = 0
    unfold extrpBeta; rw [hds]; simp
  · right
    obtain ⟨r, hr', hq'⟩ := runF_pred hq
    obtain ⟨e2, g2⟩ := runF_good ok hfree F ne dt0 filt first more v hr'
    obtain ⟨k1, _, _, _, _⟩ := step_keep ok ne _ _ _ hfree (show EdgeOk c (addForce c (F v) r).edge by show EdgeOk c r.edge; rw [e2]; exact saveEdges_ok c s.psi) hq'
    intro d x hx hw
    exact (k1 d x hx).trans (g2.noFlow d x rfl hx hw)

/-- one step of a run -/
theorem box_stepT (h : WallSetupN (fun _ => true) a p0 P ds) (hF : FGood p0.o p0.F) (hM : FMir p0.F) (hf : isset a.o oFct = false) (hn : 1 ≤ a.nIters) (hx : HaloCovered a.o a.nIters)
    (hG : ∀ x, gFacN p0.o p0.st.G x ≠ 0) (hd3 : u.vc.div3 = false) (hd : u.den = none) (hi : Function.Injective u.vip) (ne : Nonempty (Prs.Pts fun d => P d + 1)) (dt0 : K) (filt : Nat → Bool)
    (first : Nat → K) (more : Nat → List K) (hts : u.vc.varDt = true ∨ ∀ t, more t = []) {s p : St K n (MemN n K)} (h0 : s.ds0 = 0) (t : Nat)
    (hr : run (solver u (fun d => P d + 1) (fun _ => .rigid) (solverHalo a.o) a tol cap prs) ne dt0 filt first more s (t + 1) = some p) :
    ∃ q, run (solver u (fun d => P d + 1) (fun _ => .rigid) (solverHalo a.o) a tol cap prs) ne dt0 filt first more s t = some q ∧ ∀ e, (∀ d, u.vip d ≠ e) →
      let R : St K n (MemN n K) → Idx n → K := fun s x => if e < u.nEqns ∧ isset u.norhs (bit e) = false then s.rhs e x else 0
      let dt := (first t :: more t).getLast (by simp)
      boxTot a P (p.psi e) = boxTot a P (q.psi e) + (if u.sch = .trapez then dt / 2 * (boxTot a P (R q) + boxTot a P (R p)) else dt * boxTot a P (R p)) := by
  set c := solver u (fun d => P d + 1) (fun _ => .rigid) (solverHalo a.o) a tol cap prs with hc
  have st := setup_of_wall h hd hi
  have ok : Ok c := st.ok
  have hfree : EdgeFree c := fun _ _ _ _ _ hk => by cases hk
  obtain ⟨q, hq, hp⟩ := run_pred hr
  obtain ⟨e1, g1⟩ := run_good ok hfree ne dt0 filt first more t hq
  refine ⟨q, hq, fun e he => ?_⟩
  refine box_core h hF hM hf hn hx hG hd3 hd hi ne (filt t) (first t) (more t) (hts.imp id fun h => h t) (fun d x hx hw => g1.noFlow d x rfl hx hw) ?_ hp e he
  rcases t with _ | v
  · left
    have hds : q.ds0 = 0 := by rw [(anteLoop_good ok ne dt0 hq).2.2.2, h0]
    unfold extrpBeta; rw [hds]; simp
  · right
    obtain ⟨r, hr', hq'⟩ := run_pred hq
    obtain ⟨e2, g2⟩ := run_good ok hfree ne dt0 filt first more v hr'
    obtain ⟨k1, _, _, _, _⟩ := step_keep ok ne _ _ _ hfree (by rw [e2]; exact saveEdges_ok c s.psi) hq'
    intro d x hx hw
    exact (k1 d x hx).trans (g2.noFlow d x rfl hx hw)

/-- scalars without forcing -/
theorem box_total (h : WallSetupN (fun _ => true) a p0 P ds) (hF : FGood p0.o p0.F) (hM : FMir p0.F) (hf : isset a.o oFct = false) (hn : 1 ≤ a.nIters) (hx : HaloCovered a.o a.nIters)
    (hG : ∀ x, gFacN p0.o p0.st.G x ≠ 0) (hd3 : u.vc.div3 = false) (hd : u.den = none) (hi : Function.Injective u.vip) (ne : Nonempty (Prs.Pts fun d => P d + 1)) (dt0 : K) (filt : Nat → Bool)
    (first : Nat → K) (more : Nat → List K) (hts : u.vc.varDt = true ∨ ∀ t, more t = []) {s : St K n (MemN n K)} (h0 : s.ds0 = 0) (e : Nat) (he : ∀ d, u.vip d ≠ e)
    (hu : e < u.nEqns → isset u.norhs (bit e) = false → ∀ dt at1 psi z, (∀ x, inBox (fun d => P d + 1) x → z e x = 0) → ∀ x, inBox (fun d => P d + 1) x → u.force dt at1 psi z e x = 0) :
    ∀ (t : Nat) {p : St K n (MemN n K)}, run (solver u (fun d => P d + 1) (fun _ => .rigid) (solverHalo a.o) a tol cap prs) ne dt0 filt first more s t = some p →
      boxTot a P (p.psi e) = boxTot a P (s.psi e) := by
  set c := solver u (fun d => P d + 1) (fun _ => .rigid) (solverHalo a.o) a tol cap prs with hc
  have st := setup_of_wall h hd hi
  have ok : Ok c := st.ok
  have hU : Unforced c.toCfg e := by
    by_cases hh : e < u.nEqns ∧ isset u.norhs (bit e) = false
    · right
      intro dt at1 psi z hz x hx
      exact hu hh.1 hh.2 dt at1 psi z (fun y hy => hz y ((ok.grid y).2 hy)) x ((ok.grid x).1 hx)
    · left
      show (decide (e < u.nEqns) && !isset u.norhs (bit e)) = false
      by_contra hne
      exact hh (by simpa using hne)
  have zero : ∀ q : St K n (MemN n K), (∀ x, inBox c.N x → effR c.toCfg q.rhs e x = 0) →
      boxTot a P (fun x => if e < u.nEqns ∧ isset u.norhs (bit e) = false then q.rhs e x else 0) = 0 := by
    intro q hq
    rw [boxTot_grid a P _ (fun _ => 0) (fun x hx => by
      have hq' : (if (decide (e < u.nEqns) && !isset u.norhs (bit e)) = true then q.rhs e x else 0) = 0 := hq x hx
      simpa using hq')]
    unfold boxTot
    exact Finset.sum_eq_zero (fun x _ => by ring)
  have main : ∀ (t : Nat) (p : St K n (MemN n K)), run c ne dt0 filt first more s t = some p →
      boxTot a P (p.psi e) = boxTot a P (s.psi e) ∧ ((c.sch = .trapez ∨ 0 < t) → ∀ x, inBox c.N x → effR c.toCfg p.rhs e x = 0) := by
    intro t
    induction t with
    | zero =>
      intro p hr
      obtain ⟨a1, a2⟩ := ante_scalar ok ne dt0 hr e he
      exact ⟨boxTot_grid a P _ _ a1, fun hh x hx => a2 (hh.resolve_right (by omega)) x hx hU⟩
    | succ t ih =>
      intro p hr
      obtain ⟨q, hq, hb⟩ := box_stepT h hF hM hf hn hx hG hd3 hd hi ne dt0 filt first more hts h0 t hr
      obtain ⟨q', hq', hst⟩ := run_pred hr
      obtain rfl : q' = q := Option.some.inj (hq'.symm.trans hq)
      have un : ∀ x, inBox c.N x → effR c.toCfg p.rhs e x = 0 := fun x hx => step_unforced ok st.two ne (fun _ _ => rfl) _ _ _ hst hU hx
      obtain ⟨i1, i2⟩ := ih q' hq
      refine ⟨?_, fun _ => un⟩
      have hb := hb e he
      simp only at hb
      rw [hb, i1, zero p un]
      by_cases hs : u.sch = .trapez
      · rw [if_pos hs, zero q' (i2 (Or.inl hs)), add_zero, mul_zero, add_zero]
      · rw [if_neg hs, mul_zero, add_zero]
  exact fun t p hr => (main t p hr).1
end

/-- C62, 2-D (partial: without flux-corrected transport and the third-order time derivatives; with the divergence-form options up to two passes). Incompressible flow in a box with rigid walls
on all four sides, any forcing, any right-hand side scheme, constant or varying time step, any pressure scheme: in every step the content of every transported scalar changes exactly by the time step times the
content of its right-hand side (trapezoidal scheme: the mean of the right-hand sides kept before and after the step). Nothing leaks through the walls. -/
theorem C62_box_budget_2d_partial (u : VP.User K (Idx 2) 2) (a : CfgN 2 K) (p0 : SpecN.Par 2 K) (P : Fin 2 → Nat) (tol : K) (cap : Nat) (prs : Scheme) (h : Walled2 (fun _ => true) a p0 P)
    (hf : isset a.o oFct = false) (hn : 1 ≤ a.nIters) (hx : HaloCovered a.o a.nIters) (hG : ∀ x, gFacN p0.o p0.st.G x ≠ 0) (hd3 : u.vc.div3 = false) (hd : u.den = none) (hi : Function.Injective u.vip)
    (ne : Nonempty (Prs.Pts fun d => P d + 1)) (dt0 : K) (filt : Nat → Bool) (first : Nat → K) (more : Nat → List K) (hts : u.vc.varDt = true ∨ ∀ t, more t = []) (s p : St K 2 (MemN 2 K)) (h0 : s.ds0 = 0)
    (t : Nat) (hr : run (solver u (fun d => P d + 1) (fun _ => .rigid) (solverHalo a.o) a tol cap prs) ne dt0 filt first more s (t + 1) = some p) :
    ∃ q, run (solver u (fun d => P d + 1) (fun _ => .rigid) (solverHalo a.o) a tol cap prs) ne dt0 filt first more s t = some q ∧ ∀ e, (∀ d, u.vip d ≠ e) →
      let R : St K 2 (MemN 2 K) → Idx 2 → K := fun s x => if e < u.nEqns ∧ isset u.norhs (bit e) = false then s.rhs e x else 0
      let dt := (first t :: more t).getLast (by simp)
      boxTot a P (p.psi e) = boxTot a P (q.psi e) + (if u.sch = .trapez then dt / 2 * (boxTot a P (R q) + boxTot a P (R p)) else dt * boxTot a P (R p)) :=
  box_stepT h.setup h.good h.mir hf hn hx hG hd3 hd hi ne dt0 filt first more hts h0 t hr

/-- C62, 3-D (partial: as in 2-D): budgets in a closed box. -/
theorem C62_box_budget_3d_partial (u : VP.User K (Idx 3) 3) (a : CfgN 3 K) (p0 : SpecN.Par 3 K) (P : Fin 3 → Nat) (tol : K) (cap : Nat) (prs : Scheme) (h : Walled3 (fun _ => true) a p0 P)
    (hf : isset a.o oFct = false) (hn : 1 ≤ a.nIters) (hx : HaloCovered a.o a.nIters) (hG : ∀ x, gFacN p0.o p0.st.G x ≠ 0) (hd3 : u.vc.div3 = false) (hd : u.den = none) (hi : Function.Injective u.vip)
    (ne : Nonempty (Prs.Pts fun d => P d + 1)) (dt0 : K) (filt : Nat → Bool) (first : Nat → K) (more : Nat → List K) (hts : u.vc.varDt = true ∨ ∀ t, more t = []) (s p : St K 3 (MemN 3 K)) (h0 : s.ds0 = 0)
    (t : Nat) (hr : run (solver u (fun d => P d + 1) (fun _ => .rigid) (solverHalo a.o) a tol cap prs) ne dt0 filt first more s (t + 1) = some p) :
    ∃ q, run (solver u (fun d => P d + 1) (fun _ => .rigid) (solverHalo a.o) a tol cap prs) ne dt0 filt first more s t = some q ∧ ∀ e, (∀ d, u.vip d ≠ e) →
      let R : St K 3 (MemN 3 K) → Idx 3 → K := fun s x => if e < u.nEqns ∧ isset u.norhs (bit e) = false then s.rhs e x else 0
      let dt := (first t :: more t).getLast (by simp)
      boxTot a P (p.psi e) = boxTot a P (q.psi e) + (if u.sch = .trapez then dt / 2 * (boxTot a P (R q) + boxTot a P (R p)) else dt * boxTot a P (R p)) :=
  box_stepT h.setup h.good h.mir hf hn hx hG hd3 hd hi ne dt0 filt first more hts h0 t hr

/-- C62, 2-D (partial: as above): in such a box the content of a scalar that is not forced is the same at all times. -/
theorem C62_box_total_2d_partial (u : VP.User K (Idx 2) 2) (a : CfgN 2 K) (p0 : SpecN.Par 2 K) (P : Fin 2 → Nat) (tol : K) (cap : Nat) (prs : Scheme) (h : Walled2 (fun _ => true) a p0 P)
    (hf : isset a.o oFct = false) (hn : 1 ≤ a.nIters) (hx : HaloCovered a.o a.nIters) (hG : ∀ x, gFacN p0.o p0.st.G x ≠ 0) (hd3 : u.vc.div3 = false) (hd : u.den = none) (hi : Function.Injective u.vip)
    (ne : Nonempty (Prs.Pts fun d => P d + 1)) (dt0 : K) (filt : Nat → Bool) (first : Nat → K) (more : Nat → List K) (hts : u.vc.varDt = true ∨ ∀ t, more t = []) (s p : St K 2 (MemN 2 K)) (h0 : s.ds0 = 0)
    (e : Nat) (he : ∀ d, u.vip d ≠ e)
    (hu : e < u.nEqns → isset u.norhs (bit e) = false → ∀ dt at1 psi z, (∀ x, inBox (fun d => P d + 1) x → z e x = 0) → ∀ x, inBox (fun d => P d + 1) x → u.force dt at1 psi z e x = 0) (t : Nat)
    (hr : run (solver u (fun d => P d + 1) (fun _ => .rigid) (solverHalo a.o) a tol cap prs) ne dt0 filt first more s t = some p) : boxTot a P (p.psi e) = boxTot a P (s.psi e) :=
  box_total h.setup h.good h.mir hf hn hx hG hd3 hd hi ne dt0 filt first more hts h0 e he hu t hr

/-- C62, 3-D (partial: as above): contents of scalars that are not forced. -/
theorem C62_box_total_3d_partial (u : VP.User K (Idx 3) 3) (a : CfgN 3 K) (p0 : SpecN.Par 3 K) (P : Fin 3 → Nat) (tol : K) (cap : Nat) (prs : Scheme) (h : Walled3 (fun _ => true) a p0 P)
    (hf : isset a.o oFct = false) (hn : 1 ≤ a.nIters) (hx : HaloCovered a.o a.nIters) (hG : ∀ x, gFacN p0.o p0.st.G x ≠ 0) (hd3 : u.vc.div3 = false) (hd : u.den = none) (hi : Function.Injective u.vip)
    (ne : Nonempty (Prs.Pts fun d => P d + 1)) (dt0 : K) (filt : Nat → Bool) (first : Nat → K) (more : Nat → List K) (hts : u.vc.varDt = true ∨ ∀ t, more t = []) (s p : St K 3 (MemN 3 K)) (h0 : s.ds0 = 0)
    (e : Nat) (he : ∀ d, u.vip d ≠ e)
    (hu : e < u.nEqns → isset u.norhs (bit e) = false → ∀ dt at1 psi z, (∀ x, inBox (fun d => P d + 1) x → z e x = 0) → ∀ x, inBox (fun d => P d + 1) x → u.force dt at1 psi z e x = 0) (t : Nat)
    (hr : run (solver u (fun d => P d + 1) (fun _ => .rigid) (solverHalo a.o) a tol cap prs) ne dt0 filt first more s t = some p) : boxTot a P (p.psi e) = boxTot a P (s.psi e) :=
  box_total h.setup h.good h.mir hf hn hx hG hd3 hd hi ne dt0 filt first more hts h0 e he hu t hr

/-- C64, 2-D (partial: as in C62_box_budget_2d_partial). Incompressible flow in a closed box with any subgrid-scale forces on the velocities: contents of scalars change by what their
right-hand sides supply. -/
theorem C64_box_budget_2d_partial (u : VP.User K (Idx 2) 2) (a : CfgN 2 K) (p0 : SpecN.Par 2 K) (P : Fin 2 → Nat) (tol : K) (cap : Nat) (prs : Scheme) (h : Walled2 (fun _ => true) a p0 P)
    (hf : isset a.o oFct = false) (hn : 1 ≤ a.nIters) (hx : HaloCovered a.o a.nIters) (hG : ∀ x, gFacN p0.o p0.st.G x ≠ 0) (hd3 : u.vc.div3 = false) (hd : u.den = none) (hi : Function.Injective u.vip)
    (ne : Nonempty (Prs.Pts fun d => P d + 1)) (dt0 : K) (filt : Nat → Bool) (F : Nat → St K 2 (MemN 2 K) → Fin 2 → Idx 2 → K) (first : Nat → K) (more : Nat → List K) (hts : u.vc.varDt = true ∨ ∀ t, more t = []) (s p : St K 2 (MemN 2 K)) (h0 : s.ds0 = 0)
    (t : Nat) (hr : runF (solver u (fun d => P d + 1) (fun _ => .rigid) (solverHalo a.o) a tol cap prs) F ne dt0 filt first more s (t + 1) = some p) :
    ∃ q, runF (solver u (fun d => P d + 1) (fun _ => .rigid) (solverHalo a.o) a tol cap prs) F ne dt0 filt first more s t = some q ∧ ∀ e, (∀ d, u.vip d ≠ e) →
      let R : St K 2 (MemN 2 K) → Idx 2 → K := fun s x => if e < u.nEqns ∧ isset u.norhs (bit e) = false then s.rhs e x else 0
      let dt := (first t :: more t).getLast (by simp)
      boxTot a P (p.psi e) = boxTot a P (q.psi e) + (if u.sch = .trapez then dt / 2 * (boxTot a P (R q) + boxTot a P (R p)) else dt * boxTot a P (R p)) :=
  box_stepF h.setup h.good h.mir hf hn hx hG hd3 hd hi ne dt0 filt F first more hts h0 t hr

/-- C64, 3-D (partial: as in C62_box_budget_3d_partial). Incompressible flow in a closed box with any subgrid-scale forces on the velocities: contents of scalars change by what their
right-hand sides supply. -/
theorem C64_box_budget_3d_partial (u : VP.User K (Idx 3) 3) (a : CfgN 3 K) (p0 : SpecN.Par 3 K) (P : Fin 3 → Nat) (tol : K) (cap : Nat) (prs : Scheme) (h : Walled3 (fun _ => true) a p0 P)
    (hf : isset a.o oFct = false) (hn : 1 ≤ a.nIters) (hx : HaloCovered a.o a.nIters) (hG : ∀ x, gFacN p0.o p0.st.G x ≠ 0) (hd3 : u.vc.div3 = false) (hd : u.den = none) (hi : Function.Injective u.vip)
    (ne : Nonempty (Prs.Pts fun d => P d + 1)) (dt0 : K) (filt : Nat → Bool) (F : Nat → St K 3 (MemN 3 K) → Fin 3 → Idx 3 → K) (first : Nat → K) (more : Nat → List K) (hts : u.vc.varDt = true ∨ ∀ t, more t = []) (s p : St K 3 (MemN 3 K)) (h0 : s.ds0 = 0)
    (t : Nat) (hr : runF (solver u (fun d => P d + 1) (fun _ => .rigid) (solverHalo a.o) a tol cap prs) F ne dt0 filt first more s (t + 1) = some p) :
    ∃ q, runF (solver u (fun d => P d + 1) (fun _ => .rigid) (solverHalo a.o) a tol cap prs) F ne dt0 filt first more s t = some q ∧ ∀ e, (∀ d, u.vip d ≠ e) →
      let R : St K 3 (MemN 3 K) → Idx 3 → K := fun s x => if e < u.nEqns ∧ isset u.norhs (bit e) = false then s.rhs e x else 0
      let dt := (first t :: more t).getLast (by simp)
      boxTot a P (p.psi e) = boxTot a P (q.psi e) + (if u.sch = .trapez then dt / 2 * (boxTot a P (R q) + boxTot a P (R p)) else dt * boxTot a P (R p)) :=
  box_stepF h.setup h.good h.mir hf hn hx hG hd3 hd hi ne dt0 filt F first more hts h0 t hr

/-! ## Boussinesq flow in a box -/

/-- the heating of temperature: heat flux and relaxation towards the environment -/
def heating (b : Bous K n) (s : St K n (MemN n K)) : Idx n → K := fun x => b.hflux x - b.thtAbs x * (s.psi b.tht x - b.thtE x)

section
variable [NeZero n] {u : VP.User K (Idx n) n} {b : Bous K n} {P : Fin n → Nat} {a : CfgN n K} {p0 : SpecN.Par n K} {ds : List (Fin n)} {tol : K} {cap : Nat} {prs : Scheme}

theorem box_heat (h : WallSetupN (fun _ => true) a p0 P ds) (hF : FGood p0.o p0.F) (hM : FMir p0.F) (hf : isset a.o oFct = false) (hn : 1 ≤ a.nIters) (hx : HaloCovered a.o a.nIters)
    (hG : ∀ x, gFacN p0.o p0.st.G x ≠ 0) (hd3 : u.vc.div3 = false) (hd : u.den = none) (hi : Function.Injective u.vip) (hs : u.sch = .trapez) (ht : b.tht < u.nEqns) (htv : ∀ d, u.vip d ≠ b.tht)
    (hvip : ∀ d, u.vip d < u.nEqns) (hno : isset u.norhs (bit b.tht) = false) (hnw : isset u.norhs (bit (u.vip (vert n))) = false) (ne : Nonempty (Prs.Pts fun d => P d + 1)) (dt0 : K)
    (filt : Nat → Bool) (first : Nat → K) (more : Nat → List K) (hts : u.vc.varDt = true ∨ ∀ t, more t = []) (hdt : ∀ t, dtOf first more t ≠ 0)
    (ha : ∀ t x, inBox (fun d => P d + 1) x → 1 + 1 / 2 * dtOf first more t * b.thtAbs x ≠ 0) {s : St K n (MemN n K)} (h0 : s.ds0 = 0) (t : Nat) {p : St K n (MemN n K)} (hr : run (bsqExpl u b (fun d => P d + 1) (fun _ => .rigid) (solverHalo a.o) a tol cap prs) ne dt0 filt first more s (t + 1) = some p) :
    ∃ q, run (bsqExpl u b (fun d => P d + 1) (fun _ => .rigid) (solverHalo a.o) a tol cap prs) ne dt0 filt first more s t = some q ∧
      boxTot a P (p.psi b.tht) = boxTot a P (q.psi b.tht) + dtOf first more t / 2 * (boxTot a P (heating b q) + boxTot a P (heating b p)) := by
  have st := setup_of_wall (u := u) h hd hi
  obtain ⟨q, hq, hb⟩ := box_stepT (u := { u with force := forceExpl b (u.vip (vert n)) (fun x => decide (cellBox a.box x)) a.fillS }) h hF hM hf hn hx hG hd3 hd hi ne dt0 filt first more hts h0 t hr
  refine ⟨q, hq, ?_⟩
  have hb := hb b.tht htv
  simp only at hb
  rw [if_pos hs] at hb
  have cond : b.tht < u.nEqns ∧ isset u.norhs (bit b.tht) = false := ⟨ht, hno⟩
  have key : ∀ (v : Nat) (r : St K n (MemN n K)), run (bsqExpl u b (fun d => P d + 1) (fun _ => .rigid) (solverHalo a.o) a tol cap prs) ne dt0 filt first more s v = some r →
      boxTot a P (fun x => if b.tht < u.nEqns ∧ isset u.norhs (bit b.tht) = false then r.rhs b.tht x else 0) = boxTot a P (heating b r) := by
    intro v r hv
    refine boxTot_grid a P _ _ (fun x hxx => ?_)
    rw [if_pos cond]
    rcases v with _ | v
    · exact (C44_run_explicit_start u b _ _ _ a tol cap prs st hs ht htv (hvip _) hno hnw ne dt0 filt first more s r hv x hxx).1
    · obtain ⟨_, _, hh⟩ := C44_run_explicit u b _ _ _ a tol cap prs st hs ht htv hvip hno hnw ne dt0 filt first more s r v (hdt v) (ha v) hv
      exact (hh x hxx).1.1
  rw [hb, key t q hq, key (t + 1) p hr]
  rfl

theorem box_heat_adiabatic (h : WallSetupN (fun _ => true) a p0 P ds) (hF : FGood p0.o p0.F) (hM : FMir p0.F) (hf : isset a.o oFct = false) (hn : 1 ≤ a.nIters) (hx : HaloCovered a.o a.nIters)
    (hG : ∀ x, gFacN p0.o p0.st.G x ≠ 0) (hd3 : u.vc.div3 = false) (hd : u.den = none) (hi : Function.Injective u.vip) (hs : u.sch = .trapez) (ht : b.tht < u.nEqns) (htv : ∀ d, u.vip d ≠ b.tht)
    (hvip : ∀ d, u.vip d < u.nEqns) (hno : isset u.norhs (bit b.tht) = false) (hnw : isset u.norhs (bit (u.vip (vert n))) = false) (ne : Nonempty (Prs.Pts fun d => P d + 1)) (dt0 : K)
    (filt : Nat → Bool) (first : Nat → K) (more : Nat → List K) (hts : u.vc.varDt = true ∨ ∀ t, more t = []) (hdt : ∀ t, dtOf first more t ≠ 0)
    (ha : ∀ t x, inBox (fun d => P d + 1) x → 1 + 1 / 2 * dtOf first more t * b.thtAbs x ≠ 0) {s : St K n (MemN n K)} (h0 : s.ds0 = 0) (hz : ∀ x, inBox (fun d => P d + 1) x → b.thtAbs x = 0) (t : Nat) : ∀ {p : St K n (MemN n K)}, run (bsqExpl u b (fun d => P d + 1) (fun _ => .rigid) (solverHalo a.o) a tol cap prs) ne dt0 filt first more s t = some p →
      boxTot a P (p.psi b.tht) = boxTot a P (s.psi b.tht) + (∑ i ∈ Finset.range t, dtOf first more i) * boxTot a P b.hflux := by
  have st := setup_of_wall (u := u) h hd hi
  have hh : ∀ r : St K n (MemN n K), boxTot a P (heating b r) = boxTot a P b.hflux := fun r => boxTot_grid a P _ _ (fun x hx => by unfold heating; rw [hz x hx]; ring)
  induction t with
  | zero =>
    intro p hr
    have ok : Ok (bsqExpl u b (fun d => P d + 1) (fun _ => .rigid) (solverHalo a.o) a tol cap prs) := expl_ok st
    rw [boxTot_grid a P _ _ (ante_scalar ok ne dt0 hr b.tht htv).1]
    simp
  | succ t ih =>
    intro p hr
    obtain ⟨q, hq, hb⟩ := box_heat h hF hM hf hn hx hG hd3 hd hi hs ht htv hvip hno hnw ne dt0 filt first more hts hdt ha h0 t hr
    rw [hb, ih hq, hh, hh, Finset.sum_range_succ]
    ring
end

/-- C63, 2-D (partial: without flux-corrected transport and the third-order time derivatives; with the divergence-form options up to two passes). Boussinesq flow, explicit solver, in a closed box: in
every step the heat content changes by the time step times the mean of the heating of the fields before and after the step, whatever the flow does and however the buoyancy is filtered. -/
theorem C63_box_heat_2d_partial (u : VP.User K (Idx 2) 2) (b : Bous K 2) (a : CfgN 2 K) (p0 : SpecN.Par 2 K) (P : Fin 2 → Nat) (tol : K) (cap : Nat) (prs : Scheme)
    (h : Walled2 (fun _ => true) a p0 P) (hf : isset a.o oFct = false) (hn : 1 ≤ a.nIters) (hx : HaloCovered a.o a.nIters) (hG : ∀ x, gFacN p0.o p0.st.G x ≠ 0) (hd3 : u.vc.div3 = false)
    (hd : u.den = none) (hi : Function.Injective u.vip) (hs : u.sch = .trapez) (ht : b.tht < u.nEqns) (htv : ∀ d, u.vip d ≠ b.tht) (hvip : ∀ d, u.vip d < u.nEqns)
    (hno : isset u.norhs (bit b.tht) = false) (hnw : isset u.norhs (bit (u.vip (vert 2))) = false) (ne : Nonempty (Prs.Pts fun d => P d + 1)) (dt0 : K) (filt : Nat → Bool) (first : Nat → K)
    (more : Nat → List K) (hts : u.vc.varDt = true ∨ ∀ t, more t = []) (hdt : ∀ t, dtOf first more t ≠ 0) (ha : ∀ t x, inBox (fun d => P d + 1) x → 1 + 1 / 2 * dtOf first more t * b.thtAbs x ≠ 0)
    (s p : St K 2 (MemN 2 K)) (h0 : s.ds0 = 0) (t : Nat)
    (hr : run (bsqExpl u b (fun d => P d + 1) (fun _ => .rigid) (solverHalo a.o) a tol cap prs) ne dt0 filt first more s (t + 1) = some p) :
    ∃ q, run (bsqExpl u b (fun d => P d + 1) (fun _ => .rigid) (solverHalo a.o) a tol cap prs) ne dt0 filt first more s t = some q ∧
      boxTot a P (p.psi b.tht) = boxTot a P (q.psi b.tht) + dtOf first more t / 2 * (boxTot a P (heating b q) + boxTot a P (heating b p)) :=
  box_heat h.setup h.good h.mir hf hn hx hG hd3 hd hi hs ht htv hvip hno hnw ne dt0 filt first more hts hdt ha h0 t hr

/-- C63, 2-D (partial: as above): without relaxation the heat content is the initial one plus the elapsed time times the content of the heat flux; without heat flux it never changes. -/
theorem C63_box_adiabatic_2d_partial (u : VP.User K (Idx 2) 2) (b : Bous K 2) (a : CfgN 2 K) (p0 : SpecN.Par 2 K) (P : Fin 2 → Nat) (tol : K) (cap : Nat) (prs : Scheme)
    (h : Walled2 (fun _ => true) a p0 P) (hf : isset a.o oFct = false) (hn : 1 ≤ a.nIters) (hx : HaloCovered a.o a.nIters) (hG : ∀ x, gFacN p0.o p0.st.G x ≠ 0) (hd3 : u.vc.div3 = false)
    (hd : u.den = none) (hi : Function.Injective u.vip) (hs : u.sch = .trapez) (ht : b.tht < u.nEqns) (htv : ∀ d, u.vip d ≠ b.tht) (hvip : ∀ d, u.vip d < u.nEqns)
    (hno : isset u.norhs (bit b.tht) = false) (hnw : isset u.norhs (bit (u.vip (vert 2))) = false) (ne : Nonempty (Prs.Pts fun d => P d + 1)) (dt0 : K) (filt : Nat → Bool) (first : Nat → K)
    (more : Nat → List K) (hts : u.vc.varDt = true ∨ ∀ t, more t = []) (hdt : ∀ t, dtOf first more t ≠ 0) (ha : ∀ t x, inBox (fun d => P d + 1) x → 1 + 1 / 2 * dtOf first more t * b.thtAbs x ≠ 0)
    (s p : St K 2 (MemN 2 K)) (h0 : s.ds0 = 0) (t : Nat)
    (hz : ∀ x, inBox (fun d => P d + 1) x → b.thtAbs x = 0) (hr : run (bsqExpl u b (fun d => P d + 1) (fun _ => .rigid) (solverHalo a.o) a tol cap prs) ne dt0 filt first more s t = some p) :
    boxTot a P (p.psi b.tht) = boxTot a P (s.psi b.tht) + (∑ i ∈ Finset.range t, dtOf first more i) * boxTot a P b.hflux :=
  box_heat_adiabatic h.setup h.good h.mir hf hn hx hG hd3 hd hi hs ht htv hvip hno hnw ne dt0 filt first more hts hdt ha h0 hz t hr

/-- C63, 3-D (partial: without flux-corrected transport and the third-order time derivatives; with the divergence-form options up to two passes). Boussinesq flow, explicit solver, in a closed box: in
every step the heat content changes by the time step times the mean of the heating of the fields before and after the step, whatever the flow does and however the buoyancy is filtered. -/
theorem C63_box_heat_3d_partial (u : VP.User K (Idx 3) 3) (b : Bous K 3) (a : CfgN 3 K) (p0 : SpecN.Par 3 K) (P : Fin 3 → Nat) (tol : K) (cap : Nat) (prs : Scheme)
    (h : Walled3 (fun _ => true) a p0 P) (hf : isset a.o oFct = false) (hn : 1 ≤ a.nIters) (hx : HaloCovered a.o a.nIters) (hG : ∀ x, gFacN p0.o p0.st.G x ≠ 0) (hd3 : u.vc.div3 = false)
    (hd : u.den = none) (hi : Function.Injective u.vip) (hs : u.sch = .trapez) (ht : b.tht < u.nEqns) (htv : ∀ d, u.vip d ≠ b.tht) (hvip : ∀ d, u.vip d < u.nEqns)
    (hno : isset u.norhs (bit b.tht) = false) (hnw : isset u.norhs (bit (u.vip (vert 3))) = false) (ne : Nonempty (Prs.Pts fun d => P d + 1)) (dt0 : K) (filt : Nat → Bool) (first : Nat → K)
    (more : Nat → List K) (hts : u.vc.varDt = true ∨ ∀ t, more t = []) (hdt : ∀ t, dtOf first more t ≠ 0) (ha : ∀ t x, inBox (fun d => P d + 1) x → 1 + 1 / 2 * dtOf first more t * b.thtAbs x ≠ 0)
    (s p : St K 3 (MemN 3 K)) (h0 : s.ds0 = 0) (t : Nat)
    (hr : run (bsqExpl u b (fun d => P d + 1) (fun _ => .rigid) (solverHalo a.o) a tol cap prs) ne dt0 filt first more s (t + 1) = some p) :
    ∃ q, run (bsqExpl u b (fun d => P d + 1) (fun _ => .rigid) (solverHalo a.o) a tol cap prs) ne dt0 filt first more s t = some q ∧
      boxTot a P (p.psi b.tht) = boxTot a P (q.psi b.tht) + dtOf first more t / 2 * (boxTot a P (heating b q) + boxTot a P (heating b p)) :=
  box_heat h.setup h.good h.mir hf hn hx hG hd3 hd hi hs ht htv hvip hno hnw ne dt0 filt first more hts hdt ha h0 t hr

/-- C63, 3-D (partial: as above): without relaxation the heat content is the initial one plus the elapsed time times the content of the heat flux; without heat flux it never changes. -/
theorem C63_box_adiabatic_3d_partial (u : VP.User K (Idx 3) 3) (b : Bous K 3) (a : CfgN 3 K) (p0 : SpecN.Par 3 K) (P : Fin 3 → Nat) (tol : K) (cap : Nat) (prs : Scheme)
    (h : Walled3 (fun _ => true) a p0 P) (hf : isset a.o oFct = false) (hn : 1 ≤ a.nIters) (hx : HaloCovered a.o a.nIters) (hG : ∀ x, gFacN p0.o p0.st.G x ≠ 0) (hd3 : u.vc.div3 = false)
    (hd : u.den = none) (hi : Function.Injective u.vip) (hs : u.sch = .trapez) (ht : b.tht < u.nEqns) (htv : ∀ d, u.vip d ≠ b.tht) (hvip : ∀ d, u.vip d < u.nEqns)
    (hno : isset u.norhs (bit b.tht) = false) (hnw : isset u.norhs (bit (u.vip (vert 3))) = false) (ne : Nonempty (Prs.Pts fun d => P d + 1)) (dt0 : K) (filt : Nat → Bool) (first : Nat → K)
    (more : Nat → List K) (hts : u.vc.varDt = true ∨ ∀ t, more t = []) (hdt : ∀ t, dtOf first more t ≠ 0) (ha : ∀ t x, inBox (fun d => P d + 1) x → 1 + 1 / 2 * dtOf first more t * b.thtAbs x ≠ 0)
    (s p : St K 3 (MemN 3 K)) (h0 : s.ds0 = 0) (t : Nat)
    (hz : ∀ x, inBox (fun d => P d + 1) x → b.thtAbs x = 0) (hr : run (bsqExpl u b (fun d => P d + 1) (fun _ => .rigid) (solverHalo a.o) a tol cap prs) ne dt0 filt first more s t = some p) :
    boxTot a P (p.psi b.tht) = boxTot a P (s.psi b.tht) + (∑ i ∈ Finset.range t, dtOf first more i) * boxTot a P b.hflux :=
  box_heat_adiabatic h.setup h.good h.mir hf hn hx hG hd3 hd hi hs ht htv hvip hno hnw ne dt0 filt first more hts hdt ha h0 hz t hr

/-! ## A concrete box -/

/-- donor-cell advection in a box of 3 by 3 points -/
def bxA : CfgN 2 ℚ := wallCfg (fun _ => true) (formulae2 0 .exact .noextrp (1/1000)) 0 1 (fun _ => 2) [0, 1]
def bxP : SpecN.Par 2 ℚ := ⟨0, 1/1000, formulae2 0 .exact .noextrp (1/1000), ⟨fun _ => 1, fun _ _ => 0, fun _ _ => 0⟩⟩
theorem bxWalled : Walled2 (fun _ => true) bxA bxP (fun _ => 2) := ⟨wallCfg_setup _ _ _ _ _ _ (fun d => by decide) (by decide), ⟨_, _, _, rfl⟩, by decide⟩
theorem bxNe : Nonempty (Prs.Pts fun _ : Fin 2 => 2 + 1) := ⟨⟨fun _ => 0, by decide⟩⟩

/-- the hypotheses hold in the box -/
example : isset bxA.o oFct = false ∧ 1 ≤ bxA.nIters ∧ HaloCovered bxA.o bxA.nIters ∧ (∀ x, gFacN bxP.o bxP.st.G x ≠ 0) ∧ chU.vc.div3 = false ∧ chU.den = none ∧ Function.Injective chU.vip ∧
    (∀ d, chU.vip d ≠ 2) ∧ chS.ds0 = 0 ∧ (∀ dt at1 psi (z : Nat → Idx 2 → ℚ), (∀ x, inBox (fun _ => 2 + 1) x → z 2 x = 0) → ∀ x, inBox (fun _ => 2 + 1) x → chU.force dt at1 psi z 2 x = 0) :=
  ⟨by decide, by decide, by unfold HaloCovered; decide, fun x => by simp [gFacN, bxP, isset], rfl, rfl, fun d e h => Fin.ext h, by decide, rfl, fun _ _ _ _ h x hx => h x hx⟩

/-- the projection of a flow against the walls succeeds -/
example : (run (solver chU (fun _ => 2 + 1) (fun _ => .rigid) (solverHalo bxA.o) bxA (1/50) 20 (.gcr 0)) bxNe (1/4) (fun _ => false) (fun _ => 1/4) (fun _ => []) chS 0).isSome = true := by decide +kernel

theorem bxAlng (ad : Bool) (A : Vec 2 ℚ) : bxA.fillA ad A = xchngAlng (bnd (fun _ => 2 + 1) (fun _ => .rigid) (solverHalo bxA.o)) ad A := by
  funext d
  have hl : List.finRange 2 = [0, 1] := by decide
  unfold xchngAlng
  rw [hl, List.foldl_cons, List.foldl_cons, List.foldl_nil]
  obtain rfl | rfl : d = 0 ∨ d = 1 := by revert d; decide
  · simp only [fillA, bnd, Function.update_self, Function.update_of_ne, ne_eq, reduceCtorEq, if_false, zero_ne_one, not_false_eq_true]
    rfl
  · simp only [fillA, bnd, Function.update_self, Function.update_of_ne, ne_eq, reduceCtorEq, if_false, one_ne_zero, not_false_eq_true]
    rfl

/-- runs of every length exist: hydrostatic balance, with a sponge -/
example (s : St ℚ 2 (MemN 2 ℚ)) (hs : s.timestep = 0) (hv : ∀ d x, inBox (fun _ => 2 + 1) x → s.psi (chU.vip d) x = 0) (hth : ∀ x, inBox (fun _ => 2 + 1) x → s.psi 2 x = 300 + 3 * x 1) (t : Nat) :
    ∃ p, run (bsqExpl chU chB (fun _ => 2 + 1) (fun _ => .rigid) (solverHalo bxA.o) bxA (1/50) 20 (.gcr 0)) bxNe (1/4) (fun _ => false) (fun _ => 1/4) (fun _ => []) s t = some p := by
  obtain ⟨p, hp, _⟩ := C63_hydrostatic_expl_2d_partial chU chB (fun _ => 2 + 1) (fun _ => .rigid) bxA ⟨⟨rfl, rfl, by decide, fun _ => rfl, bxAlng, fun _ _ => rfl⟩, by decide, by decide, rfl,
    fun d e h => Fin.ext h, fun d => Nat.lt_succ_of_lt d.2⟩ .exact .noextrp (1/1000) rfl (by decide) (by decide) rfl
    ⟨by decide, fun _ _ => rfl, fun x _ => by show (0 : ℚ) ≤ if x 1 = 2 then 1 / 10 else 0; split_ifs <;> norm_num, .inl rfl⟩ (1/50) (by norm_num) 20 (.gcr 0) (by norm_num) bxNe (1/4) _ _ _ (.inr fun _ => rfl)
    (fun _ => show (0 : ℚ) ≤ 1/4 by norm_num) s hs hv hth t
  exact ⟨p, hp⟩

end Mpdata.PP
