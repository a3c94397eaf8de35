import Verif.Props.BoxRun
/-! # C63: the heat budget of the implicit Boussinesq solver in a closed box -/
set_option linter.unusedSectionVars false
namespace Mpdata.PP
open Prs (inBox)
variable {K : Type} [Field K] [LinearOrder K] [IsStrictOrderedRing K] {n : Nat}

section
variable [NeZero n] {T : Type} {c : Cfg K n T} {S : (Idx n → K) → K}

/-- content after advection, trapezoidal scheme -/
theorem pre_tot (ok : Ok c) (hsch : c.sch = .trapez) (hS : ∀ f g, (∀ x, inBox c.N x → f x = g x) → S f = S g)
    (lin : ∀ f g (k : K), S (fun x => f x + k * g x) = S f + k * S g) (filt : Bool) (first : K) (more : List K) (q : VP.St K (Idx n) n T)
    (hadv : ∀ ndt ndtt t psi old, S (c.advop ((first :: more).foldl (VP.calcGc c.toCfg) q).GC ndt ndtt filt t psi old).2.1 = S psi) (e : Nat) (he : ∀ d, c.vip d ≠ e) :
    S ((preStep c.toCfg filt first more q).psi e) = S (q.psi e) + (first :: more).getLast (by simp) / 2 * S (effR c.toCfg q.rhs e) := by
  set dt := (first :: more).getLast (by simp) with hdt
  set s1 := (first :: more).foldl (VP.calcGc c.toCfg) q with hs1
  set s2 := VP.calcNdt c.toCfg dt s1 with hs2
  have p1 := VP.calcGcs_same c.toCfg (first :: more) q
  have p2 := VP.calcNdt_same c.toCfg dt s1
  have g2 : s2.GC = s1.GC := (calcNdt_frame c.toCfg dt s1).2.2
  set s3 := VP.anteStep c.toCfg dt s2 with hs3
  have k3 := (VP.anteStep_keep c.toCfg dt s2).1
  set s4 := (VP.eqOrder c.toCfg).foldl (VP.advEq c.toCfg filt) s3 with hs4
  have e4 : S (s4.psi e) = S (s3.psi e) := advEqs_tot filt _ e s3 (by rw [show s3.GC = s1.GC from k3.trans g2]; exact hadv _ _)
  obtain ⟨a1, a2⟩ := anteStep_tot ok hS lin dt s2 e he
  have q2 : s2.psi = q.psi := p2.psi.trans p1.psi
  have q2r : s2.rhs = q.rhs := p2.rhs.trans p1.rhs
  rw [q2, q2r, hsch] at a1
  show S (s4.psi e) = _
  rw [e4, a1]
end

/-- what changes the temperature perturbation along the flow: heat flux, vertical motion across the environmental profile, relaxation -/
def heatingImpl [NeZero n] (u : VP.User K (Idx n) n) (b : Bous K n) (a : CfgN n K) (s : St K n (MemN n K)) : Idx n → K :=
  fun x => b.hflux x - s.psi (u.vip (vert n)) x * dthtE u b a x - b.thtAbs x * s.psi b.tht x

section
variable [NeZero n] {u : VP.User K (Idx n) n} {b : Bous K n} {P : Fin n → Nat} {a : CfgN n K} {p0 : SpecN.Par n K} {ds : List (Fin n)} {tol : K} {cap : Nat} {prs : Scheme}

/-- the advector of a step keeps contents -/
theorem impl_adv (h : WallSetupN (fun _ => true) a p0 P ds) (hF : FGood p0.o p0.F) (hM : FMir p0.F) (hf : isset a.o oFct = false) (hn : 1 ≤ a.nIters) (hx : HaloCovered a.o a.nIters)
    (hG : ∀ x, gFacN p0.o p0.st.G x ≠ 0) (hd3 : u.vc.div3 = false) (hd : u.den = none) (hi : Function.Injective u.vip) (htv : ∀ d, u.vip d ≠ b.tht) (ne : Nonempty (Prs.Pts fun d => P d + 1)) (dt0 : K)
    (filt : Nat → Bool) (first : Nat → K) (more : Nat → List K) (hts : u.vc.varDt = true ∨ ∀ t, more t = []) {s : St K n (MemN n K)} (h0 : s.ds0 = 0) (t : Nat) {q : St K n (MemN n K)}
    (hq : run (bsqImpl u b (fun d => P d + 1) (fun _ => .rigid) (solverHalo a.o) a tol cap prs) ne dt0 filt first more s t = some q) (ndt ndtt : Vec n K) (t' : MemN n K) (psi old : Idx n → K) :
    let c := bsqImpl u b (fun d => P d + 1) (fun _ => .rigid) (solverHalo a.o) a tol cap prs
    boxTot a P (c.advop ((first t :: more t).foldl (VP.calcGc c.toCfg) q.toSt).GC ndt ndtt (filt t) t' psi old).2.1 = boxTot a P psi := by
  intro c
  have st := setup_of_wall (u := u) h hd hi
  have ok : Ok c := impl_ok st htv
  have hfree : EdgeFree c := fun _ _ _ _ _ hk => by cases hk
  have e1 : ∀ d x, inBox (fun d => P d + 1) x → (x d = 0 ∨ x d = (((P d + 1 : Nat) : Int) - 1)) → q.psi (u.vip d) x = 0 := by
    obtain ⟨_, g1⟩ := run_good ok hfree ne dt0 filt first more t hq
    exact fun d x hx hw => g1.noFlow d x rfl hx hw
  set dt := dtOf first more t with hdtt
  have hstash : extrpBeta dt q.ds0 = 0 ∨ ∀ d x, inBox (fun d => P d + 1) x → (x d = 0 ∨ x d = (((P d + 1 : Nat) : Int) - 1)) → q.stash (stashBlk u.vc q.timestep 1) d x = 0 := by
    rcases t with _ | v
    · left
      have hds : q.ds0 = 0 := by rw [(anteLoop_good ok ne dt0 hq).2.2.2, h0]
      unfold extrpBeta; rw [hds]; simp
    · right
      obtain ⟨r, hr', hq'⟩ := run_pred hq
      obtain ⟨e2, g2⟩ := run_good ok hfree ne dt0 filt first more v hr'
      obtain ⟨k1, _, _, _, _⟩ := step_keep ok ne _ _ _ hfree (by rw [e2]; exact saveEdges_ok c s.psi) hq'
      intro d x hx hw
      exact (k1 d x hx).trans (g2.noFlow d x rfl hx hw)
  have hts' : c.vc.varDt = true ∨ c.vc.div3 = true ∨ more t = [] := hts.imp id (fun h => Or.inr (h t))
  obtain ⟨junk, dst, hgc⟩ := gc_val ok (first t) (more t) hts' q.toSt
  obtain ⟨V, hV⟩ := box_gc (u := { u with force := forceImpl b (u.vip (vert n)) (fun x => decide (cellBox a.box x)) (dthtE u b a) }) (tol := tol) (cap := cap) (prs := prs) h dt
    (fun d x => if c.grid x then (1 + extrpBeta dt q.ds0) * q.psi (c.vip d) x - extrpBeta dt q.ds0 * q.stash (stashBlk c.vc q.timestep 1) d x else junk d x) dst (fun d x hx hw => by
    have hw' : x d = 0 ∨ x d = ((P d + 1 : Nat) : Int) - 1 := by push_cast; omega
    show (if c.grid x then _ else _) = _
    rw [if_pos ((ok.grid x).2 hx), show q.psi (c.vip d) x = 0 from e1 d x hx hw']
    rcases hstash with hb | hs
    · rw [hb]; ring
    · rw [show q.stash (stashBlk c.vc q.timestep 1) d x = 0 from hs d x hx hw']; ring)
  exact box_adv (u := { u with force := forceImpl b (u.vip (vert n)) (fun x => decide (cellBox a.box x)) (dthtE u b a) }) (tol := tol) (cap := cap) (prs := prs)
    h hF hM hf hn hx hG hd3 (by rw [hgc]; exact hV) (filt t) ndt ndtt t' psi old

theorem box_heat_impl (h : WallSetupN (fun _ => true) a p0 P ds) (hF : FGood p0.o p0.F) (hM : FMir p0.F) (hf : isset a.o oFct = false) (hn : 1 ≤ a.nIters) (hx : HaloCovered a.o a.nIters)
    (hG : ∀ x, gFacN p0.o p0.st.G x ≠ 0) (hd3 : u.vc.div3 = false) (hd : u.den = none) (hi : Function.Injective u.vip) (hs : u.sch = .trapez) (ht : b.tht < u.nEqns) (htv : ∀ d, u.vip d ≠ b.tht)
    (hvip : ∀ d, u.vip d < u.nEqns) (hno : isset u.norhs (bit b.tht) = false) (hnw : isset u.norhs (bit (u.vip (vert n))) = false) (ne : Nonempty (Prs.Pts fun d => P d + 1)) (dt0 : K)
    (filt : Nat → Bool) (first : Nat → K) (more : Nat → List K) (hts : u.vc.varDt = true ∨ ∀ t, more t = []) (hdt : ∀ t, dtOf first more t ≠ 0) (hT : b.Tref ≠ 0)
    (ha : ∀ t x, inBox (fun d => P d + 1) x → 1 + 1 / 2 * dtOf first more t * b.thtAbs x ≠ 0) {s : St K n (MemN n K)} (h0 : s.ds0 = 0) (t : Nat) {p : St K n (MemN n K)}
    (hr : run (bsqImpl u b (fun d => P d + 1) (fun _ => .rigid) (solverHalo a.o) a tol cap prs) ne dt0 filt first more s (t + 1) = some p) :
    ∃ q, run (bsqImpl u b (fun d => P d + 1) (fun _ => .rigid) (solverHalo a.o) a tol cap prs) ne dt0 filt first more s t = some q ∧
      boxTot a P (p.psi b.tht) = boxTot a P (q.psi b.tht) + dtOf first more t / 2 * (boxTot a P (heatingImpl u b a q) + boxTot a P (heatingImpl u b a p)) := by
  have st := setup_of_wall (u := u) h hd hi
  set c := bsqImpl u b (fun d => P d + 1) (fun _ => .rigid) (solverHalo a.o) a tol cap prs with hc
  have ok : Ok c := impl_ok st htv
  obtain ⟨q, hq, hh⟩ := C44_run_implicit u b _ _ _ a tol cap prs st hs ht htv (hvip _) hno hnw ne dt0 filt first more s p t hr
  refine ⟨q, hq, ?_⟩
  set dt := dtOf first more t with hdtt
  have pre := pre_tot ok hs (boxTot_grid a P) (boxTot_lin a P) (filt t) (first t) (more t) q.toSt
    (fun ndt ndtt t' psi old => impl_adv h hF hM hf hn hx hG hd3 hd hi htv ne dt0 filt first more hts h0 t hq ndt ndtt t' psi old) b.tht htv
  have hasR : VP.hasRhs c.toCfg b.tht = true := by
    show (decide (b.tht < u.nEqns) && !isset u.norhs (bit b.tht)) = true
    rw [hno]; simpa using ht
  have key : boxTot a P (effR c.toCfg q.rhs b.tht) = boxTot a P (heatingImpl u b a q) := by
    refine boxTot_grid a P _ _ (fun x hxx => ?_)
    unfold effR
    rw [if_pos hasR]
    have fin : q.rhs b.tht x = Bsq.forceTht (parAt u b a dt x) (q.psi (u.vip (vert n)) x) (q.psi b.tht x) := by
      rcases t with _ | v
      · exact (C44_run_implicit_start u b _ _ _ a tol cap prs st hs ht htv (hvip _) hno hnw ne dt0 filt first more s q hq x hxx dt).1
      · obtain ⟨_, _, h2⟩ := C44_run_implicit u b _ _ _ a tol cap prs st hs ht htv (hvip _) hno hnw ne dt0 filt first more s q v hq
        exact (h2 x hxx (hdt v) hT (ha v x hxx)).1.2
    rw [fin]
    unfold Bsq.forceTht heatingImpl parAt
    ring
  have new : boxTot a P (p.psi b.tht) = boxTot a P ((preStep c.toCfg (filt t) (first t) (more t) q.toSt).psi b.tht) + dt / 2 * boxTot a P (heatingImpl u b a p) := by
    rw [← boxTot_lin]
    refine boxTot_grid a P _ _ (fun x hxx => ?_)
    rw [(hh x hxx (hdt t) hT (ha t x hxx)).1.1]
    unfold Bsq.forceTht heatingImpl parAt
    ring
  rw [new, pre, key]
  show _ + dt / 2 * _ + _ = _
  ring

/-- right-hand sides of equations other than those of temperature and vertical velocity -/
theorem impl_unforced {N : Fin n → Nat} {kind : Fin n → BcKind} {halo : Int} {e : Nat} (het : e ≠ b.tht) (hew : e ≠ u.vip (vert n)) :
    Unforced (bsqImpl u b N kind halo a tol cap prs).toCfg e := by
  refine .inr (fun dt at1 psi z hz x hx => ?_)
  show forceImpl b (u.vip (vert n)) (fun x => decide (cellBox a.box x)) (dthtE u b a) dt at1 psi z e x = 0
  unfold forceImpl
  split_ifs
  · simp only [addRhs, if_neg het, if_neg hew]; exact hz x hx
  · simp only [addRhs, if_neg het, if_neg hew]; exact hz x hx

theorem box_total_impl (h : WallSetupN (fun _ => true) a p0 P ds) (hF : FGood p0.o p0.F) (hM : FMir p0.F) (hf : isset a.o oFct = false) (hn : 1 ≤ a.nIters) (hx : HaloCovered a.o a.nIters)
    (hG : ∀ x, gFacN p0.o p0.st.G x ≠ 0) (hd3 : u.vc.div3 = false) (hd : u.den = none) (hi : Function.Injective u.vip) (hs : u.sch = .trapez) (htv : ∀ d, u.vip d ≠ b.tht)
    (ne : Nonempty (Prs.Pts fun d => P d + 1)) (dt0 : K)
    (filt : Nat → Bool) (first : Nat → K) (more : Nat → List K) (hts : u.vc.varDt = true ∨ ∀ t, more t = []) {s : St K n (MemN n K)} (h0 : s.ds0 = 0) (e : Nat) (he : ∀ d, u.vip d ≠ e) (het : e ≠ b.tht)
    (t : Nat) : ∀ {p : St K n (MemN n K)}, run (bsqImpl u b (fun d => P d + 1) (fun _ => .rigid) (solverHalo a.o) a tol cap prs) ne dt0 filt first more s t = some p →
      boxTot a P (p.psi e) = boxTot a P (s.psi e) ∧
        ∀ x, inBox (fun d => P d + 1) x → effR (bsqImpl u b (fun d => P d + 1) (fun _ => .rigid) (solverHalo a.o) a tol cap prs).toCfg p.rhs e x = 0 := by
  have st := setup_of_wall (u := u) h hd hi
  set c := bsqImpl u b (fun d => P d + 1) (fun _ => .rigid) (solverHalo a.o) a tol cap prs with hc
  have ok : Ok c := impl_ok st htv
  have hsch : c.sch = .trapez := hs
  have unf : Unforced c.toCfg e := impl_unforced het (fun h => he _ h.symm)
  have zero : ∀ f : Idx n → K, (∀ x, inBox (fun d => P d + 1) x → f x = 0) → boxTot a P f = 0 := by
    intro f hf0
    rw [boxTot_grid a P f (fun _ => 0) hf0]
    unfold boxTot
    simp
  induction t with
  | zero =>
    intro p hr
    obtain ⟨a1, a2⟩ := ante_scalar ok ne dt0 hr e he
    exact ⟨boxTot_grid a P _ _ a1, fun x hx => a2 hsch x hx unf⟩
  | succ t ih =>
    intro p hr
    obtain ⟨q, hq, hst⟩ := run_pred hr
    obtain ⟨i1, i2⟩ := ih hq
    unfold step at hst
    obtain ⟨r, r1, r2, r3, _, _⟩ := fnlz_vel ok st.two ne _ hst
    set dt := (first t :: more t).getLast (by simp) with hdt
    set A := preStep c.toCfg (filt t) (first t) (more t) q.toSt with hA
    have pe : p.psi e = r.psi e := by
      show p.toSt.psi e = _
      rw [r1]
      funext x
      show (if e = b.tht then _ else r.psi e x) = _
      rw [if_neg het]
    have pr : p.rhs e = r.rhs e := by
      show p.toSt.rhs e = _
      rw [r1]
      funext x
      show (if e = b.tht then _ else r.rhs e x) = _
      rw [if_neg het]
    have z1 : ∀ x, inBox (fun d => P d + 1) x → effR c.toCfg (postRhs c.toCfg dt A).rhs e x = 0 := by
      intro x hxx
      unfold postRhs
      simp only [hsch]
      exact upd_unforced c.toCfg unf (dt / 2) true A ((ok.grid x).2 hxx)
    refine ⟨?_, fun x hxx => ?_⟩
    · have key := rhs_tot ok (boxTot_grid a P) (boxTot_lin a P) (filt t) (first t) (more t) q.toSt
        (fun ndt ndtt t' psi old => impl_adv h hF hM hf hn hx hG hd3 hd hi htv ne dt0 filt first more hts h0 t hq ndt ndtt t' psi old) e he
      rw [pe, r2 e he]
      refine key.trans ?_
      rw [if_pos hsch, zero _ i2, zero _ z1, i1]
      ring
    · have := z1 x hxx
      unfold effR at this ⊢
      rw [pr, r3]
      exact this
end

/-- C63, 2-D (partial: without flux-corrected transport and the third-order time derivatives; with the divergence-form options up to two passes). Boussinesq flow, implicit solver, in a closed box: in
every step the content of the temperature perturbation changes by the time step times the mean, of the fields before and after the step, of heat flux, vertical motion across the environmental profile
and relaxation. -/
theorem C63_box_heat_impl_2d_partial (u : VP.User K (Idx 2) 2) (b : Bous K 2) (a : CfgN 2 K) (p0 : SpecN.Par 2 K) (P : Fin 2 → Nat) (tol : K) (cap : Nat) (prs : Scheme)
    (h : Walled2 (fun _ => true) a p0 P) (hf : isset a.o oFct = false) (hn : 1 ≤ a.nIters) (hx : HaloCovered a.o a.nIters) (hG : ∀ x, gFacN p0.o p0.st.G x ≠ 0) (hd3 : u.vc.div3 = false)
    (hd : u.den = none) (hi : Function.Injective u.vip) (hs : u.sch = .trapez) (ht : b.tht < u.nEqns) (htv : ∀ d, u.vip d ≠ b.tht) (hvip : ∀ d, u.vip d < u.nEqns)
    (hno : isset u.norhs (bit b.tht) = false) (hnw : isset u.norhs (bit (u.vip (vert 2))) = false) (ne : Nonempty (Prs.Pts fun d => P d + 1)) (dt0 : K) (filt : Nat → Bool) (first : Nat → K)
    (more : Nat → List K) (hts : u.vc.varDt = true ∨ ∀ t, more t = []) (hdt : ∀ t, dtOf first more t ≠ 0) (hT : b.Tref ≠ 0)
    (ha : ∀ t x, inBox (fun d => P d + 1) x → 1 + 1 / 2 * dtOf first more t * b.thtAbs x ≠ 0) (s p : St K 2 (MemN 2 K)) (h0 : s.ds0 = 0) (t : Nat)
    (hr : run (bsqImpl u b (fun d => P d + 1) (fun _ => .rigid) (solverHalo a.o) a tol cap prs) ne dt0 filt first more s (t + 1) = some p) :
    ∃ q, run (bsqImpl u b (fun d => P d + 1) (fun _ => .rigid) (solverHalo a.o) a tol cap prs) ne dt0 filt first more s t = some q ∧
      boxTot a P (p.psi b.tht) = boxTot a P (q.psi b.tht) + dtOf first more t / 2 * (boxTot a P (heatingImpl u b a q) + boxTot a P (heatingImpl u b a p)) :=
  box_heat_impl h.setup h.good h.mir hf hn hx hG hd3 hd hi hs ht htv hvip hno hnw ne dt0 filt first more hts hdt hT ha h0 t hr

/-- C63, 3-D (partial: without flux-corrected transport and the third-order time derivatives; with the divergence-form options up to two passes). Boussinesq flow, implicit solver, in a closed box: in
every step the content of the temperature perturbation changes by the time step times the mean, of the fields before and after the step, of heat flux, vertical motion across the environmental profile
and relaxation. -/
theorem C63_box_heat_impl_3d_partial (u : VP.User K (Idx 3) 3) (b : Bous K 3) (a : CfgN 3 K) (p0 : SpecN.Par 3 K) (P : Fin 3 → Nat) (tol : K) (cap : Nat) (prs : Scheme)
    (h : Walled3 (fun _ => true) a p0 P) (hf : isset a.o oFct = false) (hn : 1 ≤ a.nIters) (hx : HaloCovered a.o a.nIters) (hG : ∀ x, gFacN p0.o p0.st.G x ≠ 0) (hd3 : u.vc.div3 = false)
    (hd : u.den = none) (hi : Function.Injective u.vip) (hs : u.sch = .trapez) (ht : b.tht < u.nEqns) (htv : ∀ d, u.vip d ≠ b.tht) (hvip : ∀ d, u.vip d < u.nEqns)
    (hno : isset u.norhs (bit b.tht) = false) (hnw : isset u.norhs (bit (u.vip (vert 3))) = false) (ne : Nonempty (Prs.Pts fun d => P d + 1)) (dt0 : K) (filt : Nat → Bool) (first : Nat → K)
    (more : Nat → List K) (hts : u.vc.varDt = true ∨ ∀ t, more t = []) (hdt : ∀ t, dtOf first more t ≠ 0) (hT : b.Tref ≠ 0)
    (ha : ∀ t x, inBox (fun d => P d + 1) x → 1 + 1 / 2 * dtOf first more t * b.thtAbs x ≠ 0) (s p : St K 3 (MemN 3 K)) (h0 : s.ds0 = 0) (t : Nat)
    (hr : run (bsqImpl u b (fun d => P d + 1) (fun _ => .rigid) (solverHalo a.o) a tol cap prs) ne dt0 filt first more s (t + 1) = some p) :
    ∃ q, run (bsqImpl u b (fun d => P d + 1) (fun _ => .rigid) (solverHalo a.o) a tol cap prs) ne dt0 filt first more s t = some q ∧
      boxTot a P (p.psi b.tht) = boxTot a P (q.psi b.tht) + dtOf first more t / 2 * (boxTot a P (heatingImpl u b a q) + boxTot a P (heatingImpl u b a p)) :=
  box_heat_impl h.setup h.good h.mir hf hn hx hG hd3 hd hi hs ht htv hvip hno hnw ne dt0 filt first more hts hdt hT ha h0 t hr

/-- C63, 2-D (partial: as above): in the same runs the content of every scalar other than temperature (water vapour, a tracer) is the same at all times. -/
theorem C63_box_tracers_impl_2d_partial (u : VP.User K (Idx 2) 2) (b : Bous K 2) (a : CfgN 2 K) (p0 : SpecN.Par 2 K) (P : Fin 2 → Nat) (tol : K) (cap : Nat) (prs : Scheme)
    (h : Walled2 (fun _ => true) a p0 P) (hf : isset a.o oFct = false) (hn : 1 ≤ a.nIters) (hx : HaloCovered a.o a.nIters) (hG : ∀ x, gFacN p0.o p0.st.G x ≠ 0) (hd3 : u.vc.div3 = false)
    (hd : u.den = none) (hi : Function.Injective u.vip) (hs : u.sch = .trapez) (htv : ∀ d, u.vip d ≠ b.tht) (ne : Nonempty (Prs.Pts fun d => P d + 1)) (dt0 : K) (filt : Nat → Bool) (first : Nat → K)
    (more : Nat → List K) (hts : u.vc.varDt = true ∨ ∀ t, more t = []) (s p : St K 2 (MemN 2 K)) (h0 : s.ds0 = 0) (e : Nat) (he : ∀ d, u.vip d ≠ e) (het : e ≠ b.tht) (t : Nat)
    (hr : run (bsqImpl u b (fun d => P d + 1) (fun _ => .rigid) (solverHalo a.o) a tol cap prs) ne dt0 filt first more s t = some p) : boxTot a P (p.psi e) = boxTot a P (s.psi e) :=
  (box_total_impl h.setup h.good h.mir hf hn hx hG hd3 hd hi hs htv ne dt0 filt first more hts h0 e he het t hr).1

/-- C63, 3-D (partial: as above): in the same runs the content of every scalar other than temperature (water vapour, a tracer) is the same at all times. -/
theorem C63_box_tracers_impl_3d_partial (u : VP.User K (Idx 3) 3) (b : Bous K 3) (a : CfgN 3 K) (p0 : SpecN.Par 3 K) (P : Fin 3 → Nat) (tol : K) (cap : Nat) (prs : Scheme)
    (h : Walled3 (fun _ => true) a p0 P) (hf : isset a.o oFct = false) (hn : 1 ≤ a.nIters) (hx : HaloCovered a.o a.nIters) (hG : ∀ x, gFacN p0.o p0.st.G x ≠ 0) (hd3 : u.vc.div3 = false)
    (hd : u.den = none) (hi : Function.Injective u.vip) (hs : u.sch = .trapez) (htv : ∀ d, u.vip d ≠ b.tht) (ne : Nonempty (Prs.Pts fun d => P d + 1)) (dt0 : K) (filt : Nat → Bool) (first : Nat → K)
    (more : Nat → List K) (hts : u.vc.varDt = true ∨ ∀ t, more t = []) (s p : St K 3 (MemN 3 K)) (h0 : s.ds0 = 0) (e : Nat) (he : ∀ d, u.vip d ≠ e) (het : e ≠ b.tht) (t : Nat)
    (hr : run (bsqImpl u b (fun d => P d + 1) (fun _ => .rigid) (solverHalo a.o) a tol cap prs) ne dt0 filt first more s t = some p) : boxTot a P (p.psi e) = boxTot a P (s.psi e) :=
  (box_total_impl h.setup h.good h.mir hf hn hx hG hd3 hd hi hs htv ne dt0 filt first more hts h0 e he het t hr).1

/-- the hypotheses hold in the box with a stratified environment and a sponge -/
example (s p : St ℚ 2 (MemN 2 ℚ)) (h0 : s.ds0 = 0) (t : Nat)
    (hr : run (bsqImpl chU chB (fun _ => 2 + 1) (fun _ => .rigid) (solverHalo bxA.o) bxA (1/50) 20 (.gcr 0)) bxNe (1/4) (fun _ => false) (fun _ => 1/4) (fun _ => []) s (t + 1) = some p) :
    ∃ q, run (bsqImpl chU chB (fun _ => 2 + 1) (fun _ => .rigid) (solverHalo bxA.o) bxA (1/50) 20 (.gcr 0)) bxNe (1/4) (fun _ => false) (fun _ => 1/4) (fun _ => []) s t = some q ∧
      boxTot bxA (fun _ => 2) (p.psi 2) = boxTot bxA (fun _ => 2) (q.psi 2) + 1/4/2 * (boxTot bxA (fun _ => 2) (heatingImpl chU chB bxA q) + boxTot bxA (fun _ => 2) (heatingImpl chU chB bxA p)) :=
  C63_box_heat_impl_2d_partial chU chB bxA bxP (fun _ => 2) (1/50) 20 (.gcr 0) bxWalled (by decide) (by decide) (by unfold HaloCovered; decide) (fun x => by simp [gFacN, bxP, isset]) rfl rfl
    (fun d e h => Fin.ext h) rfl (by decide) (by decide) (fun d => Nat.lt_succ_of_lt d.2) rfl rfl bxNe (1/4) (fun _ => false) (fun _ => 1/4) (fun _ => []) (.inr fun _ => rfl)
    (fun _ => show (1/4 : ℚ) ≠ 0 by norm_num) (show (300 : ℚ) ≠ 0 by norm_num)
    (fun _ x _ => by show (1 : ℚ) + 1 / 2 * (1/4) * (if x 1 = 2 then 1 / 10 else 0) ≠ 0; split_ifs <;> norm_num) s p h0 t hr

/-- a fourth field in the same box keeps its content -/
example (s p : St ℚ 2 (MemN 2 ℚ)) (h0 : s.ds0 = 0) (t : Nat)
    (hr : run (bsqImpl { chU with nEqns := 4 } chB (fun _ => 2 + 1) (fun _ => .rigid) (solverHalo bxA.o) bxA (1/50) 20 (.gcr 0)) bxNe (1/4) (fun _ => false) (fun _ => 1/4) (fun _ => []) s t = some p) :
    boxTot bxA (fun _ => 2) (p.psi 3) = boxTot bxA (fun _ => 2) (s.psi 3) :=
  C63_box_tracers_impl_2d_partial { chU with nEqns := 4 } chB bxA bxP (fun _ => 2) (1/50) 20 (.gcr 0) bxWalled (by decide) (by decide) (by unfold HaloCovered; decide)
    (fun x => by simp [gFacN, bxP, isset]) rfl rfl (fun d e h => Fin.ext h) rfl (by decide) bxNe (1/4) (fun _ => false) (fun _ => 1/4) (fun _ => []) (.inr fun _ => rfl) s p h0 3 (by decide) (by decide) t hr

/-- runs of every length exist -/
example (s : St ℚ 2 (MemN 2 ℚ)) (hs : s.timestep = 0) (hv : ∀ d x, inBox (fun _ => 2 + 1) x → s.psi (chU.vip d) x = 0) (hth : ∀ x, inBox (fun _ => 2 + 1) x → s.psi 2 x = 0) (t : Nat) :
    ∃ p, run (bsqImpl chU chB (fun _ => 2 + 1) (fun _ => .rigid) (solverHalo bxA.o) bxA (1/50) 20 (.gcr 0)) bxNe (1/4) (fun _ => false) (fun _ => 1/4) (fun _ => []) s t = some p := by
  obtain ⟨p, hp, _⟩ := C63_hydrostatic_impl_2d_partial chU chB (fun _ => 2 + 1) (fun _ => .rigid) bxA ⟨⟨rfl, rfl, by decide, fun _ => rfl, bxAlng, fun _ _ => rfl⟩, by decide, by decide, rfl,
    fun d e h => Fin.ext h, fun d => Nat.lt_succ_of_lt d.2⟩ .exact .noextrp (1/1000) rfl (by decide) (by decide) rfl
    ⟨by decide, fun _ _ => rfl, fun x _ => by show (0 : ℚ) ≤ if x 1 = 2 then 1 / 10 else 0; split_ifs <;> norm_num, .inl rfl⟩ rfl (by decide) (1/50) (by norm_num) 20 (.gcr 0) (by norm_num) bxNe (1/4) _ _ _
    (.inr fun _ => rfl) s hs hv hth t
  exact ⟨p, hp⟩

end Mpdata.PP
