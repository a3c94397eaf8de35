import Verif.Lemmas.BsqRun
import Verif.Lemmas.PrsSolver
import Verif.Model.SgsProg
import Verif.Props.Stress
/-! Whole runs of incompressible solvers with forces added to the velocity equations. -/
set_option linter.unusedSectionVars false
set_option linter.unusedVariables false
namespace Mpdata.PP
open Prs (inBox)
variable {K : Type} [Field K] [LinearOrder K] [IsStrictOrderedRing K] {n : Nat} {T : Type}

theorem runF_pred {c : Cfg K n T} {F : Nat → St K n T → Fin n → Idx n → K} {ne : Nonempty (Prs.Pts c.N)} {dt0 : K} {filt : Nat → Bool} {first : Nat → K} {more : Nat → List K} {s p : St K n T} {t : Nat}
    (h : runF c F ne dt0 filt first more s (t + 1) = some p) :
    ∃ q, runF c F ne dt0 filt first more s t = some q ∧ step c ne (filt t) (first t) (more t) (addForce c (F t) q) = some p := by
  have h' : (runF c F ne dt0 filt first more s t).bind (stepF c (F t) ne (filt t) (first t) (more t)) = some p := h
  rw [Option.bind_eq_some_iff] at h'
  exact h'

theorem runF_good {c : Cfg K n T} (ok : Ok c) (hf : EdgeFree c) (F : Nat → St K n T → Fin n → Idx n → K) (ne : Nonempty (Prs.Pts c.N)) (dt0 : K) (filt : Nat → Bool) (first : Nat → K) (more : Nat → List K)
    {s : St K n T} : ∀ (t : Nat) {p : St K n T}, runF c F ne dt0 filt first more s t = some p → p.edge = saveEdges c s.psi ∧ Good c (saveEdges c s.psi) (vips c p.psi) := by
  intro t
  induction t with
  | zero => intro p h; obtain ⟨a, b, _⟩ := anteLoop_good ok ne dt0 h; exact ⟨a, b⟩
  | succ t ih =>
    intro p h
    obtain ⟨q, hq, hp⟩ := runF_pred h
    obtain ⟨e1, g1⟩ := ih hq
    obtain ⟨_, _, _, e2, g2⟩ := step_keep ok ne _ _ _ hf (show EdgeOk c (addForce c (F t) q).edge by show EdgeOk c q.edge; rw [e1]; exact saveEdges_ok c s.psi) hp
    have e3 : (addForce c (F t) q).edge = saveEdges c s.psi := e1
    exact ⟨e2.trans e3, e3 ▸ g2⟩

theorem runF_advector {c : Cfg K n T} (ok : Ok c) (F : Faces c) (eg : EdgeG c) (hf : EdgeFree c) (FF : Nat → St K n T → Fin n → Idx n → K) (ne : Nonempty (Prs.Pts c.N)) (dt0 : K) (filt : Nat → Bool)
    (first : Nat → K) (more : Nat → List K)
    (hts : c.vc.varDt = true ∨ c.vc.div3 = true ∨ ∀ t, more t = []) {s : St K n T} (h0 : s.ds0 = 0) {x : Idx n} (hx : inBox c.N x) (hG : c.G x ≠ 0) (t : Nat)
    (hdup : (∀ q r, q ≤ t → runF c FF ne dt0 filt first more s q = some r → Dup c (vips c r.psi)) ∨ ∀ d, c.kind d = .cyclic → 0 < x d ∧ x d < (c.N d : Int) - 1)
    {δ : K} (hδ : Guarantees c.prs c.N c.tol δ) {p : St K n T} (h : runF c FF ne dt0 filt first more s (t + 1) = some p) :
    ∃ b : K, |∑ d, (p.GC d x - p.GC d (stepIdx x d (-1)))| ≤ |(first t :: more t).getLast (by simp)| * |c.G x| * (δ * (1 + 2 * |b|)) ∧
      (t = 0 → b = 0) ∧ ∀ u, t = u + 1 → b = extrpBeta ((first t :: more t).getLast (by simp)) ((first u :: more u).getLast (by simp)) := by
  obtain ⟨q, hq, hp⟩ := runF_pred h
  obtain ⟨e1, g1⟩ := runF_good ok hf FF ne dt0 filt first more t hq
  obtain ⟨_, _, k3, _, _⟩ := step_keep ok ne _ _ _ hf (show EdgeOk c (addForce c (FF t) q).edge by show EdgeOk c q.edge; rw [e1]; exact saveEdges_ok c s.psi) hp
  set q' := addForce c (FF t) q with hq'
  have g1' : Good c (saveEdges c s.psi) (vips c q'.psi) := g1
  set dt := (first t :: more t).getLast (by simp) with hdt
  have hts' : c.vc.varDt = true ∨ c.vc.div3 = true ∨ more t = [] := hts.imp id (Or.imp id (fun h => h t))
  have fin : ∀ (b A B : K), |A| ≤ δ → |B| ≤ δ → |dt * c.G x * ((1 + b) * A - b * B)| ≤ |dt| * |c.G x| * (δ * (1 + 2 * |b|)) := by
    intro b A B hA hB
    rw [abs_mul, abs_mul]
    refine mul_le_mul_of_nonneg_left ?_ (by positivity)
    have h1 : |(1 + b) * A - b * B| ≤ |A| + |b| * |A| + |b| * |B| := by
      rw [show (1 + b) * A - b * B = A + b * A - b * B by ring]
      refine (abs_sub _ _).trans ?_
      rw [abs_mul b B]
      have := abs_add_le A (b * A)
      rw [abs_mul b A] at this
      linarith
    have h2 : |b| * |A| ≤ |b| * δ := mul_le_mul_of_nonneg_left hA (abs_nonneg b)
    have h3 : |b| * |B| ≤ |b| * δ := mul_le_mul_of_nonneg_left hB (abs_nonneg b)
    nlinarith
  rcases t with _ | u
  · have hds : q'.ds0 = 0 := by show q.ds0 = 0; rw [(anteLoop_good ok ne dt0 hq).2.2.2, h0]
    have hb : extrpBeta dt q'.ds0 = 0 := by unfold extrpBeta; rw [hds]; simp
    refine ⟨0, ?_, fun _ => rfl, fun u hu => by omega⟩
    have := advector_div ok F eg (first 0) (more 0) hts' q'.toSt (vips c q'.psi) (Or.inl hb) g1'.noFlow g1'.noFlow hx
      (hdup.imp (fun h => ⟨h 0 q (le_refl 0) hq, h 0 q (le_refl 0) hq⟩) id) hG
    rw [k3]
    simp only at this
    rw [this]
    have h3 := fin (extrpBeta dt q'.ds0) _ _ (g1'.div δ hδ x hx) (g1'.div δ hδ x hx)
    rw [hb] at h3 ⊢
    exact h3
  · obtain ⟨r, hr, hqr⟩ := runF_pred hq
    obtain ⟨e2, g2⟩ := runF_good ok hf FF ne dt0 filt first more u hr
    obtain ⟨k1, k2, _, _, _⟩ := step_keep ok ne _ _ _ hf (show EdgeOk c (addForce c (FF u) r).edge by show EdgeOk c r.edge; rw [e2]; exact saveEdges_ok c s.psi) hqr
    refine ⟨extrpBeta dt q'.ds0, ?_, fun h => by omega, fun v hv => ?_⟩
    · have := advector_div ok F eg (first (u + 1)) (more (u + 1)) hts' q'.toSt (vips c r.psi) (Or.inr k1) g1'.noFlow g2.noFlow hx
        (hdup.imp (fun h => ⟨h (u + 1) q (le_refl _) hq, h u r (by omega) hr⟩) id) hG
      rw [k3]
      simp only at this
      rw [this]
      exact fin (extrpBeta dt q'.ds0) _ _ (g1'.div δ hδ x hx) (g2.div δ hδ x hx)
    · have : v = u := by omega
      subst this
      show extrpBeta dt q.ds0 = _
      rw [k2]

/-! ## Momentum on cyclic domains -/

/-- a linear functional of fields on the grid that vanishes on centred gradients of periodic fields -/
structure Mom (c : Cfg K n T) (P : Fin n → Nat) (S : (Idx n → K) → K) : Prop where
  on : ∀ f g, (∀ x, InGrid P x → f x = g x) → S f = S g
  lin : ∀ f g (k : K), S (fun x => f x + k * g x) = S f + k * S g
  grad : ∀ f, PeriodicN P f → ∀ d, S (calcGrad c.dx f d) = 0

theorem Mom.zero {c : Cfg K n T} {P : Fin n → Nat} {S : (Idx n → K) → K} (m : Mom c P S) : S (fun _ => 0) = 0 := by
  have h := m.lin (fun _ => 0) (fun _ => 0) 1
  simp only [one_mul, add_zero] at h
  linarith

theorem Mom.smul {c : Cfg K n T} {P : Fin n → Nat} {S : (Idx n → K) → K} (m : Mom c P S) (k : K) (f : Idx n → K) : S (fun x => k * f x) = k * S f := by
  have h := m.lin (fun _ => 0) f k
  simp only [zero_add] at h
  rw [h, m.zero, zero_add]

/-- forces are kept from before the step apart from what `vip_rhs_apply` uses up -/
theorem anteStep_force {c : VP.Cfg K (Idx n) n Unit} (hi : Function.Injective c.vip) (hg : ∀ x, c.grid x = true) (hv : c.vab = .noab) (dt : K) (s : VP.St K (Idx n) n Unit) (d : Fin n) :
    (VP.anteStep c dt s).psi (c.vip d) = (fun x => (VP.anteStep c dt { s with vrhs := fun _ _ => 0 }).psi (c.vip d) x + 1 / 2 * dt * s.vrhs d x) ∧
    (VP.anteStep c dt s).rhs = (VP.anteStep c dt { s with vrhs := fun _ _ => 0 }).rhs := by
  have hne : ¬ c.vab = .expl := by rw [hv]; decide
  have key : ∀ r : VP.St K (Idx n) n Unit, (VP.vabApplyS c dt r).psi (c.vip d) = fun x => r.psi (c.vip d) x + 1 / 2 * dt * r.vrhs d x := by
    intro r
    show VP.asgVip c (fun d x v => (vabApply dt v (r.vrhs d x)).1) r.psi (c.vip d) = _
    rw [asgVip_at hi]
    funext x
    exact if_pos (hg x)
  unfold VP.anteStep
  simp only [VP.vabExplS, if_neg hne]
  cases hs : c.sch
  · refine ⟨?_, rfl⟩
    simp only
    rw [key, key]
    funext x
    show (VP.updRhs c dt false (VP.fillSt c s)).psi (c.vip d) x + 1 / 2 * dt * s.vrhs d x = (VP.updRhs c dt false (VP.fillSt c s)).psi (c.vip d) x + 1 / 2 * dt * 0 + 1 / 2 * dt * s.vrhs d x
    ring
  · refine ⟨?_, rfl⟩
    simp only
    rw [key, key]
    funext x
    show (VP.appRhs c dt (VP.updRhs c dt false (VP.fillSt c s))).psi (c.vip d) x + 1 / 2 * dt * s.vrhs d x = (VP.appRhs c dt (VP.updRhs c dt false (VP.fillSt c s))).psi (c.vip d) x + 1 / 2 * dt * 0 + 1 / 2 * dt * s.vrhs d x
    ring
  · refine ⟨?_, rfl⟩
    simp only
    rw [key, key]
    funext x
    show (VP.appRhs c (dt / 2) (VP.fillSt c s)).psi (c.vip d) x + 1 / 2 * dt * s.vrhs d x = (VP.appRhs c (dt / 2) (VP.fillSt c s)).psi (c.vip d) x + 1 / 2 * dt * 0 + 1 / 2 * dt * s.vrhs d x
    ring

section
variable [NeZero n] {P : Fin n → Nat} {c : Cfg K n T} {H : Idx n → Prop} {HF : Fin n → Idx n → Prop} {G coeff : Idx n → K} {relax : Fin n → Idx n → K}
  {adv : (GC ndt ndtt : Fin n → Idx n → K) → Bool → (Idx n → K) → (Idx n → K)}

/-- what is known between steps: the state is related to the unbounded grid, neither the kept right-hand side nor the kept forces of component `d` have a net sum -/
def KnownV (c : Cfg K n T) (P : Fin n → Nat) (HF : Fin n → Idx n → Prop) (S : (Idx n → K) → K) (d : Fin n) (p : St K n T) : Prop :=
  (∃ s' : VP.St K (Idx n) n Unit, VP.Rel c.toCfg (VP.trN P) HF (c.sch = .trapez) p.toSt s') ∧ Ext P p.Phi ∧
    (c.sch = .trapez → VP.hasRhs c.toCfg (c.vip d) = true → S (p.rhs (c.vip d)) = 0) ∧ S (p.vrhs d) = 0

theorem Cyc.known0 (h : Cyc c P H HF G coeff relax adv) {p : St K n T} {s' : VP.St K (Idx n) n Unit} (r : VP.Rel c.toCfg (VP.trN P) HF (c.sch = .trapez) p.toSt s') (hp : Ext P p.Phi) :
    Known c P HF (fun _ => 0) c.nEqns 0 p :=
  ⟨s', r, hp, ⟨fun _ _ => rfl, .inl fun d hd => by have := h.wf.vip d; omega⟩, rfl⟩

theorem Cyc.add (h : Cyc c P H HF G coeff relax adv) {F : St K n T → Fin n → Idx n → K} {s : St K n T} {s' : VP.St K (Idx n) n Unit} {ρ : Prop}
    (r : VP.Rel c.toCfg (VP.trN P) HF ρ s.toSt s') (hF : ∀ d, Ext P (F s d)) : ∃ s'' : VP.St K (Idx n) n Unit, VP.Rel c.toCfg (VP.trN P) HF ρ (addForce c F s).toSt s'' := by
  obtain ⟨x1, x2⟩ := h.rel_ext r
  obtain ⟨s'', u1, _⟩ := h.update r s.psi (addForce c F s).vrhs (fun d => x1 _ (h.wf.vip d)) (fun _ _ => rfl) (fun d =>
    ((x2 d).map2 (hF d) (fun a b => a + b)).congr (fun x hx => if_pos ((h.grid x).2 hx)))
  exact ⟨s'', u1⟩

/-- gradients of the potential have no net sum -/
theorem Cyc.grad0 (h : Cyc c P H HF G coeff relax adv) {S : (Idx n → K) → K} (m : Mom c P S) {f : Idx n → K} (hf : Ext P f) (d : Fin n) :
    S (fun x => slope c.N (fun d => c.kind d = .cyclic) f d x / c.dx d) = 0 := by
  obtain ⟨f', h1, h2⟩ := hf
  rw [← m.grad f' h1 d]
  refine m.on _ _ fun x hx => ?_
  have two : ∀ d, 2 ≤ c.N d := fun d => by have := h.pts d; have := h.pos d; omega
  have hx' : inBox c.N x := (grid_box h.pts x).2 hx
  rw [← grad_slope two c.kind c.dx f d hx']
  obtain ⟨p1, p2⟩ := presFill_per h.pts h.pos (fun d => if c.kind d = .cyclic then .cyclic else .wall) (fun d => if_pos (h.kind d)) h1 h2 hx d
  unfold calcGrad gradC
  rw [p1, p2]

theorem Cyc.stepF (h : Cyc c P H HF G coeff relax adv) (hv : c.vab = .noab) (hn : ∀ dt d x, c.nrm dt d x = 1) (ne : Nonempty (Prs.Pts c.N)) {S : (Idx n → K) → K} (m : Mom c P S) (d : Fin n)
    (ha : VP.AdvKeeps c.toCfg (VP.trN P) adv S) (hq : VP.Quiet c.toCfg (VP.trN P) S (c.vip d)) (filt : Bool) (first : K) (more : List K) {s p : St K n T}
    (F : St K n T → Fin n → Idx n → K) (hF : ∀ d, Ext P (F s d)) (hs : KnownV c P HF S d s) (hp : PP.stepF c F ne filt first more s = some p) :
    KnownV c P HF S d p ∧ S (p.psi (c.vip d)) = S (s.psi (c.vip d)) + 1 / 2 * (first :: more).getLast (by simp) * S (F s d) := by
  obtain ⟨⟨s0', r0⟩, hPhi, hR, hV⟩ := hs
  obtain ⟨s', r⟩ := h.add r0 hF
  have hp' : PP.step c ne filt first more (addForce c F s) = some p := hp
  have hL := h.link
  have hw := h.wf
  have he := hw.vip d
  set e := c.vip d with hed
  set q := addForce c F s with hqd
  have hPhi' : Ext P q.Phi := hPhi
  obtain ⟨sN, rN, hPhiN, _⟩ := h.step ne (S := fun _ => 0) (e := c.nEqns) (k := 0) (fun d hd => by have := h.wf.vip d; omega) (fun _ _ _ _ _ _ _ _ _ => rfl)
    ⟨fun _ _ _ => by simp, fun _ _ _ _ _ _ _ => rfl, .inr (fun d hd => by have := h.wf.vip d; omega)⟩ filt first more (h.known0 r hPhi') hp'
  -- the right-hand sides and forces at the beginning of the step
  have hR' : c.sch = .trapez → VP.hasRhs c.toCfg e = true → S (s'.rhs e) = 0 := fun h1 h2 => by
    rw [← hR h1 h2]; exact (m.on _ _ fun x hx => r.rhs h1 e h2 x ((h.grid x).2 hx)).symm
  have hV' : S (s'.vrhs d) = S (F s d) := by
    have e1 : S (s'.vrhs d) = S (fun x => s.vrhs d x + 1 * F s d x) := m.on _ _ fun x hx => by
      rw [← r.v d x ((h.grid x).2 hx)]
      refine (if_pos ((h.grid x).2 hx)).trans ?_
      rw [one_mul]
    rw [e1, m.lin, hV]; ring
  have hS : S (s'.psi e) = S (s.psi e) := (m.on _ _ fun x hx => r.psi e he x ((h.grid x).2 hx)).symm
  have h1 : VP.RelG c.toCfg (VP.trN P) HF (c.sch = .trapez) ((first :: more).foldl (VP.calcGc c.toCfg) q.toSt) ((first :: more).foldl (VP.calcGc (VP.ideal c.toCfg G coeff relax adv)) s') :=
    VP.calcGcs_rel hL hw more (VP.calcGc_rel hL hw first r)
  set dt := (first :: more).getLast (by simp) with hdt
  have h2 := VP.calcNdt_rel hL hw dt h1
  have h3 := VP.anteStep_rel hL hw dt h2
  have h4 := VP.advEqs_rel hL filt (VP.eqOrder c.toCfg) (VP.eqOrder_lt c.toCfg) h3
  set id := VP.ideal c.toCfg G coeff relax adv with hid
  set s2 := VP.calcNdt id dt ((first :: more).foldl (VP.calcGc id) s') with hs2
  have sm : VP.Same s' s2 := (VP.calcGcs_same _ (first :: more) s').trans (VP.calcNdt_same _ _ _)
  have i0 : VP.Inv c.toCfg S e (c.sch = .trapez) { s2 with vrhs := fun _ _ => 0 } := ⟨fun a b => by show S (s2.rhs e) = 0; rw [sm.rhs]; exact hR' a b, .inr fun _ _ _ => rfl⟩
  obtain ⟨a1, i1⟩ := VP.anteStep_total (G := G) (coeff := coeff) (relax := relax) (adv := adv) hq dt (s := { s2 with vrhs := fun _ _ => 0 }) h2.perPsi i0
  obtain ⟨f1, f2⟩ := anteStep_force (c := id) h.ok.inj (fun _ => rfl) hv dt s2 d
  have a1' : S ((VP.anteStep id dt s2).psi e) = S (s.psi e) + 1 / 2 * dt * S (F s d) := by
    have f1' : (VP.anteStep id dt s2).psi e = fun x => (VP.anteStep id dt { s2 with vrhs := fun _ _ => 0 }).psi e x + 1 / 2 * dt * s2.vrhs d x := f1
    rw [f1', m.lin, a1]
    show S (s2.psi e) + _ = _
    rw [sm.psi, sm.vrhs, hV', hS]
  obtain ⟨a2, r2, v2⟩ := VP.advEqs_total (e := e) hL ha filt (VP.eqOrder c.toCfg) (VP.eqOrder_lt c.toCfg) h3
  set r4 := (VP.eqOrder c.toCfg).foldl (VP.advEq id filt) (VP.anteStep id dt s2) with hr4
  set k := S (s.psi e) + 1 / 2 * dt * S (F s d) with hk
  have k2 : S (r4.psi e) = k := by rw [a2, a1']
  have h5 : VP.Rel c.toCfg (VP.trN P) HF True (preStep c.toCfg filt first more q.toSt) { r4 with timestep := r4.timestep + 1, ds1 := if c.vc.div3 then r4.ds0 else r4.ds1, ds0 := dt } :=
    ⟨by show _ + 1 = _ + 1; rw [h4.ts], rfl, by show (if c.vc.div3 then _ else _) = (if c.vc.div3 then _ else _); rw [h4.d0, h4.d1], h4.perPsi, h4.psi, h4.perRhs, h4.rhs, h4.perSt, h4.st, h4.perV, h4.v, h4.perN, h4.ndt, h4.perNN, h4.ndtt⟩
  have rr : VP.hasRhs c.toCfg e = true → S (r4.rhs e) = 0 := fun hh => by
    rw [r2, f2]; exact i1.rhs trivial hh
  obtain ⟨r6, h6, i6, k6⟩ : ∃ r6, VP.Rel c.toCfg (VP.trN P) HF True (postRhs c.toCfg dt (preStep c.toCfg filt first more q.toSt)) r6 ∧ (VP.hasRhs c.toCfg e = true → S (r6.rhs e) = 0) ∧ S (r6.psi e) = k := by
    set r5 : VP.St K (Idx n) n Unit := { r4 with timestep := r4.timestep + 1, ds1 := if c.vc.div3 then r4.ds0 else r4.ds1, ds0 := dt } with hr5
    have i5 : VP.Inv c.toCfg S e True { r5 with vrhs := fun _ _ => 0 } := ⟨fun _ => rr, .inr fun _ _ _ => rfl⟩
    unfold postRhs
    cases hsch : c.sch
    · refine ⟨_, VP.appRhs_rel (G := G) (coeff := coeff) (relax := relax) (adv := adv) dt h5, rr, ?_⟩
      have := VP.appRhs_total (G := G) (coeff := coeff) (relax := relax) (adv := adv) hq dt i5
      exact this.trans k2
    · exact ⟨_, h5, rr, k2⟩
    · have i7 := VP.updRhs_inv (G := G) (coeff := coeff) (relax := relax) (adv := adv) hq (dt / 2) true (s := { r5 with vrhs := fun _ _ => 0 }) h5.perPsi i5
      refine ⟨_, VP.appRhs_rel (G := G) (coeff := coeff) (relax := relax) (adv := adv) (dt / 2) (VP.updRhs_rel hL (dt / 2) true h5), i7.rhs trivial, ?_⟩
      have := VP.appRhs_total (G := G) (coeff := coeff) (relax := relax) (adv := adv) hq (dt / 2) i7
      refine Eq.trans this ?_
      rw [VP.updRhs_psi]; exact k2
  set b := postRhs c.toCfg dt (preStep c.toCfg filt first more q.toSt) with hb
  have two : ∀ d, 2 ≤ c.N d := fun d => by have := h.pts d; have := h.pos d; omega
  obtain ⟨w, w1, w2, w3, w4, w5⟩ := fnlz_vel h.ok two ne dt (s := { q with toSt := b }) hp'
  have w1' : p.toSt = w := by rw [w1, h.post]
  have nw : ∀ x, ¬ wallPt c d x := fun x hx => hx.1 (h.kind d)
  have kb : S (b.psi e) = k := by rw [← k6]; exact m.on _ _ fun x hx => h6.psi e he x ((h.grid x).2 hx)
  have kp : S (p.psi e) = k := by
    have e1 : S (p.psi e) = S (fun x => b.psi e x + (-1) * (slope c.N (fun d => c.kind d = .cyclic) p.Phi d x / c.dx d)) := m.on _ _ fun x hx => by
      show p.toSt.psi e x = _
      rw [w1', w5 d x ((grid_box h.pts x).2 hx) (nw x), hn, one_mul, if_neg (by rw [hv]; decide)]
      show b.psi e x + 0 - _ = _
      ring
    rw [e1, m.lin, h.grad0 m hPhiN d, kb]; ring
  refine ⟨⟨⟨sN, rN⟩, hPhiN, fun hsch hh => ?_, ?_⟩, kp⟩
  · show S (p.toSt.rhs e) = 0
    rw [w1', w3, ← i6 hh]
    exact m.on _ _ fun x hx => h6.rhs trivial e hh x ((h.grid x).2 hx)
  · have e1 : S (p.vrhs d) = S (fun x => (1 / (1 / 2 * dt)) * (p.psi e x + (-1) * b.psi e x)) := m.on _ _ fun x hx => by
      show p.toSt.vrhs d x = _ * (p.toSt.psi e x + _)
      rw [w1', w4 d x ((grid_box h.pts x).2 hx)]
      show (w.psi e x - b.psi e x) / (1 / 2 * dt) = _
      ring
    rw [e1, m.smul, m.lin, kp, kb]; ring

theorem Cyc.anteLoopF (h : Cyc c P H HF G coeff relax adv) (hv : c.vab = .noab) (ne : Nonempty (Prs.Pts c.N)) {S : (Idx n → K) → K} (m : Mom c P S) (d : Fin n)
    (hq : VP.Quiet c.toCfg (VP.trN P) S (c.vip d)) (dt : K) {s p : St K n T} {psi0 : Nat → Idx n → K} (h0 : ∀ e, PeriodicN P (psi0 e)) (hs : VP.Begin c.toCfg psi0 s.toSt)
    (hp : PP.anteLoop c ne dt s = some p) : KnownV c P HF S d p ∧ S (p.psi (c.vip d)) = S (psi0 (c.vip d)) := by
  obtain ⟨sN, rN, hPhiN, _⟩ := h.anteLoop ne (S := fun _ => 0) (e := c.nEqns) (fun d hd => by have := h.wf.vip d; omega)
    ⟨fun _ _ _ => by simp, fun _ _ _ _ _ _ _ => rfl, .inr (fun d hd => by have := h.wf.vip d; omega)⟩ dt h0 hs hp
  have he := h.wf.vip d
  have two : ∀ d, 2 ≤ c.N d := fun d => by have := h.pts d; have := h.pos d; omega
  set e := c.vip d with hed
  unfold PP.anteLoop at hp
  simp only at hp
  split at hp
  · cases hp
  · rename_i s1 h1
    simp only [Option.some.injEq] at hp
    have x1 : ∀ e, e < c.nEqns → Ext P (s.psi e) := fun e he => ⟨psi0 e, h0 e, fun x hx => hs.psi e he x ((h.grid x).2 hx)⟩
    obtain ⟨a1, a2⟩ := h.solve ne dt true (s := { s with edge := saveEdges c s.psi, Phi := VP.asgG c.toCfg (fun _ => 0) s.Phi }) (fun d => x1 _ (h.wf.vip d))
      ((Ext.const P 0).congr (fun x hx => if_pos ((h.grid x).2 hx))) h1
    have e1 : s1.toSt = s.toSt := (solve_some h1).1
    set s2 := apply c dt true s1 with hs2
    set b : VP.St K (Idx n) n T := VP.anteLoop c.toCfg dt s2.toSt with hb
    -- velocities after the projection
    have v2 : S (s2.psi e) = S (psi0 e) := by
      have g0 : S (fun x => slope c.N (fun d => c.kind d = .cyclic) s1.Phi d x / c.dx d) = 0 := h.grad0 m a1 d
      have : S (s2.psi e) = S (fun x => psi0 e x + (-1) * (slope c.N (fun d => c.kind d = .cyclic) s1.Phi d x / c.dx d)) := m.on _ _ fun x hx => by
        have hx' : inBox c.N x := (grid_box h.pts x).2 hx
        show VP.asgVip c.toCfg (fun d x v => (prsCfg c dt s1.edge).newVel true (fun _ _ => v) s1.Phi d x) s1.psi (c.vip d) x = _
        rw [asgVip_at h.ok.inj]
        refine (if_pos ((h.grid x).2 hx)).trans ?_
        show (prsCfg c dt s1.edge).newVel true (fun _ _ => s1.psi (c.vip d) x) s1.Phi d x = _
        unfold Prs.Cfg.newVel
        rw [(h.prs dt s1.edge).edges]
        show s1.toSt.psi (c.vip d) x - calcGrad c.dx (Prs.presFill c.N (prsCfg c dt s1.edge).bc s1.Phi) d x = _
        rw [e1, ← grad_slope two c.kind c.dx s1.Phi d hx']
        show s.psi e x - _ = _
        rw [hs.psi e he x ((h.grid x).2 hx)]
        show psi0 e x - calcGrad c.dx (Prs.presFill c.N (fun d => if c.kind d = .cyclic then .cyclic else .wall) s1.Phi) d x = _
        ring
      rw [this, m.lin, g0]; ring
    have pb : p.psi = b.psi := by subst hp; rfl
    have pr : p.rhs = b.rhs := by subst hp; rfl
    have b2 : S (b.psi e) = S (s2.psi e) := m.on _ _ fun x hx => vpAnte_psi h.ok dt s2.toSt e ((grid_box h.pts x).2 hx)
    refine ⟨⟨⟨sN, rN⟩, hPhiN, fun hsch hh => ?_, ?_⟩, by rw [pb, b2, v2]⟩
    · -- forcing of periodic fields
      classical
      choose f' f1 f2 using a2
      set psi1 : Nat → Idx n → K := fun e => if he : ∃ d, c.vip d = e then f' he.choose else psi0 e with hpsi1
      have per1 : ∀ e, VP.PerT (VP.trN P) (psi1 e) := by
        intro e
        show VP.PerT (VP.trN P) (if he : ∃ d, c.vip d = e then f' he.choose else psi0 e)
        split_ifs with he
        · exact VP.perTN.2 (f1 _)
        · exact VP.perTN.2 (h0 e)
      have same1 : ∀ e, e < c.nEqns → ∀ x, c.grid x = true → s2.psi e x = psi1 e x := by
        intro e he x hx
        show _ = (if he : ∃ d, c.vip d = e then f' he.choose else psi0 e) x
        split_ifs with hd
        · rw [← f2 _ x ((h.grid x).1 hx), hd.choose_spec]
        · rw [hs2, apply_other _ _ _ _ (fun d hd' => hd ⟨d, hd'⟩), show s1.psi = s.psi from congrArg VP.St.psi e1]
          exact hs.psi e he x hx
      have t1 : s2.toSt.timestep = 0 := by show s1.toSt.timestep = 0; rw [e1]; exact hs.ts
      have t2 : s2.toSt.ds0 = 0 := by show s1.toSt.ds0 = 0; rw [e1]; exact hs.ds0
      have t3 : s2.toSt.ds1 = 0 := by show s1.toSt.ds1 = 0; rw [e1]; exact hs.ds1
      have r := VP.anteLoop_rel (s := s2.toSt) (s' := VP.start psi1) h.link h.wf dt t1 t2 t3 per1 same1
      obtain ⟨k1, i1⟩ := VP.anteLoop_total (G := G) (coeff := coeff) (relax := relax) (adv := adv) hq dt per1
      rw [pr, ← i1.rhs hsch hh]
      exact m.on _ _ fun x hx => r.rhs hsch e hh x ((h.grid x).2 hx)
    · have : S (p.vrhs d) = S (fun x => (-1) * (slope c.N (fun d => c.kind d = .cyclic) p.Phi d x / c.dx d)) := m.on _ _ fun x hx => by
        have hx' : inBox c.N x := (grid_box h.pts x).2 hx
        rw [← grad_slope two c.kind c.dx p.Phi d hx']
        have : p.vrhs d = VP.asgG c.toCfg (fun x => b.vrhs d x - calcGrad c.dx (Prs.presFill c.N (prsCfg c dt p.edge).bc p.Phi) d x) (b.vrhs d) := by subst hp; rfl
        rw [this]
        refine (if_pos ((h.grid x).2 hx)).trans ?_
        have b0 : b.vrhs d x = 0 := by
          obtain ⟨r, hr⟩ : ∃ r, b = VP.vabInitS c.toCfg r := ⟨_, rfl⟩
          rw [hr]
          refine (if_pos ((h.grid x).2 hx)).trans (if_neg ?_)
          rw [hv]; decide
        beta_reduce; rw [b0]
        show 0 - calcGrad c.dx (Prs.presFill c.N (fun d => if c.kind d = .cyclic then .cyclic else .wall) p.Phi) d x = _
        ring
      rw [this, m.smul, h.grad0 m hPhiN d, mul_zero]

theorem Cyc.runF (h : Cyc c P H HF G coeff relax adv) (hv : c.vab = .noab) (hn : ∀ dt d x, c.nrm dt d x = 1) (ne : Nonempty (Prs.Pts c.N)) {S : (Idx n → K) → K} (m : Mom c P S) (d : Fin n)
    (ha : VP.AdvKeeps c.toCfg (VP.trN P) adv S) (hq : VP.Quiet c.toCfg (VP.trN P) S (c.vip d)) (F : Nat → St K n T → Fin n → Idx n → K) (dt0 : K) (filt : Nat → Bool) (first : Nat → K)
    (more : Nat → List K) {s : St K n T} {psi0 : Nat → Idx n → K} (h0 : ∀ e, PeriodicN P (psi0 e)) (hs : VP.Begin c.toCfg psi0 s.toSt)
    (hF : ∀ t s, (∀ e, e < c.nEqns → Ext P (s.psi e)) → ∀ d, Ext P (F t s d)) (t : Nat) :
    ∀ {p : St K n T}, PP.runF c F ne dt0 filt first more s t = some p → KnownV c P HF S d p ∧ (t = 0 → S (p.psi (c.vip d)) = S (psi0 (c.vip d))) ∧
      ∀ u, t = u + 1 → ∃ q, PP.runF c F ne dt0 filt first more s u = some q ∧
        S (p.psi (c.vip d)) = S (q.psi (c.vip d)) + 1 / 2 * (first u :: more u).getLast (by simp) * S (F u q d) := by
  induction t with
  | zero =>
    intro p hp
    obtain ⟨a, b⟩ := h.anteLoopF hv ne m d hq dt0 h0 hs hp
    exact ⟨a, fun _ => b, fun u hu => by omega⟩
  | succ t ih =>
    intro p hp
    obtain ⟨q, hq', hp'⟩ := runF_pred hp
    have kq := (ih hq').1
    obtain ⟨s', r⟩ := kq.1
    obtain ⟨a, b⟩ := h.stepF hv hn ne m d ha hq _ _ _ (F t) (hF t q (h.rel_ext r).1) kq hp'
    refine ⟨a, fun h => by omega, fun u hu => ?_⟩
    have : u = t := by omega
    subst this
    exact ⟨q, hq', b⟩

theorem Cyc.addKnown (h : Cyc c P H HF G coeff relax adv) {S : (Idx n → K) → K} {e : Nat} {k : K} (hv : ∀ d, c.vip d ≠ e) {F : St K n T → Fin n → Idx n → K} {s : St K n T}
    (hF : (∀ e, e < c.nEqns → Ext P (s.psi e)) → ∀ d, Ext P (F s d)) (hs : Known c P HF S e k s) : Known c P HF S e k (addForce c F s) := by
  obtain ⟨s', r, h1, h2, h3⟩ := hs
  obtain ⟨x1, x2⟩ := h.rel_ext r
  obtain ⟨s'', u1, u2, u3⟩ := h.update r s.psi (addForce c F s).vrhs (fun d => x1 _ (h.wf.vip d)) (fun _ _ => rfl) (fun d =>
    ((x2 d).map2 (hF x1 d) (fun a b => a + b)).congr (fun x hx => if_pos ((h.grid x).2 hx)))
  exact ⟨s'', u1, h1, ⟨fun a => by rw [u2]; exact h2.rhs a, .inl hv⟩, by rw [u3 e hv]; exact h3⟩

theorem Cyc.runF_known (h : Cyc c P H HF G coeff relax adv) (ne : Nonempty (Prs.Pts c.N)) {S : (Idx n → K) → K} {e : Nat} (hv : ∀ d, c.vip d ≠ e)
    (ha : VP.AdvKeeps c.toCfg (VP.trN P) adv S) (hq : VP.Quiet c.toCfg (VP.trN P) S e) (F : Nat → St K n T → Fin n → Idx n → K)
    (hF : ∀ t s, (∀ e, e < c.nEqns → Ext P (s.psi e)) → ∀ d, Ext P (F t s d)) (dt0 : K) (filt : Nat → Bool) (first : Nat → K) (more : Nat → List K) {s : St K n T}
    {psi0 : Nat → Idx n → K} (h0 : ∀ e, PeriodicN P (psi0 e)) (hs : VP.Begin c.toCfg psi0 s.toSt) (t : Nat) :
    ∀ {p : St K n T}, PP.runF c F ne dt0 filt first more s t = some p → Known c P HF S e (S (psi0 e)) p := by
  induction t with
  | zero => exact fun hp => h.anteLoop ne hv hq dt0 h0 hs hp
  | succ t ih =>
    intro p hp
    obtain ⟨q, hq', hp'⟩ := runF_pred hp
    exact h.step ne hv ha hq _ _ _ (h.addKnown hv (hF t q) (ih hq')) hp'

/-- velocities agree at the duplicated end points -/
theorem Cyc.dupF (h : Cyc c P H HF G coeff relax adv) (ne : Nonempty (Prs.Pts c.N)) (F : Nat → St K n T → Fin n → Idx n → K)
    (hF : ∀ t s, (∀ e, e < c.nEqns → Ext P (s.psi e)) → ∀ d, Ext P (F t s d)) (dt0 : K) (filt : Nat → Bool) (first : Nat → K) (more : Nat → List K) {s : St K n T}
    {psi0 : Nat → Idx n → K} (h0 : ∀ e, PeriodicN P (psi0 e)) (hs : VP.Begin c.toCfg psi0 s.toSt) (t : Nat) {p : St K n T} (hp : PP.runF c F ne dt0 filt first more s t = some p) :
    Dup c (vips c p.psi) := by
  obtain ⟨s', r, _⟩ := h.runF_known ne (S := fun _ => 0) (e := c.nEqns) (fun d hd => by have := h.wf.vip d; omega) (fun _ _ _ _ _ _ _ _ _ => rfl)
    ⟨fun _ _ _ => by simp, fun _ _ _ _ _ _ _ => rfl, .inr (fun d hd => by have := h.wf.vip d; omega)⟩ F hF dt0 filt first more h0 hs t hp
  intro d x _ hx h1
  have hN := h.pts d
  have hP := h.pos d
  have hb : inBox c.N (stepIdx x d ((c.N d : Int) - 1)) := box_step hx d _ (by omega) (by omega)
  show p.psi (c.vip d) _ = p.psi (c.vip d) x
  rw [r.psi _ (h.wf.vip d) x ((h.ok.grid x).2 hx), r.psi _ (h.wf.vip d) _ ((h.ok.grid _).2 hb), show ((c.N d : Int) - 1) = (P d : Int) by omega]
  exact VP.perTN.1 (r.perPsi _) x d

theorem edgeG_cyc (C : Cyc c P H HF G coeff relax adv) : EdgeG c := by
  refine ⟨fun d x _ hx h0 => ?_, fun d x hk => ?_, fun d x hk => ?_, fun d x hk => ?_, fun d x hk => ?_⟩
  · obtain ⟨g, g1, g2⟩ := C.perG
    have hx' : InGrid P x := (grid_box C.pts x).1 hx
    have hN := C.pts d
    have hP := C.pos d
    have hb : inBox c.N (stepIdx x d ((c.N d : Int) - 1)) := box_step hx d _ (by omega) (by omega)
    rw [g2 x hx', g2 _ ((grid_box C.pts _).1 hb), show ((c.N d : Int) - 1) = (P d : Int) by omega]
    exact g1 x d
  all_goals exact absurd ((C.kind d).symm.trans hk) (by decide)
end
end Mpdata.PP
