import Verif.Lemmas.VipTotal
/-! Predicates kept by whole runs on the unbounded grid, and states of rest. -/
set_option linter.unusedSectionVars false
set_option linter.unusedVariables false
namespace Mpdata.VP
variable {K X : Type} [Field K] [LinearOrder K] {n : Nat} {T I : Type}
variable {ρ : Prop} {c : Cfg K X n T} {tr : I → X → X} {H : X → Prop} {HF : Fin n → X → Prop} {G coeff : X → K} {relax : Fin n → X → K}
  {adv : (GC ndt ndtt : Fin n → X → K) → Bool → (X → K) → (X → K)} {e : Nat}

theorem advEqs_keep (c : Cfg K X n T) (filt : Bool) (l : List Nat) : ∀ s : St K X n T, (l.foldl (advEq c filt) s).GC = s.GC ∧ (l.foldl (advEq c filt) s).ndt = s.ndt ∧ (l.foldl (advEq c filt) s).ndtt = s.ndtt := by
  induction l with
  | nil => exact fun s => ⟨rfl, rfl, rfl⟩
  | cons q l ih => exact fun s => ih (advEq c filt s q)

theorem postStep_keep (c : Cfg K X n T) (dt : K) (s : St K X n T) : (postStep c dt s).GC = s.GC ∧ (postStep c dt s).ndt = s.ndt ∧ (postStep c dt s).ndtt = s.ndtt := by
  have h1 : ∀ s : St K X n T, (vabFnlzS c dt s).GC = s.GC ∧ (vabFnlzS c dt s).ndt = s.ndt ∧ (vabFnlzS c dt s).ndtt = s.ndtt := by
    intro s; unfold vabFnlzS; split <;> exact ⟨rfl, rfl, rfl⟩
  unfold postStep
  cases c.sch <;> exact h1 _

theorem anteStep_keep (c : Cfg K X n T) (dt : K) (s : St K X n T) : (anteStep c dt s).GC = s.GC ∧ (anteStep c dt s).ndt = s.ndt ∧ (anteStep c dt s).ndtt = s.ndtt := by
  have h1 : ∀ s : St K X n T, (vabExplS c s).GC = s.GC ∧ (vabExplS c s).ndt = s.ndt ∧ (vabExplS c s).ndtt = s.ndtt := by intro s; unfold vabExplS; split <;> exact ⟨rfl, rfl, rfl⟩
  unfold anteStep
  cases c.sch <;> exact h1 _

/-- the advector in memory after a step is the one the step used -/
theorem step_GC (c : Cfg K X n T) (filt : Bool) (first : K) (more : List K) (s : St K X n T) :
    (step c filt first more s).GC = (calcNdt c ((first :: more).getLast (by simp)) ((first :: more).foldl (calcGc c) s)).GC ∧
    (step c filt first more s).ndt = (calcNdt c ((first :: more).getLast (by simp)) ((first :: more).foldl (calcGc c) s)).ndt ∧
    (step c filt first more s).ndtt = (calcNdt c ((first :: more).getLast (by simp)) ((first :: more).foldl (calcGc c) s)).ndtt := by
  unfold step
  simp only
  obtain ⟨a1, a2, a3⟩ := postStep_keep c ((first :: more).getLast (by simp)) { (eqOrder c).foldl (advEq c filt) (anteStep c ((first :: more).getLast (by simp)) (calcNdt c ((first :: more).getLast (by simp)) ((first :: more).foldl (calcGc c) s))) with
    timestep := _, ds1 := _, ds0 := (first :: more).getLast (by simp) }
  rw [a1, a2, a3]
  obtain ⟨b1, b2, b3⟩ := advEqs_keep c filt (eqOrder c) (anteStep c ((first :: more).getLast (by simp)) (calcNdt c ((first :: more).getLast (by simp)) ((first :: more).foldl (calcGc c) s)))
  obtain ⟨d1, d2, d3⟩ := anteStep_keep c ((first :: more).getLast (by simp)) (calcNdt c ((first :: more).getLast (by simp)) ((first :: more).foldl (calcGc c) s))
  exact ⟨b1.trans d1, b2.trans d2, b3.trans d3⟩

/-- after a step the advectors of both agree -/
theorem step_relG (hL : Link c tr H HF G coeff relax adv) (hw : Wf c.toUser) (filt : Bool) (first : K) (more : List K) {s : St K X n T} {s' : St K X n Unit}
    (h : Rel c tr HF (c.sch = .trapez) s s') :
    (∀ d, PerT tr ((step (ideal c G coeff relax adv) filt first more s').GC d)) ∧
      ∀ d x, HF d x → (step c filt first more s).GC d x = (step (ideal c G coeff relax adv) filt first more s').GC d x := by
  have h1 : RelG c tr HF (c.sch = .trapez) ((first :: more).foldl (calcGc c) s) ((first :: more).foldl (calcGc (ideal c G coeff relax adv)) s') :=
    calcGcs_rel hL hw more (calcGc_rel hL hw first h)
  have h2 := calcNdt_rel hL hw ((first :: more).getLast (by simp)) h1
  rw [(step_GC (ideal c G coeff relax adv) filt first more s').1, (step_GC c filt first more s).1]
  exact ⟨h2.perGC, h2.gc⟩

/-- the right-hand sides leave equation `e` alone at every point -/
def Inert (c : Cfg K X n T) (tr : I → X → X) (e : Nat) : Prop :=
  (hasRhs c e = true → ∀ dt b psi z, (∀ e, PerT tr (psi e)) → (∀ x, z e x = 0) → ∀ x, c.force dt b psi z e x = 0) ∧ (c.vab = .noab ∨ ∀ d, c.vip d ≠ e)

theorem Inert.quiet (h : Inert c tr e) (x : X) : Quiet c tr (fun f => f x) e := ⟨fun _ _ _ => rfl, fun he dt b psi z h1 h2 => h.1 he dt b psi z h1 h2 x, h.2⟩

/-- what is known between steps -/
def InvP (c : Cfg K X n T) (e : Nat) (ρ : Prop) (s : St K X n Unit) : Prop := ∀ x : X, Inv c (fun f => f x) e ρ s

theorem step_pred (hL : Link c tr H HF G coeff relax adv) (hw : Wf c.toUser) (hi : Inert c tr e) (filt : Bool) (first : K) (more : List K) (Q : (X → K) → Prop)
    {s : St K X n T} {s' : St K X n Unit} (h : Rel c tr HF (c.sch = .trapez) s s') (hI : InvP c e (c.sch = .trapez) s')
    (ha : ∀ psi, Q psi → Q (adv (step (ideal c G coeff relax adv) filt first more s').GC (step (ideal c G coeff relax adv) filt first more s').ndt
      (step (ideal c G coeff relax adv) filt first more s').ndtt filt psi)) (hQ : Q (s'.psi e)) :
    Q ((step (ideal c G coeff relax adv) filt first more s').psi e) ∧ InvP c e (c.sch = .trapez) (step (ideal c G coeff relax adv) filt first more s') := by
  obtain ⟨g1, g2, g3⟩ := step_GC (ideal c G coeff relax adv) filt first more s'
  rw [g1, g2, g3] at ha
  have h1 : RelG c tr HF (c.sch = .trapez) ((first :: more).foldl (calcGc c) s) ((first :: more).foldl (calcGc (ideal c G coeff relax adv)) s') :=
    calcGcs_rel hL hw more (calcGc_rel hL hw first h)
  have h2 := calcNdt_rel hL hw ((first :: more).getLast (by simp)) h1
  have h3 := anteStep_rel hL hw ((first :: more).getLast (by simp)) h2
  have h4 := advEqs_rel hL filt (eqOrder c) (eqOrder_lt c) h3
  have sm : Same s' (calcNdt (ideal c G coeff relax adv) ((first :: more).getLast (by simp)) ((first :: more).foldl (calcGc (ideal c G coeff relax adv)) s')) :=
    (calcGcs_same _ (first :: more) s').trans (calcNdt_same _ _ _)
  have a1 := fun x => anteStep_total (G := G) (coeff := coeff) (relax := relax) (adv := adv) (hi.quiet x) ((first :: more).getLast (by simp)) h2.perPsi ((hI x).same sm)
  generalize hr : calcNdt (ideal c G coeff relax adv) ((first :: more).getLast (by simp)) ((first :: more).foldl (calcGc (ideal c G coeff relax adv)) s') = r at *
  have q1 : (anteStep (ideal c G coeff relax adv) ((first :: more).getLast (by simp)) r).psi e = s'.psi e := by
    funext x; rw [(a1 x).1, sm.psi]
  obtain ⟨k1, k2, k3⟩ := anteStep_keep (ideal c G coeff relax adv) ((first :: more).getLast (by simp)) r
  have q2 : ∀ (l : List Nat) (r' : St K X n Unit), r'.GC = r.GC → r'.ndt = r.ndt → r'.ndtt = r.ndtt → Q (r'.psi e) →
      Q ((l.foldl (advEq (ideal c G coeff relax adv) filt) r').psi e) ∧ (l.foldl (advEq (ideal c G coeff relax adv) filt) r').rhs = r'.rhs ∧ (l.foldl (advEq (ideal c G coeff relax adv) filt) r').vrhs = r'.vrhs := by
    intro l
    induction l with
    | nil => exact fun r' _ _ _ h => ⟨h, rfl, rfl⟩
    | cons q l ih =>
      intro r' w1 w2 w3 hq
      refine ih (advEq (ideal c G coeff relax adv) filt r' q) w1 w2 w3 ?_
      show Q (if e = q then adv r'.GC r'.ndt r'.ndtt filt (r'.psi q) else r'.psi e)
      split_ifs with he
      · rw [w1, w2, w3, ← he]; exact ha _ hq
      · exact hq
  obtain ⟨b1, b2, b3⟩ := q2 (eqOrder c) _ k1 k2 k3 (by rw [q1]; exact hQ)
  have i2 : ∀ x : X, Inv c (fun f => f x) e True ((eqOrder (ideal c G coeff relax adv)).foldl (advEq (ideal c G coeff relax adv) filt) (anteStep (ideal c G coeff relax adv) ((first :: more).getLast (by simp)) r)) := fun x =>
    ⟨by rw [show eqOrder (ideal c G coeff relax adv) = eqOrder c from rfl, b2]; exact (a1 x).2.rhs, by rw [show eqOrder (ideal c G coeff relax adv) = eqOrder c from rfl, b3]; exact (a1 x).2.vrhs⟩
  unfold step
  simp only [hr]
  have fin := fun (x : X) (r : St K X n Unit) (hp : ∀ e, PerT tr (r.psi e)) (i : Inv c (fun f => f x) e True r) (dt : K) (k : Nat) (d1 : K) =>
    postStep_total (G := G) (coeff := coeff) (relax := relax) (adv := adv) (s := { r with timestep := k, ds1 := d1, ds0 := dt }) (hi.quiet x) dt hp ⟨i.rhs, i.vrhs⟩
  have a3 := fun k d1 x => fin x _ h4.perPsi (i2 x) ((first :: more).getLast (by simp)) k d1
  refine ⟨?_, fun x => (a3 _ _ x).2.weaken (fun _ => trivial)⟩
  exact Eq.mpr (congrArg Q (funext fun x => (a3 _ _ x).1)) b1

theorem run_invP (hL : Link c tr H HF G coeff relax adv) (hw : Wf c.toUser) (hi : Inert c tr e) (dt0 : K) {psi0 : Nat → X → K} (perPsi : ∀ e, PerT tr (psi0 e)) :
    (anteLoop (ideal c G coeff relax adv) dt0 (start psi0)).psi e = psi0 e ∧ InvP c e (c.sch = .trapez) (anteLoop (ideal c G coeff relax adv) dt0 (start psi0)) := by
  have := fun x => anteLoop_total (G := G) (coeff := coeff) (relax := relax) (adv := adv) (hi.quiet x) dt0 perPsi
  exact ⟨funext fun x => (this x).1, fun x => (this x).2⟩

/-- a predicate kept by the advection of every step holds for equation `e` at all times -/
theorem run_pred (hL : Link c tr H HF G coeff relax adv) (hw : Wf c.toUser) (hi : Inert c tr e) (dt0 : K) (filt : Nat → Bool) (first : Nat → K) (more : Nat → List K) (Q : (X → K) → Prop)
    {s : St K X n T} {psi0 : Nat → X → K} (ts : s.timestep = 0) (d0 : s.ds0 = 0) (d1 : s.ds1 = 0)
    (perPsi : ∀ e, PerT tr (psi0 e)) (psi : ∀ e, e < c.nEqns → ∀ x, c.grid x = true → s.psi e x = psi0 e x) (t : Nat)
    (ha : ∀ q, q < t → ∀ psi, Q psi → Q (adv (run (ideal c G coeff relax adv) dt0 filt first more (start psi0) (q + 1)).GC
      (run (ideal c G coeff relax adv) dt0 filt first more (start psi0) (q + 1)).ndt (run (ideal c G coeff relax adv) dt0 filt first more (start psi0) (q + 1)).ndtt (filt q) psi))
    (hQ : Q (psi0 e)) :
    Q ((run (ideal c G coeff relax adv) dt0 filt first more (start psi0) t).psi e) ∧ InvP c e (c.sch = .trapez) (run (ideal c G coeff relax adv) dt0 filt first more (start psi0) t) := by
  induction t with
  | zero =>
    obtain ⟨a, b⟩ := run_invP (G := G) hL hw hi dt0 perPsi
    exact ⟨by show Q ((anteLoop _ _ _).psi e); rw [a]; exact hQ, b⟩
  | succ t ih =>
    obtain ⟨a, b⟩ := ih (fun q hq => ha q (by omega))
    exact step_pred hL hw hi (filt t) (first t) (more t) Q (run_rel hL hw dt0 filt first more ts d0 d1 perPsi psi t) b (ha t (by omega)) a

/-! ## Rest -/

/-- uniform fields, no motion now or before, no forcing -/
structure Rest (c : Cfg K X n T) (v : Nat → K) (ρ : Prop) (s : St K X n Unit) : Prop where
  psi : ∀ e, e < c.nEqns → ∀ x, s.psi e x = v e
  stash : ∀ b d x, s.stash b d x = 0
  ndt : ∀ d x, s.ndt d x = 0
  ndtt : ∀ d x, s.ndtt d x = 0
  GC : ∀ d x, s.GC d x = 0
  vrhs : ∀ d x, s.vrhs d x = 0
  rhs : ρ → ∀ e, hasRhs c e = true → ∀ x, s.rhs e x = 0

theorem Rest.weaken {ρ' : Prop} {v : Nat → K} {s : St K X n Unit} (h : Rest c v ρ s) (hr : ρ' → ρ) : Rest c v ρ' s := ⟨h.psi, h.stash, h.ndt, h.ndtt, h.GC, h.vrhs, fun a => h.rhs (hr a)⟩

/-- on the uniform state `v` there is no velocity, no forcing, no absorber, and advection by a zero advector leaves uniform fields alone -/
structure RestOk (c : Cfg K X n T) (adv : (GC ndt ndtt : Fin n → X → K) → Bool → (X → K) → (X → K)) (v : Nat → K) : Prop where
  still : ∀ d, v (c.vip d) = 0
  vab : c.vab = .noab
  force : ∀ dt b psi z, (∀ e, e < c.nEqns → ∀ x, psi e x = v e) → (∀ e, hasRhs c e = true → ∀ x, z e x = 0) → ∀ e, hasRhs c e = true → ∀ x, c.force dt b psi z e x = 0
  adv : ∀ f (k : K), adv (fun _ _ => 0) (fun _ _ => 0) (fun _ _ => 0) f (fun _ => k) = fun _ => k

variable {v : Nat → K}

theorem extrp_zero (vc : VipCfg) (ts : Nat) (dt ds0 : K) (b : Nat) : extrp vc ts dt ds0 0 (fun _ => 0) b = 0 := by
  unfold extrp Stash.set; cases vc.varDt <;> cases vc.div3 <;> simp [stashBlk]

theorem fillStash_zero (vc : VipCfg) (ts : Nat) (b : Nat) : fillStash vc ts (0 : K) (fun _ => 0) b = 0 := by
  unfold fillStash Stash.set; simp

theorem vel_zero (hw : Wf c.toUser) (hr : RestOk c adv v) {s : St K X n Unit} (h : Rest c v ρ s) (d : Fin n) (x : X) : vel (ideal c G coeff relax adv) s.psi d x = 0 := by
  show velOf (c.den.map fun e => s.psi e x) c.veps (s.psi (c.vip d) x) = 0
  rw [h.psi _ (hw.vip d), hr.still d]
  unfold velOf
  cases c.den <;> simp

theorem calcGc_rest (hw : Wf c.toUser) (hr : RestOk c adv v) (dt : K) {s : St K X n Unit} (h : Rest c v ρ s) : Rest c v ρ (calcGc (ideal c G coeff relax adv) s dt) := by
  have ex : ∀ b d x, extrapolate (ideal c G coeff relax adv) dt s b d x = 0 := by
    intro b d x
    have : extrapolate (ideal c G coeff relax adv) dt s b d x = extrp c.vc s.timestep dt s.ds0 (vel (ideal c G coeff relax adv) s.psi d x) (fun b => s.stash b d x) b := by
      unfold extrapolate
      by_cases h0 : b = 0
      · rw [if_pos h0, h0]; rfl
      · rw [if_neg h0]; rfl
    rw [this, vel_zero hw hr h]
    simp only [h.stash]
    exact extrp_zero _ _ _ _ _
  refine ⟨h.psi, ex, h.ndt, h.ndtt, ?_, h.vrhs, h.rhs⟩
  intro d x
  show intrpFace dt (c.dx d) (G x) (G (c.sh x d 1)) (extrapolate (ideal c G coeff relax adv) dt s 0 d x) (extrapolate (ideal c G coeff relax adv) dt s 0 d (c.sh x d 1)) = 0
  rw [ex, ex]; simp [intrpFace]

theorem derStash_rest (val : Fin n → X → K) (hv : ∀ d x, val d x = 0) {s : St K X n Unit} (h : Rest c v ρ s) : Rest c v ρ (derStash (ideal c G coeff relax adv) val s) := by
  refine ⟨h.psi, ?_, h.ndt, h.ndtt, h.GC, h.vrhs, h.rhs⟩
  intro b d x
  show (if b = 0 then asgG (ideal c G coeff relax adv) (val d) (s.stash 0 d) else s.stash b d) x = 0
  split_ifs
  · exact hv d x
  · exact h.stash b d x

theorem interp_rest (dt : K) {s : St K X n Unit} (h : Rest c v ρ s) (dst : Fin n → X → K) (d : Fin n) (x : X) : interp (ideal c G coeff relax adv) dt (s.stash 0) dst d x = 0 := by
  show intrpFace dt (c.dx d) (G x) (G (c.sh x d 1)) (s.stash 0 d x) (s.stash 0 d (c.sh x d 1)) = 0
  rw [h.stash, h.stash]; simp [intrpFace]

theorem calcNdt_rest (hw : Wf c.toUser) (hr : RestOk c adv v) (dt : K) {s : St K X n Unit} (h : Rest c v ρ s) : Rest c v ρ (calcNdt (ideal c G coeff relax adv) dt s) := by
  have one : ∀ s : St K X n Unit, Rest c v ρ s → Rest c v ρ (if s.ds0 > 0 then
        let s := derStash (ideal c G coeff relax adv) (fun d x => dt * (s.psi (c.vip d) x - s.stash (stashBlk c.vc s.timestep 1) d x) / s.ds0) s
        { s with ndt := interp (ideal c G coeff relax adv) dt (s.stash 0) s.ndt }
      else s) := by
    intro s h
    split_ifs
    · have h1 := derStash_rest (G := G) (coeff := coeff) (relax := relax) (adv := adv) (fun d x => dt * (s.psi (c.vip d) x - s.stash (stashBlk c.vc s.timestep 1) d x) / s.ds0)
        (fun d x => by rw [h.psi _ (hw.vip d), hr.still d, h.stash]; simp) h
      exact ⟨h1.psi, h1.stash, fun d x => interp_rest dt h1 s.ndt d x, h1.ndtt, h1.GC, h1.vrhs, h1.rhs⟩
    · exact h
  have two : ∀ s : St K X n Unit, Rest c v ρ s → Rest c v ρ (if s.ds0 > 0 ∧ s.ds1 > 0 then
        let s := derStash (ideal c G coeff relax adv) (fun d x => dt * dt * (s.ds1 * s.psi (c.vip d) x - (s.ds1 + s.ds0) * s.stash (stashBlk c.vc s.timestep 1) d x
        + s.ds0 * s.stash (stashBlk c.vc s.timestep 2) d x) / (s.ds0 * s.ds1 * (1 / 2) * (s.ds0 + s.ds1))) s
        { s with ndtt := interp (ideal c G coeff relax adv) dt (s.stash 0) s.ndtt }
      else s) := by
    intro s h
    split_ifs
    · have h1 := derStash_rest (G := G) (coeff := coeff) (relax := relax) (adv := adv) (fun d x => dt * dt * (s.ds1 * s.psi (c.vip d) x - (s.ds1 + s.ds0) * s.stash (stashBlk c.vc s.timestep 1) d x
        + s.ds0 * s.stash (stashBlk c.vc s.timestep 2) d x) / (s.ds0 * s.ds1 * (1 / 2) * (s.ds0 + s.ds1)))
        (fun d x => by rw [h.psi _ (hw.vip d), hr.still d, h.stash, h.stash]; simp) h
      exact ⟨h1.psi, h1.stash, h1.ndt, fun d x => interp_rest dt h1 s.ndtt d x, h1.GC, h1.vrhs, h1.rhs⟩
    · exact h
  unfold calcNdt
  by_cases hd : c.vc.div3 = true
  · rw [if_pos (show (ideal c G coeff relax adv).vc.div3 = true from hd)]
    exact two _ (one _ h)
  · rw [if_neg (show ¬ (ideal c G coeff relax adv).vc.div3 = true from hd)]; exact h

theorem updRhs_rest (hr : RestOk c adv v) (dt : K) (b : Bool) {s : St K X n Unit} (h : Rest c v ρ s) : Rest c v True (updRhs (ideal c G coeff relax adv) dt b s) := by
  have e1 := updRhs_psi (c := c) (G := G) (coeff := coeff) (relax := relax) (adv := adv) dt b s
  refine ⟨by rw [e1]; exact h.psi, h.stash, h.ndt, h.ndtt, h.GC, h.vrhs, fun _ e he x => ?_⟩
  refine hr.force dt b _ _ ?_ ?_ e he x
  · intro e' he' x
    have := congrFun (congrFun e1 e') x
    exact this.trans (h.psi e' he' x)
  · intro e' he' x
    show (if hasRhs c e' = true then asgG (ideal c G coeff relax adv) (fun _ => 0) (s.rhs e') else s.rhs e') x = 0
    rw [if_pos he']; rfl

theorem appRhs_rest (dt : K) {s : St K X n Unit} (h : Rest c v True s) : Rest c v True (appRhs (ideal c G coeff relax adv) dt s) := by
  refine ⟨fun e he x => ?_, h.stash, h.ndt, h.ndtt, h.GC, h.vrhs, h.rhs⟩
  show (if hasRhs c e = true then asgG (ideal c G coeff relax adv) (fun x => s.psi e x + dt * s.rhs e x) (s.psi e) else s.psi e) x = v e
  by_cases hh : hasRhs c e = true
  · rw [if_pos hh]
    show s.psi e x + dt * s.rhs e x = v e
    rw [h.rhs trivial e hh, h.psi e he]; ring
  · rw [if_neg hh]; exact h.psi e he x

theorem vabApplyS_rest (hr : RestOk c adv v) (dt : K) {s : St K X n Unit} (h : Rest c v ρ s) : Rest c v ρ (vabApplyS (ideal c G coeff relax adv) dt s) := by
  refine ⟨fun e he x => ?_, h.stash, h.ndt, h.ndtt, h.GC, fun d x => rfl, h.rhs⟩
  have := asgVip_skip (c := c) (G := G) (coeff := coeff) (relax := relax) (adv := adv) (e := e) (fun d x v => (vabApply dt v (s.vrhs d x)).1) s.psi
    (.inl fun d x v => by rw [h.vrhs d x]; simp [vabApply])
  exact (congrFun this x).trans (h.psi e he x)

theorem vabExplS_rest (hr : RestOk c adv v) {s : St K X n Unit} (h : Rest c v ρ s) : Rest c v ρ (vabExplS (ideal c G coeff relax adv) s) := by
  unfold vabExplS
  rw [if_neg (show ¬ (ideal c G coeff relax adv).vab = .expl from fun hh => by rw [show (ideal c G coeff relax adv).vab = c.vab from rfl, hr.vab] at hh; cases hh)]; exact h

theorem vabFnlzS_rest (hr : RestOk c adv v) (dt : K) {s : St K X n Unit} (h : Rest c v ρ s) : Rest c v ρ (vabFnlzS (ideal c G coeff relax adv) dt s) := by
  unfold vabFnlzS
  rw [if_neg (show ¬ (ideal c G coeff relax adv).vab = .impl from fun hh => by rw [show (ideal c G coeff relax adv).vab = c.vab from rfl, hr.vab] at hh; cases hh)]; exact h

theorem vabInitS_rest (hr : RestOk c adv v) {s : St K X n Unit} (h : Rest c v ρ s) : Rest c v ρ (vabInitS (ideal c G coeff relax adv) s) := by
  refine ⟨h.psi, h.stash, h.ndt, h.ndtt, h.GC, fun d x => ?_, h.rhs⟩
  show (if c.vab = .impl then _ else (0 : K)) = 0
  rw [hr.vab]; rfl

theorem anteStep_rest (hw : Wf c.toUser) (hr : RestOk c adv v) (dt : K) {s : St K X n Unit} (h : Rest c v (c.sch = .trapez) s) : Rest c v True (anteStep (ideal c G coeff relax adv) dt s) := by
  have h1 : Rest c v (c.sch = .trapez) (fillSt (ideal c G coeff relax adv) s) := by
    refine ⟨h.psi, fun b d x => ?_, h.ndt, h.ndtt, h.GC, h.vrhs, h.rhs⟩
    show fillStash c.vc s.timestep (vel (ideal c G coeff relax adv) s.psi d x) (fun b => s.stash b d x) b = 0
    rw [vel_zero hw hr h]; simp only [h.stash]; exact fillStash_zero _ _ _
  have h2 := vabExplS_rest (G := G) (coeff := coeff) (relax := relax) hr h1
  have e0 : (ideal c G coeff relax adv).sch = c.sch := rfl
  unfold anteStep
  simp only [e0]
  cases hs : c.sch
  · exact vabApplyS_rest hr dt (updRhs_rest hr dt false h2)
  · exact vabApplyS_rest hr dt (appRhs_rest dt (updRhs_rest hr dt false h2))
  · exact vabApplyS_rest hr dt (appRhs_rest _ (h2.weaken (fun _ => hs)))

theorem advEqs_rest (hr : RestOk c adv v) (filt : Bool) (l : List Nat) (hl : ∀ e ∈ l, e < c.nEqns) : ∀ {s : St K X n Unit}, Rest c v ρ s → Rest c v ρ (l.foldl (advEq (ideal c G coeff relax adv) filt) s) := by
  induction l with
  | nil => exact fun h => h
  | cons q l ih =>
    intro s h
    rw [List.foldl_cons]
    refine ih (fun e' he' => hl e' (by simp [he'])) ⟨fun e he x => ?_, h.stash, h.ndt, h.ndtt, h.GC, h.vrhs, h.rhs⟩
    show (if e = q then adv s.GC s.ndt s.ndtt filt (s.psi q) else s.psi e) x = v e
    split_ifs with h1
    · subst h1
      rw [show s.GC = fun _ _ => 0 from funext fun d => funext fun x => h.GC d x, show s.ndt = fun _ _ => 0 from funext fun d => funext fun x => h.ndt d x,
        show s.ndtt = fun _ _ => 0 from funext fun d => funext fun x => h.ndtt d x, show s.psi e = fun _ => v e from funext fun x => h.psi e he x, hr.adv]
    · exact h.psi e he x

theorem postStep_rest (hr : RestOk c adv v) (dt : K) {s : St K X n Unit} (h : Rest c v True s) : Rest c v True (postStep (ideal c G coeff relax adv) dt s) := by
  have e0 : (ideal c G coeff relax adv).sch = c.sch := rfl
  unfold postStep
  simp only [e0]
  refine vabFnlzS_rest hr dt ?_
  cases hs : c.sch
  · exact appRhs_rest _ h
  · exact h
  · exact appRhs_rest _ (updRhs_rest hr _ true h)

theorem calcGcs_rest (hw : Wf c.toUser) (hr : RestOk c adv v) (l : List K) : ∀ {s : St K X n Unit}, Rest c v ρ s → Rest c v ρ (l.foldl (calcGc (ideal c G coeff relax adv)) s) := by
  induction l with
  | nil => exact fun h => h
  | cons a l ih => intro s h; rw [List.foldl_cons]; exact ih (calcGc_rest hw hr a h)

theorem run_rest (hw : Wf c.toUser) (hr : RestOk c adv v) (dt0 : K) (filt : Nat → Bool) (first : Nat → K) (more : Nat → List K) {psi0 : Nat → X → K}
    (h0 : ∀ e, e < c.nEqns → ∀ x, psi0 e x = v e) (t : Nat) : Rest c v (c.sch = .trapez) (run (ideal c G coeff relax adv) dt0 filt first more (start psi0) t) := by
  induction t with
  | zero =>
    have e0 : (ideal c G coeff relax adv).sch = c.sch := rfl
    have e1 : (ideal c G coeff relax adv).vc = c.vc := rfl
    show Rest c v _ (anteLoop _ _ _)
    unfold anteLoop
    refine vabInitS_rest hr ?_
    simp only [e0, e1]
    have hst : ∀ b d x, (if b = stashBlk c.vc 0 1 ∨ (c.vc.div3 = true ∧ b = stashBlk c.vc 0 2) then asgG (ideal c G coeff relax adv) (fun _ => 0) ((start psi0 : St K X n Unit).stash b d) else (start psi0 : St K X n Unit).stash b d) x = 0 := by
      intro b d x; split_ifs <;> rfl
    have base : Rest c v False (if c.vc.div3 = true then
            { { start psi0 with GC := fun _ _ => 0, stash := fun b d => if b = stashBlk c.vc 0 1 ∨ (c.vc.div3 = true ∧ b = stashBlk c.vc 0 2) then asgG (ideal c G coeff relax adv) (fun _ => 0) ((start psi0 : St K X n Unit).stash b d) else (start psi0 : St K X n Unit).stash b d } with
              ndt := fun _ _ => 0, ndtt := fun _ _ => 0 }
          else { start psi0 with GC := fun _ _ => 0, stash := fun b d => if b = stashBlk c.vc 0 1 ∨ (c.vc.div3 = true ∧ b = stashBlk c.vc 0 2) then asgG (ideal c G coeff relax adv) (fun _ => 0) ((start psi0 : St K X n Unit).stash b d) else (start psi0 : St K X n Unit).stash b d }) := by
      split_ifs <;> exact ⟨h0, hst, fun _ _ => rfl, fun _ _ => rfl, fun _ _ => rfl, fun _ _ => rfl, fun h => h.elim⟩
    cases hs : c.sch
    · exact base.weaken (fun h => by simp at h)
    · exact base.weaken (fun h => by simp at h)
    · exact (updRhs_rest hr _ false base).weaken (fun _ => trivial)
  | succ t ih =>
    have h1 := calcGcs_rest (G := G) (coeff := coeff) (relax := relax) hw hr (first t :: more t) ih
    have h2 := calcNdt_rest (G := G) (coeff := coeff) (relax := relax) hw hr ((first t :: more t).getLast (by simp)) h1
    have h3 := anteStep_rest (G := G) (coeff := coeff) (relax := relax) hw hr ((first t :: more t).getLast (by simp)) h2
    have h4 := advEqs_rest (G := G) (coeff := coeff) (relax := relax) hr (filt t) (eqOrder c) (eqOrder_lt c) h3
    have h5 : ∀ (r : St K X n Unit) (k : Nat) (d1 dt : K), Rest c v True r → Rest c v True (postStep (ideal c G coeff relax adv) dt { r with timestep := k, ds1 := d1, ds0 := dt }) :=
      fun r k d1 dt h => postStep_rest hr dt ⟨h.psi, h.stash, h.ndt, h.ndtt, h.GC, h.vrhs, h.rhs⟩
    exact (h5 _ _ _ _ h4).weaken (fun _ => trivial)

end Mpdata.VP
