import Verif.Lemmas.VipRest
import Verif.Spec.VipBudget
/-! What one step and a whole run do to a linear functional of a field that advection keeps: it changes by what the forcing supplies. -/
set_option linter.unusedSectionVars false
set_option linter.unusedVariables false
namespace Mpdata.VP
variable {K X : Type} [Field K] [LinearOrder K] {n : Nat} {T I : Type}
variable {ρ : Prop} {c : Cfg K X n T} {tr : I → X → X} {H : X → Prop} {HF : Fin n → X → Prop} {G coeff : X → K} {relax : Fin n → X → K}
  {adv : (GC ndt ndtt : Fin n → X → K) → Bool → (X → K) → (X → K)} {S : (X → K) → K} {e : Nat}

/-- without an absorber the absorber's right-hand sides are zero -/
def VZ (c : Cfg K X n T) (s : St K X n T) : Prop := c.vab = .noab → ∀ d x, c.grid x = true → s.vrhs d x = 0

theorem asgVip_keep (f : Fin n → X → K → K) (psi : Nat → X → K) (h : (∀ d x v, c.grid x = true → f d x v = v) ∨ ∀ d, c.vip d ≠ e) : asgVip c f psi e = psi e := by
  unfold asgVip
  generalize List.finRange n = l
  induction l generalizing psi with
  | nil => rfl
  | cons d l ih =>
    rw [List.foldl_cons, ih]
    show (if e = c.vip d then _ else psi e) = psi e
    split_ifs with h1
    · rcases h with h | h
      · funext x
        unfold asgG
        split
        · rename_i hx; exact h d x _ hx
        · rfl
      · exact absurd h1.symm (h d)
    · rfl

theorem vabApply_VZ (dt : K) (s : St K X n T) : VZ c (vabApplyS c dt s) := fun _ _ _ hx => if_pos hx

theorem vabApply_keep (hv : NoAbs c.toUser e) (dt : K) {s : St K X n T} (hz : VZ c s) : (vabApplyS c dt s).psi e = s.psi e := by
  show asgVip c (fun d x v => (vabApply dt v (s.vrhs d x)).1) s.psi e = _
  refine asgVip_keep _ _ ?_
  rcases hv with hv | hv
  · left; intro d x v hx
    rw [hz hv d x hx]; simp [vabApply]
  · exact Or.inr hv

theorem vabFnlz_VZ (dt : K) {s : St K X n T} (hz : VZ c s) : VZ c (vabFnlzS c dt s) := by
  unfold vabFnlzS
  by_cases h : c.vab = .impl
  · rw [if_pos h]; exact fun h' => by rw [h] at h'; exact absurd h' (by decide)
  · rw [if_neg h]; exact hz

theorem vabFnlz_keep (hv : NoAbs c.toUser e) (dt : K) (s : St K X n T) : (vabFnlzS c dt s).psi e = s.psi e := by
  unfold vabFnlzS
  by_cases h : c.vab = .impl
  · rw [if_pos h]
    show asgVip c (fun d x v => (vabFnlz dt (c.coeff x) (c.relax d x) v).1) s.psi e = _
    refine asgVip_keep _ _ ?_
    rcases hv with hv | hv
    · rw [h] at hv; exact absurd hv (by decide)
    · exact Or.inr hv
  · rw [if_neg h]

theorem vabExpl_keep {s : St K X n T} (hz : VZ c s) : (vabExplS c s).psi = s.psi ∧ (vabExplS c s).rhs = s.rhs ∧ VZ c (vabExplS c s) := by
  unfold vabExplS
  by_cases h : c.vab = .expl
  · rw [if_pos h]; exact ⟨rfl, rfl, fun h' => by rw [h] at h'; exact absurd h' (by decide)⟩
  · rw [if_neg h]; exact ⟨rfl, rfl, hz⟩

/-- the right-hand sides after `update_rhs` -/
theorem updRhs_source (hL : Link c tr H HF G coeff relax adv) (dt : K) (b : Bool) {s : St K X n T} {psi' : Nat → X → K} (hp : ∀ e, PerT tr (psi' e))
    (h : ∀ e, e < c.nEqns → ∀ x, c.grid x = true → s.psi e x = psi' e x) (he : hasRhs c e = true) {x : X} (hx : c.grid x = true) :
    (updRhs c dt b s).rhs e x = source c dt b s.psi e x := by
  have hf : ∀ e, e < c.nEqns → ∀ x, H x → full c s.psi e x = psi' e x := by
    intro e he x hx
    unfold full
    rw [if_pos he]; exact hL.xchng _ _ (hp e) (h e he) x hx
  unfold source
  rw [if_pos he]
  have h1 := (hL.force dt b (full c s.psi) psi' (fun e => if hasRhs c e then asgG c (fun _ => 0) (s.rhs e) else s.rhs e) (fun _ _ => 0) hp hf (fun _ _ _ _ => rfl)
    (fun e he x hx => by simp only [if_pos he]; exact if_pos hx) e he).2 x hx
  have h2 := (hL.force dt b (full c s.psi) psi' (fun _ _ => 0) (fun _ _ => 0) hp hf (fun _ _ _ _ => rfl) (fun _ _ _ _ => rfl) e he).2 x hx
  exact h1.trans h2.symm

/-- `S` looks at grid points only -/
def OnGrid (c : Cfg K X n T) (S : (X → K) → K) : Prop := ∀ f g, (∀ x, c.grid x = true → f x = g x) → S f = S g

theorem updRhs_keep (hL : Link c tr H HF G coeff relax adv) (dt : K) (b : Bool) {s : St K X n T} {psi' : Nat → X → K} (hp : ∀ e, PerT tr (psi' e))
    (h : ∀ e, e < c.nEqns → ∀ x, c.grid x = true → s.psi e x = psi' e x) (he : e < c.nEqns) {x : X} (hx : c.grid x = true) : (updRhs c dt b s).psi e x = s.psi e x := by
  show (if e < c.nEqns then c.xchng (s.psi e) else s.psi e) x = _
  rw [if_pos he, hL.xchng _ _ (hp e) (h e he) x (hL.gridH x hx), h e he x hx]

theorem appRhs_val (dt : K) (s : St K X n T) {x : X} (hx : c.grid x = true) : (appRhs c dt s).psi e x = s.psi e x + dt * (if hasRhs c e then s.rhs e x else 0) := by
  show (if hasRhs c e = true then asgG c (fun x => s.psi e x + dt * s.rhs e x) (s.psi e) else s.psi e) x = _
  cases hasRhs c e
  · simp
  · simp [asgG, hx]

theorem source_none (he : hasRhs c e = false) (dt : K) (b : Bool) (psi : Nat → X → K) : source c dt b psi e = fun _ => 0 := by
  unfold source; rw [he]; rfl

/-- what is known of the right-hand sides before advection -/
theorem anteStep_budget (hL : Link c tr H HF G coeff relax adv) (dt : K) {s : St K X n T} {psi' : Nat → X → K} (hp : ∀ e, PerT tr (psi' e))
    (h : ∀ e, e < c.nEqns → ∀ x, c.grid x = true → s.psi e x = psi' e x) (hz : VZ c s) :
    VZ c (anteStep c dt s) ∧ ∀ e, e < c.nEqns → NoAbs c.toUser e → ∀ x, c.grid x = true →
      (anteStep c dt s).psi e x = s.psi e x + (match c.sch with
        | .eulerA => 0
        | .eulerB => dt * source c dt false s.psi e x
        | .trapez => dt / 2 * (if hasRhs c e then s.rhs e x else 0)) ∧
      (c.sch = .eulerA → hasRhs c e = true → (anteStep c dt s).rhs e x = source c dt false s.psi e x) := by
  obtain ⟨p1, r1, z1⟩ := vabExpl_keep (c := c) (s := fillSt c s) hz
  have p1' : (vabExplS c (fillSt c s)).psi = s.psi := p1
  have r1' : (vabExplS c (fillSt c s)).rhs = s.rhs := r1
  have h' : ∀ e, e < c.nEqns → ∀ x, c.grid x = true → (vabExplS c (fillSt c s)).psi e x = psi' e x := by rw [p1']; exact h
  have hs : ∀ {e}, hasRhs c e = true → ∀ x, c.grid x = true → (updRhs c dt false (vabExplS c (fillSt c s))).rhs e x = source c dt false s.psi e x := by
    intro e he x hx
    rw [updRhs_source hL dt false hp h' he hx, p1']
  have hk : ∀ {e}, e < c.nEqns → ∀ x, c.grid x = true → (updRhs c dt false (vabExplS c (fillSt c s))).psi e x = s.psi e x := by
    intro e he x hx
    rw [updRhs_keep hL dt false hp h' he hx, p1']
  have hz2 : ∀ s' : St K X n T, s'.vrhs = (vabExplS c (fillSt c s)).vrhs → VZ c s' := fun s' h' hn d x hx => by rw [h']; exact z1 hn d x hx
  unfold anteStep
  cases hsch : c.sch
  · simp only
    refine ⟨vabApply_VZ dt _, fun e he hv x hx => ⟨?_, fun _ hr => hs hr x hx⟩⟩
    rw [vabApply_keep hv dt (hz2 (updRhs c dt false (vabExplS c (fillSt c s))) rfl), hk he x hx, add_zero]
  · simp only
    refine ⟨vabApply_VZ dt _, fun e he hv x hx => ⟨?_, fun h' => by simp at h'⟩⟩
    rw [vabApply_keep hv dt (hz2 (appRhs c dt (updRhs c dt false (vabExplS c (fillSt c s)))) rfl), appRhs_val dt _ hx, hk he x hx]
    cases hr : hasRhs c e
    · rw [source_none hr]; simp
    · rw [if_pos rfl, hs hr x hx]
  · simp only
    refine ⟨vabApply_VZ dt _, fun e he hv x hx => ⟨?_, fun h' => by simp at h'⟩⟩
    rw [vabApply_keep hv dt (hz2 (appRhs c (dt / 2) (vabExplS c (fillSt c s))) rfl), appRhs_val _ _ hx, p1', r1']

theorem advEqs_rhs (c : Cfg K X n T) (filt : Bool) (l : List Nat) : ∀ s : St K X n T, (l.foldl (advEq c filt) s).rhs = s.rhs ∧ (l.foldl (advEq c filt) s).vrhs = s.vrhs := by
  induction l with
  | nil => exact fun _ => ⟨rfl, rfl⟩
  | cons q l ih => intro s; rw [List.foldl_cons]; exact ih (advEq c filt s q)

/-- one step: the state `s`, the state `m` after advection, the state at the end -/
theorem step_budget (hL : Link c tr H HF G coeff relax adv) (hw : Wf c.toUser) (ha : AdvKeeps c tr adv S) (hS : OnGrid c S) (lin : ∀ f g (k : K), S (fun x => f x + k * g x) = S f + k * S g)
    (filt : Bool) (first : K) (more : List K) {s : St K X n T} {s' : St K X n Unit} (h : Rel c tr HF (c.sch = .trapez) s s') (hz : VZ c s) :
    VZ c (step c filt first more s) ∧
    (c.sch ≠ .trapez → ∀ e, e < c.nEqns → NoAbs c.toUser e →
      S ((step c filt first more s).psi e) = S (s.psi e) + (first :: more).getLast (by simp) * S (source c ((first :: more).getLast (by simp)) false s.psi e)) ∧
    (c.sch = .trapez → ∃ m : Nat → X → K, ∀ e, e < c.nEqns → NoAbs c.toUser e →
      S (m e) = S (s.psi e) + (first :: more).getLast (by simp) / 2 * S (fun x => if hasRhs c e then s.rhs e x else 0) ∧
      (hasRhs c e = true → ∀ x, c.grid x = true → (step c filt first more s).rhs e x = source c ((first :: more).getLast (by simp) / 2) true m e x) ∧
      ∀ x, c.grid x = true → (step c filt first more s).psi e x = m e x + (first :: more).getLast (by simp) / 2 * source c ((first :: more).getLast (by simp) / 2) true m e x) := by
  generalize hdt : (first :: more).getLast (by simp) = dt
  have h1 : RelG c tr HF (c.sch = .trapez) ((first :: more).foldl (calcGc c) s) ((first :: more).foldl (calcGc (ideal c G coeff relax adv)) s') :=
    calcGcs_rel hL hw more (calcGc_rel hL hw first h)
  have h2 := calcNdt_rel hL hw dt h1
  have h3 := anteStep_rel hL hw dt h2
  have h4 := advEqs_rel hL filt (eqOrder c) (eqOrder_lt c) h3
  have sm : Same s (calcNdt c dt ((first :: more).foldl (calcGc c) s)) := (calcGcs_same _ (first :: more) s).trans (calcNdt_same _ _ _)
  set s1 := calcNdt c dt ((first :: more).foldl (calcGc c) s) with hs1
  set s2 := anteStep c dt s1 with hs2
  set s3 := (eqOrder c).foldl (advEq c filt) s2 with hs3
  have z1 : VZ c s1 := fun hn d x hx => by rw [sm.vrhs]; exact hz hn d x hx
  obtain ⟨z2, b2⟩ := anteStep_budget hL dt h2.perPsi h2.psi z1
  obtain ⟨r3, v3⟩ := advEqs_rhs c filt (eqOrder c) s2
  have z3 : VZ c s3 := fun hn d x hx => by rw [hs3, v3]; exact z2 hn d x hx
  have k3 : ∀ e, e < c.nEqns → S (s3.psi e) = S (s2.psi e) := by
    intro e he
    rw [hS _ _ (h4.psi e he), (advEqs_total (e := e) hL ha filt (eqOrder c) (eqOrder_lt c) h3).1, ← hS _ _ (h3.psi e he)]
  have e1 : step c filt first more s = postStep c dt { s3 with timestep := s3.timestep + 1, ds1 := if c.vc.div3 then s3.ds0 else s3.ds1, ds0 := dt } := by
    unfold step; simp only [hdt, hs3, hs2, hs1]
  rw [e1]
  set s4 : St K X n T := { s3 with timestep := s3.timestep + 1, ds1 := if c.vc.div3 then s3.ds0 else s3.ds1, ds0 := dt } with hs4
  have z4 : VZ c s4 := z3
  have hp4 : ∀ e, e < c.nEqns → ∀ x, c.grid x = true → s4.psi e x = _ := h4.psi
  unfold postStep
  cases hsch : c.sch
  · simp only
    refine ⟨vabFnlz_VZ dt z4, fun _ e he hv => ?_, fun h' => by simp at h'⟩
    rw [vabFnlz_keep hv]
    have : S ((appRhs c dt s4).psi e) = S (s3.psi e) + dt * S (source c dt false s1.psi e) := by
      rw [← lin]
      refine hS _ _ fun x hx => ?_
      rw [appRhs_val dt _ hx]
      cases hr : hasRhs c e
      · rw [source_none hr]; rfl
      · rw [if_pos rfl, show s4.rhs = s2.rhs from r3, ((b2 e he hv x hx).2 hsch hr)]
    rw [this, k3 e he, sm.psi]
    congr 1
    refine hS _ _ fun x hx => ?_
    rw [(b2 e he hv x hx).1, hsch, sm.psi]; simp
  · simp only
    refine ⟨vabFnlz_VZ dt z4, fun _ e he hv => ?_, fun h' => by simp at h'⟩
    rw [vabFnlz_keep hv, show s4.psi = s3.psi from rfl, k3 e he, ← lin]
    refine hS _ _ fun x hx => ?_
    rw [(b2 e he hv x hx).1, hsch, sm.psi]
  · simp only
    refine ⟨vabFnlz_VZ dt (fun hn d x hx => z4 hn d x hx), fun h' => absurd rfl h', fun _ => ⟨s4.psi, fun e he hv => ⟨?_, ?_, ?_⟩⟩⟩
    · rw [show s4.psi = s3.psi from rfl, k3 e he, ← lin]
      refine hS _ _ fun x hx => ?_
      rw [(b2 e he hv x hx).1, hsch, sm.psi, sm.rhs]
    · intro hr x hx
      have : (vabFnlzS c dt (appRhs c (dt / 2) (updRhs c (dt / 2) true s4))).rhs = (updRhs c (dt / 2) true s4).rhs := by unfold vabFnlzS; split <;> rfl
      rw [this]
      exact updRhs_source hL (dt / 2) true h4.perPsi hp4 hr hx
    · intro x hx
      rw [vabFnlz_keep hv, appRhs_val _ _ hx, updRhs_keep hL (dt / 2) true h4.perPsi hp4 he hx]
      cases hr : hasRhs c e
      · rw [source_none hr]; rfl
      · rw [if_pos rfl, updRhs_source hL (dt / 2) true h4.perPsi hp4 hr hx]

/-- the initial stage: fields unchanged; with the trapezoidal scheme the right-hand sides are those of the initial fields -/
theorem anteLoop_budget (hL : Link c tr H HF G coeff relax adv) (dt0 : K) {s : St K X n T} {psi' : Nat → X → K} (hp : ∀ e, PerT tr (psi' e))
    (h : ∀ e, e < c.nEqns → ∀ x, c.grid x = true → s.psi e x = psi' e x) :
    VZ c (anteLoop c dt0 s) ∧ (∀ e, e < c.nEqns → ∀ x, c.grid x = true → (anteLoop c dt0 s).psi e x = s.psi e x) ∧
      (c.sch = .trapez → ∀ e, hasRhs c e = true → ∀ x, c.grid x = true → (anteLoop c dt0 s).rhs e x = source c (dt0 / 2) false s.psi e x) := by
  have hv : ∀ s : St K X n T, VZ c (vabInitS c s) := by
    intro s hn d x hx
    unfold vabInitS asgG
    simp only
    rw [if_pos hx, if_neg (by rw [hn]; decide)]
  have key : ∀ r : St K X n T, r.psi = s.psi → (∀ e, e < c.nEqns → ∀ x, c.grid x = true → (updRhs c (dt0 / 2) false r).psi e x = s.psi e x) ∧
      (∀ e, hasRhs c e = true → ∀ x, c.grid x = true → (updRhs c (dt0 / 2) false r).rhs e x = source c (dt0 / 2) false s.psi e x) := by
    intro r hr
    have h' : ∀ e, e < c.nEqns → ∀ x, c.grid x = true → r.psi e x = psi' e x := by rw [hr]; exact h
    exact ⟨fun e he x hx => by rw [updRhs_keep hL _ false hp h' he hx, hr], fun e he x hx => by rw [updRhs_source hL _ false hp h' he hx, hr]⟩
  unfold anteLoop
  cases hsch : c.sch
  · refine ⟨hv _, fun e he x hx => ?_, fun h' => by simp at h'⟩
    show St.psi (if _ then _ else _) e x = _
    split_ifs <;> rfl
  · refine ⟨hv _, fun e he x hx => ?_, fun h' => by simp at h'⟩
    show St.psi (if _ then _ else _) e x = _
    split_ifs <;> rfl
  · refine ⟨hv _, fun e he x hx => (key _ (by split_ifs <;> rfl)).1 e he x hx, fun _ e he x hx => (key _ (by split_ifs <;> rfl)).2 e he x hx⟩

theorem run_VZ (hL : Link c tr H HF G coeff relax adv) (hw : Wf c.toUser) (ha : AdvKeeps c tr adv S) (hS : OnGrid c S) (lin : ∀ f g (k : K), S (fun x => f x + k * g x) = S f + k * S g)
    (dt0 : K) (filt : Nat → Bool) (first : Nat → K) (more : Nat → List K) {s : St K X n T} {psi0 : Nat → X → K} (ts : s.timestep = 0) (d0 : s.ds0 = 0) (d1 : s.ds1 = 0)
    (perPsi : ∀ e, PerT tr (psi0 e)) (psi : ∀ e, e < c.nEqns → ∀ x, c.grid x = true → s.psi e x = psi0 e x) (t : Nat) : VZ c (run c dt0 filt first more s t) := by
  induction t with
  | zero => exact (anteLoop_budget hL dt0 perPsi psi).1
  | succ t ih => exact (step_budget hL hw ha hS lin _ _ _ (run_rel hL hw dt0 filt first more ts d0 d1 perPsi psi t) ih).1

end Mpdata.VP
