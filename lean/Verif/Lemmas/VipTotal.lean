import Verif.Lemmas.VipSim
/-! Quantities kept by whole runs on the unbounded grid. -/
set_option linter.unusedSectionVars false
set_option linter.unusedVariables false
namespace Mpdata.VP
variable {K X : Type} [Field K] [LinearOrder K] {n : Nat} {T I : Type}
variable {ρ : Prop} {c : Cfg K X n T} {tr : I → X → X} {H : X → Prop} {HF : Fin n → X → Prop} {G coeff : X → K} {relax : Fin n → X → K}
  {adv : (GC ndt ndtt : Fin n → X → K) → Bool → (X → K) → (X → K)}

/-- the parts of a state that only right-hand sides and advection change -/
structure Same (s t : St K X n T) : Prop where
  psi : t.psi = s.psi
  rhs : t.rhs = s.rhs
  vrhs : t.vrhs = s.vrhs

theorem Same.refl (s : St K X n T) : Same s s := ⟨rfl, rfl, rfl⟩
theorem Same.trans {s t r : St K X n T} (h : Same s t) (g : Same t r) : Same s r := ⟨g.psi.trans h.psi, g.rhs.trans h.rhs, g.vrhs.trans h.vrhs⟩

theorem calcGcs_same (c : Cfg K X n T) (l : List K) : ∀ s, Same s (l.foldl (calcGc c) s) := by
  induction l with
  | nil => exact fun s => Same.refl s
  | cons a l ih => intro s; rw [List.foldl_cons]; exact Same.trans (t := calcGc c s a) ⟨rfl, rfl, rfl⟩ (ih (calcGc c s a))

theorem calcNdt_same (c : Cfg K X n T) (dt : K) (s : St K X n T) : Same s (calcNdt c dt s) := by
  unfold calcNdt
  by_cases h : c.vc.div3 = true
  · rw [if_pos h]
    by_cases h1 : s.ds0 > 0 <;> by_cases h2 : s.ds1 > 0 <;> simp only [h1, h2, if_true, if_false, derStash, and_true, and_false] <;> exact ⟨rfl, rfl, rfl⟩
  · rw [if_neg h]; exact Same.refl s

/-- a linear functional `S`, and equation `e` whose forcing has `S = 0` and which the absorber leaves alone -/
structure Quiet (c : Cfg K X n T) (tr : I → X → X) (S : (X → K) → K) (e : Nat) : Prop where
  lin : ∀ f g (k : K), S (fun x => f x + k * g x) = S f + k * S g
  force : hasRhs c e = true → ∀ dt b psi z, (∀ e, PerT tr (psi e)) → (∀ x, z e x = 0) → S (c.force dt b psi z e) = 0
  vab : c.vab = .noab ∨ ∀ d, c.vip d ≠ e

/-- what is known between steps -/
structure Inv (c : Cfg K X n T) (S : (X → K) → K) (e : Nat) (ρ : Prop) (s : St K X n Unit) : Prop where
  rhs : ρ → hasRhs c e = true → S (s.rhs e) = 0
  vrhs : (∀ d, c.vip d ≠ e) ∨ (c.vab = .noab → ∀ d x, s.vrhs d x = 0)

theorem Inv.weaken {ρ' : Prop} {S : (X → K) → K} {e : Nat} {s : St K X n Unit} (h : Inv c S e ρ s) (hr : ρ' → ρ) : Inv c S e ρ' s := ⟨fun a => h.rhs (hr a), h.vrhs⟩

variable {S : (X → K) → K} {e : Nat}

theorem Inv.same {s t : St K X n Unit} (h : Inv c S e ρ s) (g : Same s t) : Inv c S e ρ t := ⟨by rw [g.rhs]; exact h.rhs, by rw [g.vrhs]; exact h.vrhs⟩

theorem updRhs_psi (dt : K) (b : Bool) (s : St K X n Unit) : (updRhs (ideal c G coeff relax adv) dt b s).psi = s.psi := by
  funext e
  show (if e < c.nEqns then id (s.psi e) else s.psi e) = s.psi e
  split_ifs <;> rfl

theorem updRhs_inv (hq : Quiet c tr S e) (dt : K) (b : Bool) {s : St K X n Unit} (hp : ∀ e, PerT tr (s.psi e)) (h : Inv c S e ρ s) :
    Inv c S e True (updRhs (ideal c G coeff relax adv) dt b s) := by
  refine ⟨fun _ he => ?_, h.vrhs⟩
  have e1 := updRhs_psi (c := c) (G := G) (coeff := coeff) (relax := relax) (adv := adv) dt b s
  refine hq.force he dt b _ _ (by
    intro e'
    have := congrFun e1 e'
    exact (show PerT tr ((updRhs (ideal c G coeff relax adv) dt b s).psi e') by rw [this]; exact hp e')) ?_
  intro x
  show (if hasRhs c e = true then asgG (ideal c G coeff relax adv) (fun _ => 0) (s.rhs e) else s.rhs e) x = 0
  rw [if_pos he]; rfl

theorem appRhs_total (hq : Quiet c tr S e) (dt : K) {s : St K X n Unit} (h : Inv c S e True s) :
    S ((appRhs (ideal c G coeff relax adv) dt s).psi e) = S (s.psi e) := by
  show S (if hasRhs c e = true then asgG (ideal c G coeff relax adv) (fun x => s.psi e x + dt * s.rhs e x) (s.psi e) else s.psi e) = _
  by_cases he : hasRhs c e = true
  · rw [if_pos he]
    show S (fun x => s.psi e x + dt * s.rhs e x) = _
    rw [hq.lin, h.rhs trivial he]; ring
  · rw [if_neg he]

theorem asgVip_skip (f : Fin n → X → K → K) (psi : Nat → X → K) (h : (∀ d x v, f d x v = v) ∨ ∀ d, c.vip d ≠ e) :
    asgVip (ideal c G coeff relax adv) f psi e = psi e := by
  unfold asgVip
  generalize List.finRange n = l
  induction l generalizing psi with
  | nil => rfl
  | cons d l ih =>
    rw [List.foldl_cons, ih]
    show (if e = c.vip d then _ else psi e) = psi e
    split_ifs with h1
    · rcases h with h | h
      · funext x
        show f d x (psi e x) = _
        rw [h]
      · exact absurd h1.symm (h d)
    · rfl

theorem vabApplyS_total (hq : Quiet c tr S e) (dt : K) {s : St K X n Unit} (h : Inv c S e ρ s) :
    (vabApplyS (ideal c G coeff relax adv) dt s).psi e = s.psi e ∧ Inv c S e ρ (vabApplyS (ideal c G coeff relax adv) dt s) := by
  refine ⟨asgVip_skip (c := c) (G := G) (coeff := coeff) (relax := relax) (adv := adv) (e := e) (fun d x v => (vabApply dt v (s.vrhs d x)).1) s.psi ?_, h.rhs, .inr fun _ d x => rfl⟩
  rcases hq.vab with hv | hv
  · rcases h.vrhs with h' | h'
    · right; exact h'
    · left; intro d x v; rw [h' hv d x]; simp [vabApply]
  · right; exact hv

theorem vabFnlzS_total (hq : Quiet c tr S e) (dt : K) {s : St K X n Unit} (h : Inv c S e ρ s) :
    (vabFnlzS (ideal c G coeff relax adv) dt s).psi e = s.psi e ∧ Inv c S e ρ (vabFnlzS (ideal c G coeff relax adv) dt s) := by
  unfold vabFnlzS
  by_cases hv : c.vab = .impl
  · rw [if_pos (show (ideal c G coeff relax adv).vab = .impl from hv)]
    refine ⟨asgVip_skip (c := c) (G := G) (coeff := coeff) (relax := relax) (adv := adv) (e := e) (fun d x v => (vabFnlz dt (coeff x) (relax d x) v).1) s.psi ?_, h.rhs, .inr fun h' => by rw [hv] at h'; exact absurd h' (by decide)⟩
    rcases hq.vab with hv' | hv'
    · rw [hv] at hv'; exact absurd hv' (by decide)
    · right; exact hv'
  · rw [if_neg (show ¬ (ideal c G coeff relax adv).vab = .impl from hv)]; exact ⟨rfl, h⟩

theorem vabExplS_inv {s : St K X n Unit} (h : Inv c S e ρ s) :
    (vabExplS (ideal c G coeff relax adv) s).psi = s.psi ∧ Inv c S e ρ (vabExplS (ideal c G coeff relax adv) s) := by
  unfold vabExplS
  by_cases hv : c.vab = .expl
  · rw [if_pos (show (ideal c G coeff relax adv).vab = .expl from hv)]
    exact ⟨rfl, h.rhs, .inr fun h' => by rw [hv] at h'; exact absurd h' (by decide)⟩
  · rw [if_neg (show ¬ (ideal c G coeff relax adv).vab = .expl from hv)]; exact ⟨rfl, h⟩

theorem anteStep_total (hq : Quiet c tr S e) (dt : K) {s : St K X n Unit} (hp : ∀ e, PerT tr (s.psi e)) (h : Inv c S e (c.sch = .trapez) s) :
    S ((anteStep (ideal c G coeff relax adv) dt s).psi e) = S (s.psi e) ∧ Inv c S e True (anteStep (ideal c G coeff relax adv) dt s) := by
  have h0 : Inv c S e (c.sch = .trapez) (fillSt (ideal c G coeff relax adv) s) := h.same ⟨rfl, rfl, rfl⟩
  obtain ⟨p1, h1⟩ := vabExplS_inv (G := G) (coeff := coeff) (relax := relax) (adv := adv) h0
  have e0 : (ideal c G coeff relax adv).sch = c.sch := rfl
  unfold anteStep
  simp only [e0]
  have hp1 : ∀ e, PerT tr ((vabExplS (ideal c G coeff relax adv) (fillSt (ideal c G coeff relax adv) s)).psi e) := by rw [p1]; exact hp
  have hpe : (vabExplS (ideal c G coeff relax adv) (fillSt (ideal c G coeff relax adv) s)).psi e = s.psi e := by rw [p1]; rfl
  cases hs : c.sch
  · have h2 := updRhs_inv (G := G) (coeff := coeff) (relax := relax) (adv := adv) hq dt false hp1 h1
    obtain ⟨a, b⟩ := vabApplyS_total (G := G) (coeff := coeff) (relax := relax) (adv := adv) hq dt h2
    exact ⟨by rw [a, updRhs_psi, hpe], b⟩
  · have h2 := updRhs_inv (G := G) (coeff := coeff) (relax := relax) (adv := adv) hq dt false hp1 h1
    have h3 : Inv c S e True (appRhs (ideal c G coeff relax adv) dt (updRhs (ideal c G coeff relax adv) dt false (vabExplS (ideal c G coeff relax adv) (fillSt (ideal c G coeff relax adv) s)))) := ⟨h2.rhs, h2.vrhs⟩
    obtain ⟨a, b⟩ := vabApplyS_total (G := G) (coeff := coeff) (relax := relax) (adv := adv) hq dt h3
    exact ⟨by rw [a, appRhs_total hq dt h2, updRhs_psi, hpe], b⟩
  · have h2 : Inv c S e True (vabExplS (ideal c G coeff relax adv) (fillSt (ideal c G coeff relax adv) s)) := h1.weaken (fun _ => hs)
    have h3 : Inv c S e True (appRhs (ideal c G coeff relax adv) (dt / 2) (vabExplS (ideal c G coeff relax adv) (fillSt (ideal c G coeff relax adv) s))) := ⟨h2.rhs, h2.vrhs⟩
    obtain ⟨a, b⟩ := vabApplyS_total (G := G) (coeff := coeff) (relax := relax) (adv := adv) hq dt h3
    exact ⟨by rw [a, appRhs_total hq _ h2, hpe], b⟩

theorem postStep_total (hq : Quiet c tr S e) (dt : K) {s : St K X n Unit} (hp : ∀ e, PerT tr (s.psi e)) (h : Inv c S e True s) :
    S ((postStep (ideal c G coeff relax adv) dt s).psi e) = S (s.psi e) ∧ Inv c S e True (postStep (ideal c G coeff relax adv) dt s) := by
  have e0 : (ideal c G coeff relax adv).sch = c.sch := rfl
  unfold postStep
  simp only [e0]
  cases hs : c.sch
  · have h3 : Inv c S e True (appRhs (ideal c G coeff relax adv) dt s) := ⟨h.rhs, h.vrhs⟩
    obtain ⟨a, b⟩ := vabFnlzS_total (G := G) (coeff := coeff) (relax := relax) (adv := adv) hq dt h3
    exact ⟨by rw [a, appRhs_total hq _ h], b⟩
  · obtain ⟨a, b⟩ := vabFnlzS_total (G := G) (coeff := coeff) (relax := relax) (adv := adv) hq dt h
    exact ⟨by rw [a], b⟩
  · have h2 := updRhs_inv (G := G) (coeff := coeff) (relax := relax) (adv := adv) hq (dt / 2) true hp h
    have h3 : Inv c S e True (appRhs (ideal c G coeff relax adv) (dt / 2) (updRhs (ideal c G coeff relax adv) (dt / 2) true s)) := ⟨h2.rhs, h2.vrhs⟩
    obtain ⟨a, b⟩ := vabFnlzS_total (G := G) (coeff := coeff) (relax := relax) (adv := adv) hq dt h3
    exact ⟨by rw [a, appRhs_total hq _ h2, updRhs_psi], b⟩

/-- advection keeps `S` -/
def AdvKeeps (c : Cfg K X n T) (tr : I → X → X) (adv : (GC ndt ndtt : Fin n → X → K) → Bool → (X → K) → (X → K)) (S : (X → K) → K) : Prop :=
  ∀ GC ndt ndtt f psi, PerT tr psi → (∀ d, PerT tr (GC d)) → (c.vc.div3 = true → ∀ d, PerT tr (ndt d)) → (c.vc.div3 = true → ∀ d, PerT tr (ndtt d)) → S (adv GC ndt ndtt f psi) = S psi

theorem advEqs_total (hL : Link c tr H HF G coeff relax adv) (ha : AdvKeeps c tr adv S) (filt : Bool) (l : List Nat) (hl : ∀ e ∈ l, e < c.nEqns) :
    ∀ {s : St K X n T} {s' : St K X n Unit}, RelG c tr HF ρ s s' →
    S ((l.foldl (advEq (ideal c G coeff relax adv) filt) s').psi e) = S (s'.psi e) ∧ (l.foldl (advEq (ideal c G coeff relax adv) filt) s').rhs = s'.rhs ∧
      (l.foldl (advEq (ideal c G coeff relax adv) filt) s').vrhs = s'.vrhs := by
  induction l with
  | nil => exact fun h => ⟨rfl, rfl, rfl⟩
  | cons q l ih =>
    intro s s' h
    obtain ⟨a, b, d⟩ := ih (fun e' he' => hl e' (by simp [he'])) (advEq_rel hL filt q (hl q (by simp)) h)
    rw [List.foldl_cons, b, d, a]
    refine ⟨?_, rfl, rfl⟩
    show S (if e = q then adv s'.GC s'.ndt s'.ndtt filt (s'.psi q) else s'.psi e) = _
    split_ifs with he
    · rw [ha _ _ _ _ _ (h.perPsi q) h.perGC h.perN h.perNN, he]
    · rfl

theorem step_total (hL : Link c tr H HF G coeff relax adv) (hw : Wf c.toUser) (ha : AdvKeeps c tr adv S) (hq : Quiet c tr S e) (filt : Bool) (first : K) (more : List K)
    {s : St K X n T} {s' : St K X n Unit} (h : Rel c tr HF (c.sch = .trapez) s s') (hI : Inv c S e (c.sch = .trapez) s') :
    S ((step (ideal c G coeff relax adv) filt first more s').psi e) = S (s'.psi e) ∧ Inv c S e (c.sch = .trapez) (step (ideal c G coeff relax adv) filt first more s') := by
  have h1 : RelG c tr HF (c.sch = .trapez) ((first :: more).foldl (calcGc c) s) ((first :: more).foldl (calcGc (ideal c G coeff relax adv)) s') :=
    calcGcs_rel hL hw more (calcGc_rel hL hw first h)
  have h2 := calcNdt_rel hL hw ((first :: more).getLast (by simp)) h1
  have h3 := anteStep_rel hL hw ((first :: more).getLast (by simp)) h2
  have h4 := advEqs_rel hL filt (eqOrder c) (eqOrder_lt c) h3
  have sm : Same s' (calcNdt (ideal c G coeff relax adv) ((first :: more).getLast (by simp)) ((first :: more).foldl (calcGc (ideal c G coeff relax adv)) s')) :=
    (calcGcs_same _ (first :: more) s').trans (calcNdt_same _ _ _)
  obtain ⟨a1, i1⟩ := anteStep_total (G := G) (coeff := coeff) (relax := relax) (adv := adv) hq ((first :: more).getLast (by simp)) h2.perPsi (hI.same sm)
  obtain ⟨a2, r2, v2⟩ := advEqs_total (e := e) hL ha filt (eqOrder c) (eqOrder_lt c) h3
  have i2 : Inv c S e True ((eqOrder (ideal c G coeff relax adv)).foldl (advEq (ideal c G coeff relax adv) filt) (anteStep (ideal c G coeff relax adv) ((first :: more).getLast (by simp))
      (calcNdt (ideal c G coeff relax adv) ((first :: more).getLast (by simp)) ((first :: more).foldl (calcGc (ideal c G coeff relax adv)) s')))) :=
    ⟨by rw [show eqOrder (ideal c G coeff relax adv) = eqOrder c from rfl, r2]; exact i1.rhs, by rw [show eqOrder (ideal c G coeff relax adv) = eqOrder c from rfl, v2]; exact i1.vrhs⟩
  unfold step
  simp only
  have fin := fun (r : St K X n Unit) (hp : ∀ e, PerT tr (r.psi e)) (i : Inv c S e True r) (dt : K) (k : Nat) (d1 : K) =>
    postStep_total (G := G) (coeff := coeff) (relax := relax) (adv := adv) (s := { r with timestep := k, ds1 := d1, ds0 := dt }) hq dt hp ⟨i.rhs, i.vrhs⟩
  obtain ⟨a3, i3⟩ := fin _ h4.perPsi i2 ((first :: more).getLast (by simp)) _ _
  refine ⟨a3.trans ?_, i3.weaken (fun _ => trivial)⟩
  show S (((eqOrder c).foldl (advEq (ideal c G coeff relax adv) filt) _).psi e) = _
  rw [a2, a1, sm.psi]

theorem anteLoop_total (hq : Quiet c tr S e) (dt0 : K) {psi0 : Nat → X → K} (perPsi : ∀ e, PerT tr (psi0 e)) :
    S ((anteLoop (ideal c G coeff relax adv) dt0 (start psi0)).psi e) = S (psi0 e) ∧ Inv c S e (c.sch = .trapez) (anteLoop (ideal c G coeff relax adv) dt0 (start psi0)) := by
  have e0 : (ideal c G coeff relax adv).sch = c.sch := rfl
  have e1 : (ideal c G coeff relax adv).vc = c.vc := rfl
  have hv : ∀ s : St K X n Unit, c.vab = .noab → ∀ d x, (vabInitS (ideal c G coeff relax adv) s).vrhs d x = 0 := by
    intro s hv d x
    show (if c.vab = .impl then _ else (0 : K)) = 0
    rw [hv]; rfl
  unfold anteLoop
  simp only [e0, e1]
  cases hs : c.sch
  · refine ⟨?_, fun h => by simp at h, .inr (hv _)⟩
    show S (St.psi (if _ then _ else _) e) = _
    split_ifs <;> rfl
  · refine ⟨?_, fun h => by simp at h, .inr (hv _)⟩
    show S (St.psi (if _ then _ else _) e) = _
    split_ifs <;> rfl
  · have key : ∀ r : St K X n Unit, r.psi = psi0 → S ((updRhs (ideal c G coeff relax adv) (dt0 / 2) false r).psi e) = S (psi0 e) ∧
        (hasRhs c e = true → S ((updRhs (ideal c G coeff relax adv) (dt0 / 2) false r).rhs e) = 0) := by
      intro r hr
      refine ⟨by rw [updRhs_psi, hr], fun he => ?_⟩
      have := updRhs_inv (G := G) (coeff := coeff) (relax := relax) (adv := adv) (ρ := False) (s := { r with vrhs := fun _ _ => 0 }) hq (dt0 / 2) false (by rw [show ({ r with vrhs := fun _ _ => 0 } : St K X n Unit).psi = psi0 from hr]; exact perPsi) ⟨fun h => h.elim, .inr fun _ _ _ => rfl⟩
      exact this.rhs trivial he
    have hk := key (if c.vc.div3 = true then
          { { start psi0 with GC := fun _ _ => 0, stash := fun b d => if b = stashBlk c.vc 0 1 ∨ (c.vc.div3 = true ∧ b = stashBlk c.vc 0 2) then asgG (ideal c G coeff relax adv) (fun _ => 0) ((start psi0 : St K X n Unit).stash b d) else (start psi0 : St K X n Unit).stash b d } with
            ndt := fun _ _ => 0, ndtt := fun _ _ => 0 }
        else { start psi0 with GC := fun _ _ => 0, stash := fun b d => if b = stashBlk c.vc 0 1 ∨ (c.vc.div3 = true ∧ b = stashBlk c.vc 0 2) then asgG (ideal c G coeff relax adv) (fun _ => 0) ((start psi0 : St K X n Unit).stash b d) else (start psi0 : St K X n Unit).stash b d }) (by split_ifs <;> rfl)
    exact ⟨hk.1, fun _ he => hk.2 he, .inr (hv _)⟩

theorem run_total (hL : Link c tr H HF G coeff relax adv) (hw : Wf c.toUser) (ha : AdvKeeps c tr adv S) (hq : Quiet c tr S e) (dt0 : K) (filt : Nat → Bool) (first : Nat → K)
    (more : Nat → List K) {s : St K X n T} {psi0 : Nat → X → K} (ts : s.timestep = 0) (d0 : s.ds0 = 0) (d1 : s.ds1 = 0)
    (perPsi : ∀ e, PerT tr (psi0 e)) (psi : ∀ e, e < c.nEqns → ∀ x, c.grid x = true → s.psi e x = psi0 e x) (t : Nat) :
    S ((run (ideal c G coeff relax adv) dt0 filt first more (start psi0) t).psi e) = S (psi0 e) ∧
      Inv c S e (c.sch = .trapez) (run (ideal c G coeff relax adv) dt0 filt first more (start psi0) t) := by
  induction t with
  | zero => exact anteLoop_total hq dt0 perPsi
  | succ t ih =>
    have hr := run_rel hL hw dt0 filt first more ts d0 d1 perPsi psi t
    obtain ⟨a, b⟩ := step_total (e := e) hL hw ha hq (filt t) (first t) (more t) hr ih.2
    exact ⟨a.trans ih.1, b⟩

end Mpdata.VP
