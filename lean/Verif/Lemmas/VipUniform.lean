import Verif.Lemmas.VipRest
/-! Uniform flow on the unbounded grid. -/
set_option linter.unusedSectionVars false
set_option linter.unusedVariables false
namespace Mpdata.VP
variable {K X : Type} [Field K] [LinearOrder K] {n : Nat} {T : Type}
variable {ρ : Prop} {c : Cfg K X n T} {G coeff : X → K} {relax : Fin n → X → K} {adv : (GC ndt ndtt : Fin n → X → K) → Bool → (X → K) → (X → K)} {v : Nat → K}

/-- uniform fields, kept velocities and advectors, no forcing -/
structure Unif (c : Cfg K X n T) (v : Nat → K) (ρ : Prop) (s : St K X n Unit) : Prop where
  psi : ∀ e, e < c.nEqns → ∀ x, s.psi e x = v e
  stash : ∃ σ : Nat → Fin n → K, ∀ b d x, s.stash b d x = σ b d
  ndt : ∃ δ : Fin n → K, ∀ d x, s.ndt d x = δ d
  ndtt : ∃ δ : Fin n → K, ∀ d x, s.ndtt d x = δ d
  GC : ∃ γ : Fin n → K, ∀ d x, s.GC d x = γ d
  vrhs : ∀ d x, s.vrhs d x = 0
  rhs : ρ → ∀ e, hasRhs c e = true → ∀ x, s.rhs e x = 0

theorem Unif.weaken {ρ' : Prop} {s : St K X n Unit} (h : Unif c v ρ s) (hr : ρ' → ρ) : Unif c v ρ' s := ⟨h.psi, h.stash, h.ndt, h.ndtt, h.GC, h.vrhs, fun a => h.rhs (hr a)⟩

/-- on the uniform state `v` there is no forcing, no absorber, and advection by a uniform advector leaves uniform fields alone -/
structure UnifOk (c : Cfg K X n T) (adv : (GC ndt ndtt : Fin n → X → K) → Bool → (X → K) → (X → K)) (G : X → K) (v : Nat → K) : Prop where
  vab : c.vab = .noab
  G : ∃ g, ∀ x, G x = g
  force : ∀ dt b psi z, (∀ e, e < c.nEqns → ∀ x, psi e x = v e) → (∀ e, hasRhs c e = true → ∀ x, z e x = 0) → ∀ e, hasRhs c e = true → ∀ x, c.force dt b psi z e x = 0
  adv : ∀ f (γ δ δ' : Fin n → K) (k : K), adv (fun d _ => γ d) (fun d _ => δ d) (fun d _ => δ' d) f (fun _ => k) = fun _ => k

/-- the velocity of the uniform state -/
def uvel (c : Cfg K X n T) (v : Nat → K) (d : Fin n) : K := velOf (c.den.map v) c.veps (v (c.vip d))

theorem vel_unif (hw : Wf c.toUser) {s : St K X n Unit} (h : Unif c v ρ s) (d : Fin n) (x : X) : vel (ideal c G coeff relax adv) s.psi d x = uvel c v d := by
  show velOf (c.den.map fun e => s.psi e x) c.veps (s.psi (c.vip d) x) = _
  unfold uvel
  rw [h.psi _ (hw.vip d)]
  cases hd : c.den with
  | none => rfl
  | some e => show velOf (some (s.psi e x)) _ _ = velOf (some (v e)) _ _; rw [h.psi e (hw.den e hd)]

theorem calcGc_unif (hw : Wf c.toUser) (hr : UnifOk c adv G v) (dt : K) {s : St K X n Unit} (h : Unif c v ρ s) : Unif c v ρ (calcGc (ideal c G coeff relax adv) s dt) := by
  obtain ⟨σ, hσ⟩ := h.stash
  obtain ⟨g, hg⟩ := hr.G
  have ex : ∀ b d x, extrapolate (ideal c G coeff relax adv) dt s b d x = extrp c.vc s.timestep dt s.ds0 (uvel c v d) (fun b => σ b d) b := by
    intro b d x
    have : extrapolate (ideal c G coeff relax adv) dt s b d x = extrp c.vc s.timestep dt s.ds0 (vel (ideal c G coeff relax adv) s.psi d x) (fun b => s.stash b d x) b := by
      unfold extrapolate
      by_cases h0 : b = 0
      · rw [if_pos h0, h0]; rfl
      · rw [if_neg h0]; rfl
    rw [this, vel_unif hw h]
    simp only [hσ]
  refine ⟨h.psi, ⟨_, ex⟩, h.ndt, h.ndtt, ⟨fun d => intrpFace dt (c.dx d) g g (extrp c.vc s.timestep dt s.ds0 (uvel c v d) (fun b => σ b d) 0) (extrp c.vc s.timestep dt s.ds0 (uvel c v d) (fun b => σ b d) 0), ?_⟩, h.vrhs, h.rhs⟩
  intro d x
  show intrpFace dt (c.dx d) (G x) (G (c.sh x d 1)) (extrapolate (ideal c G coeff relax adv) dt s 0 d x) (extrapolate (ideal c G coeff relax adv) dt s 0 d (c.sh x d 1)) = _
  rw [ex, ex, hg, hg]

theorem derStash_unif {val : Fin n → X → K} (hv : ∃ w : Fin n → K, ∀ d x, val d x = w d) {s : St K X n Unit} (h : Unif c v ρ s) : Unif c v ρ (derStash (ideal c G coeff relax adv) val s) := by
  obtain ⟨σ, hσ⟩ := h.stash
  obtain ⟨w, hw⟩ := hv
  refine ⟨h.psi, ⟨fun b d => if b = 0 then w d else σ b d, ?_⟩, h.ndt, h.ndtt, h.GC, h.vrhs, h.rhs⟩
  intro b d x
  show (if b = 0 then asgG (ideal c G coeff relax adv) (val d) (s.stash 0 d) else s.stash b d) x = if b = 0 then w d else σ b d
  by_cases hb : b = 0
  · rw [if_pos hb, if_pos hb]; exact hw d x
  · rw [if_neg hb, if_neg hb]; exact hσ b d x

theorem interp_unif (hr : UnifOk c adv G v) (dt : K) {s : St K X n Unit} (h : Unif c v ρ s) (dst : Fin n → X → K) :
    ∃ δ : Fin n → K, ∀ d x, interp (ideal c G coeff relax adv) dt (s.stash 0) dst d x = δ d := by
  obtain ⟨σ, hσ⟩ := h.stash
  obtain ⟨g, hg⟩ := hr.G
  refine ⟨fun d => intrpFace dt (c.dx d) g g (σ 0 d) (σ 0 d), fun d x => ?_⟩
  show intrpFace dt (c.dx d) (G x) (G (c.sh x d 1)) (s.stash 0 d x) (s.stash 0 d (c.sh x d 1)) = _
  rw [hσ, hσ, hg, hg]

theorem calcNdt_unif (hw : Wf c.toUser) (hr : UnifOk c adv G v) (dt : K) {s : St K X n Unit} (h : Unif c v ρ s) : Unif c v ρ (calcNdt (ideal c G coeff relax adv) dt s) := by
  have one : ∀ s : St K X n Unit, Unif c v ρ s → Unif c v ρ (if s.ds0 > 0 then
        let s := derStash (ideal c G coeff relax adv) (fun d x => dt * (s.psi (c.vip d) x - s.stash (stashBlk c.vc s.timestep 1) d x) / s.ds0) s
        { s with ndt := interp (ideal c G coeff relax adv) dt (s.stash 0) s.ndt }
      else s) := by
    intro s h
    obtain ⟨σ, hσ⟩ := h.stash
    split_ifs
    · have h1 := derStash_unif (G := G) (coeff := coeff) (relax := relax) (adv := adv) (val := fun d x => dt * (s.psi (c.vip d) x - s.stash (stashBlk c.vc s.timestep 1) d x) / s.ds0)
        ⟨fun d => dt * (v (c.vip d) - σ (stashBlk c.vc s.timestep 1) d) / s.ds0, fun d x => by rw [h.psi _ (hw.vip d), hσ]⟩ h
      exact ⟨h1.psi, h1.stash, interp_unif hr dt h1 s.ndt, h1.ndtt, h1.GC, h1.vrhs, h1.rhs⟩
    · exact h
  have two : ∀ s : St K X n Unit, Unif c v ρ s → Unif c v ρ (if s.ds0 > 0 ∧ s.ds1 > 0 then
        let s := derStash (ideal c G coeff relax adv) (fun d x => dt * dt * (s.ds1 * s.psi (c.vip d) x - (s.ds1 + s.ds0) * s.stash (stashBlk c.vc s.timestep 1) d x
        + s.ds0 * s.stash (stashBlk c.vc s.timestep 2) d x) / (s.ds0 * s.ds1 * (1 / 2) * (s.ds0 + s.ds1))) s
        { s with ndtt := interp (ideal c G coeff relax adv) dt (s.stash 0) s.ndtt }
      else s) := by
    intro s h
    obtain ⟨σ, hσ⟩ := h.stash
    split_ifs
    · have h1 := derStash_unif (G := G) (coeff := coeff) (relax := relax) (adv := adv) (val := fun d x => dt * dt * (s.ds1 * s.psi (c.vip d) x - (s.ds1 + s.ds0) * s.stash (stashBlk c.vc s.timestep 1) d x
        + s.ds0 * s.stash (stashBlk c.vc s.timestep 2) d x) / (s.ds0 * s.ds1 * (1 / 2) * (s.ds0 + s.ds1)))
        ⟨fun d => dt * dt * (s.ds1 * v (c.vip d) - (s.ds1 + s.ds0) * σ (stashBlk c.vc s.timestep 1) d
        + s.ds0 * σ (stashBlk c.vc s.timestep 2) d) / (s.ds0 * s.ds1 * (1 / 2) * (s.ds0 + s.ds1)), fun d x => by rw [h.psi _ (hw.vip d), hσ, hσ]⟩ h
      exact ⟨h1.psi, h1.stash, h1.ndt, interp_unif hr dt h1 s.ndtt, h1.GC, h1.vrhs, h1.rhs⟩
    · exact h
  unfold calcNdt
  by_cases hd : c.vc.div3 = true
  · rw [if_pos (show (ideal c G coeff relax adv).vc.div3 = true from hd)]
    exact two _ (one _ h)
  · rw [if_neg (show ¬ (ideal c G coeff relax adv).vc.div3 = true from hd)]; exact h

theorem updRhs_unif (hr : UnifOk c adv G v) (dt : K) (b : Bool) {s : St K X n Unit} (h : Unif c v ρ s) : Unif c v True (updRhs (ideal c G coeff relax adv) dt b s) := by
  have e1 := updRhs_psi (c := c) (G := G) (coeff := coeff) (relax := relax) (adv := adv) dt b s
  refine ⟨by rw [e1]; exact h.psi, h.stash, h.ndt, h.ndtt, h.GC, h.vrhs, fun _ e he x => ?_⟩
  refine hr.force dt b _ _ ?_ ?_ e he x
  · intro e' he' x
    have := congrFun (congrFun e1 e') x
    exact this.trans (h.psi e' he' x)
  · intro e' he' x
    show (if hasRhs c e' = true then asgG (ideal c G coeff relax adv) (fun _ => 0) (s.rhs e') else s.rhs e') x = 0
    rw [if_pos he']; rfl

theorem appRhs_unif (dt : K) {s : St K X n Unit} (h : Unif c v True s) : Unif c v True (appRhs (ideal c G coeff relax adv) dt s) := by
  refine ⟨fun e he x => ?_, h.stash, h.ndt, h.ndtt, h.GC, h.vrhs, h.rhs⟩
  show (if hasRhs c e = true then asgG (ideal c G coeff relax adv) (fun x => s.psi e x + dt * s.rhs e x) (s.psi e) else s.psi e) x = v e
  by_cases hh : hasRhs c e = true
  · rw [if_pos hh]
    show s.psi e x + dt * s.rhs e x = v e
    rw [h.rhs trivial e hh, h.psi e he]; ring
  · rw [if_neg hh]; exact h.psi e he x

theorem vabApplyS_unif (dt : K) {s : St K X n Unit} (h : Unif c v ρ s) : Unif c v ρ (vabApplyS (ideal c G coeff relax adv) dt s) := by
  refine ⟨fun e he x => ?_, h.stash, h.ndt, h.ndtt, h.GC, fun d x => rfl, h.rhs⟩
  have := asgVip_skip (c := c) (G := G) (coeff := coeff) (relax := relax) (adv := adv) (e := e) (fun d x v => (vabApply dt v (s.vrhs d x)).1) s.psi
    (.inl fun d x v => by rw [h.vrhs d x]; simp [vabApply])
  exact (congrFun this x).trans (h.psi e he x)

theorem anteStep_unif (hw : Wf c.toUser) (hr : UnifOk c adv G v) (dt : K) {s : St K X n Unit} (h : Unif c v (c.sch = .trapez) s) : Unif c v True (anteStep (ideal c G coeff relax adv) dt s) := by
  obtain ⟨σ, hσ⟩ := h.stash
  have h1 : Unif c v (c.sch = .trapez) (fillSt (ideal c G coeff relax adv) s) := by
    refine ⟨h.psi, ⟨fun b d => fillStash c.vc s.timestep (uvel c v d) (fun b => σ b d) b, fun b d x => ?_⟩, h.ndt, h.ndtt, h.GC, h.vrhs, h.rhs⟩
    show fillStash c.vc s.timestep (vel (ideal c G coeff relax adv) s.psi d x) (fun b => s.stash b d x) b = _
    rw [vel_unif hw h]; simp only [hσ]
  have h2 : Unif c v (c.sch = .trapez) (vabExplS (ideal c G coeff relax adv) (fillSt (ideal c G coeff relax adv) s)) := by
    unfold vabExplS
    rw [if_neg (show ¬ (ideal c G coeff relax adv).vab = .expl from fun hh => by rw [show (ideal c G coeff relax adv).vab = c.vab from rfl, hr.vab] at hh; cases hh)]; exact h1
  have e0 : (ideal c G coeff relax adv).sch = c.sch := rfl
  unfold anteStep
  simp only [e0]
  cases hs : c.sch
  · exact vabApplyS_unif dt (updRhs_unif hr dt false h2)
  · exact vabApplyS_unif dt (appRhs_unif dt (updRhs_unif hr dt false h2))
  · exact vabApplyS_unif dt (appRhs_unif _ (h2.weaken (fun _ => hs)))

theorem advEqs_unif (hr : UnifOk c adv G v) (filt : Bool) (l : List Nat) (hl : ∀ e ∈ l, e < c.nEqns) : ∀ {s : St K X n Unit}, Unif c v ρ s → Unif c v ρ (l.foldl (advEq (ideal c G coeff relax adv) filt) s) := by
  induction l with
  | nil => exact fun h => h
  | cons q l ih =>
    intro s h
    rw [List.foldl_cons]
    refine ih (fun e' he' => hl e' (by simp [he'])) ⟨fun e he x => ?_, h.stash, h.ndt, h.ndtt, h.GC, h.vrhs, h.rhs⟩
    show (if e = q then adv s.GC s.ndt s.ndtt filt (s.psi q) else s.psi e) x = v e
    split_ifs with h1
    · subst h1
      obtain ⟨γ, hγ⟩ := h.GC
      obtain ⟨δ, hδ⟩ := h.ndt
      obtain ⟨δ', hδ'⟩ := h.ndtt
      rw [show s.GC = fun d _ => γ d from funext fun d => funext fun x => hγ d x, show s.ndt = fun d _ => δ d from funext fun d => funext fun x => hδ d x,
        show s.ndtt = fun d _ => δ' d from funext fun d => funext fun x => hδ' d x, show s.psi e = fun _ => v e from funext fun x => h.psi e he x, hr.adv]
    · exact h.psi e he x

theorem postStep_unif (hr : UnifOk c adv G v) (dt : K) {s : St K X n Unit} (h : Unif c v True s) : Unif c v True (postStep (ideal c G coeff relax adv) dt s) := by
  have e0 : (ideal c G coeff relax adv).sch = c.sch := rfl
  have fz : ∀ {s : St K X n Unit}, Unif c v True s → Unif c v True (vabFnlzS (ideal c G coeff relax adv) dt s) := by
    intro s h
    unfold vabFnlzS
    rw [if_neg (show ¬ (ideal c G coeff relax adv).vab = .impl from fun hh => by rw [show (ideal c G coeff relax adv).vab = c.vab from rfl, hr.vab] at hh; cases hh)]; exact h
  unfold postStep
  simp only [e0]
  refine fz ?_
  cases hs : c.sch
  · exact appRhs_unif _ h
  · exact h
  · exact appRhs_unif _ (updRhs_unif hr _ true h)

theorem calcGcs_unif (hw : Wf c.toUser) (hr : UnifOk c adv G v) (l : List K) : ∀ {s : St K X n Unit}, Unif c v ρ s → Unif c v ρ (l.foldl (calcGc (ideal c G coeff relax adv)) s) := by
  induction l with
  | nil => exact fun h => h
  | cons a l ih => intro s h; rw [List.foldl_cons]; exact ih (calcGc_unif hw hr a h)

theorem run_unif (hw : Wf c.toUser) (hr : UnifOk c adv G v) (dt0 : K) (filt : Nat → Bool) (first : Nat → K) (more : Nat → List K) {psi0 : Nat → X → K}
    (h0 : ∀ e, e < c.nEqns → ∀ x, psi0 e x = v e) (t : Nat) : Unif c v (c.sch = .trapez) (run (ideal c G coeff relax adv) dt0 filt first more (start psi0) t) := by
  induction t with
  | zero =>
    have e0 : (ideal c G coeff relax adv).sch = c.sch := rfl
    have e1 : (ideal c G coeff relax adv).vc = c.vc := rfl
    have vi : ∀ {ρ : Prop} {s : St K X n Unit}, Unif c v ρ s → Unif c v ρ (vabInitS (ideal c G coeff relax adv) s) := by
      intro ρ s h
      refine ⟨h.psi, h.stash, h.ndt, h.ndtt, h.GC, fun d x => ?_, h.rhs⟩
      show (if c.vab = .impl then _ else (0 : K)) = 0
      rw [hr.vab]; rfl
    show Unif c v _ (anteLoop _ _ _)
    unfold anteLoop
    refine vi ?_
    simp only [e0, e1]
    have hst : ∀ b d x, (if b = stashBlk c.vc 0 1 ∨ (c.vc.div3 = true ∧ b = stashBlk c.vc 0 2) then asgG (ideal c G coeff relax adv) (fun _ => 0) ((start psi0 : St K X n Unit).stash b d) else (start psi0 : St K X n Unit).stash b d) x = 0 := by
      intro b d x; split_ifs <;> rfl
    have base : Unif c v False (if c.vc.div3 = true then
            { { start psi0 with GC := fun _ _ => 0, stash := fun b d => if b = stashBlk c.vc 0 1 ∨ (c.vc.div3 = true ∧ b = stashBlk c.vc 0 2) then asgG (ideal c G coeff relax adv) (fun _ => 0) ((start psi0 : St K X n Unit).stash b d) else (start psi0 : St K X n Unit).stash b d } with
              ndt := fun _ _ => 0, ndtt := fun _ _ => 0 }
          else { start psi0 with GC := fun _ _ => 0, stash := fun b d => if b = stashBlk c.vc 0 1 ∨ (c.vc.div3 = true ∧ b = stashBlk c.vc 0 2) then asgG (ideal c G coeff relax adv) (fun _ => 0) ((start psi0 : St K X n Unit).stash b d) else (start psi0 : St K X n Unit).stash b d }) := by
      split_ifs <;> exact ⟨h0, ⟨fun _ _ => 0, hst⟩, ⟨fun _ => 0, fun _ _ => rfl⟩, ⟨fun _ => 0, fun _ _ => rfl⟩, ⟨fun _ => 0, fun _ _ => rfl⟩, fun _ _ => rfl, fun h => h.elim⟩
    cases hs : c.sch
    · exact base.weaken (fun h => by simp at h)
    · exact base.weaken (fun h => by simp at h)
    · exact (updRhs_unif hr _ false base).weaken (fun _ => trivial)
  | succ t ih =>
    have h1 := calcGcs_unif (G := G) (coeff := coeff) (relax := relax) hw hr (first t :: more t) ih
    have h2 := calcNdt_unif (G := G) (coeff := coeff) (relax := relax) hw hr ((first t :: more t).getLast (by simp)) h1
    have h3 := anteStep_unif (G := G) (coeff := coeff) (relax := relax) hw hr ((first t :: more t).getLast (by simp)) h2
    have h4 := advEqs_unif (G := G) (coeff := coeff) (relax := relax) hr (filt t) (eqOrder c) (eqOrder_lt c) h3
    have h5 : ∀ (r : St K X n Unit) (k : Nat) (d1 dt : K), Unif c v True r → Unif c v True (postStep (ideal c G coeff relax adv) dt { r with timestep := k, ds1 := d1, ds0 := dt }) :=
      fun r k d1 dt h => postStep_unif hr dt ⟨h.psi, h.stash, h.ndt, h.ndtt, h.GC, h.vrhs, h.rhs⟩
    exact (h5 _ _ _ _ h4).weaken (fun _ => trivial)

end Mpdata.VP
