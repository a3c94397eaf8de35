import Verif.Lemmas.PrsRest
import Verif.Lemmas.Still
/-! A fluid at rest with any distribution of the other variables, forces in balance: the run goes on forever and nothing changes; any boundaries. -/
set_option linter.unusedSectionVars false
set_option linter.unusedVariables false
namespace Mpdata.PP
open Prs (inBox)
variable {K : Type} [Field K] [LinearOrder K] [IsStrictOrderedRing K] {n : Nat} {T : Type} {c : Cfg K n T}

/-- the faces of dimension `d` around grid points -/
def facePt (N : Fin n → Nat) (d : Fin n) (x : Idx n) : Prop := (∀ e, e ≠ d → 0 ≤ x e ∧ x e ≤ (N e : Int) - 1) ∧ -1 ≤ x d ∧ x d ≤ (N d : Int) - 1

/-- interpolating a field that is zero on the grid -/
theorem interp_zero (ok : Ok c) (F : Faces c) {z : Fin n → Idx n → K} (hz : ∀ d x, inBox c.N x → z d x = 0) (junk dst : Fin n → Idx n → K) (dt : K) (d : Fin n) {x : Idx n} (hx : facePt c.N d x) :
    VP.interp c.toCfg dt (fun d => c.xchngP (fun x => if c.grid x then z d x else junk d x)) dst d x = 0 := by
  set src : Fin n → Idx n → K := fun d => c.xchngP (fun x => if c.grid x then z d x else junk d x) with hsrc
  have hN2 := F.two d
  have cIn : ∀ y, inBox c.N y → (if c.grid y then z d y else junk d y) = 0 := fun y hy => by rw [if_pos ((ok.grid y).2 hy), hz d y hy]
  have sIn : ∀ y, inBox c.N y → src d y = 0 := fun y hy => (F.pIn _ _ hy).trans (cIn y hy)
  have raw : ∀ y, src d y = 0 → src d (stepIdx y d 1) = 0 → facePt c.N d y →
      (if c.face d y then intrpFace dt (c.dx d) (c.G y) (c.G (c.sh y d 1)) (src d y) (src d (c.sh y d 1)) else dst d y) = 0 := by
    intro y h1 h2 h3
    rw [if_pos (F.face d y h3.1 h3.2.1 h3.2.2), F.sh, h1, h2]; unfold intrpFace; ring
  have off : ∀ (y : Idx n) (k : Int) (e : Fin n), e ≠ d → stepIdx y d k e = y e := fun y k e he => by unfold stepIdx; simp [he]
  have atd : ∀ (y : Idx n) (k : Int), stepIdx y d k d = y d + k := fun y k => by unfold stepIdx; simp
  have fB : ∀ y, inBox c.N y → facePt c.N d y := fun y hy => ⟨fun e _ => hy e, by have := hy d; omega, (hy d).2⟩
  show c.fillGC (fun d x => if c.face d x then intrpFace dt (c.dx d) (c.G x) (c.G (c.sh x d 1)) (src d x) (src d (c.sh x d 1)) else dst d x) d x = 0
  by_cases h0 : x d = -1
  · obtain ⟨y, rfl⟩ : ∃ y, x = stepIdx y d (-1) := ⟨stepIdx x d 1, by rw [step_step]; simp [step_zero]⟩
    have hyd : y d = 0 := by have := atd y (-1); omega
    have hy : inBox c.N y := fun e => by
      by_cases he : e = d
      · subst he; omega
      · have := hx.1 e he; rw [off y _ e he] at this; exact this
    rw [F.gLeft _ d y hy hyd]
    by_cases hk : c.kind d = .cyclic
    · rw [if_pos hk]
      have h1 := box_step hy d ((c.N d : Int) - 2) (by omega) (by omega)
      refine raw _ (sIn _ h1) (sIn _ ?_) (fB _ h1)
      rw [step_step]; exact box_step hy d _ (by omega) (by omega)
    · rw [if_neg hk]
      refine raw _ ?_ ?_ hx
      · refine (F.pLeft _ d y hk hy hyd).trans ?_
        rw [cIn y hy, cIn _ (box_step hy d 1 (by omega) (by omega))]; ring
      · rw [step_step]; simp only [neg_add_cancel, step_zero]; exact sIn y hy
  · have hx' : inBox c.N x := fun e => by
      by_cases he : e = d
      · subst he; exact ⟨by have := hx.2.1; omega, hx.2.2⟩
      · exact hx.1 e he
    by_cases h1 : x d ≤ (c.N d : Int) - 2
    · rw [F.gIn _ d x hx' h1]
      exact raw x (sIn x hx') (sIn _ (box_step hx' d 1 (by have := (hx' d).1; omega) (by omega))) hx
    · have h2 : x d = (c.N d : Int) - 1 := by have := hx.2.2; omega
      rw [F.gRght _ d x hx' h2]
      by_cases hk : c.kind d = .cyclic
      · rw [if_pos hk]
        have h3 := box_step hx' d (-((c.N d : Int) - 1)) (by omega) (by omega)
        refine raw _ (sIn _ h3) (sIn _ ?_) (fB _ h3)
        rw [step_step]; exact box_step hx' d _ (by omega) (by omega)
      · rw [if_neg hk]
        refine raw x (sIn x hx') ?_ hx
        refine (F.pRght _ d x hk hx' h2).trans ?_
        rw [cIn x hx', cIn _ (box_step hx' d (-1) (by omega) (by omega))]; ring

/-- program and state of rest: `p0` the state, `D` the allowed time steps of `update_rhs(.., 1)` -/
structure StillP (c : Cfg K n T) (p0 : Nat → Idx n → K) (D : K → Prop) : Prop where
  ok : Ok c
  F : Faces c
  div3 : c.vc.div3 = false
  vip : ∀ d, c.vip d < c.nEqns
  still : ∀ d x, inBox c.N x → p0 (c.vip d) x = 0
  adv : ∀ GC ndt ndtt filt t psi old, (∀ d x, facePt c.N d x → GC d x = 0) → ∀ x, inBox c.N x → (c.advop GC ndt ndtt filt t psi old).2.1 x = psi x
  vab : c.vab = .noab ∨ ∀ d x, inBox c.N x → c.coeff x * c.relax d x = 0
  force : ∀ dt at1 psi z, (at1 = true → D dt) → (∀ e, e < c.nEqns → ∀ x, inBox c.N x → psi e x = p0 e x) →
    (∀ e, e < c.nEqns → ∃ q : Idx n → K, (∀ x, inBox c.N x → q x = p0 e x) ∧ psi e = c.xchng q) → (∀ e, VP.hasRhs c.toCfg e = true → ∀ x, inBox c.N x → z e x = 0) →
    ∀ e, VP.hasRhs c.toCfg e = true → ∀ x, inBox c.N x → c.force dt at1 psi z e x = 0
  post : ∀ dt s, (∀ e, e < c.nEqns → ∀ x, inBox c.N x → s.psi e x = p0 e x) →
    (∀ e, e < c.nEqns → ∀ x, inBox c.N x → (c.post dt s).psi e x = p0 e x) ∧ (∀ e x, inBox c.N x → (c.post dt s).rhs e x = s.rhs e x) ∧ (∀ d x, inBox c.N x → (c.post dt s).vrhs d x = s.vrhs d x)

variable {p0 : Nat → Idx n → K} {D : K → Prop}

/-- what holds inside a step -/
structure StI (c : Cfg K n T) (p0 : Nat → Idx n → K) (ρ : Prop) (s : VP.St K (Idx n) n T) : Prop where
  psi : ∀ e, e < c.nEqns → ∀ x, inBox c.N x → s.psi e x = p0 e x
  rhs : ρ → ∀ e, VP.hasRhs c.toCfg e = true → ∀ x, inBox c.N x → s.rhs e x = 0
  vrhs : ∀ d x, inBox c.N x → s.vrhs d x = 0

theorem StI.weaken {ρ ρ' : Prop} {s : VP.St K (Idx n) n T} (h : StI c p0 ρ s) (i : ρ' → ρ) : StI c p0 ρ' s := ⟨h.psi, fun r => h.rhs (i r), h.vrhs⟩

theorem StillP.updRhs (h : StillP c p0 D) {ρ : Prop} (dt : K) (at1 : Bool) (hD : at1 = true → D dt) {s : VP.St K (Idx n) n T} (hs : StI c p0 ρ s) : StI c p0 True (VP.updRhs c.toCfg dt at1 s) := by
  have hp : ∀ e, e < c.nEqns → ∀ x, inBox c.N x → (if e < c.nEqns then c.xchng (s.psi e) else s.psi e) x = p0 e x := by
    intro e he x hx
    rw [if_pos he, h.ok.xchng _ x hx]; exact hs.psi e he x hx
  refine ⟨hp, fun _ e he x hx => ?_, hs.vrhs⟩
  refine h.force dt at1 _ _ hD hp (fun e he => ⟨s.psi e, hs.psi e he, if_pos he⟩) (fun e he x hx => ?_) e he x hx
  beta_reduce
  rw [if_pos he]
  exact if_pos ((h.ok.grid x).2 hx)

theorem StillP.appRhs (h : StillP c p0 D) (dt : K) {s : VP.St K (Idx n) n T} (hs : StI c p0 True s) : StI c p0 True (VP.appRhs c.toCfg dt s) := by
  refine ⟨fun e he x hx => ?_, hs.rhs, hs.vrhs⟩
  show (if VP.hasRhs c.toCfg e then VP.asgG c.toCfg (fun x => s.psi e x + dt * s.rhs e x) (s.psi e) else s.psi e) x = _
  split_ifs with hr
  · refine (if_pos ((h.ok.grid x).2 hx)).trans ?_
    beta_reduce
    rw [hs.rhs trivial e hr x hx, hs.psi e he x hx]; ring
  · exact hs.psi e he x hx

theorem StillP.asgVip (h : StillP c p0 D) (f : Fin n → Idx n → K → K) (hf : ∀ d x, inBox c.N x → f d x 0 = 0) {psi : Nat → Idx n → K} (hs : ∀ e, e < c.nEqns → ∀ x, inBox c.N x → psi e x = p0 e x) :
    ∀ e, e < c.nEqns → ∀ x, inBox c.N x → VP.asgVip c.toCfg f psi e x = p0 e x := by
  intro e he x hx
  by_cases hd : ∃ d, c.vip d = e
  · obtain ⟨d, rfl⟩ := hd
    rw [asgVip_at h.ok.inj]
    refine (if_pos ((h.ok.grid x).2 hx)).trans ?_
    beta_reduce
    rw [hs _ he x hx, h.still d x hx, hf d x hx]
  · rw [asgVip_other f psi e (fun d hh => hd ⟨d, hh⟩)]; exact hs e he x hx

theorem StillP.relax (h : StillP c p0 D) (hv : c.vab ≠ .noab) (d : Fin n) {x : Idx n} (hx : inBox c.N x) : c.coeff x * c.relax d x = 0 := by
  rcases h.vab with h | h
  · exact absurd h hv
  · exact h d x hx

theorem StillP.vel (h : StillP c p0 D) {ρ : Prop} {s : VP.St K (Idx n) n T} (hs : StI c p0 ρ s) (d : Fin n) {x : Idx n} (hx : inBox c.N x) : s.psi (c.vip d) x = 0 :=
  (hs.psi _ (h.vip d) x hx).trans (h.still d x hx)

theorem StillP.vabInit (h : StillP c p0 D) {ρ : Prop} {s : VP.St K (Idx n) n T} (hp : ∀ e, e < c.nEqns → ∀ x, inBox c.N x → s.psi e x = p0 e x)
    (hr : ρ → ∀ e, VP.hasRhs c.toCfg e = true → ∀ x, inBox c.N x → s.rhs e x = 0) : StI c p0 ρ (VP.vabInitS c.toCfg s) := by
  refine ⟨hp, hr, fun d x hx => ?_⟩
  refine (if_pos ((h.ok.grid x).2 hx)).trans ?_
  beta_reduce
  split_ifs with hv
  · unfold Mpdata.vabInit
    rw [hp _ (h.vip d) x hx, h.still d x hx]
    have := h.relax (by rw [hv]; intro hh; cases hh) d hx
    rw [zero_sub, mul_neg, neg_neg]; exact this
  · rfl

theorem StillP.vabExpl (h : StillP c p0 D) {ρ : Prop} {s : VP.St K (Idx n) n T} (hs : StI c p0 ρ s) : StI c p0 ρ (VP.vabExplS c.toCfg s) := by
  unfold VP.vabExplS
  split_ifs with hv
  · refine ⟨hs.psi, hs.rhs, fun d x hx => (if_pos ((h.ok.grid x).2 hx)).trans ?_⟩
    unfold Mpdata.vabExpl
    rw [hs.vrhs d x hx, h.vel hs d hx]
    have := h.relax (by rw [hv]; intro hh; cases hh) d hx
    linear_combination 2 * this
  · exact hs

theorem StillP.vabApply (h : StillP c p0 D) {ρ : Prop} (dt : K) {s : VP.St K (Idx n) n T} (hs : StI c p0 ρ s) : StI c p0 ρ (VP.vabApplyS c.toCfg dt s) := by
  refine ⟨h.asgVip (fun d x v => (Mpdata.vabApply dt v (s.vrhs d x)).1) (fun d x hx => ?_) hs.psi, hs.rhs, fun d x hx => if_pos ((h.ok.grid x).2 hx)⟩
  unfold Mpdata.vabApply
  rw [hs.vrhs d x hx]; simp

theorem StillP.anteStep (h : StillP c p0 D) (dt : K) {s : VP.St K (Idx n) n T} (hs : StI c p0 (c.sch = .trapez) s) : StI c p0 (c.sch ≠ .eulerB) (VP.anteStep c.toCfg dt s) := by
  unfold VP.anteStep
  simp only
  have h0 : StI c p0 (c.sch = .trapez) (VP.fillSt c.toCfg s) := ⟨hs.psi, hs.rhs, hs.vrhs⟩
  have h1 := h.vabExpl h0
  cases hsch : c.sch
  · simp only
    exact (h.vabApply dt (h.updRhs dt false (fun hh => by cases hh) h1)).weaken (fun _ => trivial)
  · simp only
    exact (h.vabApply dt (h.appRhs dt (h.updRhs dt false (fun hh => by cases hh) h1))).weaken (fun _ => trivial)
  · simp only
    exact (h.vabApply dt (h.appRhs (dt / 2) (h1.weaken (fun _ => hsch)))).weaken (fun _ => trivial)

theorem StillP.advEqs (h : StillP c p0 D) {ρ : Prop} (filt : Bool) (l : List Nat) : ∀ {s : VP.St K (Idx n) n T}, StI c p0 ρ s → (∀ d x, facePt c.N d x → s.GC d x = 0) →
    StI c p0 ρ (l.foldl (VP.advEq c.toCfg filt) s) := by
  induction l with
  | nil => exact fun hs _ => hs
  | cons e l ih =>
    intro s hs hG
    rw [List.foldl_cons]
    refine ih ⟨fun e' he' x hx => ?_, hs.rhs, hs.vrhs⟩ hG
    show (if e' = e then (c.advop s.GC s.ndt s.ndtt filt s.tmp (s.psi e) (s.old e)).2.1 else s.psi e') x = _
    split_ifs with hee
    · subst hee; rw [h.adv _ _ _ _ _ _ _ hG x hx]; exact hs.psi _ he' x hx
    · exact hs.psi e' he' x hx

/-- between steps -/
structure StP (c : Cfg K n T) (p0 : Nat → Idx n → K) (s : St K n T) : Prop extends StI c p0 (c.sch = .trapez) s.toSt where
  stash : ∀ d x, inBox c.N x → s.stash (stashBlk c.vc s.timestep 1) d x = 0
  Phi : ∃ k, ∀ x, inBox c.N x → s.Phi x = k
  edge : ∀ d x, wallPt c d x → inBox c.N x → s.edge d x = 0

/-- the advector of the next step vanishes -/
theorem StillP.gc (h : StillP c p0 D) {s : VP.St K (Idx n) n T} {ρ : Prop} (hs : StI c p0 ρ s) (hst : ∀ d x, inBox c.N x → s.stash (stashBlk c.vc s.timestep 1) d x = 0) (first : K) (more : List K)
    (hts : c.vc.varDt = true ∨ more = []) : ∀ d x, facePt c.N d x → ((first :: more).foldl (VP.calcGc c.toCfg) s).GC d x = 0 := by
  obtain ⟨junk, dst, e⟩ := gc_val h.ok first more (by tauto) s
  intro d x hx
  rw [e]
  exact interp_zero h.ok h.F (z := fun d x => (1 + extrpBeta ((first :: more).getLast (by simp)) s.ds0) * s.psi (c.vip d) x - extrpBeta ((first :: more).getLast (by simp)) s.ds0 * s.stash (stashBlk c.vc s.timestep 1) d x)
    (fun d x hx => by beta_reduce; rw [h.vel hs d hx, hst d x hx]; ring) junk dst _ d hx

/-- everything before `vip_rhs_impl_fnlz` -/
theorem StillP.pre (h : StillP c p0 D) (filt : Bool) (first : K) (more : List K) (hts : c.vc.varDt = true ∨ more = []) {s : St K n T} (hs : StP c p0 s) :
    StI c p0 (c.sch ≠ .eulerB) (preStep c.toCfg filt first more s.toSt) ∧
    ∀ d x, inBox c.N x → (preStep c.toCfg filt first more s.toSt).stash (stashBlk c.vc (preStep c.toCfg filt first more s.toSt).timestep 1) d x = 0 := by
  set dt := (first :: more).getLast (by simp) with hdt
  set s1 := (first :: more).foldl (VP.calcGc c.toCfg) s.toSt with hs1
  have e2 : VP.calcNdt c.toCfg dt s1 = s1 := by unfold VP.calcNdt; rw [h.div3]; rfl
  have f1 := calcGcs_frame c.toCfg (first :: more) s.toSt
  have p1 := VP.calcGcs_same c.toCfg (first :: more) s.toSt
  have i1 : StI c p0 (c.sch = .trapez) s1 := ⟨fun e he x hx => by rw [p1.psi]; exact hs.psi e he x hx, fun r e he x hx => by rw [p1.rhs]; exact hs.rhs r e he x hx, fun d x hx => by rw [p1.vrhs]; exact hs.vrhs d x hx⟩
  have G1 := h.gc hs.toStI hs.stash first more hts
  have i2 := h.anteStep dt i1
  have k2 := anteStep_keep c.toCfg dt s1
  have i3 := h.advEqs filt (VP.eqOrder c.toCfg) i2 (fun d x hx => by rw [k2.GC]; exact G1 d x hx)
  have k6 := k2.trans (advEqs_keep c.toCfg filt (VP.eqOrder c.toCfg) (VP.anteStep c.toCfg dt s1))
  have e0 : preStep c.toCfg filt first more s.toSt = (let s := (VP.eqOrder c.toCfg).foldl (VP.advEq c.toCfg filt) (VP.anteStep c.toCfg dt (VP.calcNdt c.toCfg dt s1))
      { s with timestep := s.timestep + 1, ds1 := if c.vc.div3 then s.ds0 else s.ds1, ds0 := dt }) := rfl
  rw [e2] at e0
  refine ⟨by rw [e0]; exact ⟨i3.psi, i3.rhs, i3.vrhs⟩, fun d x hx => ?_⟩
  rw [e0]
  show ((VP.eqOrder c.toCfg).foldl (VP.advEq c.toCfg filt) (VP.anteStep c.toCfg dt s1)).stash (stashBlk c.vc (((VP.eqOrder c.toCfg).foldl (VP.advEq c.toCfg filt) (VP.anteStep c.toCfg dt s1)).timestep + 1) 1) d x = _
  rw [k6.stash, k6.ts, stashBlk_next]
  show (if c.grid x then fillStash c.vc s1.timestep (VP.vel c.toCfg s1.psi d x) (fun b => s1.stash b d x) (stashBlk c.vc s1.timestep (if c.vc.div3 then 2 else 1)) else _) = _
  rw [if_pos ((h.ok.grid x).2 hx)]
  unfold fillStash Stash.set
  rw [if_pos rfl, vel_none h.ok.den]
  exact h.vel i1 d hx

theorem StillP.postRhs (h : StillP c p0 D) (dt : K) (hD : c.sch = .trapez → D (dt / 2)) {s : VP.St K (Idx n) n T} (hs : StI c p0 (c.sch ≠ .eulerB) s) : StI c p0 (c.sch = .trapez) (PP.postRhs c.toCfg dt s) := by
  unfold PP.postRhs
  cases hsch : c.sch
  · exact (h.appRhs dt (hs.weaken (fun _ => by rw [hsch]; intro hh; cases hh))).weaken (fun _ => trivial)
  · exact hs.weaken (fun hh => by cases hh)
  · exact (h.appRhs _ (h.updRhs _ true (fun _ => hD hsch) hs)).weaken (fun _ => trivial)

theorem apply_still (h : StillP c p0 D) (dt : K) (simple : Bool) (s1 : St K n T) (h1 : ∀ e, e < c.nEqns → ∀ x, inBox c.N x → s1.psi e x = p0 e x)
    (h2 : ∀ d x, inBox c.N x → (apply c dt simple s1).psi (c.vip d) x = 0) : ∀ e, e < c.nEqns → ∀ x, inBox c.N x → (apply c dt simple s1).psi e x = p0 e x := by
  intro e he x hx
  by_cases hd : ∃ d, c.vip d = e
  · obtain ⟨d, rfl⟩ := hd
    rw [h2 d x hx, h.still d x hx]
  · rw [apply_other c dt simple s1 (fun d h => hd ⟨d, h⟩)]; exact h1 e he x hx

theorem StillP.fnlz (h : StillP c p0 D) (ne : Nonempty (Prs.Pts c.N)) (htol : 0 ≤ c.tol) (hcap : 1 ≤ c.cap) (dt : K) {s : St K n T} (hs : StP c p0 s) : ∃ p, PP.fnlz c ne dt s = some p ∧ StP c p0 p := by
  obtain ⟨k, hk⟩ := hs.Phi
  set s0 : St K n T := { s with vrhs := fun d => VP.asgG c.toCfg (fun x => - s.psi (c.vip d) x) (s.vrhs d) } with hs0
  set s0' : St K n T := (if c.vab = .impl then { s0 with psi := VP.asgVip c.toCfg (fun d x v => v + 1 / 2 * dt * c.coeff x * c.relax d x) s0.psi } else s0) with hs0'
  have q1 : s0'.vrhs = s0.vrhs ∧ s0'.rhs = s0.rhs ∧ s0'.stash = s0.stash ∧ s0'.timestep = s0.timestep ∧ s0'.Phi = s0.Phi ∧ s0'.edge = s0.edge := by
    rw [hs0']; split_ifs <;> exact ⟨rfl, rfl, rfl, rfl, rfl, rfl⟩
  have q2 : ∀ e, e < c.nEqns → ∀ x, inBox c.N x → s0'.psi e x = p0 e x := by
    rw [hs0']
    split_ifs with hv
    · refine h.asgVip (fun d x v => v + 1 / 2 * dt * c.coeff x * c.relax d x) (fun d x hx => ?_) hs.psi
      have := h.relax (by rw [hv]; intro hh; cases hh) d hx
      linear_combination (1 / 2 * dt) * this
    · exact hs.psi
  obtain ⟨s1, h1, e1, e2, e3, e4⟩ := solve_rest h.ok h.F.two ne htol hcap dt false (s := s0') (k := k) (fun d x hx => (q2 _ (h.vip d) x hx).trans (h.still d x hx)) (by rw [q1.2.2.2.2.1]; exact hk)
    (by rw [q1.2.2.2.2.2]; exact hs.edge)
  have e5 := apply_still h dt false s1 (fun e he x hx => (congrFun (congrFun (congrArg VP.St.psi e1) e) x).trans (q2 e he x hx)) e4
  set s2 : St K n T := { apply c dt false s1 with vrhs := fun d => VP.asgG c.toCfg (fun x => ((apply c dt false s1).vrhs d x + (apply c dt false s1).psi (c.vip d) x) / (1 / 2 * dt)) ((apply c dt false s1).vrhs d) } with hs2
  have v2 : ∀ d x, inBox c.N x → s2.vrhs d x = 0 := by
    intro d x hx
    refine (if_pos ((h.ok.grid x).2 hx)).trans ?_
    have a1 : (apply c dt false s1).vrhs d x = 0 := by
      show s1.toSt.vrhs d x = 0
      rw [e1, q1.1]
      refine (if_pos ((h.ok.grid x).2 hx)).trans ?_
      rw [h.vel hs.toStI d hx, neg_zero]
    rw [a1, e4 d x hx]; simp
  have P := h.post dt s2.toSt e5
  have Fr := h.ok.postFrame dt s2.toSt
  have r2 : s2.rhs = s.rhs := by show s1.toSt.rhs = _; rw [e1, q1.2.1]
  have t2 : s2.stash = s.stash ∧ s2.timestep = s.timestep := by
    constructor
    · show s1.toSt.stash = _; rw [e1, q1.2.2.1]
    · show s1.toSt.timestep = _; rw [e1, q1.2.2.2.1]
  refine ⟨{ s2 with toSt := c.post dt s2.toSt }, ?_, ⟨⟨P.1, fun r e he x hx => ?_, fun d x hx => ?_⟩, fun d x hx => ?_, ⟨k, e3⟩, ?_⟩⟩
  · unfold PP.fnlz
    simp only
    rw [show PP.solve c ne dt false _ = some s1 from h1]
  · rw [P.2.1 e x hx, r2]; exact hs.rhs r e he x hx
  · rw [P.2.2 d x hx]; exact v2 d x hx
  · show (c.post dt s2.toSt).stash (stashBlk c.vc (c.post dt s2.toSt).timestep 1) d x = 0
    rw [Fr.1, Fr.2.2.1, t2.1, t2.2]; exact hs.stash d x hx
  · show ∀ d x, wallPt c d x → inBox c.N x → s1.edge d x = 0
    rw [e2, q1.2.2.2.2.2]; exact hs.edge

theorem StillP.step (h : StillP c p0 D) (ne : Nonempty (Prs.Pts c.N)) (htol : 0 ≤ c.tol) (hcap : 1 ≤ c.cap) (filt : Bool) (first : K) (more : List K) (hts : c.vc.varDt = true ∨ more = [])
    (hD : c.sch = .trapez → D ((first :: more).getLast (by simp) / 2)) {s : St K n T} (hs : StP c p0 s) : ∃ p, PP.step c ne filt first more s = some p ∧ StP c p0 p := by
  obtain ⟨i1, st⟩ := h.pre filt first more hts hs
  have i2 := h.postRhs ((first :: more).getLast (by simp)) hD i1
  have k := postRhs_keep c.toCfg ((first :: more).getLast (by simp)) (preStep c.toCfg filt first more s.toSt)
  refine h.fnlz ne htol hcap _ (s := { s with toSt := PP.postRhs c.toCfg ((first :: more).getLast (by simp)) (preStep c.toCfg filt first more s.toSt) }) ⟨i2, fun d x hx => ?_, hs.Phi, hs.edge⟩
  show (PP.postRhs _ _ _).stash (stashBlk c.vc (PP.postRhs _ _ _).timestep 1) d x = 0
  rw [k.stash, k.ts]; exact st d x hx

theorem StillP.vpAnte (h : StillP c p0 D) (dt : K) {s : VP.St K (Idx n) n T} (hp : ∀ e, e < c.nEqns → ∀ x, inBox c.N x → s.psi e x = p0 e x) (hts : s.timestep = 0) :
    StI c p0 (c.sch = .trapez) (VP.anteLoop c.toCfg dt s) ∧ ∀ d x, inBox c.N x → (VP.anteLoop c.toCfg dt s).stash (stashBlk c.vc (VP.anteLoop c.toCfg dt s).timestep 1) d x = 0 := by
  have fr := vpAnte_frame c dt s
  constructor
  · unfold VP.anteLoop
    simp only [h.div3]
    cases hsch : c.sch
    · exact h.vabInit hp (fun hh => by cases hh)
    · exact h.vabInit hp (fun hh => by cases hh)
    · have := h.updRhs (ρ := False) (dt / 2) false (fun hh => by cases hh)
        (s := { s with GC := fun _ _ => 0, stash := fun b d => if b = stashBlk c.vc 0 1 ∨ (false = true ∧ b = stashBlk c.vc 0 2) then VP.asgG c.toCfg (fun _ => 0) (s.stash b d) else s.stash b d, vrhs := fun _ _ => 0 })
        ⟨hp, fun hh => hh.elim, fun _ _ _ => rfl⟩
      exact h.vabInit this.psi (fun _ => this.rhs trivial)
  · intro d x hx
    rw [fr.1, hts]
    have e : (VP.anteLoop c.toCfg dt s).stash = fun b d => if b = stashBlk c.vc 0 1 ∨ (c.vc.div3 = true ∧ b = stashBlk c.vc 0 2) then VP.asgG c.toCfg (fun _ => 0) (s.stash b d) else s.stash b d := by
      unfold VP.anteLoop
      simp only
      cases c.sch <;> cases c.vc.div3 <;> rfl
    rw [e]
    beta_reduce
    rw [if_pos (.inl rfl)]
    exact if_pos ((h.ok.grid x).2 hx)

theorem StillP.anteLoop (h : StillP c p0 D) (ne : Nonempty (Prs.Pts c.N)) (htol : 0 ≤ c.tol) (hcap : 1 ≤ c.cap) (dt : K) {s : St K n T} (hp : ∀ e, e < c.nEqns → ∀ x, inBox c.N x → s.psi e x = p0 e x)
    (hts : s.timestep = 0) : ∃ p, PP.anteLoop c ne dt s = some p ∧ StP c p0 p := by
  have he : ∀ d x, wallPt c d x → inBox c.N x → saveEdges c s.psi d x = 0 := by
    intro d x _ hx
    unfold saveEdges
    split_ifs
    · exact (hp _ (h.vip d) x hx).trans (h.still d x hx)
    · rfl
  obtain ⟨s1, h1, e1, e2, e3, e4⟩ := solve_rest h.ok h.F.two ne htol hcap dt true (s := { s with edge := saveEdges c s.psi, Phi := VP.asgG c.toCfg (fun _ => 0) s.Phi }) (k := 0)
    (fun d x hx => (hp _ (h.vip d) x hx).trans (h.still d x hx)) (fun x hx => if_pos ((h.ok.grid x).2 hx)) he
  have e5 := apply_still h dt true s1 (fun e he x hx => (congrFun (congrFun (congrArg VP.St.psi e1) e) x).trans (hp e he x hx)) e4
  set a := apply c dt true s1 with ha
  have t1 : a.toSt.timestep = 0 := by show s1.toSt.timestep = 0; rw [e1]; exact hts
  obtain ⟨i1, st⟩ := h.vpAnte dt e5 t1
  set b := VP.anteLoop c.toCfg dt a.toSt with hb
  set q3 := iniPressure c { a with toSt := b } with hq3
  have hPhi : ∃ k, ∀ x, inBox c.N x → q3.Phi x = k := by
    refine ⟨0 - (∑ x : Prs.Pts c.N, (0 - ∑ d, 1 / 2 * (b.psi (c.vip d) x.1) ^ 2)) / (∏ d, (c.N d : K)), fun x hx => ?_⟩
    refine (show q3.Phi x = if c.grid x then _ else _ from rfl).trans ((if_pos ((h.ok.grid x).2 hx)).trans ?_)
    congr 1
    beta_reduce
    rw [Finset.sum_eq_zero, sub_zero]
    intro d _
    rw [show b.psi (c.vip d) x = 0 from h.vel i1 d hx]
    ring
  refine ⟨{ q3 with vrhs := fun d => VP.asgG c.toCfg (fun x => q3.vrhs d x - calcGrad c.dx (Prs.presFill c.N (prsCfg c dt q3.edge).bc q3.Phi) d x) (q3.vrhs d) }, ?_,
    ⟨⟨i1.psi, i1.rhs, fun d x hx => ?_⟩, st, hPhi, ?_⟩⟩
  · unfold PP.anteLoop
    simp only
    rw [show PP.solve c ne dt true _ = some s1 from h1]
  · obtain ⟨k, hk⟩ := hPhi
    refine (if_pos ((h.ok.grid x).2 hx)).trans ?_
    rw [grad_const h.F.two (prsCfg c dt q3.edge).bc c.dx hk d hx, sub_zero]
    exact i1.vrhs d x hx
  · show ∀ d x, wallPt c d x → inBox c.N x → s1.edge d x = 0
    rw [e2]; exact he

/-- the whole run -/
theorem StillP.run (h : StillP c p0 D) (ne : Nonempty (Prs.Pts c.N)) (htol : 0 ≤ c.tol) (hcap : 1 ≤ c.cap) (dt0 : K) (filt : Nat → Bool) (first : Nat → K) (more : Nat → List K)
    (hts : c.vc.varDt = true ∨ ∀ t, more t = []) (hD : ∀ t, c.sch = .trapez → D ((first t :: more t).getLast (by simp) / 2)) {s : St K n T} (hp : ∀ e, e < c.nEqns → ∀ x, inBox c.N x → s.psi e x = p0 e x)
    (hs : s.timestep = 0) (t : Nat) : ∃ p, PP.run c ne dt0 filt first more s t = some p ∧ StP c p0 p := by
  induction t with
  | zero => exact h.anteLoop ne htol hcap dt0 hp hs
  | succ t ih =>
    obtain ⟨q, hq, hq'⟩ := ih
    obtain ⟨p, hp, hp'⟩ := h.step ne htol hcap (filt t) (first t) (more t) (hts.imp id (fun hh => hh t)) (hD t) hq'
    refine ⟨p, ?_, hp'⟩
    show (PP.run c ne dt0 filt first more s t).bind (PP.step c ne (filt t) (first t) (more t)) = some p
    rw [hq]; exact hp

end Mpdata.PP
