import Verif.Spec.VipProg
import Mathlib.Tactic.FieldSimp
import Mathlib.Tactic.Ring
/-! The whole solver on a cyclic grid simulates the same solver on the unbounded grid with periodic data. -/
set_option linter.unusedSectionVars false
set_option linter.unusedVariables false
namespace Mpdata.VP
variable {K X : Type} [Field K] [LinearOrder K] {n : Nat} {T I : Type}

/-- what has to be known of the exchanges, the advection operator and the forcing -/
structure Link (c : Cfg K X n T) (tr : I → X → X) (H : X → Prop) (HF : Fin n → X → Prop) (G coeff : X → K) (relax : Fin n → X → K)
    (adv : (GC ndt ndtt : Fin n → X → K) → Bool → (X → K) → (X → K)) : Prop where
  comm : ∀ i x d k, c.sh (tr i x) d k = tr i (c.sh x d k)
  perG : PerT tr G
  perC : PerT tr coeff
  perR : ∀ d, PerT tr (relax d)
  coeff : ∀ x, c.grid x = true → c.coeff x = coeff x
  relax : ∀ d x, c.grid x = true → c.relax d x = relax d x
  gridH : ∀ x, c.grid x = true → H x
  xchng : ∀ a b, PerT tr b → (∀ x, c.grid x = true → a x = b x) → ∀ x, H x → c.xchng a x = b x
  xchngP : ∀ a x, c.grid x = true → c.xchngP a x = a x
  gc : ∀ dt (a b : Fin n → X → K) dst, (∀ d, PerT tr (b d)) → (∀ d x, c.grid x = true → a d x = b d x) →
    ∀ d x, HF d x → interp c dt a dst d x = intrpFace dt (c.dx d) (G x) (G (c.sh x d 1)) (b d x) (b d (c.sh x d 1))
  zero : c.vc.div3 = true → ∀ v d x, HF d x → c.zeroNdt v d x = 0
  advop : ∀ GC ndt ndtt GC' ndt' ndtt' f t psi old psi', PerT tr psi' → (∀ d, PerT tr (GC' d)) →
    (∀ x, c.grid x = true → psi x = psi' x) → (∀ d x, HF d x → GC d x = GC' d x) →
    (c.vc.div3 = true → ∀ d, PerT tr (ndt' d)) → (c.vc.div3 = true → ∀ d, PerT tr (ndtt' d)) →
    (c.vc.div3 = true → ∀ d x, HF d x → ndt d x = ndt' d x) → (c.vc.div3 = true → ∀ d x, HF d x → ndtt d x = ndtt' d x) →
    (∀ x, c.grid x = true → (c.advop GC ndt ndtt f t psi old).2.1 x = adv GC' ndt' ndtt' f psi' x) ∧ PerT tr (adv GC' ndt' ndtt' f psi')
  force : ForceOk c tr H

/-- the storage blocks in use between steps -/
def Blk (vc : VipCfg) (b : Nat) : Prop := if vc.varDt = false ∧ vc.div3 = false then b = 0 else b = 1 ∨ (vc.div3 = true ∧ b = 2)

/-- relation between the solver's memory and the state on the unbounded grid at the beginning of a step; `ρ` tells whether the right-hand sides are known -/
structure Rel (c : Cfg K X n T) (tr : I → X → X) (HF : Fin n → X → Prop) (ρ : Prop) (s : St K X n T) (s' : St K X n Unit) : Prop where
  ts : s.timestep = s'.timestep
  d0 : s.ds0 = s'.ds0
  d1 : s.ds1 = s'.ds1
  perPsi : ∀ e, PerT tr (s'.psi e)
  psi : ∀ e, e < c.nEqns → ∀ x, c.grid x = true → s.psi e x = s'.psi e x
  perRhs : ρ → ∀ e, hasRhs c e = true → PerT tr (s'.rhs e)
  rhs : ρ → ∀ e, hasRhs c e = true → ∀ x, c.grid x = true → s.rhs e x = s'.rhs e x
  perSt : ∀ b, Blk c.vc b → ∀ d, PerT tr (s'.stash b d)
  st : ∀ b, Blk c.vc b → ∀ d x, c.grid x = true → s.stash b d x = s'.stash b d x
  perV : ∀ d, PerT tr (s'.vrhs d)
  v : ∀ d x, c.grid x = true → s.vrhs d x = s'.vrhs d x
  perN : c.vc.div3 = true → ∀ d, PerT tr (s'.ndt d)
  ndt : c.vc.div3 = true → ∀ d x, HF d x → s.ndt d x = s'.ndt d x
  perNN : c.vc.div3 = true → ∀ d, PerT tr (s'.ndtt d)
  ndtt : c.vc.div3 = true → ∀ d x, HF d x → s.ndtt d x = s'.ndtt d x

section
variable {ρ : Prop} {c : Cfg K X n T} {tr : I → X → X} {H : X → Prop} {HF : Fin n → X → Prop} {G coeff : X → K} {relax : Fin n → X → K}
  {adv : (GC ndt ndtt : Fin n → X → K) → Bool → (X → K) → (X → K)}

theorem Rel.weaken {ρ' : Prop} {s : St K X n T} {s' : St K X n Unit} (h : Rel c tr HF ρ s s') (hr : ρ' → ρ) : Rel c tr HF ρ' s s' :=
  ⟨h.ts, h.d0, h.d1, h.perPsi, h.psi, fun a => h.perRhs (hr a), fun a => h.rhs (hr a), h.perSt, h.st, h.perV, h.v, h.perN, h.ndt, h.perNN, h.ndtt⟩

theorem vel_rel (hw : Wf c.toUser) {psi psi' : Nat → X → K} (hp : ∀ e, PerT tr (psi' e)) (h : ∀ e, e < c.nEqns → ∀ x, c.grid x = true → psi e x = psi' e x) (d : Fin n) :
    PerT tr (vel (ideal c G coeff relax adv) psi' d) ∧ ∀ x, c.grid x = true → vel c psi d x = vel (ideal c G coeff relax adv) psi' d x := by
  constructor
  · intro i x
    show velOf (c.den.map fun e => psi' e (tr i x)) c.veps (psi' (c.vip d) (tr i x)) = velOf (c.den.map fun e => psi' e x) c.veps (psi' (c.vip d) x)
    rw [hp]; congr 1
    cases c.den with
    | none => rfl
    | some e => simp [hp e i x]
  · intro x hx
    show velOf (c.den.map fun e => psi e x) c.veps (psi (c.vip d) x) = velOf (c.den.map fun e => psi' e x) c.veps (psi' (c.vip d) x)
    rw [h _ (hw.vip d) x hx]; congr 1
    cases hd : c.den with
    | none => rfl
    | some e => simp [h e (hw.den e hd) x hx]

/-- what `extrp` reads and writes -/
theorem extrp_read (vc : VipCfg) (ts : Nat) (dt ds0 v : K) (s s' : Stash K) (h : ∀ b, Blk vc b → s b = s' b) :
    extrp vc ts dt ds0 v s 0 = extrp vc ts dt ds0 v s' 0 ∧ ∀ b, Blk vc b → extrp vc ts dt ds0 v s b = extrp vc ts dt ds0 v s' b := by
  have key : extrp vc ts dt ds0 v s 0 = extrp vc ts dt ds0 v s' 0 := by
    unfold Blk at h
    rcases vc with ⟨a, b⟩
    cases a <;> cases b <;> simp [extrp, stashBlk, Stash.set] at h ⊢
    · exact Or.inl h
    · left; split_ifs <;> simp_all
    · exact Or.inl h
    · left; split_ifs <;> simp_all
  refine ⟨key, fun b hb => ?_⟩
  by_cases h0 : b = 0
  · rw [h0]; exact key
  · have : ∀ s : Stash K, extrp vc ts dt ds0 v s b = s b := by
      intro s
      have z : stashBlk vc ts 0 = 0 := by unfold stashBlk; split_ifs <;> first | rfl | simp_all
      have hs : ∀ (s : Stash K) y, s.set 0 y b = s b := fun s y => by unfold Stash.set; rw [if_neg h0]
      unfold extrp; rw [z]; simp only [hs]
      split_ifs <;> rw [hs]
    rw [this, this, h b hb]

theorem fillStash_read (vc : VipCfg) (ts : Nat) (v : K) (s s' : Stash K) (b : Nat) (h : s b = s' b) :
    fillStash vc ts v s b = fillStash vc ts v s' b := by
  show (if b = _ then v else s b) = (if b = _ then v else s' b)
  rw [h]

/-- after `calc_gc`: the relation with the advector added, block 0 known on the grid -/
structure RelG (c : Cfg K X n T) (tr : I → X → X) (HF : Fin n → X → Prop) (ρ : Prop) (s : St K X n T) (s' : St K X n Unit) : Prop extends Rel c tr HF ρ s s' where
  perGC : ∀ d, PerT tr (s'.GC d)
  gc : ∀ d x, HF d x → s.GC d x = s'.GC d x

theorem interp_ideal (dt : K) (a dst : Fin n → X → K) :
    interp (ideal c G coeff relax adv) dt a dst = fun d x => intrpFace dt (c.dx d) (G x) (G (c.sh x d 1)) (a d x) (a d (c.sh x d 1)) := by
  funext d x; rfl

theorem interp_per (hL : Link c tr H HF G coeff relax adv) (dt : K) {a : Fin n → X → K} (ha : ∀ d, PerT tr (a d)) (dst : Fin n → X → K) (d : Fin n) :
    PerT tr (interp (ideal c G coeff relax adv) dt a dst d) := by
  rw [interp_ideal]
  intro i x
  simp only [hL.comm, hL.perG i, ha d i]

theorem calcGc_rel (hL : Link c tr H HF G coeff relax adv) (hw : Wf c.toUser) (dt : K) {s : St K X n T} {s' : St K X n Unit} (h : Rel c tr HF ρ s s') :
    RelG c tr HF ρ (calcGc c s dt) (calcGc (ideal c G coeff relax adv) s' dt) := by
  set c' := ideal c G coeff relax adv with hc'
  have hv := vel_rel (G := G) (coeff := coeff) (relax := relax) (adv := adv) hw h.perPsi h.psi
  -- values of the stash on the grid, and its periodicity
  have ex0 : ∀ d x, c.grid x = true → extrapolate c dt s 0 d x = extrapolate c' dt s' 0 d x := by
    intro d x hx
    unfold extrapolate
    rw [if_pos rfl, if_pos rfl, hL.xchngP _ x hx]
    refine (if_pos hx).trans ?_
    show _ = extrp c.vc s'.timestep dt s'.ds0 (vel c' s'.psi d x) (fun b => s'.stash b d x) 0
    rw [(hv d).2 x hx, h.ts, h.d0]
    exact (extrp_read _ _ _ _ _ _ _ (fun b hb => h.st b hb d x hx)).1
  have exb : ∀ b, Blk c.vc b → ∀ d x, c.grid x = true → extrapolate c dt s b d x = extrapolate c' dt s' b d x := by
    intro b hb d x hx
    by_cases h0 : b = 0
    · rw [h0]; exact ex0 d x hx
    unfold extrapolate
    rw [if_neg h0, if_neg h0]
    refine (if_pos hx).trans ?_
    show _ = extrp c.vc s'.timestep dt s'.ds0 (vel c' s'.psi d x) (fun b => s'.stash b d x) b
    rw [(hv d).2 x hx, h.ts, h.d0]
    exact (extrp_read _ _ _ _ _ _ _ (fun b hb => h.st b hb d x hx)).2 b hb
  have per0 : ∀ d, PerT tr (extrapolate c' dt s' 0 d) := by
    intro d i x
    show extrp c.vc s'.timestep dt s'.ds0 (vel c' s'.psi d (tr i x)) (fun b => s'.stash b d (tr i x)) 0 = extrp c.vc s'.timestep dt s'.ds0 (vel c' s'.psi d x) (fun b => s'.stash b d x) 0
    rw [(hv d).1 i x]
    exact (extrp_read _ _ _ _ _ _ _ (fun b hb => h.perSt b hb d i x)).1
  have perb : ∀ b, Blk c.vc b → ∀ d, PerT tr (extrapolate c' dt s' b d) := by
    intro b hb d
    by_cases h0 : b = 0
    · rw [h0]; exact per0 d
    intro i x
    unfold extrapolate
    rw [if_neg h0]
    show extrp c.vc s'.timestep dt s'.ds0 (vel c' s'.psi d (tr i x)) (fun b => s'.stash b d (tr i x)) b = extrp c.vc s'.timestep dt s'.ds0 (vel c' s'.psi d x) (fun b => s'.stash b d x) b
    rw [(hv d).1 i x]
    exact (extrp_read _ _ _ _ _ _ _ (fun b hb => h.perSt b hb d i x)).2 b hb
  refine ⟨⟨h.ts, h.d0, h.d1, h.perPsi, h.psi, h.perRhs, h.rhs, perb, exb, h.perV, h.v, h.perN, h.ndt, h.perNN, h.ndtt⟩, ?_, ?_⟩
  · exact fun d => interp_per hL dt per0 s'.GC d
  · intro d x hx
    show interp c dt (extrapolate c dt s 0) s.GC d x = interp c' dt (extrapolate c' dt s' 0) s'.GC d x
    rw [hL.gc dt _ _ _ per0 ex0 d x hx, interp_ideal]

theorem calcGcs_rel (hL : Link c tr H HF G coeff relax adv) (hw : Wf c.toUser) (ts : List K) : ∀ {s : St K X n T} {s' : St K X n Unit}, RelG c tr HF ρ s s' →
    RelG c tr HF ρ (ts.foldl (calcGc c) s) (ts.foldl (calcGc (ideal c G coeff relax adv)) s') := by
  induction ts with
  | nil => exact fun h => h
  | cons t ts ih => exact fun h => ih (calcGc_rel hL hw t h.toRel)

/-- a derivative: stash blocks in use stay, block 0 gets `val` -/
theorem derStash_rel (hL : Link c tr H HF G coeff relax adv) (hd : c.vc.div3 = true) {val val' : Fin n → X → K} (hp : ∀ d, PerT tr (val' d))
    (hv : ∀ d x, c.grid x = true → val d x = val' d x) {s : St K X n T} {s' : St K X n Unit} (h : RelG c tr HF ρ s s') :
    RelG c tr HF ρ (derStash c val s) (derStash (ideal c G coeff relax adv) val' s') ∧
    (∀ d, PerT tr ((derStash (ideal c G coeff relax adv) val' s').stash 0 d)) ∧
    (∀ d x, c.grid x = true → (derStash c val s).stash 0 d x = (derStash (ideal c G coeff relax adv) val' s').stash 0 d x) := by
  have hb : ∀ b, Blk c.vc b → b ≠ 0 := by
    intro b hb; unfold Blk at hb; rw [if_neg (by simp [hd])] at hb; omega
  have e1 : ∀ b, b ≠ 0 → (derStash c val s).stash b = s.stash b := by
    intro b hb; funext d; simp [derStash, hb]
  have e2 : ∀ b, b ≠ 0 → (derStash (ideal c G coeff relax adv) val' s').stash b = s'.stash b := by
    intro b hb; funext d; simp [derStash, hb]
  refine ⟨⟨⟨h.ts, h.d0, h.d1, h.perPsi, h.psi, h.perRhs, h.rhs, ?_, ?_, h.perV, h.v, h.perN, h.ndt, h.perNN, h.ndtt⟩, h.perGC, h.gc⟩, ?_, ?_⟩
  · intro b h1 d; rw [e2 b (hb b h1)]; exact h.perSt b h1 d
  · intro b h1 d x hx; rw [e2 b (hb b h1), e1 b (hb b h1)]; exact h.st b h1 d x hx
  · intro d i x
    exact hp d i x
  · intro d x hx
    show c.xchngP (asgG c (val d) (s.stash 0 d)) x = val' d x
    rw [hL.xchngP _ x hx]; unfold asgG; rw [if_pos hx, hv d x hx]

theorem blk_lev (vc : VipCfg) (hd : vc.div3 = true) (ts : Nat) : Blk vc (stashBlk vc ts 1) ∧ Blk vc (stashBlk vc ts 2) := by
  unfold Blk stashBlk
  simp only [hd]
  split_ifs <;> simp_all

theorem calcNdt_rel (hL : Link c tr H HF G coeff relax adv) (hw : Wf c.toUser) (dt : K) {s : St K X n T} {s' : St K X n Unit} (h : RelG c tr HF ρ s s') :
    RelG c tr HF ρ (calcNdt c dt s) (calcNdt (ideal c G coeff relax adv) dt s') := by
  set c' := ideal c G coeff relax adv with hc'
  have hvc : c'.vc = c.vc := rfl
  unfold calcNdt
  by_cases hd : c.vc.div3 = true
  swap
  · have hd' : ¬ c'.vc.div3 = true := hd
    rw [if_neg hd, if_neg hd']; exact h
  have hd' : c'.vc.div3 = true := hd
  rw [if_pos hd, if_pos hd']
  -- the first derivative
  have first : ∃ r r', r = (if s.ds0 > 0 then
        let s := derStash c (fun d x => dt * (s.psi (c.vip d) x - s.stash (stashBlk c.vc s.timestep 1) d x) / s.ds0) s
        { s with ndt := interp c dt (s.stash 0) s.ndt } else s) ∧
      r' = (if s'.ds0 > 0 then
        let s := derStash c' (fun d x => dt * (s'.psi (c'.vip d) x - s'.stash (stashBlk c'.vc s'.timestep 1) d x) / s'.ds0) s'
        { s with ndt := interp c' dt (s.stash 0) s.ndt } else s') ∧ RelG c tr HF ρ r r' := by
    refine ⟨_, _, rfl, rfl, ?_⟩
    by_cases h0 : s.ds0 > 0
    swap
    · rw [if_neg h0, if_neg (by rw [← h.d0]; exact h0)]; exact h
    rw [if_pos h0, if_pos (by rw [← h.d0]; exact h0)]
    obtain ⟨q1, q2, q3⟩ := derStash_rel hL hd
      (val := fun d x => dt * (s.psi (c.vip d) x - s.stash (stashBlk c.vc s.timestep 1) d x) / s.ds0)
      (val' := fun d x => dt * (s'.psi (c'.vip d) x - s'.stash (stashBlk c'.vc s'.timestep 1) d x) / s'.ds0)
      (fun d i x => by simp only [h.perPsi _ i x, h.perSt _ (blk_lev c.vc hd s'.timestep).1 d i x, hvc])
      (fun d x hx => by
        show _ = dt * (s'.psi (c.vip d) x - s'.stash (stashBlk c.vc s'.timestep 1) d x) / s'.ds0
        rw [h.psi _ (hw.vip d) x hx, h.st _ (blk_lev c.vc hd s.timestep).1 d x hx, h.ts, h.d0]) h
    refine ⟨⟨q1.ts, q1.d0, q1.d1, q1.perPsi, q1.psi, q1.perRhs, q1.rhs, q1.perSt, q1.st, q1.perV, q1.v, fun _ => interp_per hL dt q2 s'.ndt, ?_, q1.perNN, q1.ndtt⟩, q1.perGC, q1.gc⟩
    intro _ d x hx
    exact hL.gc dt _ _ _ q2 q3 d x hx
  obtain ⟨r, r', hr, hr', hR⟩ := first
  simp only [← hr, ← hr']
  clear hr hr'
  by_cases h0 : r.ds0 > 0 ∧ r.ds1 > 0
  swap
  · rw [if_neg h0, if_neg (by rw [← hR.d0, ← hR.d1]; exact h0)]; exact hR
  rw [if_pos h0, if_pos (by rw [← hR.d0, ← hR.d1]; exact h0)]
  obtain ⟨q1, q2, q3⟩ := derStash_rel hL hd
    (val := fun d x => dt * dt * (r.ds1 * r.psi (c.vip d) x - (r.ds1 + r.ds0) * r.stash (stashBlk c.vc r.timestep 1) d x
        + r.ds0 * r.stash (stashBlk c.vc r.timestep 2) d x) / (r.ds0 * r.ds1 * (1 / 2) * (r.ds0 + r.ds1)))
    (val' := fun d x => dt * dt * (r'.ds1 * r'.psi (c'.vip d) x - (r'.ds1 + r'.ds0) * r'.stash (stashBlk c'.vc r'.timestep 1) d x
        + r'.ds0 * r'.stash (stashBlk c'.vc r'.timestep 2) d x) / (r'.ds0 * r'.ds1 * (1 / 2) * (r'.ds0 + r'.ds1)))
    (fun d i x => by simp only [hR.perPsi _ i x, hR.perSt _ (blk_lev c.vc hd r'.timestep).1 d i x, hR.perSt _ (blk_lev c.vc hd r'.timestep).2 d i x, hvc])
    (fun d x hx => by
      show _ = dt * dt * (r'.ds1 * r'.psi (c.vip d) x - (r'.ds1 + r'.ds0) * r'.stash (stashBlk c.vc r'.timestep 1) d x
        + r'.ds0 * r'.stash (stashBlk c.vc r'.timestep 2) d x) / (r'.ds0 * r'.ds1 * (1 / 2) * (r'.ds0 + r'.ds1))
      rw [hR.psi _ (hw.vip d) x hx, hR.st _ (blk_lev c.vc hd r.timestep).1 d x hx, hR.st _ (blk_lev c.vc hd r.timestep).2 d x hx, hR.ts, hR.d0, hR.d1]) hR
  refine ⟨⟨q1.ts, q1.d0, q1.d1, q1.perPsi, q1.psi, q1.perRhs, q1.rhs, q1.perSt, q1.st, q1.perV, q1.v, q1.perN, q1.ndt, fun _ => interp_per hL dt q2 r'.ndtt, ?_⟩, q1.perGC, q1.gc⟩
  intro _ d x hx
  exact hL.gc dt _ _ _ q2 q3 d x hx

theorem fillSt_rel (hw : Wf c.toUser) {s : St K X n T} {s' : St K X n Unit} (h : RelG c tr HF ρ s s') :
    RelG c tr HF ρ (fillSt c s) (fillSt (ideal c G coeff relax adv) s') := by
  have hv := vel_rel (G := G) (coeff := coeff) (relax := relax) (adv := adv) hw h.perPsi h.psi
  refine ⟨⟨h.ts, h.d0, h.d1, h.perPsi, h.psi, h.perRhs, h.rhs, ?_, ?_, h.perV, h.v, h.perN, h.ndt, h.perNN, h.ndtt⟩, h.perGC, h.gc⟩
  · intro b hb d i x
    show fillStash c.vc s'.timestep (vel _ s'.psi d (tr i x)) (fun b => s'.stash b d (tr i x)) b = fillStash c.vc s'.timestep (vel _ s'.psi d x) (fun b => s'.stash b d x) b
    rw [(hv d).1 i x]; exact fillStash_read _ _ _ _ _ b (h.perSt b hb d i x)
  · intro b hb d x hx
    show (if c.grid x = true then _ else _) = fillStash c.vc s'.timestep (vel _ s'.psi d x) (fun b => s'.stash b d x) b
    rw [if_pos hx, (hv d).2 x hx, h.ts]; exact fillStash_read _ _ _ _ _ b (h.st b hb d x hx)

theorem updRhs_rel (hL : Link c tr H HF G coeff relax adv) (dt : K) (b : Bool) {s : St K X n T} {s' : St K X n Unit} (h : Rel c tr HF ρ s s') :
    let r := updRhs c dt b s; let r' := updRhs (ideal c G coeff relax adv) dt b s'
    Rel c tr HF True r r' := by
  intro r r'
  have hpsi' : r'.psi = s'.psi := by
    funext e x; show (if e < c.nEqns then id (s'.psi e) else s'.psi e) x = _; split <;> rfl
  have hf := hL.force dt b r.psi r'.psi (fun e => if hasRhs c e then asgG c (fun _ => 0) (s.rhs e) else s.rhs e)
    (fun e => if hasRhs (ideal c G coeff relax adv) e then asgG (ideal c G coeff relax adv) (fun _ => 0) (s'.rhs e) else s'.rhs e)
    (by rw [hpsi']; exact h.perPsi)
    (fun e he x hx => by
      rw [hpsi']
      show (if e < c.nEqns then c.xchng (s.psi e) else s.psi e) x = _
      rw [if_pos he]; exact hL.xchng _ _ (h.perPsi e) (h.psi e he) x hx)
    (fun e he i x => by
      have : hasRhs (ideal c G coeff relax adv) e = true := he
      simp only [if_pos this]; rfl)
    (fun e he x hx => by
      have : hasRhs (ideal c G coeff relax adv) e = true := he
      simp only [if_pos this, if_pos he]; exact if_pos hx)
  have h1 : ∀ e, hasRhs c e = true → PerT tr (r'.rhs e) := fun e he => (hf e he).1
  have h2 : ∀ e, hasRhs c e = true → ∀ x, c.grid x = true → r.rhs e x = r'.rhs e x := fun e he => (hf e he).2
  refine ⟨h.ts, h.d0, h.d1, by rw [hpsi']; exact h.perPsi, ?_, fun _ => h1, fun _ => h2, h.perSt, h.st, h.perV, h.v, h.perN, h.ndt, h.perNN, h.ndtt⟩
  intro e he x hx
  rw [hpsi']
  show (if e < c.nEqns then c.xchng (s.psi e) else s.psi e) x = _
  rw [if_pos he]; exact hL.xchng _ _ (h.perPsi e) (h.psi e he) x (hL.gridH x hx)

theorem updRhs_GC (dt : K) (b : Bool) (s : St K X n T) : (updRhs c dt b s).GC = s.GC := rfl

theorem appRhs_rel (dt : K) {s : St K X n T} {s' : St K X n Unit} (h : Rel c tr HF True s s') :
    Rel c tr HF True (appRhs c dt s) (appRhs (ideal c G coeff relax adv) dt s') := by
  have h1 := h.perRhs trivial
  have h2 := h.rhs trivial
  have e1 : ∀ e, hasRhs c e = true → (appRhs (ideal c G coeff relax adv) dt s').psi e = fun x => s'.psi e x + dt * s'.rhs e x := by
    intro e he
    funext x
    show (if hasRhs c e = true then asgG _ _ _ else _) x = _
    rw [if_pos he]; rfl
  have e2 : ∀ e, hasRhs c e = false → (appRhs (ideal c G coeff relax adv) dt s').psi e = s'.psi e := by
    intro e he
    show (if hasRhs c e = true then asgG _ _ _ else _) = _
    rw [if_neg (by simp [he])]
  refine ⟨h.ts, h.d0, h.d1, ?_, ?_, h.perRhs, h.rhs, h.perSt, h.st, h.perV, h.v, h.perN, h.ndt, h.perNN, h.ndtt⟩
  · intro e
    cases he : hasRhs c e
    · rw [e2 e he]; exact h.perPsi e
    · rw [e1 e he]; intro i x; simp only [h.perPsi e i x, h1 e he i x]
  · intro e hl x hx
    show (if hasRhs c e = true then asgG c _ _ else _) x = _
    cases he : hasRhs c e
    · rw [e2 e he, if_neg (by simp)]; exact h.psi e hl x hx
    · rw [e1 e he, if_pos rfl]; unfold asgG; rw [if_pos hx]; show s.psi e x + dt * s.rhs e x = s'.psi e x + dt * s'.rhs e x; rw [h.psi e hl x hx, h2 e he x hx]

theorem asgVip_rel {f f' : Fin n → X → K → K} (hf : ∀ d x v, c.grid x = true → f d x v = f' d x v) (hp : ∀ d i x v, f' d (tr i x) v = f' d x v)
    {psi psi' : Nat → X → K} (h1 : ∀ e, PerT tr (psi' e)) (h2 : ∀ e, e < c.nEqns → ∀ x, c.grid x = true → psi e x = psi' e x) :
    (∀ e, PerT tr (asgVip (ideal c G coeff relax adv) f' psi' e)) ∧
    (∀ e, e < c.nEqns → ∀ x, c.grid x = true → asgVip c f psi e x = asgVip (ideal c G coeff relax adv) f' psi' e x) := by
  unfold asgVip
  generalize List.finRange n = l
  induction l generalizing psi psi' with
  | nil => exact ⟨h1, h2⟩
  | cons d l ih =>
    simp only [List.foldl_cons]
    apply ih
    · intro e i x
      by_cases hd : e = (ideal c G coeff relax adv).vip d
      · rw [if_pos hd]
        show f' d (tr i x) (psi' e (tr i x)) = f' d x (psi' e x)
        rw [h1 e i x, hp]
      · rw [if_neg hd]; exact h1 e i x
    · intro e he x hx
      by_cases hd : e = c.vip d
      · rw [if_pos hd, if_pos (show e = (ideal c G coeff relax adv).vip d from hd)]
        refine (if_pos hx).trans ?_
        show f d x (psi e x) = f' d x (psi' e x)
        rw [h2 e he x hx, hf d x _ hx]
      · rw [if_neg hd, if_neg (show ¬ e = (ideal c G coeff relax adv).vip d from hd)]; exact h2 e he x hx

theorem vabExplS_rel (hL : Link c tr H HF G coeff relax adv) (hw : Wf c.toUser) {s : St K X n T} {s' : St K X n Unit} (h : RelG c tr HF ρ s s') :
    RelG c tr HF ρ (vabExplS c s) (vabExplS (ideal c G coeff relax adv) s') := by
  have e0 : (ideal c G coeff relax adv).vab = c.vab := rfl
  unfold vabExplS
  by_cases hv : c.vab = .expl
  · rw [if_pos hv, if_pos (by rw [e0]; exact hv)]
    refine ⟨⟨h.ts, h.d0, h.d1, h.perPsi, h.psi, h.perRhs, h.rhs, h.perSt, h.st, ?_, ?_, h.perN, h.ndt, h.perNN, h.ndtt⟩, h.perGC, h.gc⟩
    · intro d i x
      show vabExpl (coeff (tr i x)) (relax d (tr i x)) (s'.psi (c.vip d) (tr i x)) (s'.vrhs d (tr i x)) = vabExpl (coeff x) (relax d x) (s'.psi (c.vip d) x) (s'.vrhs d x)
      rw [hL.perC i x, hL.perR d i x, h.perPsi _ i x, h.perV d i x]
    · intro d x hx
      show (if c.grid x = true then _ else _) = vabExpl (coeff x) (relax d x) (s'.psi (c.vip d) x) (s'.vrhs d x)
      rw [if_pos hx, hL.coeff x hx, hL.relax d x hx, h.psi _ (hw.vip d) x hx, h.v d x hx]
  · rw [if_neg hv, if_neg (by rw [e0]; exact hv)]; exact h

theorem vabInitS_rel (hL : Link c tr H HF G coeff relax adv) (hw : Wf c.toUser) {s : St K X n T} {s' : St K X n Unit}
    (perPsi : ∀ e, PerT tr (s'.psi e)) (psi : ∀ e, e < c.nEqns → ∀ x, c.grid x = true → s.psi e x = s'.psi e x) (d : Fin n) :
    PerT tr ((vabInitS (ideal c G coeff relax adv) s').vrhs d) ∧ ∀ x, c.grid x = true → (vabInitS c s).vrhs d x = (vabInitS (ideal c G coeff relax adv) s').vrhs d x := by
  constructor
  · intro i x
    show (if c.vab = .impl then vabInit (coeff (tr i x)) (relax d (tr i x)) (s'.psi (c.vip d) (tr i x)) else 0) = (if c.vab = .impl then vabInit (coeff x) (relax d x) (s'.psi (c.vip d) x) else 0)
    rw [hL.perC i x, hL.perR d i x, perPsi _ i x]
  · intro x hx
    show (if c.grid x = true then (if c.vab = .impl then _ else _) else _) = (if c.vab = .impl then vabInit (coeff x) (relax d x) (s'.psi (c.vip d) x) else 0)
    rw [if_pos hx, hL.coeff x hx, hL.relax d x hx, psi _ (hw.vip d) x hx]

theorem vabApplyS_rel (hL : Link c tr H HF G coeff relax adv) (dt : K) {s : St K X n T} {s' : St K X n Unit} (h : Rel c tr HF ρ s s') :
    Rel c tr HF ρ (vabApplyS c dt s) (vabApplyS (ideal c G coeff relax adv) dt s') := by
  obtain ⟨a1, a2⟩ := asgVip_rel (c := c) (G := G) (coeff := coeff) (relax := relax) (adv := adv) (tr := tr)
    (f := fun d x v => (vabApply dt v (s.vrhs d x)).1) (f' := fun d x v => (vabApply dt v (s'.vrhs d x)).1)
    (fun d x v hx => by rw [h.v d x hx]) (fun d i x v => by rw [h.perV d i x]) h.perPsi h.psi
  refine ⟨h.ts, h.d0, h.d1, a1, a2, h.perRhs, h.rhs, h.perSt, h.st, ?_, ?_, h.perN, h.ndt, h.perNN, h.ndtt⟩
  · intro d i x; rfl
  · intro d x hx
    show (if c.grid x = true then _ else _) = (0 : K)
    rw [if_pos hx]

theorem vabFnlzS_rel (hL : Link c tr H HF G coeff relax adv) (hw : Wf c.toUser) (dt : K) {s : St K X n T} {s' : St K X n Unit} (h : Rel c tr HF ρ s s') :
    Rel c tr HF ρ (vabFnlzS c dt s) (vabFnlzS (ideal c G coeff relax adv) dt s') := by
  have e0 : (ideal c G coeff relax adv).vab = c.vab := rfl
  unfold vabFnlzS
  by_cases hv : c.vab = .impl
  · rw [if_pos hv, if_pos (by rw [e0]; exact hv)]
    obtain ⟨a1, a2⟩ := asgVip_rel (c := c) (G := G) (coeff := coeff) (relax := relax) (adv := adv) (tr := tr)
      (f := fun d x v => (vabFnlz dt (c.coeff x) (c.relax d x) v).1) (f' := fun d x v => (vabFnlz dt (coeff x) (relax d x) v).1)
      (fun d x v hx => by rw [hL.coeff x hx, hL.relax d x hx]) (fun d i x v => by rw [hL.perC i x, hL.perR d i x]) h.perPsi h.psi
    refine ⟨h.ts, h.d0, h.d1, a1, a2, h.perRhs, h.rhs, h.perSt, h.st, ?_, ?_, h.perN, h.ndt, h.perNN, h.ndtt⟩
    · intro d i x
      show (vabFnlz dt (coeff (tr i x)) (relax d (tr i x)) (s'.psi (c.vip d) (tr i x))).2 = (vabFnlz dt (coeff x) (relax d x) (s'.psi (c.vip d) x)).2
      rw [hL.perC i x, hL.perR d i x, h.perPsi _ i x]
    · intro d x hx
      show (if c.grid x = true then _ else _) = (vabFnlz dt (coeff x) (relax d x) (s'.psi (c.vip d) x)).2
      rw [if_pos hx, hL.coeff x hx, hL.relax d x hx, h.psi _ (hw.vip d) x hx]
  · rw [if_neg hv, if_neg (by rw [e0]; exact hv)]; exact h

theorem anteStep_GC (dt : K) (s : St K X n T) : (anteStep c dt s).GC = s.GC ∧ (anteStep c dt s).timestep = s.timestep := by
  have h1 : ∀ s : St K X n T, (vabExplS c s).GC = s.GC ∧ (vabExplS c s).timestep = s.timestep := by intro s; unfold vabExplS; split <;> exact ⟨rfl, rfl⟩
  unfold anteStep
  cases c.sch <;> exact h1 _

theorem anteStep_rel (hL : Link c tr H HF G coeff relax adv) (hw : Wf c.toUser) (dt : K) {s : St K X n T} {s' : St K X n Unit} (h : RelG c tr HF (c.sch = .trapez) s s') :
    RelG c tr HF True (anteStep c dt s) (anteStep (ideal c G coeff relax adv) dt s') := by
  have h1 := vabExplS_rel hL hw (fillSt_rel (G := G) (coeff := coeff) (relax := relax) (adv := adv) hw h)
  have key : Rel c tr HF True (anteStep c dt s) (anteStep (ideal c G coeff relax adv) dt s') := by
    have e0 : (ideal c G coeff relax adv).sch = c.sch := rfl
    unfold anteStep
    simp only [e0]
    cases hs : c.sch
    · exact vabApplyS_rel hL dt (updRhs_rel hL dt false h1.toRel)
    · exact vabApplyS_rel hL dt (appRhs_rel dt (updRhs_rel hL dt false h1.toRel))
    · exact vabApplyS_rel hL dt (appRhs_rel _ (h1.toRel.weaken (fun _ => hs)))
  refine ⟨key, ?_, ?_⟩
  · intro d; rw [(anteStep_GC dt s').1]; exact h.perGC d
  · intro d x hx; rw [(anteStep_GC dt s').1, (anteStep_GC dt s).1]; exact h.gc d x hx

theorem advEq_rel (hL : Link c tr H HF G coeff relax adv) (filt : Bool) (e : Nat) (he : e < c.nEqns) {s : St K X n T} {s' : St K X n Unit} (h : RelG c tr HF ρ s s') :
    RelG c tr HF ρ (advEq c filt s e) (advEq (ideal c G coeff relax adv) filt s' e) := by
  obtain ⟨q1, q2⟩ := hL.advop s.GC s.ndt s.ndtt s'.GC s'.ndt s'.ndtt filt s.tmp (s.psi e) (s.old e) (s'.psi e) (h.perPsi e) h.perGC (h.psi e he) h.gc h.perN h.perNN h.ndt h.ndtt
  refine ⟨⟨h.ts, h.d0, h.d1, ?_, ?_, h.perRhs, h.rhs, h.perSt, h.st, h.perV, h.v, h.perN, h.ndt, h.perNN, h.ndtt⟩, h.perGC, h.gc⟩
  · intro e'
    show PerT tr (if e' = e then adv s'.GC s'.ndt s'.ndtt filt (s'.psi e) else s'.psi e')
    split
    · exact q2
    · exact h.perPsi e'
  · intro e' he' x hx
    show (if e' = e then _ else s.psi e') x = (if e' = e then adv s'.GC s'.ndt s'.ndtt filt (s'.psi e) else s'.psi e') x
    split
    · exact q1 x hx
    · exact h.psi e' he' x hx

theorem eqOrder_lt (c : Cfg K X n T) : ∀ e ∈ eqOrder c, e < c.nEqns := by
  intro e he; unfold eqOrder at he; simp at he; tauto

theorem advEqs_rel (hL : Link c tr H HF G coeff relax adv) (filt : Bool) (l : List Nat) (hl : ∀ e ∈ l, e < c.nEqns) : ∀ {s : St K X n T} {s' : St K X n Unit}, RelG c tr HF ρ s s' →
    RelG c tr HF ρ (l.foldl (advEq c filt) s) (l.foldl (advEq (ideal c G coeff relax adv) filt) s') := by
  induction l with
  | nil => exact fun h => h
  | cons e l ih => exact fun h => ih (fun e' he' => hl e' (by simp [he'])) (advEq_rel hL filt e (hl e (by simp)) h)

theorem postStep_rel (hL : Link c tr H HF G coeff relax adv) (hw : Wf c.toUser) (dt : K) {s : St K X n T} {s' : St K X n Unit} (h : Rel c tr HF True s s') :
    Rel c tr HF True (postStep c dt s) (postStep (ideal c G coeff relax adv) dt s') := by
  unfold postStep
  refine vabFnlzS_rel hL hw _ ?_
  have e0 : (ideal c G coeff relax adv).sch = c.sch := rfl
  simp only [e0]
  cases hs : c.sch
  · exact appRhs_rel _ h
  · exact h
  · exact appRhs_rel _ (updRhs_rel hL _ true h)

theorem step_rel (hL : Link c tr H HF G coeff relax adv) (hw : Wf c.toUser) (filt : Bool) (first : K) (more : List K) {s : St K X n T} {s' : St K X n Unit}
    (h : Rel c tr HF (c.sch = .trapez) s s') :
    Rel c tr HF (c.sch = .trapez) (step c filt first more s) (step (ideal c G coeff relax adv) filt first more s') := by
  have h1 : RelG c tr HF (c.sch = .trapez) ((first :: more).foldl (calcGc c) s) ((first :: more).foldl (calcGc (ideal c G coeff relax adv)) s') :=
    calcGcs_rel hL hw more (calcGc_rel hL hw first h)
  have h2 := calcNdt_rel hL hw ((first :: more).getLast (by simp)) h1
  have h3 := anteStep_rel hL hw ((first :: more).getLast (by simp)) h2
  have h4 := advEqs_rel hL filt (eqOrder c) (eqOrder_lt c) h3
  have h5 : ∀ {r : St K X n T} {r' : St K X n Unit} (dt : K), RelG c tr HF True r r' →
      Rel c tr HF True { r with timestep := r.timestep + 1, ds1 := if c.vc.div3 then r.ds0 else r.ds1, ds0 := dt }
        { r' with timestep := r'.timestep + 1, ds1 := if c.vc.div3 then r'.ds0 else r'.ds1, ds0 := dt } := by
    intro r r' dt h
    refine ⟨by rw [h.ts], rfl, by rw [h.d0, h.d1], h.perPsi, h.psi, h.perRhs, h.rhs, h.perSt, h.st, h.perV, h.v, h.perN, h.ndt, h.perNN, h.ndtt⟩
  exact (postStep_rel hL hw _ (h5 _ h4)).weaken (fun _ => trivial)

theorem anteLoop_rel (hL : Link c tr H HF G coeff relax adv) (hw : Wf c.toUser) (dt : K) {s : St K X n T} {s' : St K X n Unit}
    (ts : s.timestep = s'.timestep) (d0 : s.ds0 = s'.ds0) (d1 : s.ds1 = s'.ds1)
    (perPsi : ∀ e, PerT tr (s'.psi e)) (psi : ∀ e, e < c.nEqns → ∀ x, c.grid x = true → s.psi e x = s'.psi e x) :
    Rel c tr HF (c.sch = .trapez) (anteLoop c dt s) (anteLoop (ideal c G coeff relax adv) dt s') := by
  have hb : ∀ b, Blk c.vc b → (b = stashBlk c.vc 0 1 ∨ (c.vc.div3 = true ∧ b = stashBlk c.vc 0 2)) := by
    intro b hb; unfold Blk at hb; unfold stashBlk; split_ifs at hb ⊢ <;> simp_all
  have key : ∀ (r : St K X n T) (r' : St K X n Unit), Rel c tr HF (c.sch = .trapez) { r with vrhs := fun _ _ => 0 } { r' with vrhs := fun _ _ => 0 } →
      Rel c tr HF (c.sch = .trapez) (vabInitS c r) (vabInitS (ideal c G coeff relax adv) r') := by
    intro r r' h
    have hv := vabInitS_rel (s := r) (s' := r') hL hw h.perPsi h.psi
    exact ⟨h.ts, h.d0, h.d1, h.perPsi, h.psi, h.perRhs, h.rhs, h.perSt, h.st, fun d => (hv d).1, fun d => (hv d).2, h.perN, h.ndt, h.perNN, h.ndtt⟩
  unfold anteLoop
  apply key
  have e0 : (ideal c G coeff relax adv).sch = c.sch := rfl
  have e1 : (ideal c G coeff relax adv).vc = c.vc := rfl
  simp only [e0, e1]
  -- the state before the right-hand sides are evaluated
  have pre : ∀ (r : St K X n T) (r' : St K X n Unit), r.timestep = r'.timestep → r.ds0 = r'.ds0 → r.ds1 = r'.ds1 → r.psi = s.psi → r'.psi = s'.psi →
      (r.stash = fun b d => if b = stashBlk c.vc 0 1 ∨ (c.vc.div3 = true ∧ b = stashBlk c.vc 0 2) then asgG c (fun _ => 0) (s.stash b d) else s.stash b d) →
      (r'.stash = fun b d => if b = stashBlk c.vc 0 1 ∨ (c.vc.div3 = true ∧ b = stashBlk c.vc 0 2) then asgG (ideal c G coeff relax adv) (fun _ => 0) (s'.stash b d) else s'.stash b d) →
      (c.vc.div3 = true → r.ndt = c.zeroNdt s.ndt ∧ r.ndtt = c.zeroNdt s.ndtt ∧ r'.ndt = (fun _ _ => 0) ∧ r'.ndtt = (fun _ _ => 0)) →
      Rel c tr HF False { r with vrhs := fun _ _ => 0 } { r' with vrhs := fun _ _ => 0 } := by
    intro r r' h1 h2 h3 h4 h5 h6 h7 h8
    refine ⟨h1, h2, h3, by simpa only [h5] using perPsi, by simpa only [h4, h5] using psi, fun h => h.elim, fun h => h.elim, ?_, ?_, fun d i x => rfl, fun d x _ => rfl, ?_, ?_, ?_, ?_⟩
    · intro b h d i x
      show r'.stash b d (tr i x) = r'.stash b d x
      rw [h7]; simp only [if_pos (hb b h)]; rfl
    · intro b h d x hx
      show r.stash b d x = r'.stash b d x
      rw [h6, h7]; simp only [if_pos (hb b h)]
      exact if_pos hx
    · intro h d i x
      show r'.ndt d (tr i x) = r'.ndt d x
      rw [(h8 h).2.2.1]
    · intro h d x hx
      show r.ndt d x = r'.ndt d x
      rw [(h8 h).2.2.1, (h8 h).1, hL.zero h _ d x hx]
    · intro h d i x
      show r'.ndtt d (tr i x) = r'.ndtt d x
      rw [(h8 h).2.2.2]
    · intro h d x hx
      show r.ndtt d x = r'.ndtt d x
      rw [(h8 h).2.2.2, (h8 h).2.1, hL.zero h _ d x hx]
  cases hs : c.sch
  · refine (pre _ _ ?_ ?_ ?_ ?_ ?_ ?_ ?_ ?_).weaken (fun h => by simp at h) <;> split_ifs with hd <;> first | exact ts | exact d0 | exact d1 | rfl | (intro h; exact absurd h hd) | (intro _; exact ⟨rfl, rfl, rfl, rfl⟩)
  · refine (pre _ _ ?_ ?_ ?_ ?_ ?_ ?_ ?_ ?_).weaken (fun h => by simp at h) <;> split_ifs with hd <;> first | exact ts | exact d0 | exact d1 | rfl | (intro h; exact absurd h hd) | (intro _; exact ⟨rfl, rfl, rfl, rfl⟩)
  · refine (updRhs_rel hL (dt / 2) false (pre _ _ ?_ ?_ ?_ ?_ ?_ ?_ ?_ ?_)).weaken (fun _ => trivial) <;> split_ifs with hd <;> first | exact ts | exact d0 | exact d1 | rfl | (intro h; exact absurd h hd) | (intro _; exact ⟨rfl, rfl, rfl, rfl⟩)

theorem run_rel (hL : Link c tr H HF G coeff relax adv) (hw : Wf c.toUser) (dt0 : K) (filt : Nat → Bool) (first : Nat → K) (more : Nat → List K) {s : St K X n T}
    {psi0 : Nat → X → K} (ts : s.timestep = 0) (d0 : s.ds0 = 0) (d1 : s.ds1 = 0)
    (perPsi : ∀ e, PerT tr (psi0 e)) (psi : ∀ e, e < c.nEqns → ∀ x, c.grid x = true → s.psi e x = psi0 e x) (t : Nat) :
    Rel c tr HF (c.sch = .trapez) (run c dt0 filt first more s t) (run (ideal c G coeff relax adv) dt0 filt first more (start psi0) t) := by
  induction t with
  | zero => exact anteLoop_rel hL hw dt0 ts d0 d1 perPsi psi
  | succ t ih => exact step_rel hL hw _ _ _ ih

end
end Mpdata.VP
