import Verif.Spec.VipScheme
import Verif.Spec.VipProg
import Mathlib.Tactic.Ring
import Mathlib.Tactic.FieldSimp
import Mathlib.Tactic.Linarith
/-! # The time loop on the unbounded grid computes the scheme of `Verif.Spec.VipScheme` -/
set_option linter.unusedSectionVars false
namespace Mpdata.VP
variable {K X : Type} [Field K] [LinearOrder K] [IsStrictOrderedRing K] {n : Nat}

/-- a solver without halos -/
structure Plain (c : Cfg K X n Unit) (adv : (GC ndt ndtt : Fin n → X → K) → Bool → (X → K) → (X → K)) : Prop where
  grid : ∀ x, c.grid x = true
  xchng : ∀ a, c.xchng a = a
  xchngP : ∀ a, c.xchngP a = a
  face : ∀ d x, c.face d x = true
  fillGC : ∀ v, c.fillGC v = v
  zeroNdt : ∀ v, c.zeroNdt v = fun _ _ => 0
  advop : ∀ GC ndt ndtt f t psi old, (c.advop GC ndt ndtt f t psi old).2.1 = adv GC ndt ndtt f psi

theorem plain_ideal {T : Type} (c : Cfg K X n T) (G coeff : X → K) (relax : Fin n → X → K) (adv : (GC ndt ndtt : Fin n → X → K) → Bool → (X → K) → (X → K)) :
    Plain (ideal c G coeff relax adv) adv := ⟨fun _ => rfl, fun _ => rfl, fun _ => rfl, fun _ _ => rfl, fun _ => rfl, fun _ => rfl, fun _ _ _ _ _ _ _ => rfl⟩

/-- right-hand sides of equations with none do not influence those of others -/
def ForceOwn (u : User K X n) : Prop :=
  ∀ dt b psi r r', (∀ e, forced u e → r e = r' e) → ∀ e, forced u e → u.force dt b psi r e = u.force dt b psi r' e

section
variable {c : Cfg K X n Unit} {adv : (GC ndt ndtt : Fin n → X → K) → Bool → (X → K) → (X → K)}

theorem Plain.asgG (h : Plain c adv) (e a : X → K) : asgG c e a = e := by
  funext x; simp [VP.asgG, h.grid]

theorem vel_speed (psi : Nat → X → K) : vel c psi = speed c.toUser psi := by
  funext d x
  unfold vel speed velOf
  cases c.den with
  | none => rfl
  | some e =>
    simp only [Option.map_some]
    by_cases h0 : c.veps = 0
    · simp [h0]
    · simp [h0]

theorem hasRhs_forced (e : Nat) : hasRhs c e = true ↔ forced c.toUser e := by
  simp [hasRhs, forced]

theorem stashBlk_zero (vc : VipCfg) (ts : Nat) : stashBlk vc ts 0 = 0 := by
  unfold stashBlk
  simp

theorem stashBlk_ne (vc : VipCfg) (ts lev : Nat) (h : ¬(vc.varDt = false ∧ vc.div3 = false)) (hl : lev = 1 ∨ lev = 2) : stashBlk vc ts lev ≠ 0 := by
  unfold stashBlk
  rcases vc with ⟨a, b⟩
  cases a <;> cases b <;> rcases hl with rfl | rfl <;> simp at h ⊢ <;> split_ifs <;> simp

theorem extrp_blk0 (vc : VipCfg) (ts : Nat) (dt ds0 v : K) (s : Stash K) :
    extrp vc ts dt ds0 v s 0 = if ds0 > 0 then v + dt / (2 * ds0) * (v - s (stashBlk vc ts 1)) else v := by
  unfold extrp
  simp only [stashBlk_zero, Stash.set, if_true]
  by_cases h : vc.varDt = false ∧ vc.div3 = false
  · have hb : stashBlk vc ts 1 = 0 := by unfold stashBlk; simp [h]
    simp only [h, Bool.not_false, Bool.and_self, if_true, hb]
    show (Stash.set s 0 _) 0 + _ = _
    simp only [Stash.set, if_true]
    unfold extrpBeta
    split_ifs <;> ring
  · have hb : (!vc.varDt && !vc.div3) = false := by
      rcases vc with ⟨a, b⟩; cases a <;> cases b <;> simp at h ⊢
    simp only [hb, Bool.false_eq_true, if_false]
    show (Stash.set s 0 _) 0 + _ = _
    simp only [Stash.set, if_true]
    unfold extrpBeta
    split_ifs <;> ring

theorem extrp_ne (vc : VipCfg) (ts : Nat) (dt ds0 v : K) (s : Stash K) (b : Nat) (h : b ≠ 0) : extrp vc ts dt ds0 v s b = s b := by
  unfold extrp
  simp only [stashBlk_zero, Stash.set, if_neg h]
  split_ifs <;> simp [Stash.set, h]

/-- the extrapolated velocity -/
def ahead (dt d1 : K) (V v1 : Fin n → X → K) : Fin n → X → K := fun d x => if d1 > 0 then V d x + dt / (2 * d1) * (V d x - v1 d x) else V d x

theorem interp_plain (h : Plain c adv) (dt : K) (w dst : Fin n → X → K) : interp c dt w dst = atFaces c.toUser c.sh c.G dt w := by
  funext d x
  unfold interp atFaces intrpFace
  rw [h.fillGC]
  simp only [h.face, if_true]
  ring

/-- two states that differ in the stash and the advector only -/
structure SameG (s s' : St K X n Unit) : Prop where
  psi : s'.psi = s.psi
  rhs : s'.rhs = s.rhs
  vrhs : s'.vrhs = s.vrhs
  ndt : s'.ndt = s.ndt
  ndtt : s'.ndtt = s.ndtt
  ts : s'.timestep = s.timestep
  d0 : s'.ds0 = s.ds0
  d1 : s'.ds1 = s.ds1
  st : ∀ b, b ≠ 0 → s'.stash b = s.stash b

theorem calcGc_plain (h : Plain c adv) (s : St K X n Unit) (dt : K) :
    SameG s (calcGc c s dt) ∧ (calcGc c s dt).GC = atFaces c.toUser c.sh c.G dt (ahead dt s.ds0 (speed c.toUser s.psi) (s.stash (stashBlk c.vc s.timestep 1))) := by
  refine ⟨⟨rfl, rfl, rfl, rfl, rfl, rfl, rfl, rfl, ?_⟩, ?_⟩
  · intro b hb
    funext d x
    show extrapolate c dt s b d x = _
    unfold extrapolate
    rw [if_neg hb]
    rw [if_pos (h.grid x), extrp_ne _ _ _ _ _ _ _ hb]
  · show interp c dt (extrapolate c dt s 0) s.GC = _
    rw [interp_plain h]
    congr 1
    funext d x
    unfold extrapolate ahead
    rw [if_pos rfl, h.xchngP]
    rw [if_pos (h.grid x), extrp_blk0, vel_speed]

theorem SameG.trans {a b e : St K X n Unit} (h : SameG a b) (h' : SameG b e) : SameG a e :=
  ⟨h'.psi.trans h.psi, h'.rhs.trans h.rhs, h'.vrhs.trans h.vrhs, h'.ndt.trans h.ndt, h'.ndtt.trans h.ndtt, h'.ts.trans h.ts, h'.d0.trans h.d0, h'.d1.trans h.d1,
    fun b hb => (h'.st b hb).trans (h.st b hb)⟩

theorem calcGcs_plain (h : Plain c adv) (more : List K) : ∀ (first : K) (s : St K X n Unit), (c.vc.varDt = false ∧ c.vc.div3 = false → more = []) →
    SameG s ((first :: more).foldl (calcGc c) s) ∧ ((first :: more).foldl (calcGc c) s).GC =
      atFaces c.toUser c.sh c.G ((first :: more).getLast (by simp)) (ahead ((first :: more).getLast (by simp)) s.ds0 (speed c.toUser s.psi) (s.stash (stashBlk c.vc s.timestep 1))) := by
  induction more with
  | nil => intro first s _; exact calcGc_plain h s first
  | cons m more ih =>
    intro first s hm
    have hl : ¬(c.vc.varDt = false ∧ c.vc.div3 = false) := fun h' => by simpa using hm h'
    obtain ⟨a1, a2⟩ := calcGc_plain h s first
    obtain ⟨b1, b2⟩ := ih m (calcGc c s first) (fun h' => absurd h' hl)
    refine ⟨a1.trans b1, ?_⟩
    rw [show (first :: m :: more).foldl (calcGc c) s = (m :: more).foldl (calcGc c) (calcGc c s first) from rfl, b2, a1.psi, a1.ts, a1.d0, a1.st _ (stashBlk_ne _ _ _ hl (.inl rfl))]
    rfl

theorem calcNdt_plain (h : Plain c adv) (dt : K) (s : St K X n Unit) :
    let s' := calcNdt c dt s
    s'.psi = s.psi ∧ s'.rhs = s.rhs ∧ s'.vrhs = s.vrhs ∧ s'.timestep = s.timestep ∧ s'.ds0 = s.ds0 ∧ s'.ds1 = s.ds1 ∧ (∀ b, b ≠ 0 → s'.stash b = s.stash b) ∧ s'.GC = s.GC ∧
    s'.ndt = (if c.vc.div3 = true ∧ s.ds0 > 0 then atFaces c.toUser c.sh c.G dt (fun d x => dt * ((s.psi (c.vip d) x - s.stash (stashBlk c.vc s.timestep 1) d x) / s.ds0)) else s.ndt) ∧
    s'.ndtt = (if c.vc.div3 = true ∧ s.ds0 > 0 ∧ s.ds1 > 0 then atFaces c.toUser c.sh c.G dt (fun d x => dt ^ 2 * (2 * ((s.psi (c.vip d) x - s.stash (stashBlk c.vc s.timestep 1) d x) / s.ds0
      - (s.stash (stashBlk c.vc s.timestep 1) d x - s.stash (stashBlk c.vc s.timestep 2) d x) / s.ds1) / (s.ds0 + s.ds1))) else s.ndtt) := by
  intro s'
  by_cases h3 : c.vc.div3 = true
  swap
  · have : s' = s := by show calcNdt c dt s = s; unfold calcNdt; rw [if_neg h3]
    rw [this]
    simp [h3]
  have hl : ¬(c.vc.varDt = false ∧ c.vc.div3 = false) := fun h' => by simp [h3] at h'
  have n1 := stashBlk_ne c.vc s.timestep 1 hl (.inl rfl)
  have n2 := stashBlk_ne c.vc s.timestep 2 hl (.inr rfl)
  have hd : ∀ (val : Fin n → X → K) (s : St K X n Unit), (derStash c val s).stash 0 = val := by
    intro val s; funext d; unfold derStash; simp only [if_true]; rw [h.xchngP, h.asgG]
  have hd' : ∀ (val : Fin n → X → K) (s : St K X n Unit) b, b ≠ 0 → (derStash c val s).stash b = s.stash b := by
    intro val s b hb; funext d; unfold derStash; simp only [if_neg hb]
  have e2 : s.ds0 > 0 → s.ds1 > 0 → ∀ d x, dt * dt * (s.ds1 * s.psi (c.vip d) x - (s.ds1 + s.ds0) * s.stash (stashBlk c.vc s.timestep 1) d x + s.ds0 * s.stash (stashBlk c.vc s.timestep 2) d x) /
      (s.ds0 * s.ds1 * (1 / 2) * (s.ds0 + s.ds1)) = dt ^ 2 * (2 * ((s.psi (c.vip d) x - s.stash (stashBlk c.vc s.timestep 1) d x) / s.ds0
      - (s.stash (stashBlk c.vc s.timestep 1) d x - s.stash (stashBlk c.vc s.timestep 2) d x) / s.ds1) / (s.ds0 + s.ds1)) := by
    intro p0 p1 d x
    have q0 : s.ds0 ≠ 0 := ne_of_gt p0
    have q1 : s.ds1 ≠ 0 := ne_of_gt p1
    have q2 : s.ds0 + s.ds1 ≠ 0 := ne_of_gt (add_pos p0 p1)
    field_simp
    ring
  by_cases p0 : s.ds0 > 0
  swap
  · have : s' = s := by
      show calcNdt c dt s = s; unfold calcNdt; rw [if_pos h3, if_neg p0]
      simp only [p0, false_and, if_false]
    rw [this]
    simp [p0]
  by_cases p1 : s.ds1 > 0
  · have : s' = (let s1 := derStash c (fun d x => dt * (s.psi (c.vip d) x - s.stash (stashBlk c.vc s.timestep 1) d x) / s.ds0) s
        let s1 := { s1 with ndt := interp c dt (s1.stash 0) s1.ndt }
        let s2 := derStash c (fun d x => dt * dt * (s1.ds1 * s1.psi (c.vip d) x - (s1.ds1 + s1.ds0) * s1.stash (stashBlk c.vc s1.timestep 1) d x
          + s1.ds0 * s1.stash (stashBlk c.vc s1.timestep 2) d x) / (s1.ds0 * s1.ds1 * (1 / 2) * (s1.ds0 + s1.ds1))) s1
        { s2 with ndtt := interp c dt (s2.stash 0) s2.ndtt }) := by
      show calcNdt c dt s = _
      unfold calcNdt
      rw [if_pos h3, if_pos p0]
      exact if_pos ⟨p0, p1⟩
    rw [this]
    refine ⟨rfl, rfl, rfl, rfl, rfl, rfl, ?_, rfl, ?_, ?_⟩
    · intro b hb
      exact (hd' _ _ b hb).trans (hd' _ _ b hb)
    · rw [if_pos ⟨h3, p0⟩]
      refine (interp_plain h _ _ _).trans ?_
      rw [hd]
      congr 1
      funext d x
      ring
    · rw [if_pos ⟨h3, p0, p1⟩]
      refine (interp_plain h _ _ _).trans ?_
      rw [hd]
      congr 1
      funext d x
      refine Eq.trans ?_ (e2 p0 p1 d x)
      have r1 := congrFun (congrFun (hd' (fun d x => dt * (s.psi (c.vip d) x - s.stash (stashBlk c.vc s.timestep 1) d x) / s.ds0) s _ n1) d) x
      have r2 := congrFun (congrFun (hd' (fun d x => dt * (s.psi (c.vip d) x - s.stash (stashBlk c.vc s.timestep 1) d x) / s.ds0) s _ n2) d) x
      have key : ∀ w1 w2 : K, w1 = s.stash (stashBlk c.vc s.timestep 1) d x → w2 = s.stash (stashBlk c.vc s.timestep 2) d x →
          dt * dt * (s.ds1 * s.psi (c.vip d) x - (s.ds1 + s.ds0) * w1 + s.ds0 * w2) / (s.ds0 * s.ds1 * (1 / 2) * (s.ds0 + s.ds1)) =
          dt * dt * (s.ds1 * s.psi (c.vip d) x - (s.ds1 + s.ds0) * s.stash (stashBlk c.vc s.timestep 1) d x + s.ds0 * s.stash (stashBlk c.vc s.timestep 2) d x) / (s.ds0 * s.ds1 * (1 / 2) * (s.ds0 + s.ds1)) := by
        rintro _ _ rfl rfl; rfl
      exact key _ _ r1 r2
  · have : s' = (let s1 := derStash c (fun d x => dt * (s.psi (c.vip d) x - s.stash (stashBlk c.vc s.timestep 1) d x) / s.ds0) s
        { s1 with ndt := interp c dt (s1.stash 0) s1.ndt }) := by
      show calcNdt c dt s = _
      unfold calcNdt
      rw [if_pos h3, if_pos p0]
      exact if_neg fun h' => p1 h'.2
    rw [this]
    refine ⟨rfl, rfl, rfl, rfl, rfl, rfl, hd' _ _, rfl, ?_, ?_⟩
    · rw [if_pos ⟨h3, p0⟩]
      refine (interp_plain h _ _ _).trans ?_
      rw [hd]
      congr 1
      funext d x
      ring
    · rw [if_neg fun h' => p1 h'.2.2]
      rfl

theorem asgVip_onVel (h : Plain c adv) (hv : Function.Injective c.vip) (f : Fin n → X → K → K) (psi : Nat → X → K) : asgVip c f psi = onVel c.toUser f psi := by
  have gen : ∀ (l : List (Fin n)) (hl : l.Nodup) (psi : Nat → X → K),
      l.foldl (fun psi d e => if e = c.vip d then VP.asgG c (fun x => f d x (psi e x)) (psi e) else psi e) psi =
        fun e x => match l.find? (fun d => c.vip d == e) with | some d => f d x (psi e x) | none => psi e x := by
    intro l
    induction l with
    | nil => intro _ psi; rfl
    | cons d l ih =>
      intro hl psi
      have hl' := List.nodup_cons.1 hl
      rw [List.foldl_cons, ih hl'.2]
      funext e x
      by_cases he : c.vip d = e
      · have : l.find? (fun d => c.vip d == e) = none := by
          rw [List.find?_eq_none]
          intro d' hd' h'
          have : c.vip d' = e := by simpa using h'
          exact hl'.1 (hv (this.trans he.symm) ▸ hd')
        rw [this, List.find?_cons_of_pos (by simpa using he)]
        simp only [if_pos he.symm, h.asgG]
      · rw [List.find?_cons_of_neg (by simpa using he)]
        simp only [if_neg (Ne.symm he)]
  exact gen _ (List.nodup_finRange n) psi

theorem onVel_congr {u : User K X n} {f g : Fin n → X → K → K} {psi : Nat → X → K} (h : ∀ d x, f d x (psi (u.vip d) x) = g d x (psi (u.vip d) x)) : onVel u f psi = onVel u g psi := by
  funext e x
  unfold onVel
  cases hd : (List.finRange n).find? (fun d => u.vip d == e) with
  | none => rfl
  | some d =>
    have : u.vip d = e := by simpa using List.find?_some hd
    subst this
    exact h d x

theorem onVel_id {u : User K X n} {f : Fin n → X → K → K} {psi : Nat → X → K} (h : ∀ d x, f d x (psi (u.vip d) x) = psi (u.vip d) x) : onVel u f psi = psi := by
  refine (onVel_congr (g := fun _ _ v => v) h).trans ?_
  funext e x
  unfold onVel
  split <;> rfl

theorem onVel_vip {u : User K X n} (hv : Function.Injective u.vip) (f : Fin n → X → K → K) (psi : Nat → X → K) (d : Fin n) (x : X) : onVel u f psi (u.vip d) x = f d x (psi (u.vip d) x) := by
  unfold onVel
  cases hd : (List.finRange n).find? (fun d' => u.vip d' == u.vip d) with
  | none =>
    rw [List.find?_eq_none] at hd
    exact absurd (by simp) (hd d (List.mem_finRange d))
  | some d' =>
    have : u.vip d' = u.vip d := by simpa using List.find?_some hd
    rw [hv this]

theorem advEqs_plain (h : Plain c adv) (filt : Bool) (l : List Nat) (hl : l.Nodup) : ∀ (s : St K X n Unit),
    let s' := l.foldl (advEq c filt) s
    s'.psi = (fun e => if e ∈ l then adv s.GC s.ndt s.ndtt filt (s.psi e) else s.psi e) ∧ s'.rhs = s.rhs ∧ s'.vrhs = s.vrhs ∧ s'.stash = s.stash ∧ s'.GC = s.GC ∧ s'.ndt = s.ndt ∧ s'.ndtt = s.ndtt ∧
      s'.timestep = s.timestep ∧ s'.ds0 = s.ds0 ∧ s'.ds1 = s.ds1 := by
  induction l with
  | nil => intro s; simp
  | cons a l ih =>
    intro s
    have hl' := List.nodup_cons.1 hl
    obtain ⟨i1, i2, i3, i4, i5, i6, i7, i8, i9, i10⟩ := ih hl'.2 (advEq c filt s a)
    refine ⟨?_, i2, i3, i4, i5, i6, i7, i8, i9, i10⟩
    refine i1.trans ?_
    funext e
    have hp : (advEq c filt s a).psi e = if e = a then adv s.GC s.ndt s.ndtt filt (s.psi a) else s.psi e := by
      show (if e = a then (c.advop s.GC s.ndt s.ndtt filt s.tmp (s.psi a) (s.old a)).2.1 else s.psi e) = _
      rw [h.advop]
    by_cases ea : e = a
    · subst ea
      rw [if_neg hl'.1, if_pos List.mem_cons_self, hp, if_pos rfl]
    · rw [hp, if_neg ea]
      simp only [List.mem_cons, ea, false_or]
      rfl

theorem eqOrder_nodup {T : Type} (c : Cfg K X n T) : (eqOrder c).Nodup := by
  unfold eqOrder
  refine List.Nodup.append (List.nodup_range.filter _) (List.nodup_range.filter _) ?_
  intro e h1 h2
  simp at h1 h2
  simp [h1.2] at h2

theorem mem_eqOrder {T : Type} (c : Cfg K X n T) (e : Nat) : e ∈ eqOrder c ↔ e < c.nEqns := by
  unfold eqOrder
  simp only [List.mem_append, List.mem_filter, List.mem_range]
  cases isset c.delayed (bit e) <;> simp

theorem updRhs_plain (h : Plain c adv) (hown : ForceOwn c.toUser) (dt : K) (b : Bool) (s : St K X n Unit) :
    let s' := updRhs c dt b s
    s'.psi = s.psi ∧ (∀ e, forced c.toUser e → s'.rhs e = forces c.toUser dt b s.psi e) := by
  have hp : (fun e => if e < c.nEqns then c.xchng (s.psi e) else s.psi e) = s.psi := by
    funext e; rw [h.xchng]; simp
  refine ⟨hp, fun e he => ?_⟩
  show c.force dt b (fun e => if e < c.nEqns then c.xchng (s.psi e) else s.psi e) _ e = _
  rw [hp]
  refine hown _ _ _ _ _ (fun e' he' => ?_) e he
  rw [if_pos ((hasRhs_forced e').2 he'), h.asgG]

theorem appRhs_plain (h : Plain c adv) (dt : K) (s : St K X n Unit) {R : Nat → X → K} (hR : ∀ e, forced c.toUser e → s.rhs e = R e) : (appRhs c dt s).psi = addForces c.toUser dt s.psi R := by
  funext e x
  show (if hasRhs c e then VP.asgG c (fun x => s.psi e x + dt * s.rhs e x) (s.psi e) else s.psi e) x = _
  unfold addForces
  by_cases he : forced c.toUser e
  · rw [if_pos ((hasRhs_forced e).2 he), if_pos he, h.asgG, hR e he]
  · rw [if_neg (fun h' => he ((hasRhs_forced e).1 h')), if_neg he]

/-- what the state knows of the past at the beginning of step `t` -/
structure Agr (c : Cfg K X n Unit) (t : Nat) (s : St K X n Unit) (p : Past K X n) : Prop where
  psi : s.psi = p.now
  ts : s.timestep = t
  d0 : s.ds0 = p.d1
  d1 : c.vc.div3 = true → s.ds1 = p.d2
  v1 : s.stash (stashBlk c.vc t 1) = p.v1
  v2 : c.vc.div3 = true → s.stash (stashBlk c.vc t 2) = p.v2
  n1 : ¬(c.vc.div3 = true ∧ p.d1 > 0) → s.ndt = fun _ _ => 0
  n2 : ¬(c.vc.div3 = true ∧ p.d1 > 0 ∧ p.d2 > 0) → s.ndtt = fun _ _ => 0
  R : c.sch = .trapez → ∀ e, forced c.toUser e → s.rhs e = p.R e
  v : s.vrhs = fun d x => if c.vab = .impl then -(c.coeff x * (p.now (c.vip d) x - c.relax d x)) else 0

/-- the absorber before advection -/
def dampA (u : User K X n) (dt : K) (now psi : Nat → X → K) : Nat → X → K := match u.vab with
  | .noab => psi
  | .expl => onVel u (fun d x v => v - dt * u.coeff x * (now (u.vip d) x - u.relax d x)) psi
  | .impl => onVel u (fun d x v => v - dt / 2 * u.coeff x * (now (u.vip d) x - u.relax d x)) psi

/-- the absorber after advection -/
def dampB (u : User K X n) (dt : K) (psi : Nat → X → K) : Nat → X → K := match u.vab with
  | .noab => psi
  | .expl => psi
  | .impl => onVel u (fun d x v => (v + dt / 2 * u.coeff x * u.relax d x) / (1 + dt / 2 * u.coeff x)) psi

theorem vabApply_plain (h : Plain c adv) (hv : Function.Injective c.vip) (dt : K) (s : St K X n Unit) (now : Nat → X → K)
    (hr : s.vrhs = fun d x => match c.vab with | .noab => 0 | .expl => -2 * c.coeff x * (now (c.vip d) x - c.relax d x) | .impl => -(c.coeff x * (now (c.vip d) x - c.relax d x))) :
    (vabApplyS c dt s).psi = dampA c.toUser dt now s.psi ∧ (vabApplyS c dt s).vrhs = fun _ _ => 0 := by
  constructor
  · show asgVip c (fun d x v => (vabApply dt v (s.vrhs d x)).1) s.psi = _
    rw [asgVip_onVel h hv, hr]
    unfold dampA vabApply
    cases hb : c.vab with
    | noab => exact onVel_id fun d x => by simp
    | expl => exact onVel_congr fun d x => by simp; ring
    | impl => exact onVel_congr fun d x => by simp; ring
  · funext d
    show VP.asgG c _ _ = _
    rw [h.asgG]

theorem vabFnlz_plain (h : Plain c adv) (hv : Function.Injective c.vip) (hco : ∀ x, 0 ≤ c.coeff x) (dt : K) (hdt : 0 < dt) (s : St K X n Unit) (hr : s.vrhs = fun _ _ => 0) :
    (vabFnlzS c dt s).psi = dampB c.toUser dt s.psi ∧
    (vabFnlzS c dt s).vrhs = fun d x => if c.vab = .impl then -(c.coeff x * (dampB c.toUser dt s.psi (c.vip d) x - c.relax d x)) else 0 := by
  unfold vabFnlzS
  cases hb : c.vab with
  | noab =>
    simp only [reduceCtorEq, if_false]
    exact ⟨by unfold dampB; rw [hb], hr⟩
  | expl =>
    simp only [reduceCtorEq, if_false]
    exact ⟨by unfold dampB; rw [hb], hr⟩
  | impl =>
    simp only [if_true]
    constructor
    · rw [asgVip_onVel h hv]
      unfold dampB vabFnlz
      rw [hb]
      exact onVel_congr fun d x => by simp only; congr 1 <;> ring
    · funext d
      rw [h.asgG]
      funext x
      unfold dampB vabFnlz
      rw [hb]
      simp only
      rw [onVel_vip hv]
      have hp : 0 ≤ dt / 2 * c.coeff x := mul_nonneg (by linarith) (hco x)
      have h1 : (1 + 1 / 2 * dt * c.coeff x : K) ≠ 0 := ne_of_gt (by linarith)
      have h2 : (1 + dt / 2 * c.coeff x : K) ≠ 0 := ne_of_gt (by linarith)
      have h3 : dt ≠ 0 := ne_of_gt hdt
      have h4 : (2 + dt * c.coeff x : K) ≠ 0 := ne_of_gt (by linarith)
      field_simp
      ring

/-- fields before advection, without the absorber -/
def preA (u : User K X n) (dt : K) (now R : Nat → X → K) : Nat → X → K := match u.sch with
  | .eulerA => now
  | .eulerB => addForces u dt now (forces u dt false now)
  | .trapez => addForces u (dt / 2) now R

theorem anteStep_plain (h : Plain c adv) (hv : Function.Injective c.vip) (hown : ForceOwn c.toUser) (dt : K) (s : St K X n Unit) (now R : Nat → X → K) (hp : s.psi = now)
    (hr : s.vrhs = fun d x => if c.vab = .impl then -(c.coeff x * (now (c.vip d) x - c.relax d x)) else 0) (hR : c.sch = .trapez → ∀ e, forced c.toUser e → s.rhs e = R e) :
    let s' := anteStep c dt s
    s'.psi = dampA c.toUser dt now (preA c.toUser dt now R) ∧ s'.vrhs = (fun _ _ => 0) ∧ (c.sch ≠ .trapez → ∀ e, forced c.toUser e → s'.rhs e = forces c.toUser dt false now e) ∧
      s'.stash = (fillSt c s).stash ∧ s'.GC = s.GC ∧ s'.ndt = s.ndt ∧ s'.ndtt = s.ndtt ∧ s'.timestep = s.timestep ∧ s'.ds0 = s.ds0 ∧ s'.ds1 = s.ds1 := by
  subst hp
  set s1 := vabExplS c (fillSt c s) with hs1
  have e1 : s1.psi = s.psi ∧ s1.rhs = s.rhs ∧ s1.stash = (fillSt c s).stash ∧ s1.GC = s.GC ∧ s1.ndt = s.ndt ∧ s1.ndtt = s.ndtt ∧ s1.timestep = s.timestep ∧ s1.ds0 = s.ds0 ∧ s1.ds1 = s.ds1 := by
    rw [hs1]; unfold vabExplS; split_ifs <;> exact ⟨rfl, rfl, rfl, rfl, rfl, rfl, rfl, rfl, rfl⟩
  have e2 : s1.vrhs = fun d x => match c.vab with | .noab => 0 | .expl => -2 * c.coeff x * (s.psi (c.vip d) x - c.relax d x) | .impl => -(c.coeff x * (s.psi (c.vip d) x - c.relax d x)) := by
    rw [hs1]; unfold vabExplS
    cases hb : c.vab with
    | noab => simp only [reduceCtorEq, if_false]; rw [show (fillSt c s).vrhs = s.vrhs from rfl, hr, hb]; simp
    | impl => simp only [reduceCtorEq, if_false]; rw [show (fillSt c s).vrhs = s.vrhs from rfl, hr, hb]; simp
    | expl =>
      simp only [if_true]
      funext d
      rw [h.asgG]
      funext x
      show vabExpl (c.coeff x) (c.relax d x) (s.psi (c.vip d) x) (s.vrhs d x) = _
      rw [hr, hb]
      simp [vabExpl]
  obtain ⟨p1, r1, w1, g1, m1, mm1, t1, a1, b1⟩ := e1
  intro s'
  cases hsch : c.sch with
  | eulerA =>
    have hs' : s' = vabApplyS c dt (updRhs c dt false s1) := by show anteStep c dt s = _; unfold anteStep; simp only [hsch]; rfl
    obtain ⟨u1, u2⟩ := updRhs_plain h hown dt false s1
    obtain ⟨v1, v2⟩ := vabApply_plain h hv dt (updRhs c dt false s1) s.psi e2
    rw [hs']
    refine ⟨?_, v2, fun _ e he => ?_, w1, g1, m1, mm1, t1, a1, b1⟩
    · rw [v1, u1, p1]; unfold preA; rw [hsch]
    · rw [← p1]; exact u2 e he
  | eulerB =>
    have hs' : s' = vabApplyS c dt (appRhs c dt (updRhs c dt false s1)) := by show anteStep c dt s = _; unfold anteStep; simp only [hsch]; rfl
    obtain ⟨u1, u2⟩ := updRhs_plain h hown dt false s1
    obtain ⟨v1, v2⟩ := vabApply_plain h hv dt (appRhs c dt (updRhs c dt false s1)) s.psi e2
    rw [hs']
    refine ⟨?_, v2, fun _ e he => ?_, w1, g1, m1, mm1, t1, a1, b1⟩
    · rw [v1, appRhs_plain h dt _ u2, u1, p1]; unfold preA; rw [hsch]
    · rw [← p1]; exact u2 e he
  | trapez =>
    have hs' : s' = vabApplyS c dt (appRhs c (dt / 2) s1) := by show anteStep c dt s = _; unfold anteStep; simp only [hsch]; rfl
    obtain ⟨v1, v2⟩ := vabApply_plain h hv dt (appRhs c (dt / 2) s1) s.psi e2
    rw [hs']
    refine ⟨?_, v2, fun h' => absurd rfl h', w1, g1, m1, mm1, t1, a1, b1⟩
    rw [v1, appRhs_plain h (dt / 2) s1 (R := R) (fun e he => by rw [r1]; exact hR hsch e he), p1]
    unfold preA
    rw [hsch]

/-- fields and right-hand sides after advection, without the absorber -/
def postA (u : User K X n) (dt : K) (a Rn : Nat → X → K) : (Nat → X → K) × (Nat → X → K) := match u.sch with
  | .eulerA => (addForces u dt a Rn, Rn)
  | .eulerB => (a, Rn)
  | .trapez => (addForces u (dt / 2) a (forces u (dt / 2) true a), forces u (dt / 2) true a)

theorem postStep_plain (h : Plain c adv) (hv : Function.Injective c.vip) (hown : ForceOwn c.toUser) (hco : ∀ x, 0 ≤ c.coeff x) (dt : K) (hdt : 0 < dt) (s : St K X n Unit) (Rn : Nat → X → K)
    (hr : s.vrhs = fun _ _ => 0) (hR : c.sch ≠ .trapez → ∀ e, forced c.toUser e → s.rhs e = Rn e) :
    let s' := postStep c dt s
    let q := postA c.toUser dt s.psi Rn
    s'.psi = dampB c.toUser dt q.1 ∧ (∀ e, forced c.toUser e → s'.rhs e = q.2 e) ∧
      s'.vrhs = (fun d x => if c.vab = .impl then -(c.coeff x * (dampB c.toUser dt q.1 (c.vip d) x - c.relax d x)) else 0) ∧
      s'.stash = s.stash ∧ s'.ndt = s.ndt ∧ s'.ndtt = s.ndtt ∧ s'.timestep = s.timestep ∧ s'.ds0 = s.ds0 ∧ s'.ds1 = s.ds1 := by
  have keep : ∀ s : St K X n Unit, (vabFnlzS c dt s).rhs = s.rhs ∧ (vabFnlzS c dt s).stash = s.stash ∧ (vabFnlzS c dt s).ndt = s.ndt ∧ (vabFnlzS c dt s).ndtt = s.ndtt ∧
      (vabFnlzS c dt s).timestep = s.timestep ∧ (vabFnlzS c dt s).ds0 = s.ds0 ∧ (vabFnlzS c dt s).ds1 = s.ds1 := by
    intro s; unfold vabFnlzS; split_ifs <;> exact ⟨rfl, rfl, rfl, rfl, rfl, rfl, rfl⟩
  intro s' q
  cases hsch : c.sch with
  | eulerA =>
    have hs' : s' = vabFnlzS c dt (appRhs c dt s) := by show postStep c dt s = _; unfold postStep; simp only [hsch]
    have hq : q = (addForces c.toUser dt s.psi Rn, Rn) := by show postA _ _ _ _ = _; unfold postA; rw [hsch]
    have hR' := hR (by rw [hsch]; simp)
    obtain ⟨f1, f2⟩ := vabFnlz_plain h hv hco dt hdt (appRhs c dt s) hr
    obtain ⟨k1, k2, k3, k4, k5, k6, k7⟩ := keep (appRhs c dt s)
    rw [hs', hq]
    rw [appRhs_plain h dt s hR'] at f1 f2
    exact ⟨f1, fun e he => by rw [k1]; exact hR' e he, f2, k2, k3, k4, k5, k6, k7⟩
  | eulerB =>
    have hs' : s' = vabFnlzS c dt s := by show postStep c dt s = _; unfold postStep; simp only [hsch]
    have hq : q = (s.psi, Rn) := by show postA _ _ _ _ = _; unfold postA; rw [hsch]
    have hR' := hR (by rw [hsch]; simp)
    obtain ⟨f1, f2⟩ := vabFnlz_plain h hv hco dt hdt s hr
    obtain ⟨k1, k2, k3, k4, k5, k6, k7⟩ := keep s
    rw [hs', hq]
    exact ⟨f1, fun e he => by rw [k1]; exact hR' e he, f2, k2, k3, k4, k5, k6, k7⟩
  | trapez =>
    have hs' : s' = vabFnlzS c dt (appRhs c (dt / 2) (updRhs c (dt / 2) true s)) := by show postStep c dt s = _; unfold postStep; simp only [hsch]
    have hq : q = (addForces c.toUser (dt / 2) s.psi (forces c.toUser (dt / 2) true s.psi), forces c.toUser (dt / 2) true s.psi) := by show postA _ _ _ _ = _; unfold postA; rw [hsch]
    obtain ⟨u1, u2⟩ := updRhs_plain h hown (dt / 2) true s
    obtain ⟨f1, f2⟩ := vabFnlz_plain h hv hco dt hdt (appRhs c (dt / 2) (updRhs c (dt / 2) true s)) hr
    obtain ⟨k1, k2, k3, k4, k5, k6, k7⟩ := keep (appRhs c (dt / 2) (updRhs c (dt / 2) true s))
    rw [hs', hq]
    rw [appRhs_plain h (dt / 2) _ u2, u1] at f1 f2
    exact ⟨f1, fun e he => by rw [k1]; exact u2 e he, f2, k2, k3, k4, k5, k6, k7⟩

theorem stashBlk_next1 (vc : VipCfg) (t : Nat) : stashBlk vc (t + 1) 1 = stashBlk vc t (if vc.div3 then 2 else 1) := by
  rcases vc with ⟨a, b⟩
  unfold stashBlk
  rcases Nat.mod_two_eq_zero_or_one t with h | h
  · have : (t + 1) % 2 = 1 := by omega
    cases a <;> cases b <;> simp [h, this]
  · have : (t + 1) % 2 = 0 := by omega
    cases a <;> cases b <;> simp [h, this]

theorem stashBlk_next2 (vc : VipCfg) (hd : vc.div3 = true) (t : Nat) : stashBlk vc (t + 1) 2 = stashBlk vc t 1 ∧ stashBlk vc t 1 ≠ stashBlk vc t 2 := by
  rcases vc with ⟨a, b⟩
  simp only at hd
  subst hd
  unfold stashBlk
  rcases Nat.mod_two_eq_zero_or_one t with h | h
  · have : (t + 1) % 2 = 1 := by omega
    cases a <;> simp [h, this]
  · have : (t + 1) % 2 = 0 := by omega
    cases a <;> simp [h, this]

theorem step_agr (h : Plain c adv) (hv : Function.Injective c.vip) (hown : ForceOwn c.toUser) (hco : ∀ x, 0 ≤ c.coeff x) (filt : Bool) (first : K) (more : List K)
    (hm : c.vc.varDt = false ∧ c.vc.div3 = false → more = []) (hdt : 0 < (first :: more).getLast (by simp)) {t : Nat} {s : St K X n Unit} {p : Past K X n} (a : Agr c t s p) :
    Agr c (t + 1) (step c filt first more s) (schemeStep c.toUser c.sh c.G adv filt ((first :: more).getLast (by simp)) p) := by
  set dt := (first :: more).getLast (by simp) with hdt'
  obtain ⟨k, g⟩ := calcGcs_plain h more first s hm
  rw [← hdt'] at g
  set s1 := (first :: more).foldl (calcGc c) s with hs1
  obtain ⟨n1, n2, n3, n4, n5, n6, n7, n8, n9, n10⟩ := calcNdt_plain h dt s1
  set s2 := calcNdt c dt s1 with hs2
  have st1 : c.vc.div3 = true → s1.stash (stashBlk c.vc t 1) = p.v1 := fun hd => by
    rw [k.st _ (stashBlk_ne _ _ _ (fun h' => by simp [hd] at h') (.inl rfl))]; exact a.v1
  have st2 : c.vc.div3 = true → s1.stash (stashBlk c.vc t 2) = p.v2 := fun hd => by
    rw [k.st _ (stashBlk_ne _ _ _ (fun h' => by simp [hd] at h') (.inr rfl))]; exact a.v2 hd
  have hp2 : s2.psi = p.now := n1.trans (k.psi.trans a.psi)
  have hGC : s2.GC = atFaces c.toUser c.sh c.G dt (ahead dt p.d1 (speed c.toUser p.now) p.v1) := by
    rw [n8, g, a.d0, a.psi, a.ts, a.v1]
  have hA1 : s2.ndt = if c.vc.div3 = true ∧ p.d1 > 0 then atFaces c.toUser c.sh c.G dt (fun d x => dt * ((p.now (c.vip d) x - p.v1 d x) / p.d1)) else fun _ _ => 0 := by
    rw [n9, k.d0, a.d0]
    by_cases hc : c.vc.div3 = true ∧ p.d1 > 0
    · rw [if_pos hc, if_pos hc, k.psi, a.psi, k.ts, a.ts, st1 hc.1]
    · rw [if_neg hc, if_neg hc, k.ndt, a.n1 hc]
  have hA2 : s2.ndtt = if c.vc.div3 = true ∧ p.d1 > 0 ∧ p.d2 > 0 then
      atFaces c.toUser c.sh c.G dt (fun d x => dt ^ 2 * (2 * ((p.now (c.vip d) x - p.v1 d x) / p.d1 - (p.v1 d x - p.v2 d x) / p.d2) / (p.d1 + p.d2))) else fun _ _ => 0 := by
    rw [n10, k.d0, a.d0]
    by_cases h3 : c.vc.div3 = true
    · rw [k.d1, a.d1 h3]
      by_cases hc : c.vc.div3 = true ∧ p.d1 > 0 ∧ p.d2 > 0
      · rw [if_pos hc, if_pos hc, k.psi, a.psi, k.ts, a.ts, st1 hc.1, st2 hc.1]
      · rw [if_neg hc, if_neg hc, k.ndtt, a.n2 hc]
    · rw [if_neg fun h' => h3 h'.1, if_neg fun h' => h3 h'.1, k.ndtt, a.n2 fun h' => h3 h'.1]
  obtain ⟨e1, e2, e3, e4, e5, e6, e7, e8, e9, e10⟩ := anteStep_plain h hv hown dt s2 p.now p.R hp2 (by rw [n3, k.vrhs]; exact a.v) (fun hs e he => by rw [n2, k.rhs]; exact a.R hs e he)
  set s3 := anteStep c dt s2 with hs3
  obtain ⟨q1, q2, q3, q4, q5, q6, q7, q8, q9, q10⟩ := advEqs_plain h filt (eqOrder c) (eqOrder_nodup c) s3
  set s4 := (eqOrder c).foldl (advEq c filt) s3 with hs4
  set s5 : St K X n Unit := { s4 with timestep := s4.timestep + 1, ds1 := if c.vc.div3 then s4.ds0 else s4.ds1, ds0 := dt } with hs5
  obtain ⟨f1, f2, f3, f4, f5, f6, f7, f8, f9⟩ := postStep_plain h hv hown hco dt hdt s5 (forces c.toUser dt false p.now) (q3.trans e2) (fun hs e he => (congrFun q2 e).trans (e3 hs e he))
  have hstep : step c filt first more s = postStep c dt s5 := rfl
  have hadv : s5.psi = fun e => if e < c.nEqns then adv s2.GC s2.ndt s2.ndtt filt (dampA c.toUser dt p.now (preA c.toUser dt p.now p.R) e) else dampA c.toUser dt p.now (preA c.toUser dt p.now p.R) e := by
    show s4.psi = _
    rw [q1, e1, e5, e6, e7]
    funext e
    simp only [mem_eqOrder]
  have hsc : schemeStep c.toUser c.sh c.G adv filt dt p = ⟨dampB c.toUser dt (postA c.toUser dt s5.psi (forces c.toUser dt false p.now)).1, speed c.toUser p.now, p.v1, dt, p.d1,
      (postA c.toUser dt s5.psi (forces c.toUser dt false p.now)).2⟩ := by
    rw [hadv, hGC, hA1, hA2]
    unfold schemeStep transport postA preA dampA dampB ahead
    cases c.sch <;> rfl
  have hts : s3.timestep = t := by rw [e8, n4, k.ts, a.ts]
  have hst : ∀ b d, (postStep c dt s5).stash b d = fun x => fillStash c.vc t (speed c.toUser p.now d x) (fun b => s2.stash b d x) b := by
    intro b d
    rw [f4]
    show s4.stash b d = _
    rw [q4, e4]
    funext x
    show (if c.grid x then fillStash c.vc s2.timestep (vel c s2.psi d x) (fun b => s2.stash b d x) b else s2.stash b d x) = _
    rw [if_pos (h.grid x), vel_speed, hp2, n4, k.ts, a.ts]
  rw [hstep, hsc]
  refine ⟨f1, ?_, f8, fun hd => ?_, ?_, fun hd => ?_, fun hn => ?_, fun hn => ?_, fun hs e he => f2 e he, f3⟩
  · rw [f7]
    show s4.timestep + 1 = t + 1
    rw [q8, hts]
  · rw [f9]
    show (if c.vc.div3 then s4.ds0 else s4.ds1) = _
    rw [if_pos hd, q9, e9, n5, k.d0, a.d0]
  · funext d x
    rw [hst, stashBlk_next1]
    simp [fillStash, Stash.set]
  · funext d x
    rw [hst, (stashBlk_next2 c.vc hd t).1]
    simp only [fillStash, Stash.set, hd, if_true]
    rw [if_neg (stashBlk_next2 c.vc hd t).2, n7 _ (stashBlk_ne _ _ _ (fun h' => by simp [hd] at h') (.inl rfl)), st1 hd]
  · have hd : ¬c.vc.div3 = true := fun hd => hn ⟨hd, hdt⟩
    rw [f5]
    show s4.ndt = _
    rw [q6, e6, hA1, if_neg fun h' => hd h'.1]
  · have hd : ¬(c.vc.div3 = true ∧ p.d1 > 0) := fun hd => hn ⟨hd.1, hdt, hd.2⟩
    rw [f6]
    show s4.ndtt = _
    rw [q7, e7, hA2, if_neg fun h' => hd ⟨h'.1, h'.2.1⟩]

theorem anteLoop_agr (h : Plain c adv) (hown : ForceOwn c.toUser) (dt : K) (psi0 : Nat → X → K) :
    Agr c 0 (anteLoop c dt (start psi0)) ⟨psi0, fun _ _ => 0, fun _ _ => 0, 0, 0, forces c.toUser (dt / 2) false psi0⟩ := by
  have gen : ∀ s : St K X n Unit, s.psi = psi0 → s.timestep = 0 → s.ds0 = 0 → s.ds1 = 0 → (∀ b d x, s.stash b d x = 0) → (∀ d x, s.ndt d x = 0) → (∀ d x, s.ndtt d x = 0) →
      (c.sch = .trapez → ∀ e, forced c.toUser e → s.rhs e = forces c.toUser (dt / 2) false psi0 e) →
      Agr c 0 (vabInitS c s) ⟨psi0, fun _ _ => 0, fun _ _ => 0, 0, 0, forces c.toUser (dt / 2) false psi0⟩ := by
    intro s h1 h2 h3 h4 h5 h6 h7 h8
    refine ⟨h1, h2, h3, fun _ => h4, funext fun d => funext fun x => h5 _ d x, fun _ => funext fun d => funext fun x => h5 _ d x, fun _ => funext fun d => funext fun x => h6 d x,
      fun _ => funext fun d => funext fun x => h7 d x, h8, ?_⟩
    funext d
    show VP.asgG c _ _ = _
    rw [h.asgG]
    funext x
    rw [h1]
    rfl
  have hz : ∀ b (d : Fin n) (x : X), (if b = stashBlk c.vc 0 1 ∨ (c.vc.div3 = true ∧ b = stashBlk c.vc 0 2) then VP.asgG c (fun _ => 0) (fun _ => (0 : K)) else fun _ => 0) x = 0 := by
    intro b d x
    split_ifs
    · rw [h.asgG]
    · rfl
  have hdel : ∀ (s : St K X n Unit), s.psi = psi0 → s.timestep = 0 → s.ds0 = 0 → s.ds1 = 0 → (∀ b d x, s.stash b d x = 0) → (∀ d x, s.ndt d x = 0) → (∀ d x, s.ndtt d x = 0) →
      Agr c 0 (vabInitS c (match c.sch with | .eulerA => s | .eulerB => s | .trapez => updRhs c (dt / 2) false s)) ⟨psi0, fun _ _ => 0, fun _ _ => 0, 0, 0, forces c.toUser (dt / 2) false psi0⟩ := by
    intro s h1 h2 h3 h4 h5 h6 h7
    cases hs : c.sch with
    | eulerA => exact gen s h1 h2 h3 h4 h5 h6 h7 (fun h' => by rw [hs] at h'; cases h')
    | eulerB => exact gen s h1 h2 h3 h4 h5 h6 h7 (fun h' => by rw [hs] at h'; cases h')
    | trapez =>
      obtain ⟨u1, u2⟩ := updRhs_plain h hown (dt / 2) false s
      rw [h1] at u1 u2
      exact gen _ u1 h2 h3 h4 h5 h6 h7 (fun _ => u2)
  unfold anteLoop
  refine hdel _ ?_ ?_ ?_ ?_ ?_ ?_ ?_
  · simp only; split_ifs <;> rfl
  · simp only; split_ifs <;> rfl
  · simp only; split_ifs <;> rfl
  · simp only; split_ifs <;> rfl
  · intro b d x; simp only; split_ifs <;> exact hz b d x
  · intro d x; simp only; split_ifs <;> first | rfl | (show c.zeroNdt _ d x = 0; rw [h.zeroNdt])
  · intro d x; simp only; split_ifs <;> first | rfl | (show c.zeroNdt _ d x = 0; rw [h.zeroNdt])

theorem run_agr (h : Plain c adv) (hv : Function.Injective c.vip) (hown : ForceOwn c.toUser) (hco : ∀ x, 0 ≤ c.coeff x) (dt0 : K) (filt : Nat → Bool) (first : Nat → K) (more : Nat → List K)
    (hm : c.vc.varDt = false ∧ c.vc.div3 = false → ∀ t, more t = []) (hdt : ∀ t, 0 < (first t :: more t).getLast (by simp)) (psi0 : Nat → X → K) (t : Nat) :
    Agr c t (run c dt0 filt first more (start psi0) t) (scheme c.toUser c.sh c.G adv dt0 filt (fun t => (first t :: more t).getLast (by simp)) psi0 t) := by
  induction t with
  | zero => exact anteLoop_agr h hown dt0 psi0
  | succ t ih => exact step_agr h hv hown hco (filt t) (first t) (more t) (fun h' => hm h' t) (hdt t) ih

end
end Mpdata.VP
