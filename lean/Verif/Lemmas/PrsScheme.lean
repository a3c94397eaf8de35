import Verif.Spec.PrsScheme
import Verif.Lemmas.VipScheme
import Verif.Lemmas.BsqRun
import Verif.Lemmas.PrsSolver
import Verif.Props.VipRun
/-! # Incompressible solvers on periodic domains follow the scheme of `Verif.Spec.PrsScheme` -/
set_option linter.unusedSectionVars false
namespace Mpdata
namespace VP
variable {K : Type} [Field K] [LinearOrder K] [IsStrictOrderedRing K] {n : Nat}
section
variable {c : Cfg K (Idx n) n Unit} {adv : (GC ndt ndtt : Fin n → Idx n → K) → Bool → (Idx n → K) → (Idx n → K)}

/-- what the state knows of the past; `F` is the force kept -/
structure AgrF (c : Cfg K (Idx n) n Unit) (t : Nat) (s : St K (Idx n) n Unit) (p : Past K (Idx n) n) (F : Fin n → Idx n → K) : Prop where
  psi : s.psi = p.now
  ts : s.timestep = t
  d0 : s.ds0 = p.d1
  d1 : c.vc.div3 = true → s.ds1 = p.d2
  v1 : s.stash (stashBlk c.vc t 1) = p.v1
  v2 : c.vc.div3 = true → s.stash (stashBlk c.vc t 2) = p.v2
  n1 : ¬(c.vc.div3 = true ∧ p.d1 > 0) → s.ndt = fun _ _ => 0
  n2 : ¬(c.vc.div3 = true ∧ p.d1 > 0 ∧ p.d2 > 0) → s.ndtt = fun _ _ => 0
  R : c.sch = .trapez → ∀ e, forced c.toUser e → s.rhs e = p.R e
  v : s.vrhs = F

/-- the force before advection -/
def pushA (u : User K (Idx n) n) (dt : K) (F : Fin n → Idx n → K) (now psi : Nat → Idx n → K) : Nat → Idx n → K :=
  onVel u (fun d x v => v + dt / 2 * (F d x + if u.vab = .expl then - 2 * u.coeff x * (now (u.vip d) x - u.relax d x) else 0)) psi

theorem vabApply_push (h : Plain c adv) (hv : Function.Injective c.vip) (dt : K) (s : St K (Idx n) n Unit) (now : Nat → Idx n → K) (F : Fin n → Idx n → K)
    (hr : s.vrhs = fun d x => F d x + if c.vab = .expl then -2 * c.coeff x * (now (c.vip d) x - c.relax d x) else 0) :
    (vabApplyS c dt s).psi = pushA c.toUser dt F now s.psi := by
  show asgVip c (fun d x v => (vabApply dt v (s.vrhs d x)).1) s.psi = _
  rw [asgVip_onVel h hv, hr]
  unfold pushA vabApply
  exact onVel_congr fun d x => by simp only; ring

theorem anteStep_push (h : Plain c adv) (hv : Function.Injective c.vip) (hown : ForceOwn c.toUser) (dt : K) (s : St K (Idx n) n Unit) (now R : Nat → Idx n → K) (F : Fin n → Idx n → K) (hp : s.psi = now)
    (hr : s.vrhs = F) (hR : c.sch = .trapez → ∀ e, forced c.toUser e → s.rhs e = R e) :
    let s' := anteStep c dt s
    s'.psi = pushA c.toUser dt F now (preA c.toUser dt now R) ∧ (c.sch ≠ .trapez → ∀ e, forced c.toUser e → s'.rhs e = forces c.toUser dt false now e) ∧
      s'.stash = (fillSt c s).stash ∧ s'.GC = s.GC ∧ s'.ndt = s.ndt ∧ s'.ndtt = s.ndtt ∧ s'.timestep = s.timestep ∧ s'.ds0 = s.ds0 ∧ s'.ds1 = s.ds1 := by
  subst hp
  set s1 := vabExplS c (fillSt c s) with hs1
  have e1 : s1.psi = s.psi ∧ s1.rhs = s.rhs ∧ s1.stash = (fillSt c s).stash ∧ s1.GC = s.GC ∧ s1.ndt = s.ndt ∧ s1.ndtt = s.ndtt ∧ s1.timestep = s.timestep ∧ s1.ds0 = s.ds0 ∧ s1.ds1 = s.ds1 := by
    rw [hs1]; unfold vabExplS; split_ifs <;> exact ⟨rfl, rfl, rfl, rfl, rfl, rfl, rfl, rfl, rfl⟩
  have e2 : s1.vrhs = fun d x => F d x + if c.vab = .expl then -2 * c.coeff x * (s.psi (c.vip d) x - c.relax d x) else 0 := by
    rw [hs1]; unfold vabExplS
    by_cases hb : c.vab = .expl
    · rw [if_pos hb]
      funext d
      refine (h.asgG _ _).trans ?_
      funext x
      rw [if_pos hb]
      show vabExpl (c.coeff x) (c.relax d x) (s.psi (c.vip d) x) (s.vrhs d x) = _
      rw [hr]
      unfold vabExpl
      ring
    · rw [if_neg hb]
      funext d x
      rw [if_neg hb, add_zero, ← hr]
      rfl
  obtain ⟨p1, r1, w1, g1, m1, mm1, t1, a1, b1⟩ := e1
  intro s'
  cases hsch : c.sch with
  | eulerA =>
    have hs' : s' = vabApplyS c dt (updRhs c dt false s1) := by show anteStep c dt s = _; unfold anteStep; simp only [hsch]; rfl
    obtain ⟨u1, u2⟩ := updRhs_plain h hown dt false s1
    have v1 := vabApply_push h hv dt (updRhs c dt false s1) s.psi F e2
    rw [hs']
    refine ⟨?_, fun _ e he => ?_, w1, g1, m1, mm1, t1, a1, b1⟩
    · rw [v1, u1, p1]; unfold preA; rw [hsch]
    · rw [← p1]; exact u2 e he
  | eulerB =>
    have hs' : s' = vabApplyS c dt (appRhs c dt (updRhs c dt false s1)) := by show anteStep c dt s = _; unfold anteStep; simp only [hsch]; rfl
    obtain ⟨u1, u2⟩ := updRhs_plain h hown dt false s1
    have v1 := vabApply_push h hv dt (appRhs c dt (updRhs c dt false s1)) s.psi F e2
    rw [hs']
    refine ⟨?_, fun _ e he => ?_, w1, g1, m1, mm1, t1, a1, b1⟩
    · rw [v1, appRhs_plain h dt _ u2, u1, p1]; unfold preA; rw [hsch]
    · rw [← p1]; exact u2 e he
  | trapez =>
    have hs' : s' = vabApplyS c dt (appRhs c (dt / 2) s1) := by show anteStep c dt s = _; unfold anteStep; simp only [hsch]; rfl
    have v1 := vabApply_push h hv dt (appRhs c (dt / 2) s1) s.psi F e2
    rw [hs']
    refine ⟨?_, fun h' => absurd rfl h', w1, g1, m1, mm1, t1, a1, b1⟩
    rw [v1, appRhs_plain h (dt / 2) s1 (R := R) (fun e he => by rw [r1]; exact hR hsch e he), p1]
    unfold preA
    rw [hsch]

/-- the state between advection with right-hand sides and the pressure solver -/
structure Mid (c : Cfg K (Idx n) n Unit) (t : Nat) (dt : K) (s : St K (Idx n) n Unit) (p : Past K (Idx n) n) (q : (Nat → Idx n → K) × (Nat → Idx n → K)) : Prop where
  psi : s.psi = q.1
  ts : s.timestep = t + 1
  d0 : s.ds0 = dt
  d1 : c.vc.div3 = true → s.ds1 = p.d1
  v1 : s.stash (stashBlk c.vc (t + 1) 1) = speed c.toUser p.now
  v2 : c.vc.div3 = true → s.stash (stashBlk c.vc (t + 1) 2) = p.v1
  n1 : ¬(c.vc.div3 = true ∧ dt > 0) → s.ndt = fun _ _ => 0
  n2 : ¬(c.vc.div3 = true ∧ dt > 0 ∧ p.d1 > 0) → s.ndtt = fun _ _ => 0
  R : ∀ e, forced c.toUser e → s.rhs e = q.2 e

theorem postRhs_plain (h : Plain c adv) (hown : ForceOwn c.toUser) (dt : K) (s : St K (Idx n) n Unit) (Rn : Nat → Idx n → K) (hR : c.sch ≠ .trapez → ∀ e, forced c.toUser e → s.rhs e = Rn e) :
    let s' := PP.postRhs c dt s
    let q := postA c.toUser dt s.psi Rn
    s'.psi = q.1 ∧ (∀ e, forced c.toUser e → s'.rhs e = q.2 e) ∧ s'.stash = s.stash ∧ s'.ndt = s.ndt ∧ s'.ndtt = s.ndtt ∧ s'.timestep = s.timestep ∧ s'.ds0 = s.ds0 ∧ s'.ds1 = s.ds1 := by
  intro s' q
  cases hsch : c.sch with
  | eulerA =>
    have hs' : s' = appRhs c dt s := by show PP.postRhs c dt s = _; unfold PP.postRhs; simp only [hsch]
    have hq : q = (addForces c.toUser dt s.psi Rn, Rn) := by show postA _ _ _ _ = _; unfold postA; rw [hsch]
    have hR' := hR (by rw [hsch]; simp)
    rw [hs', hq]
    exact ⟨appRhs_plain h dt s hR', hR', rfl, rfl, rfl, rfl, rfl, rfl⟩
  | eulerB =>
    have hs' : s' = s := by show PP.postRhs c dt s = _; unfold PP.postRhs; simp only [hsch]
    have hq : q = (s.psi, Rn) := by show postA _ _ _ _ = _; unfold postA; rw [hsch]
    rw [hs', hq]
    exact ⟨rfl, hR (by rw [hsch]; simp), rfl, rfl, rfl, rfl, rfl, rfl⟩
  | trapez =>
    have hs' : s' = appRhs c (dt / 2) (updRhs c (dt / 2) true s) := by show PP.postRhs c dt s = _; unfold PP.postRhs; simp only [hsch]
    have hq : q = (addForces c.toUser (dt / 2) s.psi (forces c.toUser (dt / 2) true s.psi), forces c.toUser (dt / 2) true s.psi) := by show postA _ _ _ _ = _; unfold postA; rw [hsch]
    obtain ⟨u1, u2⟩ := updRhs_plain h hown (dt / 2) true s
    rw [hs', hq]
    exact ⟨by rw [appRhs_plain h (dt / 2) _ u2, u1], u2, rfl, rfl, rfl, rfl, rfl, rfl⟩

theorem mid_agr (h : Plain c adv) (hv : Function.Injective c.vip) (hown : ForceOwn c.toUser) (filt : Bool) (first : K) (more : List K) (hsh : c.sh = stepIdx)
    (hm : c.vc.varDt = false ∧ c.vc.div3 = false → more = []) {dt : K} (hdt' : dt = (first :: more).getLast (by simp)) (hdt : 0 < dt) {t : Nat} {s : St K (Idx n) n Unit} {p : Past K (Idx n) n}
    {F : Fin n → Idx n → K} (a : AgrF c t s p F) :
    Mid c t dt (PP.postRhs c dt (PP.preStep c filt first more s)) p
      (postA c.toUser dt (transport c.toUser stepIdx c.G adv filt dt p (pushA c.toUser dt F p.now (preA c.toUser dt p.now p.R))) (forces c.toUser dt false p.now)) := by
  obtain ⟨k, g⟩ := calcGcs_plain h more first s hm
  rw [← hdt'] at g
  set s1 := (first :: more).foldl (calcGc c) s with hs1
  obtain ⟨n1, n2, n3, n4, n5, n6, n7, n8, n9, n10⟩ := calcNdt_plain h dt s1
  set s2 := calcNdt c dt s1 with hs2
  have st1 : c.vc.div3 = true → s1.stash (stashBlk c.vc t 1) = p.v1 := fun hd => by
    rw [k.st _ (stashBlk_ne _ _ _ (fun h' => by simp [hd] at h') (.inl rfl))]; exact a.v1
  have st2 : c.vc.div3 = true → s1.stash (stashBlk c.vc t 2) = p.v2 := fun hd => by
    rw [k.st _ (stashBlk_ne _ _ _ (fun h' => by simp [hd] at h') (.inr rfl))]; exact a.v2 hd
  have hp2 : s2.psi = p.now := n1.trans (k.psi.trans a.psi)
  have hGC : s2.GC = atFaces c.toUser c.sh c.G dt (ahead dt p.d1 (speed c.toUser p.now) p.v1) := by
    rw [n8, g, a.d0, a.psi, a.ts, a.v1]
  have hA1 : s2.ndt = if c.vc.div3 = true ∧ p.d1 > 0 then atFaces c.toUser c.sh c.G dt (fun d x => dt * ((p.now (c.vip d) x - p.v1 d x) / p.d1)) else fun _ _ => 0 := by
    rw [n9, k.d0, a.d0]
    by_cases hc : c.vc.div3 = true ∧ p.d1 > 0
    · rw [if_pos hc, if_pos hc, k.psi, a.psi, k.ts, a.ts, st1 hc.1]
    · rw [if_neg hc, if_neg hc, k.ndt, a.n1 hc]
  have hA2 : s2.ndtt = if c.vc.div3 = true ∧ p.d1 > 0 ∧ p.d2 > 0 then
      atFaces c.toUser c.sh c.G dt (fun d x => dt ^ 2 * (2 * ((p.now (c.vip d) x - p.v1 d x) / p.d1 - (p.v1 d x - p.v2 d x) / p.d2) / (p.d1 + p.d2))) else fun _ _ => 0 := by
    rw [n10, k.d0, a.d0]
    by_cases h3 : c.vc.div3 = true
    · rw [k.d1, a.d1 h3]
      by_cases hc : c.vc.div3 = true ∧ p.d1 > 0 ∧ p.d2 > 0
      · rw [if_pos hc, if_pos hc, k.psi, a.psi, k.ts, a.ts, st1 hc.1, st2 hc.1]
      · rw [if_neg hc, if_neg hc, k.ndtt, a.n2 hc]
    · rw [if_neg fun h' => h3 h'.1, if_neg fun h' => h3 h'.1, k.ndtt, a.n2 fun h' => h3 h'.1]
  obtain ⟨e1, e3, e4, e5, e6, e7, e8, e9, e10⟩ := anteStep_push h hv hown dt s2 p.now p.R F hp2 (by rw [n3, k.vrhs]; exact a.v) (fun hs e he => by rw [n2, k.rhs]; exact a.R hs e he)
  set s3 := anteStep c dt s2 with hs3
  obtain ⟨q1, q2, q3, q4, q5, q6, q7, q8, q9, q10⟩ := advEqs_plain h filt (eqOrder c) (eqOrder_nodup c) s3
  set s4 := (eqOrder c).foldl (advEq c filt) s3 with hs4
  set s5 : St K (Idx n) n Unit := { s4 with timestep := s4.timestep + 1, ds1 := if c.vc.div3 then s4.ds0 else s4.ds1, ds0 := dt } with hs5
  have hpre : PP.preStep c filt first more s = s5 := by
    unfold PP.preStep
    simp only [← hdt']
    rfl
  obtain ⟨f1, f2, f4, f5, f6, f7, f8, f9⟩ := postRhs_plain h hown dt s5 (forces c.toUser dt false p.now) (fun hs e he => (congrFun q2 e).trans (e3 hs e he))
  have hadv : s5.psi = transport c.toUser stepIdx c.G adv filt dt p (pushA c.toUser dt F p.now (preA c.toUser dt p.now p.R)) := by
    show s4.psi = _
    rw [q1, e1, e5, e6, e7, hGC, hA1, hA2, hsh]
    funext e
    simp only [mem_eqOrder]
    rfl
  have hts : s3.timestep = t := by rw [e8, n4, k.ts, a.ts]
  have hst : ∀ b d, (PP.postRhs c dt s5).stash b d = fun x => fillStash c.vc t (speed c.toUser p.now d x) (fun b => s2.stash b d x) b := by
    intro b d
    rw [f4]
    show s4.stash b d = _
    rw [q4, e4]
    funext x
    show (if c.grid x then fillStash c.vc s2.timestep (vel c s2.psi d x) (fun b => s2.stash b d x) b else s2.stash b d x) = _
    rw [if_pos (h.grid x), vel_speed, hp2, n4, k.ts, a.ts]
  rw [hpre, ← hadv]
  refine ⟨f1, ?_, f8, fun hd => ?_, ?_, fun hd => ?_, fun hn => ?_, fun hn => ?_, fun e he => f2 e he⟩
  · rw [f7]
    show s4.timestep + 1 = t + 1
    rw [q8, hts]
  · rw [f9]
    show (if c.vc.div3 then s4.ds0 else s4.ds1) = _
    rw [if_pos hd, q9, e9, n5, k.d0, a.d0]
  · funext d x
    rw [hst, stashBlk_next1]
    simp [fillStash, Stash.set]
  · funext d x
    rw [hst, (stashBlk_next2 c.vc hd t).1]
    simp only [fillStash, Stash.set, hd, if_true]
    rw [if_neg (stashBlk_next2 c.vc hd t).2, n7 _ (stashBlk_ne _ _ _ (fun h' => by simp [hd] at h') (.inl rfl)), st1 hd]
  · have hd : ¬c.vc.div3 = true := fun hd => hn ⟨hd, hdt⟩
    rw [f5]
    show s4.ndt = _
    rw [q6, e6, hA1, if_neg fun h' => hd h'.1]
  · have hd : ¬(c.vc.div3 = true ∧ p.d1 > 0) := fun hd => hn ⟨hd.1, hdt, hd.2⟩
    rw [f6]
    show s4.ndtt = _
    rw [q7, e7, hA2, if_neg fun h' => hd ⟨h'.1, h'.2.1⟩]

/-- a step ends with the force `F'` -/
theorem Mid.agr {t : Nat} {dt : K} {s : St K (Idx n) n Unit} {p : Past K (Idx n) n} {filt : Bool} {F : Fin n → Idx n → K} (F' : Fin n → Idx n → K)
    (m : Mid c t dt s p (postA c.toUser dt (transport c.toUser stepIdx c.G adv filt dt p (pushA c.toUser dt F p.now (preA c.toUser dt p.now p.R))) (forces c.toUser dt false p.now))) :
    AgrF c (t + 1) { s with psi := onVel c.toUser (fun d x v => v + dt / 2 * F' d x) s.psi, vrhs := F' } (PP.flowStep c.toUser c.G adv filt dt F F' p) F' := by
  have hsc : PP.flowStep c.toUser c.G adv filt dt F F' p = ⟨onVel c.toUser (fun d x v => v + dt / 2 * F' d x) s.psi, speed c.toUser p.now, p.v1, dt, p.d1,
      (postA c.toUser dt (transport c.toUser stepIdx c.G adv filt dt p (pushA c.toUser dt F p.now (preA c.toUser dt p.now p.R))) (forces c.toUser dt false p.now)).2⟩ := by
    rw [m.psi]
    unfold PP.flowStep postA preA pushA
    cases c.sch <;> rfl
  rw [hsc]
  exact ⟨rfl, m.ts, m.d0, m.d1, m.v1, m.v2, m.n1, m.n2, fun _ => m.R, rfl⟩

end
end VP

namespace PP
open Prs (inBox)
variable {K : Type} [Field K] [LinearOrder K] [IsStrictOrderedRing K] {n : Nat} [NeZero n] {T : Type}

theorem onVel_per {P : Fin n → Nat} (u : VP.User K (Idx n) n) (f : Fin n → Idx n → K → K) (hf : ∀ d x k e, f d (stepIdx x e (P e)) k = f d x k) (psi : Nat → Idx n → K) (h : ∀ e, PeriodicN P (psi e)) (e : Nat) :
    PeriodicN P (VP.onVel u f psi e) := by
  intro x d
  show (match (List.finRange n).find? (fun d => u.vip d == e) with | some k => f k (stepIdx x d (P d)) (psi e (stepIdx x d (P d))) | none => psi e (stepIdx x d (P d))) =
    (match (List.finRange n).find? (fun d => u.vip d == e) with | some k => f k x (psi e x) | none => psi e x)
  cases (List.finRange n).find? (fun d => u.vip d == e) with
  | none => exact h e x d
  | some k =>
    show f k (stepIdx x d (P d)) (psi e (stepIdx x d (P d))) = f k x (psi e x)
    rw [hf, h e x d]

theorem onVel_else (u : VP.User K (Idx n) n) (f : Fin n → Idx n → K → K) (psi : Nat → Idx n → K) {e : Nat} (he : ∀ d, u.vip d ≠ e) : VP.onVel u f psi e = psi e := by
  funext x
  unfold VP.onVel
  have : (List.finRange n).find? (fun d => u.vip d == e) = none := by
    rw [List.find?_eq_none]
    intro d _ h
    exact he d (by simpa using h)
  rw [this]

theorem ddx_per {P : Fin n → Nat} {dx : Fin n → K} {f : Idx n → K} (h : PeriodicN P f) (d : Fin n) : PeriodicN P (ddx dx f d) :=
  ((step_per h d 1).map2 (fun a b => (a - b) / (2 * dx d)) (step_per h d (-1)))

section
variable {c : Cfg K n T} {P : Fin n → Nat} {H : Idx n → Prop} {HF : Fin n → Idx n → Prop} {G coeff : Idx n → K} {relax : Fin n → Idx n → K}
  {adv : (GC ndt ndtt : Fin n → Idx n → K) → Bool → (Idx n → K) → (Idx n → K)}

theorem Cyc.two (h : Cyc c P H HF G coeff relax adv) (d : Fin n) : 2 ≤ c.N d := by have := h.pts d; have := h.pos d; omega

theorem Cyc.grad_ddx (h : Cyc c P H HF G coeff relax adv) {f f' : Idx n → K} (h1 : PeriodicN P f') (h2 : ∀ x, InGrid P x → f x = f' x) (d : Fin n) {x : Idx n} (hx : InGrid P x) :
    calcGrad c.dx (Prs.presFill c.N (fun d => if c.kind d = .cyclic then .cyclic else .wall) f) d x = ddx c.dx f' d x := by
  obtain ⟨p1, p2⟩ := presFill_per h.pts h.pos (fun d => if c.kind d = .cyclic then .cyclic else .wall) (fun d => if_pos (h.kind d)) h1 h2 hx d
  unfold calcGrad gradC ddx
  rw [p1, p2, div_div, mul_comm]

theorem Cyc.slope_ddx (h : Cyc c P H HF G coeff relax adv) {f f' : Idx n → K} (h1 : PeriodicN P f') (h2 : ∀ x, InGrid P x → f x = f' x) (d : Fin n) {x : Idx n} (hx : InGrid P x) :
    slope c.N (fun d => c.kind d = .cyclic) f d x / c.dx d = ddx c.dx f' d x := by
  rw [← grad_slope h.two c.kind c.dx f d ((grid_box h.pts x).2 hx)]
  exact h.grad_ddx h1 h2 d hx

theorem Cyc.nonDiv (h : Cyc c P H HF G coeff relax adv) (hG : ∀ x, InGrid P x → c.G x = G x) {tol : K} {v v' : Fin n → Idx n → K} (h1 : ∀ d, PeriodicN P (v' d))
    (h2 : ∀ d x, InGrid P x → v d x = v' d x) (hd : ∀ x, inBox c.N x → |flowDiv c.N (fun d => c.kind d = .cyclic) c.dx c.G v x| ≤ tol) : NonDivergent c.dx G tol v' := by
  have pG : PeriodicN P G := VP.perTN.1 h.link.perG
  have pm : ∀ d, PeriodicN P (fun y => G y * v' d y) := fun d => pG.map2 (fun a b => a * b) (h1 d)
  have per : PeriodicN P (fun x => (∑ d, ddx c.dx (fun y => G y * v' d y) d x) / G x) := by
    intro x e
    show (∑ d, ddx c.dx (fun y => G y * v' d y) d (stepIdx x e (P e))) / G (stepIdx x e (P e)) = _
    rw [pG x e]
    congr 1
    exact Finset.sum_congr rfl fun d _ => ddx_per (pm d) d x e
  refine VP.forall_of_period h.pos per (Q := fun k => |k| ≤ tol) (fun x hx => ?_)
  have hx' : InGrid P x := fun d => by
    have := Finset.mem_Ico.1 (Fintype.mem_piFinset.1 hx d)
    exact ⟨this.1, by omega⟩
  refine le_trans (le_of_eq ?_) (hd x ((grid_box h.pts x).2 hx'))
  unfold flowDiv
  rw [hG x hx']
  congr 2
  refine Finset.sum_congr rfl fun d _ => ?_
  exact (h.slope_ddx (f := fun y => c.G y * v d y) (pm d) (fun y hy => by rw [hG y hy, h2 d y hy]) d hx').symm

theorem fnlz_frame (hpost : c.post = fun _ s => s) (ne : Nonempty (Prs.Pts c.N)) (dt : K) {s p : St K n T} (h : fnlz c ne dt s = some p) : p.toSt = { s.toSt with psi := p.psi, vrhs := p.vrhs } := by
  unfold fnlz at h
  rw [hpost] at h
  simp only at h
  split at h
  · cases h
  · rename_i s1 h1
    simp only [Option.some.injEq] at h
    obtain ⟨f1, _⟩ := solve_frame h1
    subst h
    show ({ s1.toSt with psi := _, vrhs := _ } : VP.St K (Idx n) n T) = _
    rw [f1]
    split_ifs <;> rfl

theorem Cyc.mid_rel (h : Cyc c P H HF G coeff relax adv) (filt : Bool) (first : K) (more : List K) {s : VP.St K (Idx n) n T} {s' : VP.St K (Idx n) n Unit} (r : VP.Rel c.toCfg (VP.trN P) HF (c.sch = .trapez) s s') :
    VP.Rel c.toCfg (VP.trN P) HF True (postRhs c.toCfg ((first :: more).getLast (by simp)) (preStep c.toCfg filt first more s))
      (postRhs (VP.ideal c.toCfg G coeff relax adv) ((first :: more).getLast (by simp)) (preStep (VP.ideal c.toCfg G coeff relax adv) filt first more s')) := by
  have hL := h.link
  have hw := h.wf
  have h1 : VP.RelG c.toCfg (VP.trN P) HF (c.sch = .trapez) ((first :: more).foldl (VP.calcGc c.toCfg) s) ((first :: more).foldl (VP.calcGc (VP.ideal c.toCfg G coeff relax adv)) s') :=
    VP.calcGcs_rel hL hw more (VP.calcGc_rel hL hw first r)
  set dt := (first :: more).getLast (by simp) with hdt
  have h4 := VP.advEqs_rel hL filt (VP.eqOrder c.toCfg) (VP.eqOrder_lt c.toCfg) (VP.anteStep_rel hL hw dt (VP.calcNdt_rel hL hw dt h1))
  have h5 : VP.Rel c.toCfg (VP.trN P) HF True (preStep c.toCfg filt first more s) (preStep (VP.ideal c.toCfg G coeff relax adv) filt first more s') :=
    ⟨by show _ + 1 = _ + 1; rw [h4.ts]; rfl, rfl, by show (if c.vc.div3 then _ else _) = (if c.vc.div3 then _ else _); rw [h4.d0, h4.d1]; rfl, h4.perPsi, h4.psi, h4.perRhs, h4.rhs, h4.perSt, h4.st, h4.perV, h4.v, h4.perN, h4.ndt, h4.perNN, h4.ndtt⟩
  unfold postRhs
  cases hsch : c.sch
  · have : (VP.ideal c.toCfg G coeff relax adv).sch = .eulerA := hsch
    rw [this]
    exact VP.appRhs_rel dt h5
  · have : (VP.ideal c.toCfg G coeff relax adv).sch = .eulerB := hsch
    rw [this]
    exact h5
  · have : (VP.ideal c.toCfg G coeff relax adv).sch = .trapez := hsch
    rw [this]
    exact VP.appRhs_rel (dt / 2) (VP.updRhs_rel hL (dt / 2) true h5)

/-- what is known at the end of step `t` -/
def Follows (c : Cfg K n T) (P : Fin n → Nat) (HF : Fin n → Idx n → Prop) (G : Idx n → K) (adv : (GC ndt ndtt : Fin n → Idx n → K) → Bool → (Idx n → K) → (Idx n → K)) (tol dt0 : K) (filt : Nat → Bool) (dt : Nat → K)
    (psi0 : Nat → Idx n → K) (t : Nat) (q : St K n T) : Prop :=
  ∃ (s' : VP.St K (Idx n) n Unit) (p : VP.Past K (Idx n) n) (F : Fin n → Idx n → K) (Phi : Idx n → K), VP.Rel c.toCfg (VP.trN P) HF (c.sch = .trapez) q.toSt s' ∧ PeriodicN P Phi ∧
    (∀ x, InGrid P x → q.Phi x = Phi x) ∧ VP.AgrF (VP.ideal c.toCfg G c.coeff c.relax adv) t s' p F ∧ Flow c.toUser P G adv tol dt0 filt dt psi0 t p F Phi

theorem Cyc.flow_step (h : Cyc c P H HF G c.coeff c.relax adv) (hn : c.nrm = nrmBase c.toUser) (hG : ∀ x, InGrid P x → c.G x = G x) (hco : ∀ x, 0 ≤ c.coeff x) (hown : VP.ForceOwn c.toUser)
    (hsh : c.sh = stepIdx) (ne : Nonempty (Prs.Pts c.N)) (tol dt0 : K) (filt : Nat → Bool) (dt : Nat → K) (psi0 : Nat → Idx n → K) (t : Nat) (first : K) (more : List K)
    (hm : c.vc.varDt = false ∧ c.vc.div3 = false → more = []) (hdt' : dt t = (first :: more).getLast (by simp)) (hdt : 0 < dt t) {s q : St K n T} (hs : Follows c P HF G adv tol dt0 filt dt psi0 t s)
    (hq : PP.step c ne (filt t) first more s = some q) (hdiv : ∀ x, inBox c.N x → |flowDiv c.N (fun d => c.kind d = .cyclic) c.dx c.G (fun d => q.psi (c.vip d)) x| ≤ tol) :
    Follows c P HF G adv tol dt0 filt dt psi0 (t + 1) q := by
  obtain ⟨s', p, F, Phi, r, hP1, hP2, a, fl⟩ := hs
  have m := VP.mid_agr (VP.plain_ideal c.toCfg G c.coeff c.relax adv) h.ok.inj hown (filt t) first more hsh hm hdt' hdt a
  have r6 := h.mid_rel (filt t) first more r
  rw [← hdt'] at r6
  set b := postRhs c.toCfg (dt t) (preStep c.toCfg (filt t) first more s.toSt) with hb
  set b' := postRhs (VP.ideal c.toCfg G c.coeff c.relax adv) (dt t) (preStep (VP.ideal c.toCfg G c.coeff c.relax adv) (filt t) first more s') with hb'
  have hq' : PP.fnlz c ne (dt t) { s with toSt := b } = some q := by rw [hb, hdt']; exact hq
  obtain ⟨_, _, hE, _⟩ := h.fnlz ne (dt t) (s := { s with toSt := b }) r6 ⟨Phi, hP1, hP2⟩ hq'
  obtain ⟨Phi', g1, g2⟩ := hE
  obtain ⟨w, w1, w2, w3, w4, w5⟩ := fnlz_vel h.ok h.two ne (dt t) hq'
  have w1' : q.toSt = w := by rw [w1, h.post]
  have fr := fnlz_frame h.post ne (dt t) hq'
  have nw : ∀ d x, ¬ wallPt c d x := fun d x hx => hx.1 (h.kind d)
  have pC : PeriodicN P c.coeff := VP.perTN.1 h.link.perC
  have pR : ∀ d, PeriodicN P (c.relax d) := fun d => VP.perTN.1 (h.link.perR d)
  have pb : ∀ e, PeriodicN P (b'.psi e) := fun e => VP.perTN.1 (r6.perPsi e)
  -- the new velocity and the new force
  set V : Fin n → Idx n → K := fun d x => nrmBase c.toUser (dt t) d x * (b'.psi (c.vip d) x + (if c.vab = .impl then 1 / 2 * dt t * c.coeff x * c.relax d x else 0) - ddx c.dx Phi' d x) with hV
  set F' : Fin n → Idx n → K := fun d x => (V d x - b'.psi (c.vip d) x) / (1 / 2 * dt t) with hF'
  have hh : (1 / 2 * dt t : K) ≠ 0 := by positivity
  have hVF : ∀ d x, V d x = b'.psi (c.vip d) x + dt t / 2 * F' d x := by
    intro d x
    rw [hF']
    field_simp
    ring
  have pV : ∀ d, PeriodicN P (V d) := by
    intro d x e
    rw [hV]
    unfold nrmBase
    simp only [pb _ x e, pC x e, pR d x e, ddx_per (dx := c.dx) g1 d x e]
  have pF : ∀ d, PeriodicN P (F' d) := by
    intro d x e
    show (V d (stepIdx x e (P e)) - b'.psi (c.vip d) (stepIdx x e (P e))) / _ = _
    rw [pV d x e, pb _ x e]
  set psi' := VP.onVel c.toUser (fun d x v => v + dt t / 2 * F' d x) b'.psi with hpsi
  have hnow : ∀ d, psi' (c.vip d) = V d := by
    intro d
    funext x
    rw [hpsi, VP.onVel_vip h.ok.inj, hVF]
  have ppsi : ∀ e, PeriodicN P (psi' e) := fun e => onVel_per c.toUser _ (fun d x k e => by rw [pF d x e]) b'.psi pb e
  have qv : ∀ d x, InGrid P x → q.psi (c.vip d) x = V d x := by
    intro d x hx
    have hx' := (grid_box h.pts x).2 hx
    show q.toSt.psi (c.vip d) x = _
    rw [w1', w5 d x hx' (nw d x), h.slope_ddx g1 g2 d hx, hn]
    show nrmBase c.toUser (dt t) d x * (b.psi (c.vip d) x + _ - _) = _
    rw [r6.psi _ (h.wf.vip d) x ((h.grid x).2 hx)]
  refine ⟨{ b' with psi := psi', vrhs := F' }, flowStep c.toUser G adv (filt t) (dt t) F F' p, F', Phi', ?_, g1, g2, m.agr F', ?_⟩
  · rw [fr]
    refine ⟨r6.ts, r6.d0, r6.d1, fun e => VP.perTN.2 (ppsi e), ?_, fun _ => r6.perRhs trivial, fun _ => r6.rhs trivial, r6.perSt, r6.st, fun d => VP.perTN.2 (pF d), ?_, r6.perN, r6.ndt, r6.perNN, r6.ndtt⟩
    · intro e he x hx
      by_cases hd : ∃ d, c.vip d = e
      · obtain ⟨d, rfl⟩ := hd
        show q.psi (c.vip d) x = psi' (c.vip d) x
        rw [hnow, qv d x ((h.grid x).1 hx)]
      · have hd' : ∀ d, c.vip d ≠ e := fun d hd' => hd ⟨d, hd'⟩
        show q.toSt.psi e x = psi' e x
        rw [w1', w2 e hd', hpsi, onVel_else _ _ _ hd']
        exact r6.psi e he x hx
    · intro d x hx
      have hx' := (h.grid x).1 hx
      show q.toSt.vrhs d x = F' d x
      rw [w1', w4 d x ((grid_box h.pts x).2 hx'), ← w1']
      show (q.psi (c.vip d) x - b.psi (c.vip d) x) / _ = _
      rw [qv d x hx', r6.psi _ (h.wf.vip d) x hx]
  · have hag := m.agr F'
    have hnow' : (flowStep c.toUser G adv (filt t) (dt t) F F' p).now = psi' := hag.psi.symm
    refine .step t p _ F F' Phi Phi' fl g1 rfl (fun d x => ?_) ?_
    · rw [hnow']
      unfold drag
      rw [hnow]
      have e2 : dt t / 2 * (ddx c.dx Phi' d x / (dt t / 2)) = ddx c.dx Phi' d x := by field_simp
      have hh' : (dt t / 2 : K) ≠ 0 := by positivity
      refine mul_left_cancel₀ hh' ?_
      rw [mul_sub, e2]
      have e1 : dt t / 2 * F' d x = V d x - b'.psi (c.vip d) x := by rw [hVF]; ring
      rw [e1]
      have hV' : V d x = nrmBase c.toUser (dt t) d x * (b'.psi (c.vip d) x + (if c.vab = .impl then 1 / 2 * dt t * c.coeff x * c.relax d x else 0) - ddx c.dx Phi' d x) := rfl
      unfold nrmBase at hV'
      by_cases hv : c.vab = .impl
      · rw [if_pos hv, if_pos hv] at hV'
        rw [if_pos hv]
        have hc0 : (1 + 1 / 2 * dt t * c.coeff x : K) ≠ 0 := by have := mul_nonneg (le_of_lt (by positivity : (0:K) < 1 / 2 * dt t)) (hco x); positivity
        have w2 : V d x * (1 + 1 / 2 * dt t * c.coeff x) = b'.psi (c.vip d) x + 1 / 2 * dt t * c.coeff x * c.relax d x - ddx c.dx Phi' d x := by
          rw [hV', one_div, mul_comm, mul_inv_cancel_left₀ hc0]
        linear_combination w2
      · rw [if_neg hv, if_neg hv] at hV'
        rw [if_neg hv]
        linear_combination hV'
    · rw [hnow']
      exact h.nonDiv hG (fun d => ppsi _) (fun d x hx => by rw [hnow]; exact qv d x hx) hdiv

theorem Cyc.flow_start (h : Cyc c P H HF G c.coeff c.relax adv) (hG : ∀ x, InGrid P x → c.G x = G x) (hown : VP.ForceOwn c.toUser)
    (ne : Nonempty (Prs.Pts c.N)) (tol dt0 : K) (filt : Nat → Bool) (dt : Nat → K) {psi0 : Nat → Idx n → K} (h0 : ∀ e, PeriodicN P (psi0 e)) {s q : St K n T} (hs : VP.Begin c.toCfg psi0 s.toSt)
    (hq : PP.anteLoop c ne dt0 s = some q) (hdiv : ∀ x, inBox c.N x → |flowDiv c.N (fun d => c.kind d = .cyclic) c.dx c.G (fun d => q.psi (c.vip d)) x| ≤ tol) :
    Follows c P HF G adv tol dt0 filt dt psi0 0 q := by
  unfold PP.anteLoop at hq
  simp only at hq
  split at hq
  · cases hq
  · rename_i s1 h1
    simp only [Option.some.injEq] at hq
    have x1 : ∀ e, e < c.nEqns → Ext P (s.psi e) := fun e he => ⟨psi0 e, h0 e, fun x hx => hs.psi e he x ((h.grid x).2 hx)⟩
    obtain ⟨a1, _⟩ := h.solve ne dt0 true (s := { s with edge := saveEdges c s.psi, Phi := VP.asgG c.toCfg (fun _ => 0) s.Phi }) (fun d => x1 _ (h.wf.vip d))
      ((Ext.const P 0).congr (fun x hx => if_pos ((h.grid x).2 hx))) h1
    have e1 : s1.toSt = s.toSt := (solve_frame h1).1
    obtain ⟨Psi, g1, g2⟩ := a1
    set psi1 := VP.onVel c.toUser (fun d x v => v - ddx c.dx Psi d x) psi0 with hpsi1
    have per1 : ∀ e, PeriodicN P (psi1 e) := fun e => onVel_per c.toUser _ (fun d x k e => by rw [ddx_per g1 d x e]) psi0 h0 e
    have same1 : ∀ e, e < c.nEqns → ∀ x, c.grid x = true → (apply c dt0 true s1).psi e x = psi1 e x := by
      intro e he x hx
      by_cases hd : ∃ d, c.vip d = e
      · obtain ⟨d, rfl⟩ := hd
        have hx' := (h.grid x).1 hx
        rw [hpsi1, VP.onVel_vip h.ok.inj]
        show VP.asgVip c.toCfg (fun d x v => (prsCfg c dt0 s1.edge).newVel true (fun _ _ => v) s1.Phi d x) s1.psi (c.vip d) x = _
        rw [asgVip_at h.ok.inj]
        refine (if_pos hx).trans ?_
        have hne : ¬ (prsCfg c dt0 s1.edge).isEdge d x = true := fun hh => ((isEdge_iff c dt0 s1.edge d x).1 hh).1 (h.kind d)
        unfold Prs.Cfg.newVel Prs.Cfg.setEdges
        beta_reduce
        rw [if_neg hne]
        unfold Prs.Cfg.normalize
        rw [if_pos rfl]
        have e2 : s1.psi (c.vip d) x = psi0 (c.vip d) x := by
          show s1.toSt.psi (c.vip d) x = _
          rw [e1]; exact hs.psi _ he x hx
        rw [e2]
        have e3 := h.grad_ddx g1 g2 d hx'
        show psi0 (c.vip d) x - calcGrad c.dx (Prs.presFill c.N (fun d => if c.kind d = .cyclic then .cyclic else .wall) s1.Phi) d x = _
        rw [e3]
      · have hd' : ∀ d, c.vip d ≠ e := fun d hd' => hd ⟨d, hd'⟩
        rw [apply_other _ _ _ _ hd', show s1.psi = s.psi from congrArg VP.St.psi e1, hpsi1, onVel_else _ _ _ hd']
        exact hs.psi e he x hx
    have t1 : (apply c dt0 true s1).toSt.timestep = 0 := by show s1.toSt.timestep = 0; rw [e1]; exact hs.ts
    have t2 : (apply c dt0 true s1).toSt.ds0 = 0 := by show s1.toSt.ds0 = 0; rw [e1]; exact hs.ds0
    have t3 : (apply c dt0 true s1).toSt.ds1 = 0 := by show s1.toSt.ds1 = 0; rw [e1]; exact hs.ds1
    have r := VP.anteLoop_rel (s := (apply c dt0 true s1).toSt) (s' := VP.start psi1) h.link h.wf dt0 t1 t2 t3 (fun e => VP.perTN.2 (per1 e)) same1
    have ag := VP.anteLoop_agr (VP.plain_ideal c.toCfg G c.coeff c.relax adv) hown dt0 psi1
    set b := VP.anteLoop c.toCfg dt0 (apply c dt0 true s1).toSt with hb
    set b' := VP.anteLoop (VP.ideal c.toCfg G c.coeff c.relax adv) dt0 (VP.start psi1) with hb'
    set k : K := -((∑ x : Prs.Pts c.N, (0 - ∑ d, 1 / 2 * (b.psi (c.vip d) x.1) ^ 2)) / (∏ d, (c.N d : K))) with hk
    set Phi : Idx n → K := fun x => k - ∑ d, 1 / 2 * (psi1 (c.vip d) x) ^ 2 with hPhi
    have pPhi : PeriodicN P Phi := by
      intro x e
      show k - ∑ d, 1 / 2 * (psi1 (c.vip d) (stepIdx x e (P e))) ^ 2 = _
      simp only [per1 _ x e]
      rfl
    have e3 : q.psi = b.psi := by subst hq; rfl
    have bpsi : ∀ e, e < c.nEqns → ∀ x, InGrid P x → b.psi e x = psi1 e x := fun e he x hx => by
      rw [r.psi e he x ((h.grid x).2 hx)]; exact congrFun (congrFun ag.psi e) x
    have qPhi : ∀ x, InGrid P x → q.Phi x = Phi x := by
      intro x hx
      have : q.Phi = (iniPressure c { apply c dt0 true s1 with toSt := b }).Phi := by subst hq; rfl
      rw [this]
      refine (show _ = if c.grid x then _ else _ from rfl).trans ((if_pos ((h.grid x).2 hx)).trans ?_)
      show 0 - ∑ d, 1 / 2 * (b.psi (c.vip d) x) ^ 2 - (∑ x : Prs.Pts c.N, (0 - ∑ d, 1 / 2 * (b.psi (c.vip d) x.1) ^ 2)) / (∏ d, (c.N d : K)) = k - ∑ d, 1 / 2 * (psi1 (c.vip d) x) ^ 2
      have : ∑ d, 1 / 2 * (b.psi (c.vip d) x) ^ 2 = ∑ d, 1 / 2 * (psi1 (c.vip d) x) ^ 2 := Finset.sum_congr rfl fun d _ => by rw [bpsi _ (h.wf.vip d) x hx]
      rw [this, hk]
      ring
    set F : Fin n → Idx n → K := fun d x => drag c.toUser psi1 d x - ddx c.dx Phi d x with hF
    have bv : b'.vrhs = fun d x => drag c.toUser psi1 d x := by
      rw [ag.v]
      funext d x
      show (if c.vab = .impl then -(c.coeff x * (psi1 (c.vip d) x - c.relax d x)) else 0) = (if c.vab = .impl then - c.coeff x * (psi1 (c.vip d) x - c.relax d x) else 0)
      rw [neg_mul]
    have e2 : q.toSt = { b with psi := q.psi, vrhs := q.vrhs } := by subst hq; rfl
    refine ⟨{ b' with vrhs := F }, ⟨psi1, fun _ _ => 0, fun _ _ => 0, 0, 0, VP.forces c.toUser (dt0 / 2) false psi1⟩, F, Phi, ?_, pPhi, qPhi,
      ⟨ag.psi, ag.ts, ag.d0, ag.d1, ag.v1, ag.v2, ag.n1, ag.n2, ag.R, rfl⟩,
      .start Psi Phi k _ F g1 rfl rfl rfl rfl rfl rfl (h.nonDiv hG (fun d => per1 _) (fun d x hx => by rw [e3]; exact bpsi _ (h.wf.vip d) x hx) hdiv) (fun _ => rfl) (fun _ _ => rfl)⟩
    rw [e2]
    refine ⟨r.ts, r.d0, r.d1, r.perPsi, fun e he x hx => ?_, r.perRhs, r.rhs, r.perSt, r.st, fun d => VP.perTN.2 ?_, fun d x hx => ?_, r.perN, r.ndt, r.perNN, r.ndtt⟩
    · show q.psi e x = _
      rw [e3]; exact r.psi e he x hx
    · intro x e
      show drag c.toUser psi1 d (stepIdx x e (P e)) - ddx c.dx Phi d (stepIdx x e (P e)) = _
      rw [ddx_per pPhi d x e]
      have pC : PeriodicN P c.coeff := VP.perTN.1 h.link.perC
      have pR : ∀ d, PeriodicN P (c.relax d) := fun d => VP.perTN.1 (h.link.perR d)
      unfold drag
      rw [per1 _ x e, pC x e, pR d x e]
      rfl
    · have : q.vrhs d = VP.asgG c.toCfg (fun x => b.vrhs d x - calcGrad c.dx (Prs.presFill c.N (prsCfg c dt0 q.edge).bc q.Phi) d x) (b.vrhs d) := by subst hq; rfl
      show q.vrhs d x = F d x
      rw [this]
      refine (if_pos hx).trans ?_
      have e4 := h.grad_ddx pPhi qPhi d ((h.grid x).1 hx)
      have e5 := r.v d x hx
      show b.vrhs d x - calcGrad c.dx (Prs.presFill c.N (fun d => if c.kind d = .cyclic then .cyclic else .wall) q.Phi) d x = drag c.toUser psi1 d x - ddx c.dx Phi d x
      rw [e4, e5, bv]

end
end PP
end Mpdata
