import Verif.Model.PrsProg
import Verif.Props.Prs
import Verif.Spec.PrsTol
import Verif.Lemmas.VipTotal
import Mathlib.Tactic.Ring
import Mathlib.Tactic.Linarith
import Mathlib.Tactic.FieldSimp
/-! Lemmas on whole runs of incompressible solvers: velocities after every projection, velocity history, advector. -/
set_option linter.unusedSectionVars false
set_option linter.unusedVariables false
namespace Mpdata.PP
open Prs (inBox)
variable {K : Type} [Field K] [LinearOrder K] [IsStrictOrderedRing K] {n : Nat} {T : Type}

/-- `asgVip` of distinct equations -/
theorem asgVip_at {c : VP.Cfg K (Idx n) n T} (hi : Function.Injective c.vip) (f : Fin n → Idx n → K → K) (psi : Nat → Idx n → K) (d : Fin n) :
    VP.asgVip c f psi (c.vip d) = VP.asgG c (fun x => f d x (psi (c.vip d) x)) (psi (c.vip d)) := by
  unfold VP.asgVip
  have key : ∀ (l : List (Fin n)) (psi : Nat → Idx n → K), l.Nodup →
      (l.foldl (fun psi d e => if e = c.vip d then VP.asgG c (fun x => f d x (psi e x)) (psi e) else psi e) psi) (c.vip d) =
      if d ∈ l then VP.asgG c (fun x => f d x (psi (c.vip d) x)) (psi (c.vip d)) else psi (c.vip d) := by
    intro l
    induction l with
    | nil => intro psi _; simp
    | cons a l ih =>
      intro psi hn
      rw [List.nodup_cons] at hn
      rw [List.foldl_cons, ih _ hn.2]
      by_cases ha : d = a
      · subst ha
        simp [hn.1]
      · have : ¬ c.vip d = c.vip a := fun h => ha (hi h)
        simp [ha, this]
  rw [key _ _ (List.nodup_finRange n), if_pos (List.mem_finRange d)]

theorem asgVip_other {c : VP.Cfg K (Idx n) n T} (f : Fin n → Idx n → K → K) (psi : Nat → Idx n → K) (e : Nat) (he : ∀ d, c.vip d ≠ e) :
    VP.asgVip c f psi e = psi e := by
  unfold VP.asgVip
  generalize List.finRange n = l
  induction l generalizing psi with
  | nil => rfl
  | cons a l ih =>
    rw [List.foldl_cons, ih]
    simp [Ne.symm (he a)]

/-- what is used of the configuration -/
structure Ok (c : Cfg K n T) : Prop where
  grid : ∀ x, c.grid x = true ↔ inBox c.N x
  den : c.den = none
  inj : Function.Injective c.vip
  xchng : ∀ a x, inBox c.N x → c.xchng a x = a x
  postVip : ∀ dt s d, (c.post dt s).psi (c.vip d) = s.psi (c.vip d)
  postFrame : ∀ dt s, (c.post dt s).stash = s.stash ∧ (c.post dt s).GC = s.GC ∧ (c.post dt s).timestep = s.timestep ∧ (c.post dt s).ds0 = s.ds0

/-- the weighted divergence of a velocity field given at the grid points, halos as the pressure solver fills them; independent of the time step and the edge velocities -/
def dvg (c : Cfg K n T) (v : Fin n → Idx n → K) (x : Idx n) : K := (prsCfg c 0 (fun _ _ => 0)).divG (fun d y => v d y * c.G y) x

theorem dvg_eq (c : Cfg K n T) (dt : K) (edge : Fin n → Idx n → K) (v : Fin n → Idx n → K) (x : Idx n) :
    (prsCfg c dt edge).divG (fun d y => v d y * (prsCfg c dt edge).G y) x = dvg c v x := rfl

/-- a boundary point of a dimension that is not cyclic -/
def wallPt (c : Cfg K n T) (d : Fin n) (x : Idx n) : Prop := c.kind d ≠ .cyclic ∧ (x d = 0 ∨ x d = (c.N d : Int) - 1)

theorem isEdge_iff (c : Cfg K n T) (dt : K) (edge : Fin n → Idx n → K) (d : Fin n) (x : Idx n) : (prsCfg c dt edge).isEdge d x = true ↔ wallPt c d x := by
  unfold Prs.Cfg.isEdge wallPt prsCfg
  by_cases h : c.kind d = .cyclic <;> simp [h]

/-- velocity field as left by the pressure solver -/
structure Good (c : Cfg K n T) (edge v : Fin n → Idx n → K) : Prop where
  div : ∀ b, Guarantees c.prs c.N c.tol b → ∀ x, inBox c.N x → |dvg c v x| ≤ b
  edge : ∀ d x, inBox c.N x → wallPt c d x → v d x = edge d x

theorem dvg_congr (c : Cfg K n T) {v w : Fin n → Idx n → K} (h : ∀ d x, inBox c.N x → v d x = w d x) (x : Idx n) : dvg c v x = dvg c w x := by
  unfold dvg
  exact congrFun (Prs.divG_congr _ _ _ (fun d y hy => by rw [h d y hy])) x

theorem Good.congr {c : Cfg K n T} {edge v w : Fin n → Idx n → K} (h : Good c edge v) (e : ∀ d x, inBox c.N x → w d x = v d x) : Good c edge w :=
  ⟨fun b hb x hx => by rw [dvg_congr c e]; exact h.div b hb x hx, fun d x hx hw => by rw [e d x hx]; exact h.edge d x hx hw⟩

/-- the edge velocities are not affected by the normalisation (base class: no implicit absorber on open boundaries) -/
def EdgeFree (c : Cfg K n T) : Prop := ∀ dt d x, inBox c.N x → wallPt c d x → c.kind d = .opened → c.nrm dt d x = 1

/-- saved edge velocities vanish unless the boundary is open -/
def EdgeOk (c : Cfg K n T) (edge : Fin n → Idx n → K) : Prop := ∀ d x, c.kind d ≠ .opened → edge d x = 0

/-- a pressure scheme returns the potential `Phi'` -/
def Returns {X : Type} [Fintype X] [Nonempty X] (prs : Scheme) (LE L : (X → K) → (X → K)) (tol : K) (cap : Nat) (Phi Phi' : X → K) : Prop :=
  match prs with
  | .mr => ∃ beta m, Prs.mrUpdate LE L tol cap Phi beta = some m ∧ m.Phi = Phi'
  | .gcr k => ∃ s0 m, Prs.gcrUpdate LE L tol (k + 1) cap s0 Phi = some m ∧ m.Phi = Phi'

theorem solve_some {c : Cfg K n T} {ne : Nonempty (Prs.Pts c.N)} {dt : K} {simple : Bool} {s s' : St K n T} (h : solve c ne dt simple s = some s') :
    s'.toSt = s.toSt ∧ s'.edge = s.edge ∧ ∃ Phi' : Prs.Pts (prsCfg c dt s.edge).N → K, s'.Phi = put c.N s.Phi Phi' ∧
      (haveI : Nonempty (Prs.Pts (prsCfg c dt s.edge).N) := ne
       Returns c.prs ((prsCfg c dt s.edge).lapG true simple (vips c s.psi)) ((prsCfg c dt s.edge).lapG false simple (vips c s.psi)) c.tol c.cap (fun x => s.Phi x.1) Phi') := by
  unfold solve at h
  simp only at h
  cases hp : c.prs with
  | mr =>
    rw [hp] at h
    simp only at h
    split at h
    · cases h
    · rename_i m hm
      simp only [Option.some.injEq] at h
      subst h
      exact ⟨rfl, rfl, m.Phi, rfl, _, m, hm, rfl⟩
  | gcr k =>
    rw [hp] at h
    simp only at h
    split at h
    · cases h
    · rename_i m hm
      simp only [Option.some.injEq] at h
      subst h
      exact ⟨rfl, rfl, m.Phi, rfl, _, m, hm, rfl⟩

theorem returns_div (pc : Prs.Cfg K n) [Nonempty (Prs.Pts pc.N)] (prs : Scheme) (simple : Bool) (u : Fin n → Idx n → K) (tol : K) (cap : Nat) (Phi Phi' : Prs.Pts pc.N → K)
    (hed : simple = true ∨ ∀ d x, inBox pc.N x → pc.isEdge d x = true → pc.nrm d x = 1 ∨ pc.edge d x = 0)
    (h : Returns prs (pc.lapG true simple u) (pc.lapG false simple u) tol cap Phi Phi') (b : K) (hb : Guarantees prs pc.N tol b) :
    ∀ x, inBox pc.N x → |pc.divG (fun d y => pc.newVel simple u (Prs.extend pc.N Phi') d y * pc.G y) x| ≤ b := by
  intro x hx
  match prs, h, hb with
  | .mr, ⟨beta, m, hm, e⟩, hb =>
    subst e
    exact (Prs.C34_mr_velocity_divergence pc simple u tol cap Phi beta hed m hm x hx).trans hb
  | .gcr 0, ⟨s0, m, hm, e⟩, hb =>
    subst e
    exact (Prs.C34_cr_velocity_divergence pc simple u tol cap s0 Phi hed m hm x hx).trans hb
  | .gcr (k + 1), ⟨s0, m, hm, e⟩, hb =>
    subst e
    obtain ⟨h0, h1⟩ := hb
    have h2 := (Prs.C34_gcrk_velocity_divergence_partial pc simple u tol (k + 1 + 1) cap s0 Phi hed m hm).trans h1
    have h3 := Finset.single_le_sum (f := fun x : Prs.Pts pc.N => (pc.divG (fun d y => pc.newVel simple u (Prs.extend pc.N m.Phi) d y * pc.G y) x.1) ^ 2) (fun _ _ => sq_nonneg _) (Finset.mem_univ ⟨x, hx⟩)
    exact abs_le_of_sq_le_sq (h3.trans h2) h0

/-- solve and apply: the result is `Good`; only the velocities, the potential and the memory of the pressure scheme change -/
theorem solve_apply {c : Cfg K n T} (ok : Ok c) (ne : Nonempty (Prs.Pts c.N)) (dt : K) (simple : Bool) (hf : simple = true ∨ EdgeFree c) {s s' : St K n T} (he : EdgeOk c s.edge)
    (h : solve c ne dt simple s = some s') :
    s'.toSt = s.toSt ∧ s'.edge = s.edge ∧ Good c s.edge (vips c (apply c dt simple s').psi) ∧
    (∀ e, (∀ d, c.vip d ≠ e) → (apply c dt simple s').psi e = s.psi e) ∧
    (∀ d x, inBox c.N x → (apply c dt simple s').psi (c.vip d) x = (prsCfg c dt s.edge).newVel simple (vips c s.psi) s'.Phi d x) := by
  have : Nonempty (Prs.Pts (prsCfg c dt s.edge).N) := ne
  obtain ⟨hst, hedge, Phi', hP, hret⟩ := solve_some h
  have hval : ∀ d x, inBox c.N x → (apply c dt simple s').psi (c.vip d) x = (prsCfg c dt s.edge).newVel simple (vips c s.psi) s'.Phi d x := by
    intro d x hx
    unfold apply
    simp only
    rw [asgVip_at ok.inj]
    unfold VP.asgG
    rw [if_pos ((ok.grid x).2 hx)]
    rw [hst, hedge]
    rfl
  have hed : simple = true ∨ ∀ d x, inBox (prsCfg c dt s.edge).N x → (prsCfg c dt s.edge).isEdge d x = true → (prsCfg c dt s.edge).nrm d x = 1 ∨ (prsCfg c dt s.edge).edge d x = 0 := by
    rcases hf with hf | hf
    · exact Or.inl hf
    · right
      intro d x hx hw
      rw [isEdge_iff] at hw
      by_cases ho : c.kind d = .opened
      · left
        exact hf dt d x hx hw ho
      · right; exact he d x ho
  have hdiv := returns_div (prsCfg c dt s.edge) c.prs simple (vips c s.psi) c.tol c.cap (fun x => s.Phi x.1) Phi' hed hret
  have hPhi : ∀ x, inBox c.N x → s'.Phi x = Prs.extend (prsCfg c dt s.edge).N Phi' x := by
    intro x hx
    rw [hP]
    unfold put Prs.extend
    rw [dif_pos hx, dif_pos (show inBox (prsCfg c dt s.edge).N x from hx)]
    rfl
  have hnv : ∀ d x, (prsCfg c dt s.edge).newVel simple (vips c s.psi) s'.Phi d x = (prsCfg c dt s.edge).newVel simple (vips c s.psi) (Prs.extend (prsCfg c dt s.edge).N Phi') d x := by
    intro d x
    unfold Prs.Cfg.newVel
    rw [Prs.presFill_congr (prsCfg c dt s.edge).N (prsCfg c dt s.edge).bc _ _ hPhi]
  refine ⟨hst, hedge, ⟨?_, ?_⟩, ?_, hval⟩
  · intro b hb x hx
    have := hdiv b hb x hx
    rw [dvg_eq] at this
    rw [dvg_congr c (w := fun d y => (prsCfg c dt s.edge).newVel simple (vips c s.psi) (Prs.extend (prsCfg c dt s.edge).N Phi') d y)]
    · exact this
    · intro d y hy
      show (apply c dt simple s').psi (c.vip d) y = _
      rw [hval d y hy, hnv]
  · intro d x hx hw
    show (apply c dt simple s').psi (c.vip d) x = _
    rw [hval d x hx]
    unfold Prs.Cfg.newVel Prs.Cfg.setEdges
    rw [if_pos ((isEdge_iff c dt s.edge d x).2 hw), one_mul]; rfl
  · intro e he
    unfold apply
    simp only
    rw [asgVip_other _ _ _ he, hst]


/-! ## Frames -/

/-- the parts of the state that matter for the next advector -/
structure Keep (s t : VP.St K (Idx n) n T) : Prop where
  stash : t.stash = s.stash
  GC : t.GC = s.GC
  ts : t.timestep = s.timestep
  ds0 : t.ds0 = s.ds0

theorem Keep.refl (s : VP.St K (Idx n) n T) : Keep s s := ⟨rfl, rfl, rfl, rfl⟩
theorem Keep.trans {s t r : VP.St K (Idx n) n T} (h : Keep s t) (g : Keep t r) : Keep s r :=
  ⟨g.stash.trans h.stash, g.GC.trans h.GC, g.ts.trans h.ts, g.ds0.trans h.ds0⟩

theorem postRhs_keep (c : VP.Cfg K (Idx n) n T) (dt : K) (s : VP.St K (Idx n) n T) : Keep s (postRhs c dt s) := by
  unfold postRhs; cases c.sch <;> exact ⟨rfl, rfl, rfl, rfl⟩

theorem advEqs_keep (c : VP.Cfg K (Idx n) n T) (filt : Bool) (l : List Nat) : ∀ s, Keep s (l.foldl (VP.advEq c filt) s) := by
  induction l with
  | nil => exact fun s => Keep.refl s
  | cons e l ih => intro s; rw [List.foldl_cons]; exact Keep.trans (t := VP.advEq c filt s e) ⟨rfl, rfl, rfl, rfl⟩ (ih _)

theorem anteStep_keep (c : VP.Cfg K (Idx n) n T) (dt : K) (s : VP.St K (Idx n) n T) : Keep (VP.fillSt c s) (VP.anteStep c dt s) := by
  have h1 : Keep (VP.fillSt c s) (VP.vabExplS c (VP.fillSt c s)) := by unfold VP.vabExplS; split <;> exact ⟨rfl, rfl, rfl, rfl⟩
  unfold VP.anteStep
  cases c.sch <;> exact ⟨h1.stash, h1.GC, h1.ts, h1.ds0⟩

theorem fnlz_keep {c : Cfg K n T} (ok : Ok c) (ne : Nonempty (Prs.Pts c.N)) (dt : K) (hf : EdgeFree c) {s s' : St K n T} (he : EdgeOk c s.edge) (h : fnlz c ne dt s = some s') :
    Keep s.toSt s'.toSt ∧ s'.edge = s.edge ∧ Good c s.edge (vips c s'.psi) := by
  unfold fnlz at h
  simp only at h
  split at h
  · cases h
  · rename_i s1 h1
    simp only [Option.some.injEq] at h
    by_cases hv : c.vab = .impl
    · rw [if_pos hv] at h1
      obtain ⟨a1, a2, a3, a4, a5⟩ := solve_apply ok ne dt false (Or.inr hf) (by exact he) h1
      subst h
      refine ⟨⟨?_, ?_, ?_, ?_⟩, a2, a3.congr (fun d x _ => congrFun (ok.postVip dt _ d) x)⟩
      · refine (ok.postFrame dt _).1.trans ?_; show s1.toSt.stash = _; rw [a1]
      · refine (ok.postFrame dt _).2.1.trans ?_; show s1.toSt.GC = _; rw [a1]
      · refine (ok.postFrame dt _).2.2.1.trans ?_; show s1.toSt.timestep = _; rw [a1]
      · refine (ok.postFrame dt _).2.2.2.trans ?_; show s1.toSt.ds0 = _; rw [a1]
    · rw [if_neg hv] at h1
      obtain ⟨a1, a2, a3, a4, a5⟩ := solve_apply ok ne dt false (Or.inr hf) (by exact he) h1
      subst h
      refine ⟨⟨?_, ?_, ?_, ?_⟩, a2, a3.congr (fun d x _ => congrFun (ok.postVip dt _ d) x)⟩
      · refine (ok.postFrame dt _).1.trans ?_; show s1.toSt.stash = _; rw [a1]
      · refine (ok.postFrame dt _).2.1.trans ?_; show s1.toSt.GC = _; rw [a1]
      · refine (ok.postFrame dt _).2.2.1.trans ?_; show s1.toSt.timestep = _; rw [a1]
      · refine (ok.postFrame dt _).2.2.2.trans ?_; show s1.toSt.ds0 = _; rw [a1]

theorem calcGcs_frame (c : VP.Cfg K (Idx n) n T) (l : List K) : ∀ s, (l.foldl (VP.calcGc c) s).timestep = s.timestep ∧ (l.foldl (VP.calcGc c) s).ds0 = s.ds0 := by
  induction l with
  | nil => exact fun s => ⟨rfl, rfl⟩
  | cons a l ih => intro s; rw [List.foldl_cons]; exact ih (VP.calcGc c s a)

theorem calcNdt_frame (c : VP.Cfg K (Idx n) n T) (dt : K) (s : VP.St K (Idx n) n T) :
    (VP.calcNdt c dt s).timestep = s.timestep ∧ (VP.calcNdt c dt s).ds0 = s.ds0 ∧ (VP.calcNdt c dt s).GC = s.GC := by
  unfold VP.calcNdt
  by_cases h : c.vc.div3 = true
  · rw [if_pos h]
    by_cases h1 : s.ds0 > 0 <;> by_cases h2 : s.ds1 > 0 <;> simp only [h1, h2, if_true, if_false, VP.derStash, and_true, and_false, and_self]
  · rw [if_neg h]; exact ⟨rfl, rfl, rfl⟩

theorem stashBlk_next (vc : VipCfg) (ts : Nat) : stashBlk vc (ts + 1) 1 = stashBlk vc ts (if vc.div3 then 2 else 1) := by
  unfold stashBlk
  rcases vc with ⟨a, b⟩
  cases a <;> cases b <;> simp
  all_goals
    rcases Nat.mod_two_eq_zero_or_one ts with h | h
    · simp [Nat.add_mod, h]
    · simp [Nat.add_mod, h]

theorem vel_none {c : VP.Cfg K (Idx n) n T} (h : c.den = none) (psi : Nat → Idx n → K) (d : Fin n) (x : Idx n) : VP.vel c psi d x = psi (c.vip d) x := by
  unfold VP.vel; rw [h]; rfl

/-- one step: the velocities it started with are in the history, the advector is that of `calc_gc` -/
theorem step_keep {c : Cfg K n T} (ok : Ok c) (ne : Nonempty (Prs.Pts c.N)) (filt : Bool) (first : K) (more : List K) (hf : EdgeFree c) {s s' : St K n T} (he : EdgeOk c s.edge)
    (h : step c ne filt first more s = some s') :
    (∀ d x, inBox c.N x → s'.stash (stashBlk c.vc s'.timestep 1) d x = s.psi (c.vip d) x) ∧ s'.ds0 = (first :: more).getLast (by simp) ∧
    s'.GC = ((first :: more).foldl (VP.calcGc c.toCfg) s.toSt).GC ∧ s'.edge = s.edge ∧ Good c s.edge (vips c s'.psi) := by
  unfold step at h
  obtain ⟨k1, k2, k3⟩ := fnlz_keep ok ne _ hf (by exact he) h
  have k5 := (postRhs_keep c.toCfg ((first :: more).getLast (by simp)) (preStep c.toCfg filt first more s.toSt)).trans k1
  set dt := (first :: more).getLast (by simp) with hdt
  set s1 := (first :: more).foldl (VP.calcGc c.toCfg) s.toSt with hs1
  set s2 := VP.calcNdt c.toCfg dt s1 with hs2
  have f1 := calcGcs_frame c.toCfg (first :: more) s.toSt
  have f2 := calcNdt_frame c.toCfg dt s1
  have p1 := VP.calcGcs_same c.toCfg (first :: more) s.toSt
  have p2 := VP.calcNdt_same c.toCfg dt s1
  have k6 := (anteStep_keep c.toCfg dt s2).trans (advEqs_keep c.toCfg filt (VP.eqOrder c.toCfg) (VP.anteStep c.toCfg dt s2))
  have e0 : preStep c.toCfg filt first more s.toSt = (let s := (VP.eqOrder c.toCfg).foldl (VP.advEq c.toCfg filt) (VP.anteStep c.toCfg dt s2)
      { s with timestep := s.timestep + 1, ds1 := if c.vc.div3 then s.ds0 else s.ds1, ds0 := dt }) := rfl
  refine ⟨?_, ?_, ?_, k2, k3⟩
  · intro d x hx
    rw [k5.stash, k5.ts, e0]
    show ((VP.eqOrder c.toCfg).foldl (VP.advEq c.toCfg filt) (VP.anteStep c.toCfg dt s2)).stash (stashBlk c.vc (((VP.eqOrder c.toCfg).foldl (VP.advEq c.toCfg filt) (VP.anteStep c.toCfg dt s2)).timestep + 1) 1) d x = _
    rw [k6.stash, k6.ts, stashBlk_next]
    show (if c.grid x then fillStash c.vc s2.timestep (VP.vel c.toCfg s2.psi d x) (fun b => s2.stash b d x) (stashBlk c.vc s2.timestep (if c.vc.div3 then 2 else 1)) else _) = _
    rw [if_pos ((ok.grid x).2 hx)]
    unfold fillStash Stash.set
    rw [if_pos rfl, vel_none ok.den, p2.psi, p1.psi]
  · rw [k5.ds0, e0]
  · rw [k5.GC, e0]
    show ((VP.eqOrder c.toCfg).foldl (VP.advEq c.toCfg filt) (VP.anteStep c.toCfg dt s2)).GC = _
    rw [k6.GC]
    exact f2.2.2

/-- the advector of a step: interpolated from the velocities extrapolated in time -/
theorem gc_val {c : Cfg K n T} (ok : Ok c) (first : K) (more : List K) (hts : c.vc.varDt = true ∨ c.vc.div3 = true ∨ more = []) (s : VP.St K (Idx n) n T) :
    ∃ (junk dst : Fin n → Idx n → K), ((first :: more).foldl (VP.calcGc c.toCfg) s).GC = VP.interp c.toCfg ((first :: more).getLast (by simp)) (fun d => c.xchngP (fun x => if c.grid x then
      (1 + extrpBeta ((first :: more).getLast (by simp)) s.ds0) * s.psi (c.vip d) x - extrpBeta ((first :: more).getLast (by simp)) s.ds0 * s.stash (stashBlk c.vc s.timestep 1) d x
      else junk d x)) dst := by
  have one : ∀ (s : VP.St K (Idx n) n T) (dt : K), (VP.calcGc c.toCfg s dt).GC = VP.interp c.toCfg dt (fun d => c.xchngP (fun x => if c.grid x then
      (1 + extrpBeta dt s.ds0) * s.psi (c.vip d) x - extrpBeta dt s.ds0 * s.stash (stashBlk c.vc s.timestep 1) d x else s.stash 0 d x)) s.GC := by
    intro s dt
    show VP.interp c.toCfg dt (VP.extrapolate c.toCfg dt s 0) s.GC = _
    congr 1
    funext d
    show (if (0 : Nat) = 0 then _ else _) = _
    rw [if_pos rfl]
    congr 1
    funext x
    split_ifs with hx
    · rw [vel_none ok.den]
      unfold extrp stashBlk Stash.set
      rcases c.vc with ⟨a, b⟩
      cases a <;> cases b <;> simp <;> ring
    · rfl
  rcases hts with hts | hts | hts
  rotate_left 2
  · subst hts
    exact ⟨_, _, one s first⟩
  all_goals
    have keepB : ∀ (l : List K) (s : VP.St K (Idx n) n T), (l.foldl (VP.calcGc c.toCfg) s).stash (stashBlk c.vc s.timestep 1) = s.stash (stashBlk c.vc s.timestep 1) := by
      intro l
      induction l with
      | nil => exact fun s => rfl
      | cons a l ih =>
        intro s
        rw [List.foldl_cons]
        have h1 := ih (VP.calcGc c.toCfg s a)
        have h2 : (VP.calcGc c.toCfg s a).timestep = s.timestep := rfl
        rw [h2] at h1
        rw [h1]
        have hb : stashBlk c.vc s.timestep 1 ≠ 0 := by
          unfold stashBlk
          simp only [hts]
          split_ifs <;> simp_all
        funext d x
        show (if stashBlk c.vc s.timestep 1 = 0 then _ else fun x => if c.grid x then extrp c.vc s.timestep a s.ds0 (VP.vel c.toCfg s.psi d x) (fun b => s.stash b d x) (stashBlk c.vc s.timestep 1) else s.stash (stashBlk c.vc s.timestep 1) d x) x = _
        rw [if_neg hb]
        split_ifs with hx
        · have h0 : stashBlk c.vc s.timestep 0 = 0 := by unfold stashBlk; split_ifs <;> simp_all
          unfold extrp Stash.set
          simp only [h0]
          split_ifs <;> simp_all
        · rfl
    obtain ⟨init, last, hl⟩ : ∃ init last, first :: more = init ++ [last] := ⟨(first :: more).dropLast, (first :: more).getLast (by simp), (List.dropLast_append_getLast (by simp)).symm⟩
    have hlast : (first :: more).getLast (by simp) = last := by simp [hl]
    rw [hlast, hl, List.foldl_append]
    have f1 := calcGcs_frame c.toCfg init s
    have p1 := VP.calcGcs_same c.toCfg init s
    refine ⟨(init.foldl (VP.calcGc c.toCfg) s).stash 0, (init.foldl (VP.calcGc c.toCfg) s).GC, ?_⟩
    rw [List.foldl_cons, List.foldl_nil, one, f1.1, f1.2, p1.psi, keepB init s]

/-! ## Divergence of the advector -/

/-- what the exchanges of `extrapolate_in_time` and `interpolate_in_space` do near the grid -/
structure Faces (c : Cfg K n T) : Prop where
  two : ∀ d, 2 ≤ c.N d
  sh : c.sh = stepIdx
  face : ∀ d x, (∀ e, e ≠ d → 0 ≤ x e ∧ x e ≤ (c.N e : Int) - 1) → -1 ≤ x d → x d ≤ (c.N d : Int) - 1 → c.face d x = true
  pIn : ∀ a x, inBox c.N x → c.xchngP a x = a x
  pLeft : ∀ a d x, c.kind d ≠ .cyclic → inBox c.N x → x d = 0 → c.xchngP a (stepIdx x d (-1)) = 2 * a x - a (stepIdx x d 1)
  pRght : ∀ a d x, c.kind d ≠ .cyclic → inBox c.N x → x d = (c.N d : Int) - 1 → c.xchngP a (stepIdx x d 1) = 2 * a x - a (stepIdx x d (-1))
  gIn : ∀ v d x, inBox c.N x → x d ≤ (c.N d : Int) - 2 → c.fillGC v d x = v d x
  gLeft : ∀ v d x, inBox c.N x → x d = 0 → c.fillGC v d (stepIdx x d (-1)) = if c.kind d = .cyclic then v d (stepIdx x d ((c.N d : Int) - 2)) else v d (stepIdx x d (-1))
  gRght : ∀ v d x, inBox c.N x → x d = (c.N d : Int) - 1 → c.fillGC v d x = if c.kind d = .cyclic then v d (stepIdx x d (-((c.N d : Int) - 1))) else v d x

/-- G-factor next to the boundaries: equal at the two ends of a cyclic dimension; mirrored across a rigid wall (as `xchng_sclr` fills it); uniform next to an open boundary -/
structure EdgeG (c : Cfg K n T) : Prop where
  cyc : ∀ d x, c.kind d = .cyclic → inBox c.N x → x d = 0 → c.G (stepIdx x d ((c.N d : Int) - 1)) = c.G x
  rigL : ∀ d x, c.kind d = .rigid → inBox c.N x → x d = 0 → c.G (stepIdx x d (-1)) = c.G (stepIdx x d 1)
  rigR : ∀ d x, c.kind d = .rigid → inBox c.N x → x d = (c.N d : Int) - 1 → c.G (stepIdx x d 1) = c.G (stepIdx x d (-1))
  opL : ∀ d x, c.kind d = .opened → inBox c.N x → x d = 0 → c.G (stepIdx x d (-1)) = c.G x ∧ c.G (stepIdx x d 1) = c.G x
  opR : ∀ d x, c.kind d = .opened → inBox c.N x → x d = (c.N d : Int) - 1 → c.G (stepIdx x d 1) = c.G x ∧ c.G (stepIdx x d (-1)) = c.G x

/-- equal values at the two ends of a cyclic dimension, which are the same point -/
def Dup (c : Cfg K n T) (v : Fin n → Idx n → K) : Prop := ∀ d x, c.kind d = .cyclic → inBox c.N x → x d = 0 → v d (stepIdx x d ((c.N d : Int) - 1)) = v d x

/-- no flow through rigid walls -/
def NoFlow (c : Cfg K n T) (v : Fin n → Idx n → K) : Prop := ∀ d x, c.kind d = .rigid → inBox c.N x → (x d = 0 ∨ x d = (c.N d : Int) - 1) → v d x = 0

theorem step_step (x : Idx n) (d : Fin n) (j k : Int) : stepIdx (stepIdx x d j) d k = stepIdx x d (j + k) := by
  funext e; unfold stepIdx; split_ifs <;> omega

theorem step_zero (x : Idx n) (d : Fin n) : stepIdx x d 0 = x := by funext e; unfold stepIdx; split_ifs <;> omega

theorem box_step {N : Fin n → Nat} {x : Idx n} (hx : inBox N x) (d : Fin n) (k : Int) (h0 : 0 ≤ x d + k) (h1 : x d + k ≤ (N d : Int) - 1) : inBox N (stepIdx x d k) := by
  intro e
  unfold stepIdx
  split_ifs with he
  · subst he; exact ⟨h0, h1⟩
  · exact hx e

theorem presFill_in (N : Fin n → Nat) (bc : Fin n → Prs.Bc) (a : Idx n → K) {x : Idx n} (hx : inBox N x) : Prs.presFill N bc a x = a x := by
  unfold Prs.presFill
  simp only
  rw [if_pos hx, Finset.sum_eq_zero, add_zero]
  intro d _
  have := hx d
  rw [if_neg (by omega), if_neg (by omega)]

theorem setIdx_eq (x : Idx n) (d : Fin n) (i : Int) : Prs.setIdx x d i = stepIdx x d (i - x d) := by
  funext e; unfold Prs.setIdx stepIdx
  by_cases h : e = d
  · subst h; simp
  · simp [h]

theorem presFill_left (N : Fin n → Nat) (hN : ∀ d, 2 ≤ N d) (bc : Fin n → Prs.Bc) (a : Idx n → K) {x : Idx n} (hx : inBox N x) (d : Fin n) (h0 : x d = 0) :
    Prs.presFill N bc a (stepIdx x d (-1)) = match bc d with
      | .cyclic => a (stepIdx x d ((N d : Int) - 2))
      | .wall => 2 * a x - a (stepIdx x d 1) := by
  have hN2 := hN d
  have hd : stepIdx x d (-1) d = -1 := by unfold stepIdx; simp [h0]
  have ho : ¬ inBox N (stepIdx x d (-1)) := fun h => by have := (h d).1; rw [hd] at this; omega
  unfold Prs.presFill
  simp only
  rw [if_neg ho, zero_add, Finset.sum_eq_single d]
  · rw [if_pos hd]
    simp only [setIdx_eq, step_step, hd]
    have b1 : inBox N (stepIdx x d ((N d : Int) - 2)) := box_step hx d _ (by omega) (by omega)
    have b2 : inBox N (stepIdx x d 1) := box_step hx d _ (by omega) (by omega)
    rw [show (-1 + ((N d : Int) - 2 - -1)) = (N d : Int) - 2 by ring, show (-1 + (0 - -1) : Int) = 0 by ring, show (-1 + (1 - -1) : Int) = 1 by ring, step_zero, if_pos b1, if_pos hx, if_pos b2]
    cases bc d <;> rfl
  · intro e _ he
    have h2 : stepIdx x d (-1) e = x e := by unfold stepIdx; simp [he]
    have := hx e
    rw [h2, if_neg (by omega), if_neg (by omega)]
  · intro h; exact absurd (Finset.mem_univ d) h

theorem presFill_rght (N : Fin n → Nat) (hN : ∀ d, 2 ≤ N d) (bc : Fin n → Prs.Bc) (a : Idx n → K) {x : Idx n} (hx : inBox N x) (d : Fin n) (h0 : x d = (N d : Int) - 1) :
    Prs.presFill N bc a (stepIdx x d 1) = match bc d with
      | .cyclic => a (stepIdx x d (-((N d : Int) - 2)))
      | .wall => 2 * a x - a (stepIdx x d (-1)) := by
  have hN2 := hN d
  have hd : stepIdx x d 1 d = N d := by unfold stepIdx; simp [h0]
  have ho : ¬ inBox N (stepIdx x d 1) := fun h => by have := (h d).2; rw [hd] at this; omega
  unfold Prs.presFill
  simp only
  rw [if_neg ho, zero_add, Finset.sum_eq_single d]
  · rw [hd, if_neg (show ¬ ((N d : Int) = -1) by omega), if_pos rfl]
    simp only [setIdx_eq, step_step, hd]
    have b1 : inBox N (stepIdx x d (-((N d : Int) - 2))) := box_step hx d _ (by omega) (by omega)
    have b2 : inBox N (stepIdx x d (-1)) := box_step hx d _ (by omega) (by omega)
    rw [show (1 + (1 - (N d : Int))) = -((N d : Int) - 2) by ring, show (1 + ((N d : Int) - 1 - N d)) = 0 by ring, show (1 + ((N d : Int) - 2 - N d)) = -1 by ring, step_zero, if_pos b1, if_pos hx, if_pos b2]
    cases bc d <;> rfl
  · intro e _ he
    have h2 : stepIdx x d 1 e = x e := by unfold stepIdx; simp [he]
    have := hx e
    rw [h2, if_neg (by omega), if_neg (by omega)]
  · intro h; exact absurd (Finset.mem_univ d) h

/-- the faces of a grid cell: interpolated from the fields as the pressure solver sees them -/
theorem gc_faces {c : Cfg K n T} (ok : Ok c) (F : Faces c) (eg : EdgeG c) {z : Fin n → Idx n → K} (hnf : NoFlow c z) (junk dst : Fin n → Idx n → K) (dt : K)
    {x : Idx n} (hx : inBox c.N x) (hdup : Dup c z ∨ ∀ d, c.kind d = .cyclic → 0 < x d ∧ x d < (c.N d : Int) - 1) (d : Fin n) :
    let GC := VP.interp c.toCfg dt (fun d => c.xchngP (fun x => if c.grid x then z d x else junk d x)) dst
    let P := Prs.presFill c.N (prsCfg c 0 (fun _ _ => 0)).bc (fun y => z d y * c.G y)
    GC d x = dt / c.dx d * (1 / 2) * (z d x * c.G x + P (stepIdx x d 1)) ∧ GC d (stepIdx x d (-1)) = dt / c.dx d * (1 / 2) * (P (stepIdx x d (-1)) + z d x * c.G x) := by
  intro GC P
  set src : Fin n → Idx n → K := fun d => c.xchngP (fun x => if c.grid x then z d x else junk d x) with hsrc
  have hN2 := F.two d
  have hxd := hx d
  have sIn : ∀ y, inBox c.N y → src d y = z d y := by
    intro y hy
    show c.xchngP _ y = _
    rw [F.pIn _ _ hy, if_pos ((ok.grid y).2 hy)]
  have raw : ∀ y, (∀ e, e ≠ d → 0 ≤ y e ∧ y e ≤ (c.N e : Int) - 1) → -1 ≤ y d → y d ≤ (c.N d : Int) - 1 →
      (if c.face d y then intrpFace dt (c.dx d) (c.G y) (c.G (c.sh y d 1)) (src d y) (src d (c.sh y d 1)) else dst d y) =
      dt / c.dx d * (1 / 2) * (c.G y * src d y + c.G (stepIdx y d 1) * src d (stepIdx y d 1)) := by
    intro y h1 h2 h3
    rw [if_pos (F.face d y h1 h2 h3), F.sh]; rfl
  have rawIn : ∀ y, inBox c.N y → y d ≤ (c.N d : Int) - 2 →
      (if c.face d y then intrpFace dt (c.dx d) (c.G y) (c.G (c.sh y d 1)) (src d y) (src d (c.sh y d 1)) else dst d y) =
      dt / c.dx d * (1 / 2) * (z d y * c.G y + z d (stepIdx y d 1) * c.G (stepIdx y d 1)) := by
    intro y hy h2
    have := hy d
    rw [raw y (fun e _ => hy e) (by omega) (by omega), sIn y hy, sIn _ (box_step hy d 1 (by omega) (by omega))]; ring
  have hGC : ∀ y, GC d y = c.fillGC (fun d x => if c.face d x then intrpFace dt (c.dx d) (c.G x) (c.G (c.sh x d 1)) (src d x) (src d (c.sh x d 1)) else dst d x) d y := fun y => rfl
  have eIn : ∀ y, inBox c.N y → (if c.grid y then z d y else junk d y) = z d y := fun y hy => if_pos ((ok.grid y).2 hy)
  have off : ∀ (k : Int) (e : Fin n), e ≠ d → stepIdx x d k e = x e := by intro k e he; unfold stepIdx; simp [he]
  have atd : ∀ k : Int, stepIdx x d k d = x d + k := by intro k; unfold stepIdx; simp
  constructor
  · rw [hGC]
    by_cases h : x d ≤ (c.N d : Int) - 2
    · rw [F.gIn _ d x hx h, rawIn x hx h]
      show _ = dt / c.dx d * (1 / 2) * (z d x * c.G x + Prs.presFill _ _ _ (stepIdx x d 1))
      rw [presFill_in _ _ _ (box_step hx d 1 (by omega) (by omega))]
    · have h1 : x d = (c.N d : Int) - 1 := by omega
      rw [F.gRght _ d x hx h1]
      show _ = dt / c.dx d * (1 / 2) * (z d x * c.G x + Prs.presFill _ _ _ (stepIdx x d 1))
      rw [presFill_rght _ F.two _ _ hx d h1]
      by_cases hk : c.kind d = .cyclic
      · have hdup := hdup.resolve_right (fun h => by have := h d hk; omega)
        have hb : (prsCfg c 0 (fun _ _ => 0)).bc d = .cyclic := by show (if c.kind d = .cyclic then _ else _) = _; rw [if_pos hk]
        have b0 : inBox c.N (stepIdx x d (-((c.N d : Int) - 1))) := box_step hx d _ (by omega) (by omega)
        rw [if_pos hk, hb, rawIn _ b0 (by rw [atd]; omega)]
        have e1 := hdup d _ hk b0 (by rw [atd]; omega)
        have e2 := eg.cyc d _ hk b0 (by rw [atd]; omega)
        rw [step_step, show (-((c.N d : Int) - 1) + ((c.N d : Int) - 1)) = 0 by ring, step_zero] at e1 e2
        rw [← e1, ← e2, step_step, show (-((c.N d : Int) - 1) + 1) = -((c.N d : Int) - 2) by ring]
      · have hb : (prsCfg c 0 (fun _ _ => 0)).bc d = .wall := by show (if c.kind d = .cyclic then _ else _) = _; rw [if_neg hk]
        rw [if_neg hk, hb, raw x (fun e _ => hx e) (by omega) (by omega), sIn x hx]
        have bm : inBox c.N (stepIdx x d (-1)) := box_step hx d _ (by omega) (by omega)
        have e1 : src d (stepIdx x d 1) = 2 * z d x - z d (stepIdx x d (-1)) := by
          show c.xchngP _ _ = _
          rw [F.pRght _ d x hk hx h1, eIn x hx, eIn _ bm]
        rw [e1]
        simp only
        rcases hc : c.kind d with _ | _ | _
        · exact absurd hc hk
        · rw [eg.rigR d x hc hx h1, hnf d x hc hx (Or.inr h1)]; ring
        · obtain ⟨g1, g2⟩ := eg.opR d x hc hx h1
          rw [g1, g2]; ring
  · rw [hGC]
    by_cases h : 1 ≤ x d
    · have bm : inBox c.N (stepIdx x d (-1)) := box_step hx d _ (by omega) (by omega)
      rw [F.gIn _ d _ bm (by rw [atd]; omega), rawIn _ bm (by rw [atd]; omega), step_step, show (-1 + 1 : Int) = 0 by ring, step_zero]
      show _ = dt / c.dx d * (1 / 2) * (Prs.presFill _ _ _ (stepIdx x d (-1)) + z d x * c.G x)
      rw [presFill_in _ _ _ bm]
    · have h1 : x d = 0 := by omega
      rw [F.gLeft _ d x hx h1]
      show _ = dt / c.dx d * (1 / 2) * (Prs.presFill _ _ _ (stepIdx x d (-1)) + z d x * c.G x)
      rw [presFill_left _ F.two _ _ hx d h1]
      by_cases hk : c.kind d = .cyclic
      · have hdup := hdup.resolve_right (fun h => by have := h d hk; omega)
        have hb : (prsCfg c 0 (fun _ _ => 0)).bc d = .cyclic := by show (if c.kind d = .cyclic then _ else _) = _; rw [if_pos hk]
        have b0 : inBox c.N (stepIdx x d ((c.N d : Int) - 2)) := box_step hx d _ (by omega) (by omega)
        rw [if_pos hk, hb, rawIn _ b0 (by rw [atd]; omega), step_step, show ((c.N d : Int) - 2 + 1) = (c.N d : Int) - 1 by ring, hdup d x hk hx h1, eg.cyc d x hk hx h1]
      · have hb : (prsCfg c 0 (fun _ _ => 0)).bc d = .wall := by show (if c.kind d = .cyclic then _ else _) = _; rw [if_neg hk]
        rw [if_neg hk, hb, raw _ (fun e he => by rw [off _ e he]; exact hx e) (by rw [atd]; omega) (by rw [atd]; omega), step_step, show (-1 + 1 : Int) = 0 by ring, step_zero, sIn x hx]
        have bm : inBox c.N (stepIdx x d 1) := box_step hx d _ (by omega) (by omega)
        have e1 : src d (stepIdx x d (-1)) = 2 * z d x - z d (stepIdx x d 1) := by
          show c.xchngP _ _ = _
          rw [F.pLeft _ d x hk hx h1, eIn x hx, eIn _ bm]
        rw [e1]
        simp only
        rcases hc : c.kind d with _ | _ | _
        · exact absurd hc hk
        · rw [eg.rigL d x hc hx h1, hnf d x hc hx (Or.inl h1)]; ring
        · obtain ⟨g1, g2⟩ := eg.opL d x hc hx h1
          rw [g1, g2]; ring

/-- the divergence of the advector is the time step times the weighted divergence of the velocities it is made of -/
theorem gc_div {c : Cfg K n T} (ok : Ok c) (F : Faces c) (eg : EdgeG c) {z : Fin n → Idx n → K} (hnf : NoFlow c z) (junk dst : Fin n → Idx n → K) (dt : K)
    {x : Idx n} (hx : inBox c.N x) (hdup : Dup c z ∨ ∀ d, c.kind d = .cyclic → 0 < x d ∧ x d < (c.N d : Int) - 1) (hG : c.G x ≠ 0) :
    ∑ d, (VP.interp c.toCfg dt (fun d => c.xchngP (fun x => if c.grid x then z d x else junk d x)) dst d x -
      VP.interp c.toCfg dt (fun d => c.xchngP (fun x => if c.grid x then z d x else junk d x)) dst d (stepIdx x d (-1))) = dt * c.G x * dvg c z x := by
  unfold dvg Prs.Cfg.divG divC
  show _ = dt * c.G x * ((∑ d, _) / c.G x)
  rw [mul_assoc, mul_div_cancel₀ _ hG, Finset.mul_sum]
  refine Finset.sum_congr rfl fun d _ => ?_
  obtain ⟨h1, h2⟩ := gc_faces ok F eg hnf junk dst dt hx hdup d
  rw [h1, h2]
  show _ = dt * ((Prs.presFill c.N (prsCfg c 0 (fun _ _ => 0)).bc (fun y => z d y * c.G y) (stepIdx x d 1) -
    Prs.presFill c.N (prsCfg c 0 (fun _ _ => 0)).bc (fun y => z d y * c.G y) (stepIdx x d (-1))) / c.dx d / 2)
  ring

theorem dvg_lin (c : Cfg K n T) (v w : Fin n → Idx n → K) (a b : K) (x : Idx n) : dvg c (fun d y => a * v d y - b * w d y) x = a * dvg c v x - b * dvg c w x := by
  have h0 : dvg c (fun _ _ => 0) x = 0 := by
    have := Prs.divG_lin (prsCfg c 0 (fun _ _ => 0)) (fun d y => 0) (fun d y => 0) (-1) x
    unfold dvg
    simp only [mul_zero, add_zero, zero_mul] at this ⊢
    linear_combination this
  have h1 : dvg c (fun d y => a * v d y) x = a * dvg c v x := by
    have := Prs.divG_lin (prsCfg c 0 (fun _ _ => 0)) (fun d y => 0 * c.G y) (fun d y => v d y * c.G y) a x
    have e : (fun (d : Fin n) (y : Idx n) => (0 : K) * c.G y + a * (v d y * c.G y)) = fun d y => a * v d y * c.G y := by funext d y; ring
    rw [e] at this
    unfold dvg at h0 ⊢
    rw [this, h0, zero_add]
  have := Prs.divG_lin (prsCfg c 0 (fun _ _ => 0)) (fun d y => a * v d y * c.G y) (fun d y => w d y * c.G y) (-b) x
  have e : (fun (d : Fin n) (y : Idx n) => a * v d y * c.G y + -b * (w d y * c.G y)) = fun d y => (a * v d y - b * w d y) * c.G y := by funext d y; ring
  rw [e] at this
  unfold dvg at h1 ⊢
  rw [this, h1]; ring

end Mpdata.PP
