import Verif.Model.VipBox
import Verif.Model.SwProg
import Verif.Props.BsqRun
/-! # C61, C43: rest without a pressure term, any boundaries
Solvers that advect their own velocities or momenta, with cyclic, rigid or open boundaries in each dimension: a fluid at rest whose forces vanish stays as it is, and so does a lake at rest. -/
set_option linter.unusedSectionVars false
namespace Mpdata
namespace VP
open Prs (inBox)
variable {K : Type} [Field K] [LinearOrder K] [IsStrictOrderedRing K] {n : Nat}

/-- A solver without pressure term: the halo is the one the solver allocates, halos are filled as the boundary kinds require, the domain is wider than the halo, at least one MPDATA pass; the
velocities or momenta are distinct equations. -/
structure VipSetup [NeZero n] (u : User K (Idx n) n) (a : CfgN n K) (N : Fin n → Nat) (kind : Fin n → BcKind) (ds : List (Fin n)) : Prop where
  bc : BcSolver a (PP.bnd N kind (solverHalo a.o)) ds
  wide : ∀ d, solverHalo a.o < (N d : Int)
  iters : 1 ≤ a.nIters
  inj : Function.Injective u.vip
  vip : ∀ d, u.vip d < u.nEqns

/-- Nothing moves the fluid in state `p0`: no motion, no damping towards a moving state, right-hand sides vanish on the grid. -/
structure Balanced (u : User K (Idx n) n) (N : Fin n → Nat) (p0 : Nat → Idx n → K) : Prop where
  still : ∀ d x, inBox N x → p0 (u.vip d) x = 0
  vab : u.vab = .noab ∨ ∀ d x, inBox N x → u.coeff x * u.relax d x = 0
  force : ∀ dt at1 psi z, (∀ e, e < u.nEqns → ∀ x, inBox N x → psi e x = p0 e x) → (∀ e, e < u.nEqns → isset u.norhs (bit e) = false → ∀ x, inBox N x → z e x = 0) →
    ∀ e, e < u.nEqns → isset u.norhs (bit e) = false → ∀ x, inBox N x → u.force dt at1 psi z e x = 0

section lemmas

/-- at rest it does not matter whether momenta are divided by a density -/
theorem vel_den {T : Type} (c : Cfg K (Idx n) n T) (dn : Option Nat) (hd : c.den = none) (psi : Nat → Idx n → K) (d : Fin n) (x : Idx n) (h0 : psi (c.vip d) x = 0) :
    vel { c with den := dn } psi d x = vel c psi d x := by
  rw [PP.vel_none hd, h0]
  show velOf (dn.map fun e => psi e x) c.veps (psi (c.vip d) x) = 0
  rw [h0]
  cases dn with
  | none => rfl
  | some e =>
    show (if c.veps = 0 then 0 / psi e x else if psi e x > c.veps then 0 / psi e x else 0) = 0
    simp

theorem calcGc_den {T : Type} (c : Cfg K (Idx n) n T) (dn : Option Nat) (hd : c.den = none) (l : List K) : ∀ (s : St K (Idx n) n T), (∀ d x, c.grid x = true → s.psi (c.vip d) x = 0) →
    l.foldl (calcGc { c with den := dn }) s = l.foldl (calcGc c) s := by
  induction l with
  | nil => exact fun _ _ => rfl
  | cons t l ih =>
    intro s h0
    rw [List.foldl_cons, List.foldl_cons]
    have e : extrapolate { c with den := dn } t s = extrapolate c t s := by
      funext b d
      unfold extrapolate
      have k : ∀ b', (fun x => if c.grid x then extrp c.vc s.timestep t s.ds0 (vel { c with den := dn } s.psi d x) (fun b => s.stash b d x) b' else s.stash b' d x) =
          fun x => if c.grid x then extrp c.vc s.timestep t s.ds0 (vel c s.psi d x) (fun b => s.stash b d x) b' else s.stash b' d x := by
        intro b'; funext x
        by_cases hx : c.grid x = true
        · rw [if_pos hx, if_pos hx, vel_den c dn hd s.psi d x (h0 d x hx)]
        · rw [if_neg hx, if_neg hx]
      by_cases hb : b = 0
      · rw [if_pos hb, if_pos hb]; exact congrArg c.xchngP (k 0)
      · rw [if_neg hb, if_neg hb]; exact k b
    have e1 : calcGc { c with den := dn } s t = calcGc c s t := by
      show ({ s with stash := _, GC := _ } : St K (Idx n) n T) = { s with stash := _, GC := _ }
      rw [e]; rfl
    rw [e1]
    exact ih _ h0

theorem step_den {T : Type} (c : Cfg K (Idx n) n T) (dn : Option Nat) (hd : c.den = none) (filt : Bool) (first : K) (more : List K) (s : St K (Idx n) n T) (h3 : c.vc.div3 = false)
    (h0 : ∀ d x, c.grid x = true → s.psi (c.vip d) x = 0) : step { c with den := dn } filt first more s = step c filt first more s := by
  set dt := (first :: more).getLast (by simp) with hdt
  set s1 := (first :: more).foldl (calcGc c) s with hs1
  have e1 := calcGc_den c dn hd (first :: more) s h0
  have p1 := calcGcs_same c (first :: more) s
  have n1 : ∀ c' : Cfg K (Idx n) n T, c'.vc.div3 = false → calcNdt c' dt s1 = s1 := fun c' h => by unfold calcNdt; rw [h]; rfl
  have f1 : fillSt { c with den := dn } s1 = fillSt c s1 := by
    show ({ s1 with stash := _ } : St K (Idx n) n T) = { s1 with stash := _ }
    congr 1
    funext b d x
    show (if c.grid x then _ else _) = (if c.grid x then _ else _)
    by_cases hx : c.grid x = true
    · rw [if_pos hx, if_pos hx, vel_den c dn hd s1.psi d x (by rw [p1.psi]; exact h0 d x hx)]
    · rw [if_neg hx, if_neg hx]
  have a1 : anteStep { c with den := dn } dt s1 = anteStep c dt s1 := by
    unfold anteStep
    rw [f1]; rfl
  have q : anteStep { c with den := dn } dt (calcNdt { c with den := dn } dt ((first :: more).foldl (calcGc { c with den := dn }) s)) = anteStep c dt (calcNdt c dt s1) := by
    rw [e1]
    change anteStep { c with den := dn } dt (calcNdt { c with den := dn } dt s1) = _
    rw [n1 { c with den := dn } h3, n1 c h3, a1]
  exact congrArg (fun r : St K (Idx n) n T => postStep c dt (let s := (eqOrder c).foldl (advEq c filt) r
    { s with timestep := s.timestep + 1, ds1 := if c.vc.div3 then s.ds0 else s.ds1, ds0 := dt })) q

open PP in
theorem fnlz_den {T : Type} {c : PP.Cfg K n T} {p0 : Nat → Idx n → K} {D : K → Prop} (h : StillP c p0 D) (dt : K) {ρ : Prop} {s : St K (Idx n) n T} (hs : StI c p0 ρ s) :
    StI c p0 ρ (vabFnlzS c.toCfg dt s) := by
  unfold vabFnlzS
  split_ifs with hv
  · have z : ∀ d x, inBox c.N x → (vabFnlz dt (c.coeff x) (c.relax d x) 0).1 = 0 := by
      intro d x hx
      have := h.relax (by rw [hv]; intro hh; cases hh) d hx
      unfold vabFnlz
      simp only
      rw [show 0 + 1 / 2 * dt * c.coeff x * c.relax d x = 0 by linear_combination (1 / 2 * dt) * this, zero_div]
    refine ⟨h.asgVip (fun d x v => (vabFnlz dt (c.coeff x) (c.relax d x) v).1) z hs.psi, hs.rhs, fun d x hx => (if_pos ((h.ok.grid x).2 hx)).trans ?_⟩
    rw [h.vel hs d hx]
    have := z d x hx
    unfold vabFnlz at this ⊢
    simp only at this ⊢
    rw [this]; simp
  · exact hs

open PP in
theorem run_den {T : Type} {c : PP.Cfg K n T} {p0 : Nat → Idx n → K} (h : StillP c p0 (fun _ => True)) (dn : Option Nat) (dt0 : K) (filt : Nat → Bool) (first : Nat → K) (more : Nat → List K)
    (hts : c.vc.varDt = true ∨ ∀ t, more t = []) (s : St K (Idx n) n T) (h0 : s.timestep = 0) (hp : ∀ e, e < c.nEqns → ∀ x, inBox c.N x → s.psi e x = p0 e x) (t : Nat) :
    let q := run { c.toCfg with den := dn } dt0 filt first more s t
    StI c p0 (c.sch = .trapez) q ∧ ∀ d x, inBox c.N x → q.stash (stashBlk c.vc q.timestep 1) d x = 0 := by
  induction t with
  | zero => exact h.vpAnte dt0 hp h0
  | succ t ih =>
    intro q
    set r := run { c.toCfg with den := dn } dt0 filt first more s t with hr
    have eq : q = step c.toCfg (filt t) (first t) (more t) r :=
      step_den c.toCfg dn h.ok.den (filt t) (first t) (more t) r h.div3 (fun d x hx => h.vel ih.1 d ((h.ok.grid x).1 hx))
    set dt := (first t :: more t).getLast (by simp) with hdt
    have eq2 : q = vabFnlzS c.toCfg dt (PP.postRhs c.toCfg dt (PP.preStep c.toCfg (filt t) (first t) (more t) r)) := eq
    obtain ⟨i1, st⟩ := h.pre (filt t) (first t) (more t) (hts.imp id (fun h => h t))
      (s := { toSt := r, Phi := fun _ => 0, beta := 0, edge := fun _ _ => 0, alpha := fun _ => 0, tmpDen := fun _ => 0, pErr := fun _ _ => 0, lapErr := fun _ _ => 0 })
      ⟨ih.1, ih.2, ⟨0, fun _ _ => rfl⟩, fun _ _ _ _ => rfl⟩
    have i2 := h.postRhs dt (fun _ => trivial) i1
    have k := postRhs_keep c.toCfg dt (preStep c.toCfg (filt t) (first t) (more t) r)
    rw [eq2]
    refine ⟨fnlz_den h dt i2, fun d x hx => ?_⟩
    have ev : ∀ q : St K (Idx n) n T, (vabFnlzS c.toCfg dt q).stash = q.stash ∧ (vabFnlzS c.toCfg dt q).timestep = q.timestep := fun q => by
      unfold vabFnlzS; split_ifs <;> exact ⟨rfl, rfl⟩
    rw [(ev _).1, (ev _).2, k.stash, k.ts]; exact st d x hx

variable [NeZero n] {u : User K (Idx n) n} {a : CfgN n K} {N : Fin n → Nat} {kind : Fin n → BcKind} {ds : List (Fin n)}

theorem VipSetup.bsq (h : VipSetup u a N kind ds) : PP.BsqSetup { u with den := none } a N kind ds := ⟨h.bc, h.wide, h.iters, rfl, h.inj, h.vip⟩

theorem xchngSclr_const (k : K) (B : Bnd n) (ds : List (Fin n)) (ext : Int) : xchngSclr B ds ext false (fun _ => k) = fun _ => k := by
  unfold xchngSclr
  induction ds with
  | nil => rfl
  | cons d l ih =>
    rw [List.foldl_cons]
    have u0 : ∀ (P : Idx n → Prop) [DecidablePred P] (val : Sca n K), (∀ x, val x = k) → asgN P val (fun _ => k) = fun _ => k := by
      intro P _ val hv
      funext x; unfold asgN; split_ifs
      · exact hv x
      · rfl
    have : fillS B d (fun _ => ext) (fun _ => ext) false (fun _ => k) = fun _ => k := by
      unfold fillS
      rw [u0 _ _ (fun x => by unfold valSL; split <;> simp)]
      exact u0 _ _ (fun x => by unfold valSR; split <;> simp)
    rw [this]; exact ih

/-- an exchange of a field uniform on the grid, next to the grid -/
theorem VipSetup.fillC (h : VipSetup u a N kind ds) (k : K) (f : Idx n → K) (hf : ∀ x, inBox N x → f x = k) (x : Idx n) (hx : inBox N x) (d : Fin n) (j : Int) (j0 : -1 ≤ j) (j1 : j ≤ 1) :
    a.fillS f (stepIdx x d j) = k := by
  have h1 : (1 : Int) ≤ solverHalo a.o := one_le_haloI _
  have hW : Wide (PP.bnd N kind (solverHalo a.o)) := PP.bnd_wide h1 h.wide
  rw [h.bc.s, C60_sclr_no_stale _ hW ds h.bc.all false f (fun _ => k) (fun y hy => hf y (fun e => by have := hy e; change 0 ≤ y e ∧ y e ≤ (N e : Int) - 1 at this; omega)), xchngSclr_const]
  intro e
  have he := hx e
  show 0 - solverHalo a.o ≤ stepIdx x d j e ∧ stepIdx x d j e ≤ (N e : Int) - 1 + solverHalo a.o
  unfold stepIdx
  split_ifs <;> omega

/-- rest, whatever the dimension -/
theorem still_vip (h : VipSetup u a N kind ds) (hA : ∀ f st, StillOk { a with filter := f, st := st }) (hd3 : u.vc.div3 = false) {p0 : Nat → Idx n → K}
    (still : ∀ d x, inBox N x → p0 (u.vip d) x = 0) (vab : u.vab = .noab ∨ ∀ d x, inBox N x → u.coeff x * u.relax d x = 0)
    (force : ∀ dt at1 psi z, (∀ e, e < u.nEqns → ∀ x, inBox N x → psi e x = p0 e x) → (∀ e, e < u.nEqns → ∃ q : Idx n → K, (∀ x, inBox N x → q x = p0 e x) ∧ psi e = a.fillS q) →
      (∀ e, e < u.nEqns → isset u.norhs (bit e) = false → ∀ x, inBox N x → z e x = 0) → ∀ e, e < u.nEqns → isset u.norhs (bit e) = false → ∀ x, inBox N x → u.force dt at1 psi z e x = 0) :
    PP.StillP (PP.solver { u with den := none } N kind (solverHalo a.o) a 0 0 .mr) p0 (fun _ => True) where
  ok := h.bsq.setup.ok
  F := h.bsq.setup.faces
  div3 := hd3
  vip := h.vip
  still := still
  adv := PP.adv_still (u := { u with den := none }) h.bsq.setup hA h.iters _ rfl
  vab := vab
  force := by
    intro dt at1 psi z _ hp hq hz e hr x hx
    have hi : ∀ e, hasRhs (PP.solver { u with den := none } N kind (solverHalo a.o) a 0 0 .mr).toCfg e = true ↔ e < u.nEqns ∧ isset u.norhs (bit e) = false := by
      intro e
      show (decide (e < u.nEqns) && !isset u.norhs (bit e)) = true ↔ _
      simp
    exact force dt at1 psi z hp hq (fun e h1 h2 => hz e ((hi e).2 ⟨h1, h2⟩)) e ((hi e).1 hr).1 ((hi e).1 hr).2 x hx
  post _ _ hs := ⟨hs, fun _ _ _ => rfl, fun _ _ _ => rfl⟩

end lemmas

/-- C61, 2-D (partial: without the third-order divergence-form terms): a fluid without motion on which no force acts stays exactly as it is, with cyclic, rigid or open boundaries in each dimension, for
every distribution of the other variables, time steps, number of steps, initial content of halos and temporaries; momenta may be divided by a density or not. -/
theorem C61_rest_walls_2d_partial (u : User K (Idx 2) 2) (N : Fin 2 → Nat) (kind : Fin 2 → BcKind) (a : CfgN 2 K) (h : VipSetup u a N kind [0, 1])
    (si : SptlIntrp) (te : TmprlExtrp) (tiny : K) (hF : a.F = formulae2 a.o si te tiny) (h3 : isset a.o oDiv3 = false) (h3t : isset a.o oDiv3dt = false) (hd3 : u.vc.div3 = false)
    (dt0 : K) (filt : Nat → Bool) (first : Nat → K) (more : Nat → List K) (hts : u.vc.varDt = true ∨ ∀ t, more t = []) (s : St K (Idx 2) 2 (MemN 2 K)) (hs : s.timestep = 0)
    (hb : Balanced u N s.psi) (t : Nat) :
    ∀ e, e < u.nEqns → ∀ x, inBox N x → (run (solverB u N kind (solverHalo a.o) a) dt0 filt first more s t).psi e x = s.psi e x := by
  have hA := h.bsq.still (fun d st psi old GC x hz => by rw [hF]; exact velZ_2 _ _ _ _ h3 h3t d st psi old GC x hz) (fun psi flx G x hz => by rw [hF]; exact donorZ_2 _ _ _ _ psi flx G x hz)
  exact (run_den (still_vip h hA hd3 hb.still hb.vab (fun dt at1 psi z hp _ hz => hb.force dt at1 psi z hp hz)) u.den dt0 filt first more hts s hs (fun _ _ _ _ => rfl) t).1.psi

/-- C61, 3-D. -/
theorem C61_rest_walls_3d_partial (u : User K (Idx 3) 3) (N : Fin 3 → Nat) (kind : Fin 3 → BcKind) (a : CfgN 3 K) (h : VipSetup u a N kind [1, 0, 2])
    (si : SptlIntrp) (te : TmprlExtrp) (tiny : K) (hF : a.F = formulae3 a.o si te tiny) (h3 : isset a.o oDiv3 = false) (h3t : isset a.o oDiv3dt = false) (hd3 : u.vc.div3 = false)
    (dt0 : K) (filt : Nat → Bool) (first : Nat → K) (more : Nat → List K) (hts : u.vc.varDt = true ∨ ∀ t, more t = []) (s : St K (Idx 3) 3 (MemN 3 K)) (hs : s.timestep = 0)
    (hb : Balanced u N s.psi) (t : Nat) :
    ∀ e, e < u.nEqns → ∀ x, inBox N x → (run (solverB u N kind (solverHalo a.o) a) dt0 filt first more s t).psi e x = s.psi e x := by
  have hA := h.bsq.still (fun d st psi old GC x hz => by rw [hF]; exact velZ_3 _ _ _ _ h3 h3t d st psi old GC x hz) (fun psi flx G x hz => by rw [hF]; exact donorZ_3 _ _ _ _ psi flx G x hz)
  exact (run_den (still_vip h hA hd3 hb.still hb.vab (fun dt at1 psi z hp _ hz => hb.force dt at1 psi z hp hz)) u.den dt0 filt first more hts s hs (fun _ _ _ _ => rfl) t).1.psi

/-- C43, 2-D, whole program, cyclic, rigid or open boundaries in each dimension (partial: without the third-order divergence-form terms): a lake at rest (uniform depth, no momentum) stays exactly at
rest; depth zero included. -/
theorem C43_lake_at_rest_walls_2d_partial (g : K) (u : User K (Idx 2) 2) (N : Fin 2 → Nat) (kind : Fin 2 → BcKind) (a : CfgN 2 K) (h : VipSetup (swUserN g u) a N kind [0, 1])
    (si : SptlIntrp) (te : TmprlExtrp) (tiny : K) (hF : a.F = formulae2 a.o si te tiny) (h3 : isset a.o oDiv3 = false) (h3t : isset a.o oDiv3dt = false) (hd3 : u.vc.div3 = false)
    (hv : u.vab = .noab ∨ ∀ d x, inBox N x → u.coeff x * u.relax d x = 0)
    (dt0 : K) (filt : Nat → Bool) (first : Nat → K) (more : Nat → List K) (hts : u.vc.varDt = true ∨ ∀ t, more t = []) (s : St K (Idx 2) 2 (MemN 2 K)) (hs : s.timestep = 0)
    (depth : K) (hm : ∀ d : Fin 2, ∀ x, inBox N x → s.psi d x = 0) (hd : ∀ x, inBox N x → s.psi 2 x = depth) (t : Nat) (x : Idx 2) (hx : inBox N x) :
    let q := run (solverB (swUserN g u) N kind (solverHalo a.o) a) dt0 filt first more s t
    (∀ d : Fin 2, q.psi d x = 0) ∧ q.psi 2 x = depth := by
  intro q
  have hA := h.bsq.still (fun d st psi old GC x hz => by rw [hF]; exact velZ_2 _ _ _ _ h3 h3t d st psi old GC x hz) (fun psi flx G x hz => by rw [hF]; exact donorZ_2 _ _ _ _ psi flx G x hz)
  have S := still_vip h hA hd3 (p0 := s.psi) hm hv (fun dt at1 psi z hp hq hz e he hn x hx => by
    show swForce g u.dx dt at1 psi z e x = 0
    unfold swForce gradC
    rw [hz e he hn x hx]
    split_ifs with hlt
    · obtain ⟨f, f1, f2⟩ := hq 2 (show 2 < 2 + 1 by omega)
      have z := fun j => h.fillC depth f (fun y hy => (f1 y hy).trans (hd y hy)) x hx ⟨e, hlt⟩ j
      rw [f2, z 1 (by omega) (by omega), z (-1) (by omega) (by omega)]; simp
    · rfl)
  have R := (run_den S (some 2) dt0 filt first more hts s hs (fun _ _ _ _ => rfl) t).1.psi
  exact ⟨fun d => (R d (show (d : Nat) < 2 + 1 by omega) x hx).trans (hm d x hx), (R 2 (show 2 < 2 + 1 by omega) x hx).trans (hd x hx)⟩

/-! ### Concrete cases -/

/-- the channel of Props/PrsRun.lean, open to the left and right, with a scalar that varies -/
theorem vsSetup : VipSetup PP.chU PP.chA PP.chN PP.chK [0, 1] where
  bc := ⟨rfl, rfl, by decide, fun _ => rfl, fun _ _ => rfl, fun _ _ => rfl⟩
  wide := by decide
  iters := by decide
  inj := fun d e h => Fin.ext h
  vip := fun d => Nat.lt_succ_of_lt d.2
/-- no motion in the channel, junk in the halos -/
def vsS : St ℚ (Idx 2) 2 (MemN 2 ℚ) := { PP.chS.toSt with psi := fun e x => if e = 2 then 3 * x 0 + x 1 * x 1 else if inBox PP.chN x then 0 else 7 }
theorem vsBalanced : Balanced PP.chU PP.chN vsS.psi where
  still := fun d x hx => by
    show (if d.1 = 2 then _ else if inBox PP.chN x then (0 : ℚ) else 7) = 0
    rw [if_neg (by have := d.2; omega), if_pos hx]
  vab := .inl rfl
  force := fun _ _ _ _ _ hz => hz
/-- `C61_rest_walls_2d_partial` applies in the channel -/
example (t : Nat) (e : Nat) (he : e < 3) (x : Idx 2) (hx : inBox PP.chN x) :
    (run (solverB PP.chU PP.chN PP.chK 1 PP.chA) (1/4) (fun _ => false) (fun _ => 1/4) (fun _ => []) vsS t).psi e x = vsS.psi e x :=
  C61_rest_walls_2d_partial PP.chU PP.chN PP.chK PP.chA vsSetup .exact .noextrp (1/1000) rfl (by decide) (by decide) rfl (1/4) _ _ _ (.inr fun _ => rfl) vsS rfl vsBalanced t e he x hx

/-- a lake in the channel, half a metre deep, junk in the halos -/
def vsLake : St ℚ (Idx 2) 2 (MemN 2 ℚ) := { PP.chS.toSt with psi := fun e x => if inBox PP.chN x then (if e = 2 then 1/2 else 0) else 7 }
theorem vsSetupSw : VipSetup (swUserN 10 PP.chU) PP.chA PP.chN PP.chK [0, 1] := ⟨vsSetup.bc, vsSetup.wide, vsSetup.iters, vsSetup.inj, fun d => Nat.lt_succ_of_lt d.2⟩
/-- `C43_lake_at_rest_walls_2d_partial` applies in the channel -/
example (t : Nat) (x : Idx 2) (hx : inBox PP.chN x) :
    let q := run (solverB (swUserN 10 PP.chU) PP.chN PP.chK 1 PP.chA) (1/4) (fun _ => false) (fun _ => 1/4) (fun _ => []) vsLake t
    (∀ d : Fin 2, q.psi d x = 0) ∧ q.psi 2 x = 1/2 :=
  C43_lake_at_rest_walls_2d_partial 10 PP.chU PP.chN PP.chK PP.chA vsSetupSw .exact .noextrp (1/1000) rfl (by decide) (by decide) rfl (.inl rfl) (1/4) _ _ _ (.inr fun _ => rfl) vsLake rfl (1/2)
    (fun d y hy => by
      show (if inBox PP.chN y then (if d.1 = 2 then (1/2 : ℚ) else 0) else 7) = 0
      rw [if_pos hy, if_neg (by have := d.2; omega)])
    (fun y hy => by
      show (if inBox PP.chN y then (if 2 = 2 then (1/2 : ℚ) else 0) else 7) = 1/2
      rw [if_pos hy, if_pos rfl]) t x hx

/-- a 3-D box with a rigid bottom and top, cyclic and open sides, four advection passes -/
def vsK3 : Fin 3 → BcKind := fun d => if d = 0 then .cyclic else if d = 1 then .opened else .rigid
def vsA3 : CfgN 3 ℚ :=
  { o := 0, F := formulae3 0 .exact .noextrp (1/1000), nIters := 4, eps := 1/1000, box := fun _ => ⟨0, 4⟩, st := ⟨fun _ => 1, fun _ _ => 0, fun _ _ => 0⟩
    fillS := xchngSclr (PP.bnd (fun _ => 5) vsK3 1) [1, 0, 2] 1 false, fillA := xchngAlng (PP.bnd (fun _ => 5) vsK3 1), fillN := xchngNrml (PP.bnd (fun _ => 5) vsK3 1), filter := false }
def vsU3 : User ℚ (Idx 3) 3 :=
  { nEqns := 4, norhs := 0, delayed := 0, vip := fun d => d.1, den := some 3, veps := 0, dx := fun _ => 1, sch := .eulerB, vc := ⟨true, false⟩, vab := .noab
    coeff := fun _ => 0, relax := fun _ _ => 0, force := fun _ _ _ r => r }
/-- `C61_rest_walls_3d_partial` applies: momenta and a density that varies -/
example (s : St ℚ (Idx 3) 3 (MemN 3 ℚ)) (hs : s.timestep = 0) (hp : s.psi = fun e x => if e = 3 then (1 + (x 2 : ℚ) : ℚ) else if inBox (fun _ => 5) x then 0 else 7) (t : Nat) (x : Idx 3) (hx : inBox (fun _ => 5) x) :
    (run (solverB vsU3 (fun _ => 5) vsK3 1 vsA3) (1/4) (fun _ => false) (fun _ => 1/4) (fun _ => [1/5]) s t).psi 3 x = 1 + x 2 := by
  refine (C61_rest_walls_3d_partial vsU3 (fun _ => 5) vsK3 vsA3 ⟨⟨rfl, rfl, by decide, fun _ => rfl, fun _ _ => rfl, fun _ _ => rfl⟩, by decide, by decide, fun d e h => Fin.ext h,
    fun d => Nat.lt_succ_of_lt d.2⟩ .exact .noextrp (1/1000) rfl (by decide) (by decide) rfl (1/4) _ _ _ (.inl rfl) s hs
    ⟨fun d x hx => ?_, .inl rfl, fun _ _ _ _ _ hz => hz⟩ t 3 (show 3 < 4 by omega) x hx).trans (by rw [hp]; rfl)
  rw [hp]
  show (if d.1 = 3 then _ else if inBox (fun _ => 5) x then (0 : ℚ) else 7) = 0
  rw [if_neg (by have := d.2; omega), if_pos hx]

end VP
end Mpdata
