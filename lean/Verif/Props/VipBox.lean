import Verif.Model.VipBox
import Verif.Props.BoxRun
/-! # C61: rigid walls without a pressure term
The solvers with a pressure term keep the normal velocity on rigid walls at zero (C62). Without it nothing does: contents are kept as long as the velocities vanish on the walls, but a flow towards a
wall does not keep this property, and then the walls leak. -/
set_option linter.unusedSectionVars false
namespace Mpdata
namespace VP
open Prs (inBox)
variable {K : Type} [Field K] [LinearOrder K] [IsStrictOrderedRing K] {n : Nat}

/-- no flow through the walls of a box -/
def NoFlow (u : User K (Idx n) n) (P : Fin n → Nat) (s : St K (Idx n) n (MemN n K)) : Prop :=
  ∀ d x, inBox (fun d => P d + 1) x → (x d = 0 ∨ x d = P d) → s.psi (u.vip d) x = 0

section
variable [NeZero n] {u : User K (Idx n) n} {P : Fin n → Nat} {a : CfgN n K} {p0 : SpecN.Par n K} {ds : List (Fin n)}

theorem box_vip (h : WallSetupN (fun _ => true) a p0 P ds) (hF : FGood p0.o p0.F) (hM : FMir p0.F) (hf : isset a.o oFct = false) (hn : 1 ≤ a.nIters) (hx : HaloCovered a.o a.nIters)
    (hG : ∀ x, gFacN p0.o p0.st.G x ≠ 0) (hd3 : u.vc.div3 = false) (hd : u.den = none) (hi : Function.Injective u.vip) (filt : Bool) (first : K) (more : List K)
    (hts : u.vc.varDt = true ∨ more = []) (q : St K (Idx n) n (MemN n K)) (hq : NoFlow u P q)
    (hstash : extrpBeta ((first :: more).getLast (by simp)) q.ds0 = 0 ∨
      ∀ d x, inBox (fun d => P d + 1) x → (x d = 0 ∨ x d = P d) → q.stash (stashBlk u.vc q.timestep 1) d x = 0) (e : Nat) (he : ∀ d, u.vip d ≠ e) :
    let p := step (solverB u (fun d => P d + 1) (fun _ => .rigid) (solverHalo a.o) a) filt first more q
    let R : St K (Idx n) n (MemN n K) → Idx n → K := fun s x => if e < u.nEqns ∧ isset u.norhs (bit e) = false then s.rhs e x else 0
    let dt := (first :: more).getLast (by simp)
    PP.boxTot a P (p.psi e) = PP.boxTot a P (q.psi e) + (if u.sch = .trapez then dt / 2 * (PP.boxTot a P (R q) + PP.boxTot a P (R p)) else dt * PP.boxTot a P (R p)) := by
  intro p R dt
  set c := PP.solver u (fun d => P d + 1) (fun _ => .rigid) (solverHalo a.o) a 0 0 .mr with hc
  have st := PP.setup_of_wall h hd hi
  have ok : PP.Ok c := st.ok
  have hts' : c.vc.varDt = true ∨ c.vc.div3 = true ∨ more = [] := hts.imp id Or.inr
  obtain ⟨junk, dst, hgc⟩ := PP.gc_val ok first more hts' q
  obtain ⟨V, hV⟩ := PP.box_gc (u := u) (tol := 0) (cap := 0) (prs := .mr) h dt (fun d x => if c.grid x then (1 + extrpBeta dt q.ds0) * q.psi (c.vip d) x - extrpBeta dt q.ds0 * q.stash (stashBlk c.vc q.timestep 1) d x
      else junk d x) dst (fun d x hx hw => by
    show (if c.grid x then _ else _) = _
    rw [if_pos ((ok.grid x).2 hx), show q.psi (c.vip d) x = 0 from hq d x hx hw]
    rcases hstash with hb | hs
    · rw [show extrpBeta dt q.ds0 = 0 from hb]; ring
    · rw [show q.stash (stashBlk c.vc q.timestep 1) d x = 0 from hs d x hx hw]; ring)
  have hR : ∀ s : St K (Idx n) n (MemN n K), R s = PP.effR c.toCfg s.rhs e := by
    intro s
    funext x
    show (if e < u.nEqns ∧ isset u.norhs (bit e) = false then s.rhs e x else 0) = if (decide (e < u.nEqns) && !isset u.norhs (bit e)) = true then s.rhs e x else 0
    congr 1
    simp
  rw [hR, hR]
  have key := PP.rhs_tot ok (PP.boxTot_grid a P) (PP.boxTot_lin a P) filt first more q
    (fun ndt ndtt t' psi old => PP.box_adv h hF hM hf hn hx hG hd3 (by rw [hgc]; exact hV) filt ndt ndtt t' psi old) e he
  set r := PP.postRhs c.toCfg dt (PP.preStep c.toCfg filt first more q) with hr
  have ep : p = vabFnlzS c.toCfg dt r := rfl
  have e1 : p.psi e = r.psi e := by
    rw [ep]; unfold vabFnlzS
    split_ifs
    · exact PP.asgVip_other (c := c.toCfg) (fun d x v => (vabFnlz dt (c.coeff x) (c.relax d x) v).1) r.psi e he
    · rfl
  have e2 : p.rhs = r.rhs := by rw [ep]; unfold vabFnlzS; split_ifs <;> rfl
  rw [e1, e2]
  exact key

/-- the velocities a step started with are in the history -/
theorem box_stash {T : Type} {c : PP.Cfg K n T} (ok : PP.Ok c) (filt : Bool) (first : K) (more : List K) (s : St K (Idx n) n T) (d : Fin n) (x : Idx n) (hx : inBox c.N x) :
    (step c.toCfg filt first more s).stash (stashBlk c.vc (step c.toCfg filt first more s).timestep 1) d x = s.psi (c.vip d) x := by
  set dt := (first :: more).getLast (by simp) with hdt
  have k0 : PP.Keep (PP.postRhs c.toCfg dt (PP.preStep c.toCfg filt first more s)) (step c.toCfg filt first more s) := by
    show PP.Keep _ (vabFnlzS c.toCfg dt (PP.postRhs c.toCfg dt (PP.preStep c.toCfg filt first more s)))
    unfold vabFnlzS
    split_ifs <;> exact ⟨rfl, rfl, rfl, rfl⟩
  have k5 := (PP.postRhs_keep c.toCfg dt (PP.preStep c.toCfg filt first more s)).trans k0
  set s1 := (first :: more).foldl (calcGc c.toCfg) s with hs1
  set s2 := calcNdt c.toCfg dt s1 with hs2
  have p1 := calcGcs_same c.toCfg (first :: more) s
  have p2 := calcNdt_same c.toCfg dt s1
  have k6 := (PP.anteStep_keep c.toCfg dt s2).trans (PP.advEqs_keep c.toCfg filt (eqOrder c.toCfg) (anteStep c.toCfg dt s2))
  rw [k5.stash, k5.ts]
  show ((eqOrder c.toCfg).foldl (advEq c.toCfg filt) (anteStep c.toCfg dt s2)).stash (stashBlk c.vc (((eqOrder c.toCfg).foldl (advEq c.toCfg filt) (anteStep c.toCfg dt s2)).timestep + 1) 1) d x = _
  rw [k6.stash, k6.ts, PP.stashBlk_next]
  show (if c.grid x then fillStash c.vc s2.timestep (vel c.toCfg s2.psi d x) (fun b => s2.stash b d x) (stashBlk c.vc s2.timestep (if c.vc.div3 then 2 else 1)) else _) = _
  rw [if_pos ((ok.grid x).2 hx)]
  unfold fillStash Stash.set
  rw [if_pos rfl, PP.vel_none ok.den, p2.psi, p1.psi]

theorem box_vip_run (h : WallSetupN (fun _ => true) a p0 P ds) (hF : FGood p0.o p0.F) (hM : FMir p0.F) (hf : isset a.o oFct = false) (hn : 1 ≤ a.nIters) (hx : HaloCovered a.o a.nIters)
    (hG : ∀ x, gFacN p0.o p0.st.G x ≠ 0) (hd3 : u.vc.div3 = false) (hd : u.den = none) (hi : Function.Injective u.vip) (dt0 : K) (filt : Nat → Bool) (first : Nat → K) (more : Nat → List K)
    (hts : u.vc.varDt = true ∨ ∀ t, more t = []) (s : St K (Idx n) n (MemN n K)) (h0 : s.ds0 = 0) (t : Nat)
    (hw : ∀ v, v ≤ t → NoFlow u P (run (solverB u (fun d => P d + 1) (fun _ => .rigid) (solverHalo a.o) a) dt0 filt first more s v)) (e : Nat) (he : ∀ d, u.vip d ≠ e) :
    let q := run (solverB u (fun d => P d + 1) (fun _ => .rigid) (solverHalo a.o) a) dt0 filt first more s t
    let p := run (solverB u (fun d => P d + 1) (fun _ => .rigid) (solverHalo a.o) a) dt0 filt first more s (t + 1)
    let R : St K (Idx n) n (MemN n K) → Idx n → K := fun s x => if e < u.nEqns ∧ isset u.norhs (bit e) = false then s.rhs e x else 0
    let dt := (first t :: more t).getLast (by simp)
    PP.boxTot a P (p.psi e) = PP.boxTot a P (q.psi e) + (if u.sch = .trapez then dt / 2 * (PP.boxTot a P (R q) + PP.boxTot a P (R p)) else dt * PP.boxTot a P (R p)) := by
  refine box_vip h hF hM hf hn hx hG hd3 hd hi (filt t) (first t) (more t) (hts.imp id fun h => h t) _ (hw t (le_refl t)) ?_ e he
  set c := PP.solver u (fun d => P d + 1) (fun _ => .rigid) (solverHalo a.o) a 0 0 .mr with hc
  have st := PP.setup_of_wall h hd hi
  have ok : PP.Ok c := st.ok
  rcases t with _ | v
  · left
    have hds : (anteLoop c.toCfg dt0 s).ds0 = 0 := by
      rw [← h0]; unfold anteLoop vabInitS; cases c.sch <;> cases c.vc.div3 <;> rfl
    show extrpBeta _ (anteLoop c.toCfg dt0 s).ds0 = 0
    unfold extrpBeta; rw [hds]; simp
  · right
    intro d x hxb hxw
    refine (box_stash ok (filt v) (first v) (more v) _ d x hxb).trans (hw v (by omega) d x hxb hxw)
end

/-- C61, 2-D (partial: without flux-corrected transport and the third-order time derivatives; with the divergence-form options up to two passes). A solver without pressure term in a box with rigid
walls: as long as the velocities vanish on the walls, the content of every scalar changes in a step by the time step times the content of its right-hand side (trapezoidal scheme: the mean of those
before and after the step). -/
theorem C61_box_budget_2d_partial (u : User K (Idx 2) 2) (a : CfgN 2 K) (p0 : SpecN.Par 2 K) (P : Fin 2 → Nat) (h : Walled2 (fun _ => true) a p0 P)
    (hf : isset a.o oFct = false) (hn : 1 ≤ a.nIters) (hx : HaloCovered a.o a.nIters) (hG : ∀ x, gFacN p0.o p0.st.G x ≠ 0) (hd3 : u.vc.div3 = false) (hd : u.den = none) (hi : Function.Injective u.vip)
    (dt0 : K) (filt : Nat → Bool) (first : Nat → K) (more : Nat → List K) (hts : u.vc.varDt = true ∨ ∀ t, more t = []) (s : St K (Idx 2) 2 (MemN 2 K)) (h0 : s.ds0 = 0) (t : Nat)
    (hw : ∀ v, v ≤ t → NoFlow u P (run (solverB u (fun d => P d + 1) (fun _ => .rigid) (solverHalo a.o) a) dt0 filt first more s v)) (e : Nat) (he : ∀ d, u.vip d ≠ e) :
    let q := run (solverB u (fun d => P d + 1) (fun _ => .rigid) (solverHalo a.o) a) dt0 filt first more s t
    let p := run (solverB u (fun d => P d + 1) (fun _ => .rigid) (solverHalo a.o) a) dt0 filt first more s (t + 1)
    let R : St K (Idx 2) 2 (MemN 2 K) → Idx 2 → K := fun s x => if e < u.nEqns ∧ isset u.norhs (bit e) = false then s.rhs e x else 0
    let dt := (first t :: more t).getLast (by simp)
    PP.boxTot a P (p.psi e) = PP.boxTot a P (q.psi e) + (if u.sch = .trapez then dt / 2 * (PP.boxTot a P (R q) + PP.boxTot a P (R p)) else dt * PP.boxTot a P (R p)) :=
  box_vip_run h.setup h.good h.mir hf hn hx hG hd3 hd hi dt0 filt first more hts s h0 t hw e he

/-- C61, 3-D (partial: without flux-corrected transport and the third-order time derivatives; with the divergence-form options up to two passes). A solver without pressure term in a box with rigid
walls: as long as the velocities vanish on the walls, the content of every scalar changes in a step by the time step times the content of its right-hand side (trapezoidal scheme: the mean of those
before and after the step). -/
theorem C61_box_budget_3d_partial (u : User K (Idx 3) 3) (a : CfgN 3 K) (p0 : SpecN.Par 3 K) (P : Fin 3 → Nat) (h : Walled3 (fun _ => true) a p0 P)
    (hf : isset a.o oFct = false) (hn : 1 ≤ a.nIters) (hx : HaloCovered a.o a.nIters) (hG : ∀ x, gFacN p0.o p0.st.G x ≠ 0) (hd3 : u.vc.div3 = false) (hd : u.den = none) (hi : Function.Injective u.vip)
    (dt0 : K) (filt : Nat → Bool) (first : Nat → K) (more : Nat → List K) (hts : u.vc.varDt = true ∨ ∀ t, more t = []) (s : St K (Idx 3) 3 (MemN 3 K)) (h0 : s.ds0 = 0) (t : Nat)
    (hw : ∀ v, v ≤ t → NoFlow u P (run (solverB u (fun d => P d + 1) (fun _ => .rigid) (solverHalo a.o) a) dt0 filt first more s v)) (e : Nat) (he : ∀ d, u.vip d ≠ e) :
    let q := run (solverB u (fun d => P d + 1) (fun _ => .rigid) (solverHalo a.o) a) dt0 filt first more s t
    let p := run (solverB u (fun d => P d + 1) (fun _ => .rigid) (solverHalo a.o) a) dt0 filt first more s (t + 1)
    let R : St K (Idx 3) 3 (MemN 3 K) → Idx 3 → K := fun s x => if e < u.nEqns ∧ isset u.norhs (bit e) = false then s.rhs e x else 0
    let dt := (first t :: more t).getLast (by simp)
    PP.boxTot a P (p.psi e) = PP.boxTot a P (q.psi e) + (if u.sch = .trapez then dt / 2 * (PP.boxTot a P (R q) + PP.boxTot a P (R p)) else dt * PP.boxTot a P (R p)) :=
  box_vip_run h.setup h.good h.mir hf hn hx hG hd3 hd hi dt0 filt first more hts s h0 t hw e he

/-! ## Leaking walls -/

/-- two velocities and a scalar in the box of Props/BoxRun.lean, no forces -/
def lkC : Cfg ℚ (Idx 2) 2 (MemN 2 ℚ) := solverB PP.chU (fun _ => 2 + 1) (fun _ => .rigid) (solverHalo PP.bxA.o) PP.bxA

/-- a flow against the first dimension in the middle of the box, zero on the walls; the scalar grows along the first dimension -/
def lkS : St ℚ (Idx 2) 2 (MemN 2 ℚ) := { PP.chS.toSt with psi := fun e x => if e = 0 then (if x 0 = 1 then -1 else 0) else if e = 1 then 0 else x 0 }

/-- the initial state has no flow through the walls: `C61_box_budget_2d_partial` applies to the first step (the remaining hypotheses are shown in Props/BoxRun.lean) -/
example : NoFlow PP.chU (fun _ => 2) (run lkC (1/4) (fun _ => false) (fun _ => 1/4) (fun _ => []) lkS 0) := by
  intro d x hx hw
  have ok : PP.Ok (PP.solver PP.chU (fun _ : Fin 2 => 2 + 1) (fun _ => .rigid) (solverHalo PP.bxA.o) PP.bxA 0 0 .mr) :=
    (PP.setup_of_wall (u := PP.chU) PP.bxWalled.setup rfl (fun a b h => Fin.ext h)).ok
  refine (PP.vpAnte_psi ok (1/4) lkS (PP.chU.vip d) hx).trans ?_
  fin_cases d
  · show (if x 0 = 1 then (-1 : ℚ) else 0) = 0
    have h : x 0 = 0 ∨ x 0 = 2 := hw
    rw [if_neg (by omega)]
  · rfl

/-- C61 fails for rigid walls: a flow towards a wall that vanishes on the walls does not vanish there after one step, because the velocities are advected with an even continuation and nothing resets
them. -/
theorem C61_fails_wall_impermeable :
    (∀ y ∈ [(0 : Int), 1, 2], lkS.psi 0 ![0, y] = 0 ∧ lkS.psi 0 ![2, y] = 0) ∧ (run lkC (1/4) (fun _ => false) (fun _ => 1/4) (fun _ => []) lkS 1).psi 0 ![0, 1] ≠ 0 :=
  ⟨by decide +kernel, by decide +kernel⟩

/-- C61 fails for rigid walls: the content of the closed box is kept by the first step and changed by the second, although the scalar is not forced. -/
theorem C61_fails_box_total :
    PP.boxTot PP.bxA (fun _ => 2) ((run lkC (1/4) (fun _ => false) (fun _ => 1/4) (fun _ => []) lkS 1).psi 2) = PP.boxTot PP.bxA (fun _ => 2) (lkS.psi 2) ∧
    PP.boxTot PP.bxA (fun _ => 2) ((run lkC (1/4) (fun _ => false) (fun _ => 1/4) (fun _ => []) lkS 2).psi 2) ≠ PP.boxTot PP.bxA (fun _ => 2) (lkS.psi 2) :=
  ⟨by decide +kernel, by decide +kernel⟩

end VP
end Mpdata
