import Verif.Lemmas.PrsStill
import Verif.Model.BsqProg
import Verif.Props.PrsRun
/-! Lemmas on the Boussinesq programs. -/
set_option linter.unusedSectionVars false
set_option linter.unusedVariables false
namespace Mpdata.PP
open Prs (inBox)
variable {K : Type} [Field K] [LinearOrder K] [IsStrictOrderedRing K] {n : Nat} [NeZero n]
variable {u : VP.User K (Idx n) n} {b : Bous K n} {N : Fin n → Nat} {kind : Fin n → BcKind} {halo : Int} {a : CfgN n K} {tol : K} {cap : Nat} {prs : Scheme}

theorem Setup.force (h : Setup u N halo a) (f : K → Bool → (Nat → Idx n → K) → (Nat → Idx n → K) → (Nat → Idx n → K)) : Setup { u with force := f } N halo a :=
  ⟨h.two, h.halo, h.box, h.fill, h.den, h.inj⟩

theorem expl_ok (h : Setup u N halo a) : Ok (bsqExpl u b N kind halo a tol cap prs) := (h.force _).ok
theorem expl_faces (h : Setup u N halo a) : Faces (bsqExpl u b N kind halo a tol cap prs) := (h.force _).faces

theorem impl_ok (h : Setup u N halo a) (ht : ∀ d, u.vip d ≠ b.tht) : Ok (bsqImpl u b N kind halo a tol cap prs) := by
  have o : Ok (solver { u with force := forceImpl b (u.vip (vert n)) (fun x => decide (cellBox a.box x)) (dthtE u b a) } N kind halo a tol cap prs) := (h.force _).ok
  exact ⟨o.grid, o.den, o.inj, o.xchng, fun dt s d => by
    funext x
    show (if u.vip d = b.tht then _ else s.psi (u.vip d) x) = _
    rw [if_neg (ht d)]; rfl, fun dt s => ⟨rfl, rfl, rfl, rfl⟩⟩

theorem impl_faces (h : Setup u N halo a) : Faces (bsqImpl u b N kind halo a tol cap prs) := by
  have o : Faces (solver { u with force := forceImpl b (u.vip (vert n)) (fun x => decide (cellBox a.box x)) (dthtE u b a) } N kind halo a tol cap prs) := (h.force _).faces
  exact ⟨o.two, o.sh, o.face, o.pIn, o.pLeft, o.pRght, o.gIn, o.gLeft, o.gRght⟩

theorem impl_edgeFree (hf : NoAbsorberOnOpen u N kind) (hv : kind (vert n) ≠ .opened) : EdgeFree (bsqImpl u b N kind halo a tol cap prs) := by
  intro dt d x hx hw ho
  have hd : d ≠ vert n := fun h => hv (h ▸ ho)
  show nrmImpl u b (dthtE u b a) dt d x = 1
  unfold nrmImpl
  rw [if_neg hd, if_neg hd]
  split_ifs with hi
  · rw [hf hi d x hx ho hw.2]; simp
  · rfl

theorem solver_grid (h : Setup u N halo a) (x : Idx n) : decide (cellBox a.box x) = true ↔ inBox N x := (h.ok (kind := fun _ => .cyclic) (tol := 0) (cap := 0) (prs := .mr)).grid x

theorem facePt_of (h : Setup u N halo a) {d : Fin n} {x : Idx n} (hx : faceBox a.box d x) : facePt N d x := by
  have key : ∀ e, (if e = d then -1 else 0) ≤ x e ∧ x e ≤ (N e : Int) - 1 := by
    intro e
    have := hx e
    rw [h.box e] at this
    simp only at this
    split_ifs at this ⊢ <;> omega
  refine ⟨fun e he => by have := key e; rwa [if_neg he] at this, ?_, (key d).2⟩
  have := key d; rw [if_pos rfl] at this; exact this.1

/-- advection without flow -/
theorem adv_still (h : Setup u N halo a) (hA : ∀ f st, StillOk { a with filter := f, st := st }) (h1 : 1 ≤ a.nIters) (c : Cfg K n (MemN n K))
    (hc : c.advop = (VP.solverN u halo a).advop) (GC ndt ndtt : Fin n → Idx n → K) (filt : Bool) (t : MemN n K) (psi old : Idx n → K) (hz : ∀ d x, facePt N d x → GC d x = 0) (x : Idx n) (hx : inBox N x) :
    (c.advop GC ndt ndtt filt t psi old).2.1 x = psi x := by
  rw [hc]
  exact advance_still (m := { t with psi := psi, psiN := old, GC := GC }) (hA filt _) h1 (fun d y hy => hz d y (facePt_of h hy)) (by
    have := (solver_grid h x).2 hx
    simpa using this)

/-- a scalar exchange of a field that is zero on the grid, next to the grid -/
def FillZ (N : Fin n → Nat) (a : CfgN n K) : Prop := ∀ f : Idx n → K, (∀ x, inBox N x → f x = 0) → ∀ x, inBox N x → ∀ k : Int, -1 ≤ k → k ≤ 1 → a.fillS f (stepIdx x (vert n) k) = 0

theorem addRhs_zero {grid : Idx n → Bool} {i : Nat} {v : Idx n → K} {z : Nat → Idx n → K} {e : Nat} {x : Idx n} (hz : z e x = 0) (hv : e = i → v x = 0) : addRhs grid i v z e x = 0 := by
  unfold addRhs
  split_ifs with h1 h2
  · rw [hz, hv h1, add_zero]
  · exact hz
  · exact hz

theorem expl_still (h : Setup u N halo a) (hvip : ∀ d, u.vip d < u.nEqns) (hA : ∀ f st, StillOk { a with filter := f, st := st }) (h1 : 1 ≤ a.nIters) (hd3 : u.vc.div3 = false)
    (hvab : u.vab = .noab ∨ ∀ d x, inBox N x → u.coeff x * u.relax d x = 0) (hZ : FillZ N a) (ht : b.tht < u.nEqns)
    (hfl : ∀ x, inBox N x → b.hflux x = 0) (hab : ∀ x, inBox N x → 0 ≤ b.thtAbs x) {p0 : Nat → Idx n → K} (hv : ∀ d x, inBox N x → p0 (u.vip d) x = 0) (he : ∀ x, inBox N x → p0 b.tht x = b.thtE x) :
    StillP (bsqExpl u b N kind halo a tol cap prs) p0 (fun dt => 0 ≤ dt) where
  ok := expl_ok h
  F := expl_faces h
  div3 := hd3
  vip := hvip
  still := hv
  adv := adv_still (u := u) h hA h1 _ rfl
  vab := hvab
  force := by
    intro dt at1 psi z hD hp _ hz e hr x hx
    have ht' : ∀ y, inBox N y → psi b.tht y = b.thtE y := fun y hy => (hp _ ht y hy).trans (he y hy)
    have a1 : at1 = true → ∀ y, inBox N y → thtAt1 b (2 * dt) (psi b.tht) y = 0 := by
      intro ha y hy
      have hdt : 0 ≤ dt := hD ha
      have hα := hab y hy
      unfold thtAt1
      rw [ht' y hy, hfl y hy]
      have hne : 1 + 1 / 2 * (2 * dt) * b.thtAbs y ≠ 0 := by positivity
      rw [sub_eq_zero, div_eq_iff hne]; ring
    have by0 : ∀ y, inBox N y → buoyE b (2 * dt) at1 (psi b.tht) y = 0 := by
      intro y hy
      unfold buoyE
      split_ifs with ha
      · rw [a1 ha y hy]; simp
      · rw [ht' y hy]; simp
    show forceExpl b (u.vip (vert n)) (fun x => decide (cellBox a.box x)) a.fillS dt at1 psi z e x = 0
    unfold forceExpl
    refine addRhs_zero (addRhs_zero (hz e hr x hx) (fun _ => ?_)) (fun _ => ?_)
    · split_ifs with ha
      · rw [a1 ha x hx, hfl x hx]; ring
      · rw [ht' x hx, hfl x hx]; ring
    · split_ifs with hb
      · have zz := hZ (fun x => if decide (cellBox a.box x) = true then buoyE b (2 * dt) at1 (psi b.tht) x else b.tmp x) (fun y hy => by
          beta_reduce; rw [if_pos ((solver_grid h y).2 hy)]; exact by0 y hy) x hx
        show 1 / 4 * (a.fillS _ (stepIdx x (vert n) 1) + 2 * a.fillS _ x + a.fillS _ (stepIdx x (vert n) (-1))) = 0
        have z0 := zz 0 (by omega) (by omega)
        rw [step_zero] at z0
        rw [zz 1 (by omega) (by omega), zz (-1) (by omega) (by omega), z0]; ring
      · exact by0 x hx
  post dt s hs := ⟨hs, fun _ _ _ => rfl, fun _ _ _ => rfl⟩

theorem impl_still (h : Setup u N halo a) (hvip : ∀ d, u.vip d < u.nEqns) (hA : ∀ f st, StillOk { a with filter := f, st := st }) (h1 : 1 ≤ a.nIters) (hd3 : u.vc.div3 = false)
    (hvab : u.vab = .noab ∨ ∀ d x, inBox N x → u.coeff x * u.relax d x = 0) (ht : b.tht < u.nEqns) (hno : isset u.norhs (bit b.tht) = false) (htv : ∀ d, u.vip d ≠ b.tht)
    (hfl : ∀ x, inBox N x → b.hflux x = 0) {p0 : Nat → Idx n → K} (hv : ∀ d x, inBox N x → p0 (u.vip d) x = 0) (he : ∀ x, inBox N x → p0 b.tht x = 0) :
    StillP (bsqImpl u b N kind halo a tol cap prs) p0 (fun _ => True) where
  ok := impl_ok h htv
  F := impl_faces h
  div3 := hd3
  vip := hvip
  still := hv
  adv := adv_still (u := u) h hA h1 _ rfl
  vab := hvab
  force := by
    intro dt at1 psi z hD hp _ hz e hr x hx
    have ht' : psi b.tht x = 0 := (hp _ ht x hx).trans (he x hx)
    have hw' : psi (u.vip (vert n)) x = 0 := (hp _ (hvip _) x hx).trans (hv _ x hx)
    show forceImpl _ _ _ _ _ _ _ _ e x = 0
    unfold forceImpl
    split_ifs with ha
    · refine addRhs_zero (addRhs_zero (hz e hr x hx) (fun _ => hfl x hx)) (fun hew => ?_)
      beta_reduce
      rw [ht']
      have hrt : VP.hasRhs (bsqImpl u b N kind halo a tol cap prs).toCfg b.tht = true := by
        show (decide (b.tht < u.nEqns) && !isset u.norhs (bit b.tht)) = true
        rw [hno]; simpa using ht
      rw [addRhs_zero (hz b.tht hrt x hx) (fun _ => hfl x hx)]; simp
    · refine addRhs_zero (addRhs_zero (hz e hr x hx) (fun _ => ?_)) (fun _ => ?_)
      · rw [hw', ht', hfl x hx]; ring
      · rw [ht']; simp
  post dt s hs := by
    have q : ∀ e, e < u.nEqns → ∀ x, inBox N x → ((bsqImpl u b N kind halo a tol cap prs).post dt s).psi e x = p0 e x := by
      intro e hle x hx
      show (if e = b.tht then (if decide (cellBox a.box x) = true then (s.psi e x - 1 / 2 * dt * s.psi (u.vip (vert n)) x * dthtE u b a x) / (1 + 1 / 2 * dt * b.thtAbs x) else s.psi e x) else s.psi e x) = _
      split_ifs with h2 h3
      · subst h2
        rw [hs _ hle x hx, he x hx, hs _ (hvip _) x hx, hv _ x hx]; simp
      · exact hs e hle x hx
      · exact hs e hle x hx
    refine ⟨q, fun e x hx => ?_, fun _ _ _ => rfl⟩
    · have e0 : ∀ y, ((bsqImpl u b N kind halo a tol cap prs).post dt s).rhs e y = addRhs (fun x => decide (cellBox a.box x)) b.tht (fun x => - ((bsqImpl u b N kind halo a tol cap prs).post dt s).psi (u.vip (vert n)) x * dthtE u b a x
          - b.thtAbs x * ((bsqImpl u b N kind halo a tol cap prs).post dt s).psi b.tht x) s.rhs e y := fun _ => rfl
      rw [e0]
      unfold addRhs
      split_ifs with h2 h3
      · beta_reduce
        rw [q _ (hvip _) x hx, q _ ht x hx, he x hx, hv _ x hx]; ring
      · rfl
      · rfl

/-! ## What a step of the implicit solver computes -/

theorem grad_slope {N : Fin n → Nat} (two : ∀ d, 2 ≤ N d) (kind : Fin n → BcKind) (dx : Fin n → K) (m : Idx n → K) (d : Fin n) {x : Idx n} (hx : inBox N x) :
    calcGrad dx (Prs.presFill N (fun d => if kind d = .cyclic then .cyclic else .wall) m) d x = slope N (fun d => kind d = .cyclic) m d x / dx d := by
  have h2 := two d
  have hd := hx d
  set bc : Fin n → Prs.Bc := fun d => if kind d = .cyclic then .cyclic else .wall with hbc
  show (Prs.presFill N bc m (stepIdx x d 1) - Prs.presFill N bc m (stepIdx x d (-1))) / dx d / 2 = _
  have hin1 : x d + 1 ≤ (N d : Int) - 1 → Prs.presFill N bc m (stepIdx x d 1) = m (stepIdx x d 1) := fun h => presFill_in _ _ _ (box_step hx d 1 (by omega) h)
  have hin2 : 0 ≤ x d + -1 → Prs.presFill N bc m (stepIdx x d (-1)) = m (stepIdx x d (-1)) := fun h => presFill_in _ _ _ (box_step hx d (-1) h (by omega))
  unfold slope
  simp only
  rw [step_zero]
  by_cases h0 : x d = 0
  · rw [if_pos h0, hin1 (by omega), presFill_left N two _ m hx d h0]
    by_cases hk : kind d = .cyclic
    · have : bc d = .cyclic := if_pos hk
      rw [if_pos hk, this]; simp only; ring
    · have : bc d = .wall := if_neg hk
      rw [if_neg hk, this]; simp only; ring
  · rw [if_neg h0, hin2 (by omega)]
    by_cases h1 : x d = (N d : Int) - 1
    · rw [if_pos h1, presFill_rght N two _ m hx d h1]
      by_cases hk : kind d = .cyclic
      · have : bc d = .cyclic := if_pos hk
        rw [if_pos hk, this]; simp only; ring
      · have : bc d = .wall := if_neg hk
        rw [if_neg hk, this]; simp only; ring
    · rw [if_neg h1, hin1 (by omega)]; ring

theorem solve_frame {T : Type} {c : Cfg K n T} {ne : Nonempty (Prs.Pts c.N)} {dt : K} {simple : Bool} {s s1 : St K n T} (h : solve c ne dt simple s = some s1) : s1.toSt = s.toSt ∧ s1.edge = s.edge := by
  exact ⟨(solve_some h).1, (solve_some h).2.1⟩

/-- velocities and potential after `vip_rhs_impl_fnlz`, away from walls -/
theorem fnlz_vel {T : Type} {c : Cfg K n T} (ok : Ok c) (two : ∀ d, 2 ≤ c.N d) (ne : Nonempty (Prs.Pts c.N)) (dt : K) {s p : St K n T} (h : fnlz c ne dt s = some p) :
    ∃ r : VP.St K (Idx n) n T, p.toSt = c.post dt r ∧ (∀ e, (∀ d, c.vip d ≠ e) → r.psi e = s.psi e) ∧ r.rhs = s.rhs ∧
      (∀ d x, inBox c.N x → r.vrhs d x = (r.psi (c.vip d) x - s.psi (c.vip d) x) / (1 / 2 * dt)) ∧
      ∀ d x, inBox c.N x → ¬ wallPt c d x → r.psi (c.vip d) x = c.nrm dt d x * (s.psi (c.vip d) x + (if c.vab = .impl then 1 / 2 * dt * c.coeff x * c.relax d x else 0) - slope c.N (fun d => c.kind d = .cyclic) p.Phi d x / c.dx d) := by
  unfold fnlz at h
  simp only at h
  split at h
  · cases h
  · rename_i s1 h1
    simp only [Option.some.injEq] at h
    obtain ⟨f1, f2⟩ := solve_frame h1
    subst h
    refine ⟨_, rfl, fun e he => ?_, ?_, fun d x hx => ?_, fun d x hx hw => ?_⟩
    · show (apply c dt false s1).psi e = s.psi e
      rw [apply_other c dt false s1 he, f1]
      split_ifs with hv
      · exact asgVip_other (c := c.toCfg) (fun d x v => v + 1 / 2 * dt * c.coeff x * c.relax d x) s.psi e he
      · rfl
    · show s1.toSt.rhs = s.rhs
      rw [f1]; split_ifs <;> rfl
    · have gx : c.grid x = true := (ok.grid x).2 hx
      show VP.asgG c.toCfg (fun x => (s1.vrhs d x + (apply c dt false s1).psi (c.vip d) x) / (1 / 2 * dt)) (s1.vrhs d) x = _
      refine (if_pos gx).trans ?_
      have e0 : s1.vrhs d x = - s.psi (c.vip d) x := by
        show s1.toSt.vrhs d x = _
        rw [f1]
        split_ifs <;> exact if_pos gx
      show (s1.vrhs d x + (apply c dt false s1).psi (c.vip d) x) / (1 / 2 * dt) = ((apply c dt false s1).psi (c.vip d) x - s.psi (c.vip d) x) / (1 / 2 * dt)
      rw [e0]; ring
    · show (apply c dt false s1).psi (c.vip d) x = _
      show VP.asgVip c.toCfg (fun d x v => (prsCfg c dt s1.edge).newVel false (fun _ _ => v) s1.Phi d x) s1.psi (c.vip d) x = _
      rw [asgVip_at ok.inj]
      refine (if_pos ((ok.grid x).2 hx)).trans ?_
      have hne : ¬ (prsCfg c dt s1.edge).isEdge d x = true := fun hh => hw ((isEdge_iff c dt s1.edge d x).1 hh)
      unfold Prs.Cfg.newVel Prs.Cfg.setEdges
      beta_reduce
      rw [if_neg hne]
      unfold Prs.Cfg.normalize
      rw [if_neg (by decide)]
      have e1 : s1.psi (c.vip d) x = s.psi (c.vip d) x + (if c.vab = .impl then 1 / 2 * dt * c.coeff x * c.relax d x else 0) := by
        rw [f1]
        split_ifs with hv
        · show VP.asgVip c.toCfg (fun d x v => v + 1 / 2 * dt * c.coeff x * c.relax d x) s.psi (c.vip d) x = _
          rw [asgVip_at ok.inj]
          exact if_pos ((ok.grid x).2 hx)
        · rw [add_zero]
      rw [e1]
      show c.nrm dt d x * (_ - calcGrad c.dx (Prs.presFill c.N (fun d => if c.kind d = .cyclic then .cyclic else .wall) s1.Phi) d x) = _
      rw [grad_slope two c.kind c.dx s1.Phi d hx]
      rfl

/-- the right-hand sides of the implicit solver applied after advection -/
theorem impl_postRhs (h : Setup u N halo a) (hs : u.sch = .trapez) (ht : b.tht < u.nEqns) (htv : ∀ d, u.vip d ≠ b.tht) (hvip : u.vip (vert n) < u.nEqns) (hno : isset u.norhs (bit b.tht) = false)
    (hnw : isset u.norhs (bit (u.vip (vert n))) = false) (dt : K) (A : VP.St K (Idx n) n (MemN n K)) {x : Idx n} (hx : inBox N x) :
    let c := bsqImpl u b N kind halo a tol cap prs
    (postRhs c.toCfg dt A).psi b.tht x = A.psi b.tht x + dt / 2 * b.hflux x ∧
    (postRhs c.toCfg dt A).rhs b.tht x = b.hflux x ∧
    (postRhs c.toCfg dt A).psi (u.vip (vert n)) x = A.psi (u.vip (vert n)) x + dt / 2 * (b.g * (A.psi b.tht x + 1 / 2 * dt * b.hflux x) / (b.Tref * (1 + 1 / 2 * dt * b.thtAbs x))) := by
  intro c
  have ok : Ok c := impl_ok h htv
  have hsch : c.sch = .trapez := hs
  have gx : c.grid x = true := (ok.grid x).2 hx
  have r1 : VP.hasRhs c.toCfg b.tht = true := by
    show (decide (b.tht < u.nEqns) && !isset u.norhs (bit b.tht)) = true
    rw [hno]; simpa using ht
  have r2 : VP.hasRhs c.toCfg (u.vip (vert n)) = true := by
    show (decide (u.vip (vert n) < u.nEqns) && !isset u.norhs (bit (u.vip (vert n)))) = true
    rw [hnw]; simpa using hvip
  set z : Nat → Idx n → K := fun e => if VP.hasRhs c.toCfg e then VP.asgG c.toCfg (fun _ => 0) (A.rhs e) else A.rhs e with hz
  set psi : Nat → Idx n → K := fun e => if e < c.nEqns then c.xchng (A.psi e) else A.psi e with hpsi
  have z0 : ∀ e, VP.hasRhs c.toCfg e = true → z e x = 0 := fun e he => by
    rw [hz]; beta_reduce; rw [if_pos he]; exact if_pos gx
  have pp : ∀ e, e < u.nEqns → psi e x = A.psi e x := fun e he => by
    rw [hpsi]; beta_reduce; rw [if_pos (show e < c.nEqns from he)]; exact ok.xchng _ x hx
  set B := VP.updRhs c.toCfg (dt / 2) true A with hB
  have gx' : decide (cellBox a.box x) = true := gx
  have t1 : B.rhs b.tht x = b.hflux x := by
    show forceImpl b (u.vip (vert n)) (fun x => decide (cellBox a.box x)) (dthtE u b a) (dt / 2) true psi z b.tht x = _
    unfold forceImpl
    rw [if_pos rfl]
    unfold addRhs
    rw [if_neg (fun hh => htv (vert n) hh.symm), if_pos rfl, if_pos gx', z0 _ r1, zero_add]
  have t2 : B.rhs (u.vip (vert n)) x = b.g * (A.psi b.tht x + 1 / 2 * dt * b.hflux x) / (b.Tref * (1 + 1 / 2 * dt * b.thtAbs x)) := by
    show forceImpl b (u.vip (vert n)) (fun x => decide (cellBox a.box x)) (dthtE u b a) (dt / 2) true psi z (u.vip (vert n)) x = _
    unfold forceImpl
    rw [if_pos rfl]
    unfold addRhs
    simp only [if_true, if_neg (htv (vert n)), if_pos gx', z0 _ r1, z0 _ r2, zero_add, pp _ ht]
    rw [show (2 : K) * (dt / 2) = dt by ring]
  have e0 : postRhs c.toCfg dt A = VP.appRhs c.toCfg (dt / 2) B := by
    unfold postRhs; rw [hsch]
  rw [e0]
  refine ⟨?_, t1, ?_⟩
  · show (if VP.hasRhs c.toCfg b.tht then VP.asgG c.toCfg (fun x => B.psi b.tht x + dt / 2 * B.rhs b.tht x) (B.psi b.tht) else B.psi b.tht) x = _
    rw [if_pos r1]
    refine (if_pos gx).trans ?_
    beta_reduce; rw [t1]; show psi b.tht x + _ = _; rw [pp _ ht]
  · show (if VP.hasRhs c.toCfg (u.vip (vert n)) then VP.asgG c.toCfg (fun x => B.psi (u.vip (vert n)) x + dt / 2 * B.rhs (u.vip (vert n)) x) (B.psi (u.vip (vert n))) else B.psi (u.vip (vert n))) x = _
    rw [if_pos r2]
    refine (if_pos gx).trans ?_
    beta_reduce; rw [t2]; show psi (u.vip (vert n)) x + _ = _; rw [pp _ hvip]

end Mpdata.PP
