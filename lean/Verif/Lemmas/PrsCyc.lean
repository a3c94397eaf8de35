import Verif.Lemmas.PrsRun
import Verif.Props.VipRun
/-! Incompressible solvers on cyclic domains: the pressure solver keeps fields periodic, so whole runs are related to runs on the unbounded grid. -/
set_option linter.unusedSectionVars false
set_option linter.unusedVariables false
namespace Mpdata.PP
open Prs (inBox)
variable {K : Type} [Field K] [LinearOrder K] [IsStrictOrderedRing K] {n : Nat} {T : Type}

/-- agrees on the grid with a periodic field -/
def Ext (P : Fin n → Nat) (f : Idx n → K) : Prop := ∃ f', PeriodicN P f' ∧ ∀ x, InGrid P x → f x = f' x

theorem Ext.congr {P : Fin n → Nat} {f g : Idx n → K} (h : Ext P f) (e : ∀ x, InGrid P x → g x = f x) : Ext P g := by
  obtain ⟨f', h1, h2⟩ := h
  exact ⟨f', h1, fun x hx => (e x hx).trans (h2 x hx)⟩

theorem Ext.const (P : Fin n → Nat) (k : K) : Ext P (fun _ => k) := ⟨fun _ => k, fun _ _ => rfl, fun _ _ => rfl⟩

theorem Ext.map2 {P : Fin n → Nat} {f g : Idx n → K} (hf : Ext P f) (hg : Ext P g) (op : K → K → K) : Ext P (fun x => op (f x) (g x)) := by
  obtain ⟨f', f1, f2⟩ := hf
  obtain ⟨g', g1, g2⟩ := hg
  exact ⟨fun x => op (f' x) (g' x), fun x d => by simp only [f1 x d, g1 x d], fun x hx => by simp only [f2 x hx, g2 x hx]⟩

theorem Ext.map {P : Fin n → Nat} {f : Idx n → K} (hf : Ext P f) (op : K → K) : Ext P (fun x => op (f x)) := hf.map2 hf (fun a _ => op a)

theorem Ext.sum {P : Fin n → Nat} {f : Fin n → Idx n → K} (hf : ∀ d, Ext P (f d)) : Ext P (fun x => ∑ d, f d x) := by
  choose f' h1 h2 using hf
  exact ⟨fun x => ∑ d, f' d x, fun x e => Finset.sum_congr rfl fun d _ => h1 d x e, fun x hx => Finset.sum_congr rfl fun d _ => h2 d x hx⟩

theorem step_per {P : Fin n → Nat} {f : Idx n → K} (h : PeriodicN P f) (d : Fin n) (k : Int) : PeriodicN P (fun x => f (stepIdx x d k)) := by
  intro x e
  show f (stepIdx (stepIdx x e (P e)) d k) = _
  rw [VP.stepIdx_comm, h]

variable {P : Fin n → Nat} {N : Fin n → Nat}

theorem grid_box (hN : ∀ d, N d = P d + 1) (x : Idx n) : inBox N x ↔ InGrid P x := by
  constructor
  · intro h d; have := h d; have := hN d; omega
  · intro h d; have := h d; have := hN d; omega

/-- next to the grid the cyclic filling of the pressure solver holds the periodic field -/
theorem presFill_per (hN : ∀ d, N d = P d + 1) (hP : ∀ d, 1 ≤ P d) (bc : Fin n → Prs.Bc) (hb : ∀ d, bc d = .cyclic) {f f' : Idx n → K} (h1 : PeriodicN P f') (h2 : ∀ x, InGrid P x → f x = f' x)
    {x : Idx n} (hx : InGrid P x) (d : Fin n) :
    Prs.presFill N bc f (stepIdx x d 1) = f' (stepIdx x d 1) ∧ Prs.presFill N bc f (stepIdx x d (-1)) = f' (stepIdx x d (-1)) := by
  have hb' := (grid_box hN x).2 hx
  have hN2 : ∀ d, 2 ≤ N d := fun d => by have := hN d; have := hP d; omega
  have hxd := hx d
  have hNd := hN d
  have hPd := hP d
  constructor
  · by_cases h : x d + 1 ≤ P d
    · have bb : inBox N (stepIdx x d 1) := box_step hb' d 1 (by omega) (by omega)
      rw [presFill_in N bc f bb, h2 _ ((grid_box hN _).1 bb)]
    · rw [presFill_rght N hN2 bc f hb' d (by omega), hb d]
      simp only
      have bb : inBox N (stepIdx x d (-((N d : Int) - 2))) := box_step hb' d _ (by omega) (by omega)
      rw [h2 _ ((grid_box hN _).1 bb), ← h1 (stepIdx x d (-((N d : Int) - 2))) d, step_step, show -((N d : Int) - 2) + (P d : Int) = 1 by omega]
  · by_cases h : 0 ≤ x d - 1
    · have bb : inBox N (stepIdx x d (-1)) := box_step hb' d (-1) (by omega) (by omega)
      rw [presFill_in N bc f bb, h2 _ ((grid_box hN _).1 bb)]
    · rw [presFill_left N hN2 bc f hb' d (by omega), hb d]
      simp only
      have bb : inBox N (stepIdx x d ((N d : Int) - 2)) := box_step hb' d _ (by omega) (by omega)
      rw [h2 _ ((grid_box hN _).1 bb), ← h1 (stepIdx x d (-1)) d, step_step, show (-1) + (P d : Int) = (N d : Int) - 2 by omega]

theorem grad_ext (hN : ∀ d, N d = P d + 1) (hP : ∀ d, 1 ≤ P d) (bc : Fin n → Prs.Bc) (hb : ∀ d, bc d = .cyclic) (dx : Fin n → K) {f : Idx n → K} (h : Ext P f) (d : Fin n) :
    Ext P (calcGrad dx (Prs.presFill N bc f) d) := by
  obtain ⟨f', h1, h2⟩ := h
  refine ⟨calcGrad dx f' d, ?_, fun x hx => ?_⟩
  · intro x e
    unfold calcGrad gradC
    have a1 := step_per h1 d 1 x e
    have a2 := step_per h1 d (-1) x e
    simp only at a1 a2
    rw [a1, a2]
  · obtain ⟨p1, p2⟩ := presFill_per hN hP bc hb h1 h2 hx d
    unfold calcGrad gradC
    rw [p1, p2]

theorem div_ext (hN : ∀ d, N d = P d + 1) (hP : ∀ d, 1 ≤ P d) (bc : Fin n → Prs.Bc) (hb : ∀ d, bc d = .cyclic) (dx : Fin n → K) {v : Fin n → Idx n → K} (h : ∀ d, Ext P (v d)) :
    Ext P (divC dx (fun d => Prs.presFill N bc (v d))) := by
  unfold divC
  refine Ext.sum fun d => ?_
  obtain ⟨f', h1, h2⟩ := h d
  refine ⟨fun x => (f' (stepIdx x d 1) - f' (stepIdx x d (-1))) / dx d / 2, ?_, fun x hx => ?_⟩
  · intro x e
    have a1 := step_per h1 d 1 x e
    have a2 := step_per h1 d (-1) x e
    simp only at a1 a2 ⊢
    rw [a1, a2]
  · obtain ⟨p1, p2⟩ := presFill_per hN hP bc hb h1 h2 hx d
    simp only
    rw [p1, p2]

/-- a pressure operator on a periodic domain -/
structure PrsPer (P : Fin n → Nat) (pc : Prs.Cfg K n) : Prop where
  pts : ∀ d, pc.N d = P d + 1
  pos : ∀ d, 1 ≤ P d
  bc : ∀ d, pc.bc d = .cyclic
  G : Ext P pc.G
  nrm : ∀ d, Ext P (pc.nrm d)

theorem PrsPer.noEdge {pc : Prs.Cfg K n} (h : PrsPer P pc) (d : Fin n) (x : Idx n) : pc.isEdge d x = false := by
  unfold Prs.Cfg.isEdge; rw [h.bc d]; rfl

theorem PrsPer.norm {pc : Prs.Cfg K n} (h : PrsPer P pc) (simple : Bool) {v : Fin n → Idx n → K} (hv : ∀ d, Ext P (v d)) (d : Fin n) : Ext P (pc.normalize simple v d) := by
  cases simple
  · exact (h.nrm d).map2 (hv d) (fun a b => a * b)
  · exact hv d

theorem PrsPer.edges {pc : Prs.Cfg K n} (h : PrsPer P pc) (s : K) (v : Fin n → Idx n → K) : pc.setEdges s v = v := by
  funext d x
  unfold Prs.Cfg.setEdges
  rw [h.noEdge d x]; rfl

theorem PrsPer.lap {pc : Prs.Cfg K n} (h : PrsPer P pc) (e simple : Bool) {u : Fin n → Idx n → K} (hu : ∀ d, Ext P (u d)) {phi : Idx n → K} (hp : Ext P phi) : Ext P (pc.lap e simple u phi) := by
  unfold Prs.Cfg.lap
  simp only [h.edges]
  have g0 : ∀ d, Ext P ((if e then fun d x => calcGrad pc.dx (Prs.presFill pc.N pc.bc phi) d x - u d x else calcGrad pc.dx (Prs.presFill pc.N pc.bc phi)) d) := by
    intro d
    cases e
    · exact grad_ext h.pts h.pos pc.bc h.bc pc.dx hp d
    · exact (grad_ext h.pts h.pos pc.bc h.bc pc.dx hp d).map2 (hu d) (fun a b => a - b)
  exact (div_ext h.pts h.pos pc.bc h.bc pc.dx (fun d => h.norm simple (v := fun d x => (if e then fun d x => calcGrad pc.dx (Prs.presFill pc.N pc.bc phi) d x - u d x else calcGrad pc.dx (Prs.presFill pc.N pc.bc phi)) d x * pc.G x)
    (fun d => (g0 d).map2 h.G (fun a b => a * b)) d)).map2 h.G (fun a b => a / b)

theorem PrsPer.newVel {pc : Prs.Cfg K n} (h : PrsPer P pc) (simple : Bool) {u : Fin n → Idx n → K} (hu : ∀ d, Ext P (u d)) {phi : Idx n → K} (hp : Ext P phi) (d : Fin n) : Ext P (pc.newVel simple u phi d) := by
  unfold Prs.Cfg.newVel
  rw [h.edges]
  exact h.norm simple (fun d => (hu d).map2 (grad_ext h.pts h.pos pc.bc h.bc pc.dx hp d) (fun a b => a - b)) d

/-- the same for fields on the grid -/
def ExtP (P : Fin n → Nat) {N : Fin n → Nat} (f : Prs.Pts N → K) : Prop := ∃ f', PeriodicN P f' ∧ ∀ x : Prs.Pts N, f x = f' x.1

theorem ExtP.ext (hN : ∀ d, N d = P d + 1) {f : Prs.Pts N → K} (h : ExtP P f) : Ext P (Prs.extend N f) := by
  obtain ⟨f', h1, h2⟩ := h
  refine ⟨f', h1, fun x hx => ?_⟩
  unfold Prs.extend
  rw [dif_pos ((grid_box hN x).2 hx)]
  exact h2 _

theorem Ext.extP (hN : ∀ d, N d = P d + 1) {f : Idx n → K} (h : Ext P f) : ExtP P (fun x : Prs.Pts N => f x.1) := by
  obtain ⟨f', h1, h2⟩ := h
  exact ⟨f', h1, fun x => h2 x.1 ((grid_box hN x.1).1 x.2)⟩

theorem mr_ext {pc : Prs.Cfg K n} [Nonempty (Prs.Pts pc.N)] (h : PrsPer P pc) (simple : Bool) {u : Fin n → Idx n → K} (hu : ∀ d, Ext P (u d)) (tol : K) (cap : Nat) (Phi : Prs.Pts pc.N → K) (beta : K)
    (hp : ExtP P Phi) {m : Prs.MrSt K (Prs.Pts pc.N)} (hm : Prs.mrUpdate (pc.lapG true simple u) (pc.lapG false simple u) tol cap Phi beta = some m) : ExtP P m.Phi := by
  have lapE : ∀ e (f : Prs.Pts pc.N → K), ExtP P f → ExtP P (pc.lapG e simple u f) := fun e f hf => (h.lap e simple hu (hf.ext h.pts)).extP h.pts
  have body : ∀ s : Prs.MrSt K (Prs.Pts pc.N), ExtP P s.Phi → ExtP P s.err → ExtP P (Prs.mrBody (pc.lapG false simple u) tol s).Phi ∧ ExtP P (Prs.mrBody (pc.lapG false simple u) tol s).err := by
    intro s ⟨p', p1, p2⟩ he
    obtain ⟨l', l1, l2⟩ := lapE false _ he
    obtain ⟨e', e1, e2⟩ := he
    constructor
    · refine ⟨fun x => p' x + (Prs.mrBody (pc.lapG false simple u) tol s).beta * e' x, fun x d => by simp only [p1 x d, e1 x d], fun x => ?_⟩
      show s.Phi x + (Prs.mrBody (pc.lapG false simple u) tol s).beta * s.err x = _
      rw [p2, e2]
    · refine ⟨fun x => e' x + (Prs.mrBody (pc.lapG false simple u) tol s).beta * l' x, fun x d => by simp only [e1 x d, l1 x d], fun x => ?_⟩
      show s.err x + (Prs.mrBody (pc.lapG false simple u) tol s).beta * pc.lapG false simple u s.err x = _
      rw [e2, l2]
  have loop : ∀ (fuel : Nat) (s : Prs.MrSt K (Prs.Pts pc.N)), ExtP P s.Phi → ExtP P s.err → ∀ m, Prs.prsLoop (Prs.mrBody (pc.lapG false simple u) tol) Prs.MrSt.conv fuel s = some m → ExtP P m.Phi := by
    intro fuel
    induction fuel with
    | zero => intro s _ _ m hm; cases hm
    | succ k ih =>
      intro s h1 h2 m hm
      obtain ⟨b1, b2⟩ := body s h1 h2
      unfold Prs.prsLoop at hm
      split at hm
      · simp only [Option.some.injEq] at hm
        subst hm; exact b1
      · exact ih _ b1 b2 m hm
  exact loop cap _ hp (lapE true _ hp) m hm

theorem ExtP.axpy {f g : Prs.Pts N → K} (hf : ExtP P f) (hg : ExtP P g) (b : K) : ExtP P (fun x => f x + b * g x) := by
  obtain ⟨f', f1, f2⟩ := hf
  obtain ⟨g', g1, g2⟩ := hg
  exact ⟨fun x => f' x + b * g' x, fun x d => by simp only [f1 x d, g1 x d], fun x => by simp only [f2, g2]⟩

theorem ExtP.comb {f : Prs.Pts N → K} (hf : ExtP P f) {g : Nat → Prs.Pts N → K} (a : Nat → K) : ∀ (m : Nat), (∀ l, l < m → ExtP P (g l)) → ExtP P (fun x => f x + ∑ l ∈ Finset.range m, a l * g l x)
  | 0, _ => by simpa using hf
  | m + 1, hg => by
    have := (ExtP.comb hf a m (fun l hl => hg l (by omega))).axpy (hg m (by omega)) (a m)
    simp only [Finset.sum_range_succ, ← add_assoc]
    exact this

/-- the memory of the conjugate-residual scheme is periodic up to direction `v` -/
structure GcrPer (P : Fin n → Nat) {N : Fin n → Nat} (v : Nat) (s : Prs.GcrSt K (Prs.Pts N)) : Prop where
  Phi : ExtP P s.Phi
  err : ExtP P s.err
  p : ∀ l, l ≤ v → ExtP P (s.p l)
  lp : ∀ l, l ≤ v → ExtP P (s.lp l)

theorem gcr_ext {pc : Prs.Cfg K n} [Nonempty (Prs.Pts pc.N)] (h : PrsPer P pc) (simple : Bool) {u : Fin n → Idx n → K} (hu : ∀ d, Ext P (u d)) (tol : K) (k cap : Nat) (Phi : Prs.Pts pc.N → K)
    (s0 : Prs.GcrSt K (Prs.Pts pc.N)) (hp : ExtP P Phi) {m : Prs.GcrSt K (Prs.Pts pc.N)}
    (hm : Prs.gcrUpdate (pc.lapG true simple u) (pc.lapG false simple u) tol k cap s0 Phi = some m) : ExtP P m.Phi := by
  have lapE : ∀ e (f : Prs.Pts pc.N → K), ExtP P f → ExtP P (pc.lapG e simple u f) := fun e f hf => (h.lap e simple hu (hf.ext h.pts)).extP h.pts
  set L := pc.lapG false simple u with hL
  have inner : ∀ (v : Nat) (s : Prs.GcrSt K (Prs.Pts pc.N)), GcrPer P v s → GcrPer P (if v < k - 1 then v + 1 else 0) (Prs.gcrInner L tol k v s) := by
    intro v s hs
    have e1 : ExtP P (Prs.gcrStep tol v s).err := hs.err.axpy (hs.lp v (le_refl _)) _
    have e2 : ExtP P (Prs.gcrStep tol v s).Phi := hs.Phi.axpy (hs.p v (le_refl _)) _
    have e3 : ExtP P (L (Prs.gcrStep tol v s).err) := lapE false _ e1
    refine ⟨e2, e1, fun l hl => ?_, fun l hl => ?_⟩
    · show ExtP P (Prs.setN s.p _ _ l)
      unfold Prs.setN
      by_cases h1 : l = (if v < k - 1 then v + 1 else 0)
      · rw [if_pos h1]
        exact e1.comb _ (v + 1) fun l hl => hs.p l (by omega)
      · rw [if_neg h1]
        exact hs.p l (by split_ifs at hl h1 <;> omega)
    · show ExtP P (Prs.setN s.lp _ _ l)
      unfold Prs.setN
      by_cases h1 : l = (if v < k - 1 then v + 1 else 0)
      · rw [if_pos h1]
        exact e3.comb _ (v + 1) fun l hl => hs.lp l (by omega)
      · rw [if_neg h1]
        exact hs.lp l (by split_ifs at hl h1 <;> omega)
  have body : ∀ s : Prs.GcrSt K (Prs.Pts pc.N), GcrPer P 0 s → GcrPer P 0 (Prs.gcrBody L tol k s) := by
    intro s hs
    have key : ∀ j, j ≤ k → GcrPer P (if j < k then j else 0) ((List.range j).foldl (fun s v => Prs.gcrInner L tol k v s) s) := by
      intro j
      induction j with
      | zero => intro _; rw [ite_self]; exact hs
      | succ j ih =>
        intro hj
        rw [List.range_succ, List.foldl_append]
        have h1 := ih (by omega)
        rw [if_pos (show j < k by omega)] at h1
        have h2 := inner j _ h1
        have e : (if j < k - 1 then j + 1 else 0) = if j + 1 < k then j + 1 else 0 := by split_ifs <;> omega
        rw [e] at h2
        exact h2
    have := key k (le_refl _)
    rwa [if_neg (lt_irrefl k)] at this
  have loop : ∀ (fuel : Nat) (s : Prs.GcrSt K (Prs.Pts pc.N)), GcrPer P 0 s → ∀ m, Prs.prsLoop (Prs.gcrBody L tol k) Prs.GcrSt.conv fuel s = some m → ExtP P m.Phi := by
    intro fuel
    induction fuel with
    | zero => intro s _ m hm; cases hm
    | succ j ih =>
      intro s h1 m hm
      unfold Prs.prsLoop at hm
      split at hm
      · simp only [Option.some.injEq] at hm
        subst hm; exact (body s h1).Phi
      · exact ih _ (body s h1) m hm
  refine loop cap _ ⟨hp, lapE true _ hp, fun l hl => ?_, fun l hl => ?_⟩ m hm
  · have : l = 0 := by omega
    subst this
    exact lapE true _ hp
  · have : l = 0 := by omega
    subst this
    exact lapE false _ (lapE true _ hp)

theorem returns_ext {pc : Prs.Cfg K n} [Nonempty (Prs.Pts pc.N)] (h : PrsPer P pc) (prs : Scheme) (simple : Bool) {u : Fin n → Idx n → K} (hu : ∀ d, Ext P (u d)) (tol : K) (cap : Nat)
    (Phi Phi' : Prs.Pts pc.N → K) (hp : ExtP P Phi) (hr : Returns prs (pc.lapG true simple u) (pc.lapG false simple u) tol cap Phi Phi') : ExtP P Phi' := by
  match prs, hr with
  | .mr, ⟨beta, m, hm, e⟩ => subst e; exact mr_ext h simple hu tol cap Phi beta hp hm
  | .gcr k, ⟨s0, m, hm, e⟩ => subst e; exact gcr_ext h simple hu tol (k + 1) cap Phi s0 hp hm

/-! ## Whole runs -/

/-- a program on a periodic domain that is related to the unbounded grid -/
structure Cyc (c : Cfg K n T) (P : Fin n → Nat) (H : Idx n → Prop) (HF : Fin n → Idx n → Prop) (G coeff : Idx n → K) (relax : Fin n → Idx n → K)
    (adv : (GC ndt ndtt : Fin n → Idx n → K) → Bool → (Idx n → K) → (Idx n → K)) : Prop where
  ok : Ok c
  link : VP.Link c.toCfg (VP.trN P) H HF G coeff relax adv
  wf : VP.Wf c.toUser
  pts : ∀ d, c.N d = P d + 1
  pos : ∀ d, 1 ≤ P d
  kind : ∀ d, c.kind d = .cyclic
  perG : Ext P c.G
  nrm : ∀ dt d, Ext P (c.nrm dt d)
  post : c.post = fun _ s => s

section
variable {c : Cfg K n T} {H : Idx n → Prop} {HF : Fin n → Idx n → Prop} {G coeff : Idx n → K} {relax : Fin n → Idx n → K}
  {adv : (GC ndt ndtt : Fin n → Idx n → K) → Bool → (Idx n → K) → (Idx n → K)} {ρ : Prop}

theorem Cyc.grid (h : Cyc c P H HF G coeff relax adv) (x : Idx n) : c.grid x = true ↔ InGrid P x := (h.ok.grid x).trans (grid_box h.pts x)

theorem Cyc.coeffE (h : Cyc c P H HF G coeff relax adv) : Ext P c.coeff := ⟨coeff, VP.perTN.1 h.link.perC, fun x hx => h.link.coeff x ((h.grid x).2 hx)⟩

theorem Cyc.prs (h : Cyc c P H HF G coeff relax adv) (dt : K) (edge : Fin n → Idx n → K) : PrsPer P (prsCfg c dt edge) where
  pts := h.pts
  pos := h.pos
  bc d := if_pos (h.kind d)
  G := h.perG
  nrm d := h.nrm dt d

theorem Cyc.rel_ext (h : Cyc c P H HF G coeff relax adv) {s : VP.St K (Idx n) n T} {s' : VP.St K (Idx n) n Unit} (r : VP.Rel c.toCfg (VP.trN P) HF ρ s s') :
    (∀ e, e < c.nEqns → Ext P (s.psi e)) ∧ ∀ d, Ext P (s.vrhs d) :=
  ⟨fun e he => ⟨s'.psi e, VP.perTN.1 (r.perPsi e), fun x hx => r.psi e he x ((h.grid x).2 hx)⟩, fun d => ⟨s'.vrhs d, VP.perTN.1 (r.perV d), fun x hx => r.v d x ((h.grid x).2 hx)⟩⟩

/-- replacing velocities and their right-hand sides by periodic ones -/
theorem Cyc.update (h : Cyc c P H HF G coeff relax adv) {s : VP.St K (Idx n) n T} {s' : VP.St K (Idx n) n Unit} (r : VP.Rel c.toCfg (VP.trN P) HF ρ s s')
    (psi1 : Nat → Idx n → K) (v1 : Fin n → Idx n → K) (hp : ∀ d, Ext P (psi1 (c.vip d))) (hq : ∀ e, (∀ d, c.vip d ≠ e) → psi1 e = s.psi e) (hv : ∀ d, Ext P (v1 d)) :
    ∃ s'' : VP.St K (Idx n) n Unit, VP.Rel c.toCfg (VP.trN P) HF ρ { s with psi := psi1, vrhs := v1 } s'' ∧ s''.rhs = s'.rhs ∧ ∀ e, (∀ d, c.vip d ≠ e) → s''.psi e = s'.psi e := by
  classical
  choose f' f1 f2 using hp
  choose v' v2 v3 using hv
  refine ⟨{ s' with psi := fun e => if he : ∃ d, c.vip d = e then f' he.choose else s'.psi e, vrhs := v' }, ⟨r.ts, r.d0, r.d1, ?_, ?_, r.perRhs, r.rhs, r.perSt, r.st, fun d => VP.perTN.2 (v2 d),
    fun d x hx => v3 d x ((h.grid x).1 hx), r.perN, r.ndt, r.perNN, r.ndtt⟩, rfl, ?_⟩
  · intro e
    show VP.PerT (VP.trN P) (if he : ∃ d, c.vip d = e then f' he.choose else s'.psi e)
    split_ifs with he
    · exact VP.perTN.2 (f1 _)
    · exact r.perPsi e
  · intro e he x hx
    show psi1 e x = (if he : ∃ d, c.vip d = e then f' he.choose else s'.psi e) x
    split_ifs with hd
    · rw [← f2 _ x ((h.grid x).1 hx), hd.choose_spec]
    · rw [hq e (fun d hd' => hd ⟨d, hd'⟩)]
      exact r.psi e he x hx
  · intro e he
    show (if he : ∃ d, c.vip d = e then f' he.choose else s'.psi e) = _
    rw [dif_neg (fun ⟨d, hd⟩ => he d hd)]

theorem apply_other (c : Cfg K n T) (dt : K) (simple : Bool) (s : St K n T) {e : Nat} (he : ∀ d, c.vip d ≠ e) : (apply c dt simple s).psi e = s.psi e :=
  asgVip_other (fun d x v => (prsCfg c dt s.edge).newVel simple (fun _ _ => v) s.Phi d x) s.psi e he

theorem Cyc.solve (h : Cyc c P H HF G coeff relax adv) (ne : Nonempty (Prs.Pts c.N)) (dt : K) (simple : Bool) {s s' : St K n T} (hu : ∀ d, Ext P (s.psi (c.vip d))) (hp : Ext P s.Phi)
    (hs : solve c ne dt simple s = some s') : Ext P s'.Phi ∧ ∀ d, Ext P ((apply c dt simple s').psi (c.vip d)) := by
  have : Nonempty (Prs.Pts (prsCfg c dt s.edge).N) := ne
  obtain ⟨hst, hedge, Phi', hP, hret⟩ := solve_some hs
  have hPhi : Ext P s'.Phi := by
    have hm' := returns_ext (h.prs dt s.edge) c.prs simple (u := vips c s.psi) hu c.tol c.cap (fun x => s.Phi x.1) Phi' (hp.extP h.pts) hret
    refine (hm'.ext h.pts).congr (fun x hx => ?_)
    have hx' : inBox c.N x := (grid_box h.pts x).2 hx
    rw [hP]
    refine (dif_pos hx').trans ?_
    exact (dif_pos (t := fun hh => Phi' ⟨x, hh⟩) (e := fun _ => (0 : K)) hx').symm
  refine ⟨hPhi, fun d => ?_⟩
  have hu' : ∀ d, Ext P (vips c s.psi d) := hu
  have e1 : s'.psi = s.psi ∧ s'.edge = s.edge := ⟨congrArg VP.St.psi hst, hedge⟩
  refine ((h.prs dt s.edge).newVel simple hu' hPhi d).congr (fun x hx => ?_)
  show VP.asgVip c.toCfg (fun d x v => (prsCfg c dt s'.edge).newVel simple (fun _ _ => v) s'.Phi d x) s'.psi (c.vip d) x = _
  rw [asgVip_at h.ok.inj]
  unfold VP.asgG
  rw [if_pos ((h.grid x).2 hx), e1.1, e1.2]
  rfl

theorem Cyc.fnlz (h : Cyc c P H HF G coeff relax adv) (ne : Nonempty (Prs.Pts c.N)) (dt : K) {s p : St K n T} {s' : VP.St K (Idx n) n Unit} (r : VP.Rel c.toCfg (VP.trN P) HF ρ s.toSt s')
    (hp : Ext P s.Phi) (hs : fnlz c ne dt s = some p) :
    ∃ s'' : VP.St K (Idx n) n Unit, VP.Rel c.toCfg (VP.trN P) HF ρ p.toSt s'' ∧ Ext P p.Phi ∧ s''.rhs = s'.rhs ∧ ∀ e, (∀ d, c.vip d ≠ e) → s''.psi e = s'.psi e := by
  obtain ⟨x1, x2⟩ := h.rel_ext r
  -- the state handed to the pressure solver
  obtain ⟨s0, hs0, hsv⟩ : ∃ s0, s0 = (if c.vab = .impl then { ({ s with vrhs := fun d => VP.asgG c.toCfg (fun x => - s.psi (c.vip d) x) (s.vrhs d) } : St K n T) with
      psi := VP.asgVip c.toCfg (fun d x v => v + 1 / 2 * dt * c.coeff x * c.relax d x) s.psi } else { s with vrhs := fun d => VP.asgG c.toCfg (fun x => - s.psi (c.vip d) x) (s.vrhs d) }) ∧
      (match PP.solve c ne dt false s0 with
        | none => none
        | some s => some { apply c dt false s with vrhs := fun d => VP.asgG c.toCfg (fun x => ((apply c dt false s).vrhs d x + (apply c dt false s).psi (c.vip d) x) / (1 / 2 * dt)) ((apply c dt false s).vrhs d) }) = some p :=
    ⟨_, rfl, by unfold PP.fnlz at hs; rw [h.post] at hs; exact hs⟩
  have k0 : s0.toSt = { s.toSt with psi := s0.psi, vrhs := s0.vrhs } ∧ s0.Phi = s.Phi := by rw [hs0]; split_ifs <;> exact ⟨rfl, rfl⟩
  have kv : ∀ d, Ext P (s0.vrhs d) := by
    intro d
    have : s0.vrhs d = VP.asgG c.toCfg (fun x => - s.psi (c.vip d) x) (s.vrhs d) := by rw [hs0]; split_ifs <;> rfl
    rw [this]
    exact ((x1 _ (h.wf.vip d)).map (fun a => -a)).congr (fun x hx => if_pos ((h.grid x).2 hx))
  have kp : ∀ d, Ext P (s0.psi (c.vip d)) := by
    intro d
    by_cases hv : c.vab = .impl
    · have : s0.psi = VP.asgVip c.toCfg (fun d x v => v + 1 / 2 * dt * c.coeff x * c.relax d x) s.psi := by rw [hs0, if_pos hv]
      rw [this, asgVip_at h.ok.inj]
      have rl : Ext P (c.relax d) := ⟨relax d, VP.perTN.1 (h.link.perR d), fun x hx => h.link.relax d x ((h.grid x).2 hx)⟩
      exact ((x1 _ (h.wf.vip d)).map2 ((h.coeffE.map (fun k => 1 / 2 * dt * k)).map2 rl (fun a b => a * b)) (fun a b => a + b)).congr (fun x hx => if_pos ((h.grid x).2 hx))
    · have : s0.psi = s.psi := by rw [hs0, if_neg hv]
      rw [this]; exact x1 _ (h.wf.vip d)
  have ko : ∀ e, (∀ d, c.vip d ≠ e) → s0.psi e = s.psi e := by
    intro e he
    by_cases hv : c.vab = .impl
    · have : s0.psi = VP.asgVip c.toCfg (fun d x v => v + 1 / 2 * dt * c.coeff x * c.relax d x) s.psi := by rw [hs0, if_pos hv]
      rw [this, asgVip_other _ _ _ he]
    · rw [hs0, if_neg hv]
  split at hsv
  · cases hsv
  · rename_i s1 h1
    simp only [Option.some.injEq] at hsv
    obtain ⟨a1, a2⟩ := h.solve ne dt false kp (k0.2 ▸ hp) h1
    have e1 : s1.toSt = s0.toSt := (solve_some h1).1
    have e2 : p.toSt = { s.toSt with psi := p.psi, vrhs := p.vrhs } := by
      subst hsv
      show ({ s1.toSt with psi := _, vrhs := _ } : VP.St K (Idx n) n T) = _
      rw [e1, k0.1]
    have pp : p.psi = (apply c dt false s1).psi := by subst hsv; rfl
    obtain ⟨s'', u1, u2, u3⟩ := h.update r p.psi p.vrhs (by rw [pp]; exact a2) (by
      intro e he
      rw [pp, apply_other _ _ _ _ he, show s1.psi = s0.psi from congrArg VP.St.psi e1]
      exact ko e he) (by
      intro d
      have hv1 : (apply c dt false s1).vrhs d = s0.vrhs d := by show s1.toSt.vrhs d = _; rw [e1]
      have : p.vrhs d = VP.asgG c.toCfg (fun x => ((apply c dt false s1).vrhs d x + (apply c dt false s1).psi (c.vip d) x) / (1 / 2 * dt)) ((apply c dt false s1).vrhs d) := by subst hsv; rfl
      rw [this, hv1]
      exact ((kv d).map2 (a2 d) (fun a b => (a + b) / (1 / 2 * dt))).congr (fun x hx => if_pos ((h.grid x).2 hx)))
    refine ⟨s'', by rw [e2]; exact u1, ?_, u2, u3⟩
    have : p.Phi = s1.Phi := by subst hsv; rfl
    rw [this]; exact a1

/-- what is known at the beginning of a step: related to the unbounded grid, where `S` of equation `e` is `k` -/
def Known (c : Cfg K n T) (P : Fin n → Nat) (HF : Fin n → Idx n → Prop) (S : (Idx n → K) → K) (e : Nat) (k : K) (p : St K n T) : Prop :=
  ∃ s' : VP.St K (Idx n) n Unit, VP.Rel c.toCfg (VP.trN P) HF (c.sch = .trapez) p.toSt s' ∧ Ext P p.Phi ∧ VP.Inv c.toCfg S e (c.sch = .trapez) s' ∧ S (s'.psi e) = k

theorem Cyc.step (h : Cyc c P H HF G coeff relax adv) (ne : Nonempty (Prs.Pts c.N)) {S : (Idx n → K) → K} {e : Nat} {k : K} (hv : ∀ d, c.vip d ≠ e)
    (ha : VP.AdvKeeps c.toCfg (VP.trN P) adv S) (hq : VP.Quiet c.toCfg (VP.trN P) S e) (filt : Bool) (first : K) (more : List K) {s p : St K n T} (hs : Known c P HF S e k s)
    (hp : step c ne filt first more s = some p) : Known c P HF S e k p := by
  obtain ⟨s', r, hPhi, hI, hk⟩ := hs
  have hL := h.link
  have hw := h.wf
  have h1 : VP.RelG c.toCfg (VP.trN P) HF (c.sch = .trapez) ((first :: more).foldl (VP.calcGc c.toCfg) s.toSt) ((first :: more).foldl (VP.calcGc (VP.ideal c.toCfg G coeff relax adv)) s') :=
    VP.calcGcs_rel hL hw more (VP.calcGc_rel hL hw first r)
  set dt := (first :: more).getLast (by simp) with hdt
  have h2 := VP.calcNdt_rel hL hw dt h1
  have h3 := VP.anteStep_rel hL hw dt h2
  have h4 := VP.advEqs_rel hL filt (VP.eqOrder c.toCfg) (VP.eqOrder_lt c.toCfg) h3
  have sm : VP.Same s' (VP.calcNdt (VP.ideal c.toCfg G coeff relax adv) dt ((first :: more).foldl (VP.calcGc (VP.ideal c.toCfg G coeff relax adv)) s')) :=
    (VP.calcGcs_same _ (first :: more) s').trans (VP.calcNdt_same _ _ _)
  obtain ⟨a1, i1⟩ := VP.anteStep_total (G := G) (coeff := coeff) (relax := relax) (adv := adv) hq dt h2.perPsi (hI.same sm)
  obtain ⟨a2, r2, v2⟩ := VP.advEqs_total (e := e) hL ha filt (VP.eqOrder c.toCfg) (VP.eqOrder_lt c.toCfg) h3
  set r4 := (VP.eqOrder c.toCfg).foldl (VP.advEq (VP.ideal c.toCfg G coeff relax adv) filt) (VP.anteStep (VP.ideal c.toCfg G coeff relax adv) dt
    (VP.calcNdt (VP.ideal c.toCfg G coeff relax adv) dt ((first :: more).foldl (VP.calcGc (VP.ideal c.toCfg G coeff relax adv)) s'))) with hr4
  have i2 : VP.Inv c.toCfg S e True r4 := ⟨by rw [r2]; exact i1.rhs, by rw [v2]; exact i1.vrhs⟩
  have k2 : S (r4.psi e) = k := by rw [a2, a1, sm.psi, hk]
  have h5 : VP.Rel c.toCfg (VP.trN P) HF True (preStep c.toCfg filt first more s.toSt) { r4 with timestep := r4.timestep + 1, ds1 := if c.vc.div3 then r4.ds0 else r4.ds1, ds0 := dt } :=
    ⟨by show _ + 1 = _ + 1; rw [h4.ts], rfl, by show (if c.vc.div3 then _ else _) = (if c.vc.div3 then _ else _); rw [h4.d0, h4.d1], h4.perPsi, h4.psi, h4.perRhs, h4.rhs, h4.perSt, h4.st, h4.perV, h4.v, h4.perN, h4.ndt, h4.perNN, h4.ndtt⟩
  obtain ⟨r6, h6, i6, k6⟩ : ∃ r6, VP.Rel c.toCfg (VP.trN P) HF True (postRhs c.toCfg dt (preStep c.toCfg filt first more s.toSt)) r6 ∧ VP.Inv c.toCfg S e True r6 ∧ S (r6.psi e) = k := by
    have i5 : VP.Inv c.toCfg S e True { r4 with timestep := r4.timestep + 1, ds1 := if c.vc.div3 then r4.ds0 else r4.ds1, ds0 := dt } := ⟨i2.rhs, i2.vrhs⟩
    unfold postRhs
    cases hsch : c.sch
    · refine ⟨_, VP.appRhs_rel (G := G) (coeff := coeff) (relax := relax) (adv := adv) dt h5, ⟨i5.rhs, i5.vrhs⟩, ?_⟩
      rw [VP.appRhs_total hq _ i5]; exact k2
    · exact ⟨_, h5, i5, k2⟩
    · have i7 := VP.updRhs_inv (G := G) (coeff := coeff) (relax := relax) (adv := adv) hq (dt / 2) true h5.perPsi i5
      refine ⟨_, VP.appRhs_rel (G := G) (coeff := coeff) (relax := relax) (adv := adv) (dt / 2) (VP.updRhs_rel hL (dt / 2) true h5), ⟨i7.rhs, i7.vrhs⟩, ?_⟩
      rw [VP.appRhs_total hq _ i7, VP.updRhs_psi]; exact k2
  obtain ⟨s'', q1, q2, q3, q4⟩ := h.fnlz ne dt (s := { s with toSt := postRhs c.toCfg dt (preStep c.toCfg filt first more s.toSt) }) h6 hPhi hp
  exact ⟨s'', q1.weaken (fun _ => trivial), q2, ⟨fun _ => by rw [q3]; exact i6.rhs trivial, .inl hv⟩, by rw [q4 e hv]; exact k6⟩

theorem Cyc.anteLoop (h : Cyc c P H HF G coeff relax adv) (ne : Nonempty (Prs.Pts c.N)) {S : (Idx n → K) → K} {e : Nat} (hv : ∀ d, c.vip d ≠ e)
    (hq : VP.Quiet c.toCfg (VP.trN P) S e) (dt : K) {s p : St K n T} {psi0 : Nat → Idx n → K} (h0 : ∀ e, PeriodicN P (psi0 e)) (hs : VP.Begin c.toCfg psi0 s.toSt)
    (hp : anteLoop c ne dt s = some p) : Known c P HF S e (S (psi0 e)) p := by
  classical
  unfold PP.anteLoop at hp
  simp only at hp
  split at hp
  · cases hp
  · rename_i s1 h1
    simp only [Option.some.injEq] at hp
    have x1 : ∀ e, e < c.nEqns → Ext P (s.psi e) := fun e he => ⟨psi0 e, h0 e, fun x hx => hs.psi e he x ((h.grid x).2 hx)⟩
    obtain ⟨a1, a2⟩ := h.solve ne dt true (s := { s with edge := saveEdges c s.psi, Phi := VP.asgG c.toCfg (fun _ => 0) s.Phi }) (fun d => x1 _ (h.wf.vip d))
      ((Ext.const P 0).congr (fun x hx => if_pos ((h.grid x).2 hx))) h1
    have e1 : s1.toSt = s.toSt := (solve_some h1).1
    -- periodic fields after the projection
    choose f' f1 f2 using a2
    set psi1 : Nat → Idx n → K := fun e => if he : ∃ d, c.vip d = e then f' he.choose else psi0 e with hpsi1
    have per1 : ∀ e, VP.PerT (VP.trN P) (psi1 e) := by
      intro e
      show VP.PerT (VP.trN P) (if he : ∃ d, c.vip d = e then f' he.choose else psi0 e)
      split_ifs with he
      · exact VP.perTN.2 (f1 _)
      · exact VP.perTN.2 (h0 e)
    have same1 : ∀ e, e < c.nEqns → ∀ x, c.grid x = true → (apply c dt true s1).psi e x = psi1 e x := by
      intro e he x hx
      show _ = (if he : ∃ d, c.vip d = e then f' he.choose else psi0 e) x
      split_ifs with hd
      · rw [← f2 _ x ((h.grid x).1 hx), hd.choose_spec]
      · rw [apply_other _ _ _ _ (fun d hd' => hd ⟨d, hd'⟩), show s1.psi = s.psi from congrArg VP.St.psi e1]
        exact hs.psi e he x hx
    have t1 : (apply c dt true s1).toSt.timestep = 0 := by show s1.toSt.timestep = 0; rw [e1]; exact hs.ts
    have t2 : (apply c dt true s1).toSt.ds0 = 0 := by show s1.toSt.ds0 = 0; rw [e1]; exact hs.ds0
    have t3 : (apply c dt true s1).toSt.ds1 = 0 := by show s1.toSt.ds1 = 0; rw [e1]; exact hs.ds1
    have r := VP.anteLoop_rel (s := (apply c dt true s1).toSt) (s' := VP.start psi1) h.link h.wf dt t1 t2 t3 per1 same1
    obtain ⟨k1, i1⟩ := VP.anteLoop_total (G := G) (coeff := coeff) (relax := relax) (adv := adv) hq dt per1
    obtain ⟨y1, y2⟩ := h.rel_ext r
    set b := VP.anteLoop c.toCfg dt (apply c dt true s1).toSt with hb
    have hPhi : Ext P p.Phi := by
      have : p.Phi = (iniPressure c { apply c dt true s1 with toSt := b }).Phi := by subst hp; rfl
      rw [this]
      refine Ext.congr ((Ext.sum (fun d => (y1 _ (h.wf.vip d)).map (fun a => 1 / 2 * a ^ 2))).map
        (fun a => 0 - a - (∑ x : Prs.Pts c.N, (0 - ∑ d, 1 / 2 * (b.psi (c.vip d) x.1) ^ 2)) / (∏ d, (c.N d : K)))) (fun x hx => ?_)
      exact (show _ = if c.grid x then _ else _ from rfl).trans (if_pos ((h.grid x).2 hx))
    have e2 : p.toSt = { b with psi := p.psi, vrhs := p.vrhs } := by subst hp; rfl
    have e3 : p.psi = b.psi := by subst hp; rfl
    obtain ⟨s'', u1, u2, u3⟩ := h.update r p.psi p.vrhs (fun d => by rw [e3]; exact y1 _ (h.wf.vip d)) (fun e _ => by rw [e3]) (by
      intro d
      have : p.vrhs d = VP.asgG c.toCfg (fun x => b.vrhs d x - calcGrad c.dx (Prs.presFill c.N (prsCfg c dt p.edge).bc p.Phi) d x) (b.vrhs d) := by subst hp; rfl
      rw [this]
      exact ((y2 d).map2 (grad_ext h.pts h.pos _ (h.prs dt p.edge).bc c.dx hPhi d) (fun a b => a - b)).congr (fun x hx => if_pos ((h.grid x).2 hx)))
    refine ⟨s'', by rw [e2]; exact u1, hPhi, ⟨fun hr => by rw [u2]; exact i1.rhs hr, .inl hv⟩, ?_⟩
    rw [u3 e hv, k1]
    show S (if he : ∃ d, c.vip d = e then f' he.choose else psi0 e) = _
    rw [dif_neg (fun ⟨d, hd⟩ => hv d hd)]

theorem Cyc.run (h : Cyc c P H HF G coeff relax adv) (ne : Nonempty (Prs.Pts c.N)) {S : (Idx n → K) → K} {e : Nat} (hv : ∀ d, c.vip d ≠ e)
    (ha : VP.AdvKeeps c.toCfg (VP.trN P) adv S) (hq : VP.Quiet c.toCfg (VP.trN P) S e) (dt0 : K) (filt : Nat → Bool) (first : Nat → K) (more : Nat → List K) {s : St K n T}
    {psi0 : Nat → Idx n → K} (h0 : ∀ e, PeriodicN P (psi0 e)) (hs : VP.Begin c.toCfg psi0 s.toSt) (t : Nat) :
    ∀ {p : St K n T}, run c ne dt0 filt first more s t = some p → Known c P HF S e (S (psi0 e)) p := by
  induction t with
  | zero => exact fun hp => h.anteLoop ne hv hq dt0 h0 hs hp
  | succ t ih =>
    intro p hp
    obtain ⟨q, hq', hp'⟩ := run_pred hp
    exact h.step ne hv ha hq _ _ _ (ih hq') hp'

/-- velocities agree at the duplicated end points -/
theorem Cyc.dup (h : Cyc c P H HF G coeff relax adv) (ne : Nonempty (Prs.Pts c.N)) (dt0 : K) (filt : Nat → Bool) (first : Nat → K) (more : Nat → List K) {s : St K n T}
    {psi0 : Nat → Idx n → K} (h0 : ∀ e, PeriodicN P (psi0 e)) (hs : VP.Begin c.toCfg psi0 s.toSt) (t : Nat) {p : St K n T} (hp : PP.run c ne dt0 filt first more s t = some p) :
    Dup c (vips c p.psi) := by
  obtain ⟨s', r, _⟩ := h.run ne (S := fun _ => 0) (e := c.nEqns) (fun d hd => by have := h.wf.vip d; omega) (fun _ _ _ _ _ _ _ _ _ => rfl)
    ⟨fun _ _ _ => by simp, fun _ _ _ _ _ _ _ => rfl, .inr (fun d hd => by have := h.wf.vip d; omega)⟩ dt0 filt first more h0 hs t hp
  intro d x _ hx h1
  have hN := h.pts d
  have hP := h.pos d
  have hb : inBox c.N (stepIdx x d ((c.N d : Int) - 1)) := box_step hx d _ (by omega) (by omega)
  show p.psi (c.vip d) _ = p.psi (c.vip d) x
  rw [r.psi _ (h.wf.vip d) x ((h.ok.grid x).2 hx), r.psi _ (h.wf.vip d) _ ((h.ok.grid _).2 hb), show ((c.N d : Int) - 1) = (P d : Int) by omega]
  exact VP.perTN.1 (r.perPsi _) x d
end

end Mpdata.PP
