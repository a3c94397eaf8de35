import Verif.Lemmas.PrsSolver
/-! A fluid at rest: the pressure solver accepts it, the run goes on forever. -/
set_option linter.unusedSectionVars false
set_option linter.unusedVariables false
namespace Mpdata.PP
open Prs (inBox)
variable {K : Type} [Field K] [LinearOrder K] [IsStrictOrderedRing K] {n : Nat} {T : Type} {P : Fin n → Nat}

theorem mr_zero {X : Type} [Fintype X] [Nonempty X] (LE L : (X → K) → (X → K)) (hL : L (fun _ => 0) = fun _ => 0) (tol : K) (htol : 0 ≤ tol) (cap : Nat) (hcap : 1 ≤ cap)
    (Phi : X → K) (beta0 : K) (h0 : ∀ x, LE Phi x = 0) : ∃ s, Prs.mrUpdate LE L tol cap Phi beta0 = some s ∧ s.Phi = Phi := by
  obtain ⟨m, rfl⟩ : ∃ m, cap = m + 1 := ⟨cap - 1, by omega⟩
  have hz : LE Phi = fun _ => 0 := funext h0
  set s0 : Prs.MrSt K X := ⟨Phi, LE Phi, beta0, false⟩ with hs0
  have herr : ∀ x, (Prs.mrBody L tol s0).err x = 0 := by
    intro x
    show LE Phi x + _ * L (LE Phi) x = 0
    rw [hz, hL]; ring
  have hc : (Prs.mrBody L tol s0).conv = true := by
    show (if Prs.maxAbs (Prs.mrBody L tol s0).err ≤ tol then true else false) = true
    rw [if_pos]
    rw [Prs.maxAbs_le]
    intro x; rw [herr, abs_zero]; exact htol
  refine ⟨Prs.mrBody L tol s0, ?_, ?_⟩
  · show (if (Prs.mrBody L tol s0).conv then some (Prs.mrBody L tol s0) else _) = _
    rw [if_pos hc]
  · funext x
    show Phi x + _ * LE Phi x = Phi x
    rw [h0]; ring

/-- the memory of the conjugate-residual scheme when there is nothing to correct, up to direction `v` -/
structure GcrZero {X : Type} (Phi : X → K) (v : Nat) (s : Prs.GcrSt K X) : Prop where
  Phi : s.Phi = Phi
  err : s.err = fun _ => 0
  p : ∀ l, l ≤ v → s.p l = fun _ => 0
  lp : ∀ l, l ≤ v → s.lp l = fun _ => 0

theorem gcr_zero {X : Type} [Fintype X] [Nonempty X] (LE L : (X → K) → (X → K)) (hL : L (fun _ => 0) = fun _ => 0) (tol : K) (htol : 0 ≤ tol) (k cap : Nat) (hcap : 1 ≤ cap)
    (s0 : Prs.GcrSt K X) (Phi : X → K) (h0 : ∀ x, LE Phi x = 0) : ∃ s, Prs.gcrUpdate LE L tol (k + 1) cap s0 Phi = some s ∧ s.Phi = Phi := by
  obtain ⟨m, rfl⟩ : ∃ m, cap = m + 1 := ⟨cap - 1, by omega⟩
  have hz : LE Phi = fun _ => 0 := funext h0
  have inner : ∀ (v : Nat) (s : Prs.GcrSt K X), GcrZero Phi v s → GcrZero Phi (if v < k + 1 - 1 then v + 1 else 0) (Prs.gcrInner L tol (k + 1) v s) ∧ (Prs.gcrInner L tol (k + 1) v s).conv = true := by
    intro v s hs
    have e1 : (Prs.gcrStep tol v s).err = fun _ => 0 := by
      funext x
      show s.err x + _ * s.lp v x = 0
      rw [hs.err, hs.lp v (le_refl _)]; ring
    have e2 : (Prs.gcrStep tol v s).Phi = Phi := by
      funext x
      show s.Phi x + _ * s.p v x = Phi x
      rw [hs.Phi, hs.p v (le_refl _)]; ring
    refine ⟨⟨e2, e1, fun l hl => ?_, fun l hl => ?_⟩, ?_⟩
    · show Prs.setN s.p _ _ l = _
      unfold Prs.setN
      by_cases h1 : l = (if v < k + 1 - 1 then v + 1 else 0)
      · rw [if_pos h1]
        funext x
        show (Prs.gcrStep tol v s).err x + ∑ l ∈ Finset.range (v + 1), _ * s.p l x = 0
        rw [e1, zero_add]
        exact Finset.sum_eq_zero fun l hl => by rw [hs.p l (by have := Finset.mem_range.1 hl; omega), mul_zero]
      · rw [if_neg h1]
        exact hs.p l (by split_ifs at hl h1 <;> omega)
    · show Prs.setN s.lp _ _ l = _
      unfold Prs.setN
      by_cases h1 : l = (if v < k + 1 - 1 then v + 1 else 0)
      · rw [if_pos h1]
        funext x
        show L (Prs.gcrStep tol v s).err x + ∑ l ∈ Finset.range (v + 1), _ * s.lp l x = 0
        rw [e1, hL, zero_add]
        exact Finset.sum_eq_zero fun l hl => by rw [hs.lp l (by have := Finset.mem_range.1 hl; omega), mul_zero]
      · rw [if_neg h1]
        exact hs.lp l (by split_ifs at hl h1 <;> omega)
    · show (if Prs.maxAbs (Prs.gcrStep tol v s).err ≤ tol then true else s.conv) = true
      rw [if_pos]
      rw [Prs.maxAbs_le, e1]
      intro x; rw [abs_zero]; exact htol
  set s1 : Prs.GcrSt K X := { s0 with Phi := Phi, err := LE Phi, p := Prs.setN s0.p 0 (LE Phi), lp := Prs.setN s0.lp 0 (L (LE Phi)), conv := false } with hs1
  have z1 : GcrZero Phi 0 s1 := by
    refine ⟨rfl, hz, fun l hl => ?_, fun l hl => ?_⟩ <;> obtain rfl : l = 0 := by omega
    · exact hz
    · show L (LE Phi) = _
      rw [hz, hL]
  have key : ∀ j, j ≤ k + 1 → GcrZero Phi (if j < k + 1 then j else 0) ((List.range j).foldl (fun s v => Prs.gcrInner L tol (k + 1) v s) s1) ∧
      (1 ≤ j → ((List.range j).foldl (fun s v => Prs.gcrInner L tol (k + 1) v s) s1).conv = true) := by
    intro j
    induction j with
    | zero => intro _; rw [ite_self]; exact ⟨z1, fun h => by omega⟩
    | succ j ih =>
      intro hj
      rw [List.range_succ, List.foldl_append]
      have h1 := (ih (by omega)).1
      rw [if_pos (show j < k + 1 by omega)] at h1
      have h2 := inner j _ h1
      have e : (if j < k + 1 - 1 then j + 1 else 0) = if j + 1 < k + 1 then j + 1 else 0 := by split_ifs <;> omega
      rw [e] at h2
      exact ⟨h2.1, fun _ => h2.2⟩
  have hb := key (k + 1) (le_refl _)
  refine ⟨Prs.gcrBody L tol (k + 1) s1, ?_, hb.1.Phi⟩
  show (if (Prs.gcrBody L tol (k + 1) s1).conv then some (Prs.gcrBody L tol (k + 1) s1) else _) = _
  exact if_pos (hb.2 (by omega))

/-- gradient of a constant on the grid -/
theorem grad_const {N : Fin n → Nat} (two : ∀ d, 2 ≤ N d) (bc : Fin n → Prs.Bc) (dx : Fin n → K) {f : Idx n → K} {k : K} (hf : ∀ x, inBox N x → f x = k) (d : Fin n) {x : Idx n} (hx : inBox N x) :
    calcGrad dx (Prs.presFill N bc f) d x = 0 := by
  have h2 := two d
  have hd := hx d
  have e1 : Prs.presFill N bc f (stepIdx x d 1) = k := by
    by_cases h : x d = (N d : Int) - 1
    · rw [presFill_rght N two bc f hx d h]
      cases bc d
      · exact hf _ (box_step hx d _ (by omega) (by omega))
      · simp only; rw [hf x hx, hf _ (box_step hx d _ (by omega) (by omega))]; ring
    · have hb := box_step hx d 1 (by omega) (by omega)
      rw [presFill_in N bc f hb, hf _ hb]
  have e2 : Prs.presFill N bc f (stepIdx x d (-1)) = k := by
    by_cases h : x d = 0
    · rw [presFill_left N two bc f hx d h]
      cases bc d
      · exact hf _ (box_step hx d _ (by omega) (by omega))
      · simp only; rw [hf x hx, hf _ (box_step hx d _ (by omega) (by omega))]; ring
    · have hb := box_step hx d (-1) (by omega) (by omega)
      rw [presFill_in N bc f hb, hf _ hb]
  unfold calcGrad gradC
  rw [e1, e2]; simp

/-- on a motionless fluid and a constant potential the operator gives zero -/
theorem lap_zero (pc : Prs.Cfg K n) (two : ∀ d, 2 ≤ pc.N d) (e simple : Bool) {u : Fin n → Idx n → K} {f : Idx n → K} {k : K} (hu : e = true → ∀ d x, inBox pc.N x → u d x = 0)
    (hf : ∀ x, inBox pc.N x → f x = k) (hed : ∀ d x, inBox pc.N x → pc.isEdge d x = true → e = true → pc.edge d x = 0) (x : Idx n) : pc.lap e simple u f x = 0 := by
  unfold Prs.Cfg.lap
  rw [Prs.divG_congr pc _ (fun _ _ => 0) (fun d y hy => ?_)]
  · unfold Prs.Cfg.divG divC
    have z0 : Prs.presFill pc.N pc.bc (fun _ => (0 : K)) = fun _ => 0 := by
      funext y; unfold Prs.presFill
      simp only [ite_self, mul_zero, sub_zero, zero_add]
      refine Finset.sum_eq_zero fun q _ => ?_
      split_ifs <;> (try rfl) <;> cases pc.bc q <;> rfl
    simp only [z0, sub_self, zero_div, Finset.sum_const_zero]
  · have g := grad_const two pc.bc pc.dx hf d hy
    have z : pc.setEdges (if e then -1 else 0) (if e then fun d x => calcGrad pc.dx (Prs.presFill pc.N pc.bc f) d x - u d x else calcGrad pc.dx (Prs.presFill pc.N pc.bc f)) d y = 0 := by
      unfold Prs.Cfg.setEdges
      split_ifs with h1 h2 h2
      · rw [hed d y hy h1 h2]; ring
      · ring
      · beta_reduce; rw [g, hu h2 d y hy]; ring
      · exact g
    unfold Prs.Cfg.normalize
    beta_reduce
    by_cases hsi : simple = true
    · rw [if_pos hsi]; exact (congrArg (· * pc.G y) z).trans (zero_mul _)
    · rw [if_neg hsi]; exact (congrArg (fun w => pc.nrm d y * (w * pc.G y)) z).trans (by ring)

variable {c : Cfg K n T} {H : Idx n → Prop} {HF : Fin n → Idx n → Prop} {G coeff : Idx n → K} {relax : Fin n → Idx n → K}
  {adv : (GC ndt ndtt : Fin n → Idx n → K) → Bool → (Idx n → K) → (Idx n → K)} {ρ : Prop}

/-- solve and apply on a motionless fluid -/
theorem solve_rest (ok : Ok c) (two : ∀ d, 2 ≤ c.N d) (ne : Nonempty (Prs.Pts c.N)) (htol : 0 ≤ c.tol) (hcap : 1 ≤ c.cap) (dt : K) (simple : Bool) {s : St K n T} {k : K}
    (hu : ∀ d x, inBox c.N x → s.psi (c.vip d) x = 0) (hp : ∀ x, inBox c.N x → s.Phi x = k) (he : ∀ d x, wallPt c d x → inBox c.N x → s.edge d x = 0) :
    ∃ s1, solve c ne dt simple s = some s1 ∧ s1.toSt = s.toSt ∧ s1.edge = s.edge ∧ (∀ x, inBox c.N x → s1.Phi x = k) ∧
      ∀ d x, inBox c.N x → (apply c dt simple s1).psi (c.vip d) x = 0 := by
  have ne' : Nonempty (Prs.Pts (prsCfg c dt s.edge).N) := ne
  have hed : ∀ d x, inBox c.N x → (prsCfg c dt s.edge).isEdge d x = true → (prsCfg c dt s.edge).edge d x = 0 := fun d x hx h => he d x ((isEdge_iff c dt s.edge d x).1 h) hx
  have hz0 : (prsCfg c dt s.edge).lapG false simple (vips c s.psi) (fun _ => 0) = fun _ => 0 := by
    funext x
    refine lap_zero (prsCfg c dt s.edge) two false simple (k := 0) (fun h => by cases h) (fun y hy => ?_) (fun _ _ _ _ h => by cases h) x.1
    unfold Prs.extend
    exact dif_pos hy
  have hz1 : ∀ x, (prsCfg c dt s.edge).lapG true simple (vips c s.psi) (fun x => s.Phi x.1) x = 0 := by
    intro x
    refine lap_zero (prsCfg c dt s.edge) two true simple (k := k) (fun _ d y hy => hu d y hy) (fun y hy => ?_) (fun d y hy h _ => hed d y hy h) x.1
    unfold Prs.extend
    exact (dif_pos (t := fun hh => s.Phi y) (e := fun _ => (0 : K)) hy).trans (hp y hy)
  obtain ⟨s1, hs1⟩ : ∃ s1, solve c ne dt simple s = some s1 ∧ s1.toSt = s.toSt ∧ s1.edge = s.edge ∧ s1.Phi = put c.N s.Phi (fun x => s.Phi x.1) := by
    unfold solve
    simp only
    cases hpr : c.prs with
    | mr =>
      obtain ⟨m, hm, hPhi⟩ := mr_zero _ _ hz0 c.tol htol c.cap hcap (fun x => s.Phi x.1) s.beta hz1
      simp only
      rw [hm]
      exact ⟨_, rfl, rfl, rfl, congrArg (put c.N s.Phi) hPhi⟩
    | gcr j =>
      obtain ⟨m, hm, hPhi⟩ := gcr_zero _ _ hz0 c.tol htol j c.cap hcap ⟨fun _ => 0, fun _ => 0, s.beta, s.alpha, s.tmpDen, fun l x => s.pErr l x.1, fun l x => s.lapErr l x.1, false⟩
        (fun x => s.Phi x.1) hz1
      simp only
      rw [hm]
      exact ⟨_, rfl, rfl, rfl, congrArg (put c.N s.Phi) hPhi⟩
  obtain ⟨hs1, hst, hedge, hPhi⟩ := hs1
  have hP1 : ∀ x, inBox c.N x → s1.Phi x = k := by
    intro x hx
    rw [hPhi]
    exact (dif_pos hx).trans (hp x hx)
  refine ⟨s1, hs1, hst, hedge, hP1, ?_⟩
  · intro d x hx
    show VP.asgVip c.toCfg (fun d x v => (prsCfg c dt s1.edge).newVel simple (fun _ _ => v) s1.Phi d x) s1.psi (c.vip d) x = 0
    rw [asgVip_at ok.inj, hst, hedge]
    unfold VP.asgG
    rw [if_pos ((ok.grid x).2 hx)]
    unfold Prs.Cfg.newVel Prs.Cfg.setEdges
    beta_reduce
    split_ifs with h1
    · rw [hed d x hx h1]; ring
    · have g := grad_const (f := s1.Phi) (k := k) two (prsCfg c dt s.edge).bc c.dx hP1 d hx
      have z : s.psi (c.vip d) x - calcGrad (prsCfg c dt s.edge).dx (Prs.presFill (prsCfg c dt s.edge).N (prsCfg c dt s.edge).bc s1.Phi) d x = 0 := by
        rw [hu d x hx]
        exact (congrArg (fun z => 0 - z) g).trans (sub_zero 0)
      unfold Prs.Cfg.normalize
      simp only [z]
      split_ifs <;> ring

theorem rel_same {s : VP.St K (Idx n) n T} {s' : VP.St K (Idx n) n Unit} (r : VP.Rel c.toCfg (VP.trN P) HF ρ s s') {psi1 : Nat → Idx n → K} {v1 : Fin n → Idx n → K}
    (hp : ∀ e, e < c.nEqns → ∀ x, c.grid x = true → psi1 e x = s.psi e x) (hv : ∀ d x, c.grid x = true → v1 d x = s.vrhs d x) :
    VP.Rel c.toCfg (VP.trN P) HF ρ { s with psi := psi1, vrhs := v1 } s' :=
  ⟨r.ts, r.d0, r.d1, r.perPsi, fun e he x hx => (hp e he x hx).trans (r.psi e he x hx), r.perRhs, r.rhs, r.perSt, r.st, r.perV, fun d x hx => (hv d x hx).trans (r.v d x hx), r.perN, r.ndt, r.perNN, r.ndtt⟩

theorem apply_rest_psi (ok : Ok c) (dt : K) (simple : Bool) (s1 : St K n T) {v : Nat → K} (hv : ∀ d, v (c.vip d) = 0) (h1 : ∀ e, e < c.nEqns → ∀ x, inBox c.N x → s1.psi e x = v e)
    (h2 : ∀ d x, inBox c.N x → (apply c dt simple s1).psi (c.vip d) x = 0) : ∀ e, e < c.nEqns → ∀ x, inBox c.N x → (apply c dt simple s1).psi e x = v e := by
  intro e he x hx
  by_cases hd : ∃ d, c.vip d = e
  · obtain ⟨d, rfl⟩ := hd
    rw [h2 d x hx, hv d]
  · rw [apply_other c dt simple s1 (fun d h => hd ⟨d, h⟩)]; exact h1 e he x hx

/-- at rest, between steps -/
def AtRestP (c : Cfg K n T) (P : Fin n → Nat) (HF : Fin n → Idx n → Prop) (v : Nat → K) (p : St K n T) : Prop :=
  ∃ s' : VP.St K (Idx n) n Unit, VP.Rel c.toCfg (VP.trN P) HF (c.sch = .trapez) p.toSt s' ∧ VP.Rest c.toCfg v (c.sch = .trapez) s' ∧ ∃ k, ∀ x, inBox c.N x → p.Phi x = k

theorem Cyc.noWall (h : Cyc c P H HF G coeff relax adv) (d : Fin n) (x : Idx n) : ¬ wallPt c d x := fun hw => hw.1 (h.kind d)

theorem Cyc.fnlz_rest (h : Cyc c P H HF G coeff relax adv) (ne : Nonempty (Prs.Pts c.N)) (htol : 0 ≤ c.tol) (hcap : 1 ≤ c.cap) {v : Nat → K} (hr : VP.RestOk c.toCfg adv v) (dt : K) {s : St K n T}
    {s' : VP.St K (Idx n) n Unit} (r : VP.Rel c.toCfg (VP.trN P) HF ρ s.toSt s') (hs : VP.Rest c.toCfg v ρ s') (hp : ∃ k, ∀ x, inBox c.N x → s.Phi x = k) :
    ∃ p, PP.fnlz c ne dt s = some p ∧ VP.Rel c.toCfg (VP.trN P) HF ρ p.toSt s' ∧ ∃ k, ∀ x, inBox c.N x → p.Phi x = k := by
  obtain ⟨k, hk⟩ := hp
  have two : ∀ d, 2 ≤ c.N d := fun d => by rw [h.pts]; have := h.pos d; omega
  have hpsi : ∀ e, e < c.nEqns → ∀ x, inBox c.N x → s.psi e x = v e := fun e he x hx => (r.psi e he x ((h.ok.grid x).2 hx)).trans (hs.psi e he x)
  have hu : ∀ d x, inBox c.N x → s.psi (c.vip d) x = 0 := fun d x hx => (hpsi _ (h.wf.vip d) x hx).trans (hr.still d)
  have hvab : ¬ c.vab = .impl := fun hh => by rw [hr.vab] at hh; cases hh
  set s0 : St K n T := { s with vrhs := fun d => VP.asgG c.toCfg (fun x => - s.psi (c.vip d) x) (s.vrhs d) } with hs0
  obtain ⟨s1, h1, e1, e2, e3, e4⟩ := solve_rest h.ok two ne htol hcap dt false (s := s0) hu hk (fun d x hw _ => absurd hw (h.noWall d x))
  refine ⟨{ apply c dt false s1 with vrhs := fun d => VP.asgG c.toCfg (fun x => ((apply c dt false s1).vrhs d x + (apply c dt false s1).psi (c.vip d) x) / (1 / 2 * dt)) ((apply c dt false s1).vrhs d) }, ?_, ?_, ?_⟩
  · unfold PP.fnlz
    simp only
    rw [if_neg hvab, h.post]
    rw [show PP.solve c ne dt false _ = some s1 from h1]
  · have e5 := apply_rest_psi h.ok dt false s1 hr.still (fun e he x hx => (congrFun (congrFun (congrArg VP.St.psi e1) e) x).trans (hpsi e he x hx)) e4
    have := rel_same (psi1 := (apply c dt false s1).psi) (v1 := fun d => VP.asgG c.toCfg (fun x => ((apply c dt false s1).vrhs d x + (apply c dt false s1).psi (c.vip d) x) / (1 / 2 * dt)) ((apply c dt false s1).vrhs d)) r
      (fun e he x hx => by rw [e5 e he x ((h.ok.grid x).1 hx), hpsi e he x ((h.ok.grid x).1 hx)]) (fun d x hx => by
        have hx' := (h.ok.grid x).1 hx
        have a1 : (apply c dt false s1).vrhs d x = 0 := by
          show s1.toSt.vrhs d x = 0
          rw [e1]
          show VP.asgG c.toCfg (fun x => - s.psi (c.vip d) x) (s.vrhs d) x = 0
          unfold VP.asgG
          rw [if_pos hx]; beta_reduce; rw [hu d x hx', neg_zero]
        unfold VP.asgG
        rw [if_pos hx]; beta_reduce; rw [a1, e4 d x hx', r.v d x hx, hs.vrhs]; simp)
    show VP.Rel c.toCfg (VP.trN P) HF ρ { s1.toSt with psi := _, vrhs := _ } s'
    rw [e1]
    exact this
  · exact ⟨k, e3⟩

theorem Cyc.step_rest (h : Cyc c P H HF G coeff relax adv) (ne : Nonempty (Prs.Pts c.N)) (htol : 0 ≤ c.tol) (hcap : 1 ≤ c.cap) {v : Nat → K} (hr : VP.RestOk c.toCfg adv v) (filt : Bool) (first : K) (more : List K)
    {s : St K n T} (hs : AtRestP c P HF v s) : ∃ p, PP.step c ne filt first more s = some p ∧ AtRestP c P HF v p := by
  obtain ⟨s', r, hI, hPhi⟩ := hs
  have hL := h.link
  have hw := h.wf
  have h1 : VP.RelG c.toCfg (VP.trN P) HF (c.sch = .trapez) ((first :: more).foldl (VP.calcGc c.toCfg) s.toSt) ((first :: more).foldl (VP.calcGc (VP.ideal c.toCfg G coeff relax adv)) s') :=
    VP.calcGcs_rel hL hw more (VP.calcGc_rel hL hw first r)
  set dt := (first :: more).getLast (by simp) with hdt
  have h2 := VP.calcNdt_rel hL hw dt h1
  have h3 := VP.anteStep_rel hL hw dt h2
  have h4 := VP.advEqs_rel hL filt (VP.eqOrder c.toCfg) (VP.eqOrder_lt c.toCfg) h3
  have q1 := VP.calcGcs_rest (G := G) (coeff := coeff) (relax := relax) hw hr (first :: more) hI
  have q2 := VP.calcNdt_rest (G := G) (coeff := coeff) (relax := relax) hw hr dt q1
  have q3 := VP.anteStep_rest (G := G) (coeff := coeff) (relax := relax) hw hr dt q2
  have q4 := VP.advEqs_rest (G := G) (coeff := coeff) (relax := relax) hr filt (VP.eqOrder c.toCfg) (VP.eqOrder_lt c.toCfg) q3
  set r4 := (VP.eqOrder c.toCfg).foldl (VP.advEq (VP.ideal c.toCfg G coeff relax adv) filt) (VP.anteStep (VP.ideal c.toCfg G coeff relax adv) dt
    (VP.calcNdt (VP.ideal c.toCfg G coeff relax adv) dt ((first :: more).foldl (VP.calcGc (VP.ideal c.toCfg G coeff relax adv)) s'))) with hr4
  have h5 : VP.Rel c.toCfg (VP.trN P) HF True (preStep c.toCfg filt first more s.toSt) { r4 with timestep := r4.timestep + 1, ds1 := if c.vc.div3 then r4.ds0 else r4.ds1, ds0 := dt } :=
    ⟨by show _ + 1 = _ + 1; rw [h4.ts], rfl, by show (if c.vc.div3 then _ else _) = (if c.vc.div3 then _ else _); rw [h4.d0, h4.d1], h4.perPsi, h4.psi, h4.perRhs, h4.rhs, h4.perSt, h4.st, h4.perV, h4.v, h4.perN, h4.ndt, h4.perNN, h4.ndtt⟩
  have q5 : VP.Rest c.toCfg v True { r4 with timestep := r4.timestep + 1, ds1 := if c.vc.div3 then r4.ds0 else r4.ds1, ds0 := dt } :=
    ⟨q4.psi, q4.stash, q4.ndt, q4.ndtt, q4.GC, q4.vrhs, q4.rhs⟩
  obtain ⟨r6, h6, q6⟩ : ∃ r6, VP.Rel c.toCfg (VP.trN P) HF True (postRhs c.toCfg dt (preStep c.toCfg filt first more s.toSt)) r6 ∧ VP.Rest c.toCfg v True r6 := by
    unfold postRhs
    cases hsch : c.sch
    · exact ⟨_, VP.appRhs_rel (G := G) (coeff := coeff) (relax := relax) (adv := adv) dt h5, VP.appRhs_rest dt q5⟩
    · exact ⟨_, h5, q5⟩
    · exact ⟨_, VP.appRhs_rel (G := G) (coeff := coeff) (relax := relax) (adv := adv) (dt / 2) (VP.updRhs_rel hL (dt / 2) true h5), VP.appRhs_rest _ (VP.updRhs_rest hr _ true q5)⟩
  obtain ⟨p, w1, w2, w3⟩ := h.fnlz_rest ne htol hcap hr dt (s := { s with toSt := postRhs c.toCfg dt (preStep c.toCfg filt first more s.toSt) }) h6 q6 hPhi
  exact ⟨p, w1, r6, w2.weaken (fun _ => trivial), q6.weaken (fun _ => trivial), w3⟩

theorem Cyc.anteLoop_rest (h : Cyc c P H HF G coeff relax adv) (ne : Nonempty (Prs.Pts c.N)) (htol : 0 ≤ c.tol) (hcap : 1 ≤ c.cap) {v : Nat → K} (hr : VP.RestOk c.toCfg adv v) (dt : K)
    {s : St K n T} (hs : VP.Begin c.toCfg (fun e _ => v e) s.toSt) : ∃ p, PP.anteLoop c ne dt s = some p ∧ AtRestP c P HF v p := by
  have two : ∀ d, 2 ≤ c.N d := fun d => by rw [h.pts]; have := h.pos d; omega
  have hpsi : ∀ e, e < c.nEqns → ∀ x, inBox c.N x → s.psi e x = v e := fun e he x hx => hs.psi e he x ((h.ok.grid x).2 hx)
  have hu : ∀ d x, inBox c.N x → s.psi (c.vip d) x = 0 := fun d x hx => (hpsi _ (h.wf.vip d) x hx).trans (hr.still d)
  obtain ⟨s1, h1, e1, e2, e3, e4⟩ := solve_rest h.ok two ne htol hcap dt true (s := { s with edge := saveEdges c s.psi, Phi := VP.asgG c.toCfg (fun _ => 0) s.Phi }) (k := 0) hu
    (fun x hx => if_pos ((h.ok.grid x).2 hx)) (fun d x hw _ => absurd hw (h.noWall d x))
  have e5 := apply_rest_psi h.ok dt true s1 hr.still (fun e he x hx => (congrFun (congrFun (congrArg VP.St.psi e1) e) x).trans (hpsi e he x hx)) e4
  set a := apply c dt true s1 with ha
  have t1 : a.toSt.timestep = 0 := by show s1.toSt.timestep = 0; rw [e1]; exact hs.ts
  have t2 : a.toSt.ds0 = 0 := by show s1.toSt.ds0 = 0; rw [e1]; exact hs.ds0
  have t3 : a.toSt.ds1 = 0 := by show s1.toSt.ds1 = 0; rw [e1]; exact hs.ds1
  have r := VP.anteLoop_rel (s := a.toSt) (s' := VP.start (fun e _ => v e)) h.link h.wf dt t1 t2 t3 (fun e => VP.perTN.2 fun _ _ => rfl) (fun e he x hx => e5 e he x ((h.ok.grid x).1 hx))
  have q : VP.Rest c.toCfg v (c.sch = .trapez) (VP.anteLoop (VP.ideal c.toCfg G coeff relax adv) dt (VP.start (fun e _ => v e))) :=
    VP.run_rest (G := G) (coeff := coeff) (relax := relax) h.wf hr dt (fun _ => false) (fun _ => 0) (fun _ => []) (fun _ _ _ => rfl) 0
  set b := VP.anteLoop c.toCfg dt a.toSt with hb
  set q3 := iniPressure c { a with toSt := b } with hq3
  have hPhi : ∃ k, ∀ x, inBox c.N x → q3.Phi x = k := by
    refine ⟨0 - (∑ x : Prs.Pts c.N, (0 - ∑ d, 1 / 2 * (b.psi (c.vip d) x.1) ^ 2)) / (∏ d, (c.N d : K)), fun x hx => ?_⟩
    refine (show q3.Phi x = if c.grid x then _ else _ from rfl).trans ((if_pos ((h.ok.grid x).2 hx)).trans ?_)
    congr 1
    beta_reduce
    rw [Finset.sum_eq_zero, sub_zero]
    intro d _
    rw [show b.psi (c.vip d) x = 0 from (r.psi _ (h.wf.vip d) x ((h.ok.grid x).2 hx)).trans ((q.psi _ (h.wf.vip d) x).trans (hr.still d))]
    ring
  refine ⟨{ q3 with vrhs := fun d => VP.asgG c.toCfg (fun x => q3.vrhs d x - calcGrad c.dx (Prs.presFill c.N (prsCfg c dt q3.edge).bc q3.Phi) d x) (q3.vrhs d) }, ?_, _, ?_, q, hPhi⟩
  · unfold PP.anteLoop
    simp only
    rw [show PP.solve c ne dt true _ = some s1 from h1]
  · obtain ⟨k, hk⟩ := hPhi
    exact rel_same (psi1 := b.psi) r (fun e he x hx => rfl) (fun d x hx => by
      unfold VP.asgG
      rw [if_pos hx]; beta_reduce; rw [grad_const two (prsCfg c dt q3.edge).bc c.dx hk d ((h.ok.grid x).1 hx), sub_zero]
      rfl)

theorem Cyc.run_rest (h : Cyc c P H HF G coeff relax adv) (ne : Nonempty (Prs.Pts c.N)) (htol : 0 ≤ c.tol) (hcap : 1 ≤ c.cap) {v : Nat → K} (hr : VP.RestOk c.toCfg adv v) (dt0 : K)
    (filt : Nat → Bool) (first : Nat → K) (more : Nat → List K) {s : St K n T} (hs : VP.Begin c.toCfg (fun e _ => v e) s.toSt) (t : Nat) :
    ∃ p, PP.run c ne dt0 filt first more s t = some p ∧ AtRestP c P HF v p := by
  induction t with
  | zero => exact h.anteLoop_rest ne htol hcap hr dt0 hs
  | succ t ih =>
    obtain ⟨q, hq, hq'⟩ := ih
    obtain ⟨p, hp, hp'⟩ := h.step_rest ne htol hcap hr (filt t) (first t) (more t) hq'
    refine ⟨p, ?_, hp'⟩
    show (PP.run c ne dt0 filt first more s t).bind (PP.step c ne (filt t) (first t) (more t)) = some p
    rw [hq]; exact hp

end Mpdata.PP
