import Verif.Lemmas.PrsProg
import Verif.Props.Fills
/-! Lemmas on whole runs of incompressible solvers: the run invariant, the advector bound, the concrete 2-D and 3-D solvers. -/
set_option linter.unusedSectionVars false
set_option linter.unusedVariables false
namespace Mpdata.PP
open Prs (inBox)
variable {K : Type} [Field K] [LinearOrder K] [IsStrictOrderedRing K] {n : Nat} {T : Type}

theorem saveEdges_ok (c : Cfg K n T) (psi : Nat → Idx n → K) : EdgeOk c (saveEdges c psi) := fun d x h => if_neg h

theorem vpAnte_psi {c : Cfg K n T} (ok : Ok c) (dt : K) (s : VP.St K (Idx n) n T) (e : Nat) {x : Idx n} (hx : inBox c.N x) : (VP.anteLoop c.toCfg dt s).psi e x = s.psi e x := by
  unfold VP.anteLoop
  simp only
  cases c.sch <;> cases c.vc.div3 <;> simp only [if_true, if_false, VP.vabInitS, VP.updRhs, Bool.false_eq_true] <;> split_ifs <;> first | rfl | exact ok.xchng _ x hx

theorem vpAnte_frame (c : Cfg K n T) (dt : K) (s : VP.St K (Idx n) n T) : (VP.anteLoop c.toCfg dt s).timestep = s.timestep ∧ (VP.anteLoop c.toCfg dt s).ds0 = s.ds0 := by
  unfold VP.anteLoop
  simp only
  cases c.sch <;> cases c.vc.div3 <;> exact ⟨rfl, rfl⟩

theorem anteLoop_good {c : Cfg K n T} (ok : Ok c) (ne : Nonempty (Prs.Pts c.N)) (dt : K) {s p : St K n T} (h : anteLoop c ne dt s = some p) :
    p.edge = saveEdges c s.psi ∧ Good c (saveEdges c s.psi) (vips c p.psi) ∧ p.timestep = s.timestep ∧ p.ds0 = s.ds0 := by
  unfold anteLoop at h
  simp only at h
  split at h
  · cases h
  · rename_i s1 h1
    simp only [Option.some.injEq] at h
    obtain ⟨a1, a2, a3, a4, a5⟩ := solve_apply ok ne dt true (Or.inl rfl) (by exact saveEdges_ok c s.psi) h1
    subst h
    refine ⟨a2, ?_, ?_, ?_⟩
    · exact Good.congr a3 (fun d x hx => vpAnte_psi ok dt _ _ hx)
    · refine (vpAnte_frame c dt _).1.trans ?_
      show s1.toSt.timestep = _
      rw [a1]
    · refine (vpAnte_frame c dt _).2.trans ?_
      show s1.toSt.ds0 = _
      rw [a1]

/-- the state before step `t + 1` exists -/
theorem run_pred {c : Cfg K n T} {ne : Nonempty (Prs.Pts c.N)} {dt0 : K} {filt : Nat → Bool} {first : Nat → K} {more : Nat → List K} {s p : St K n T} {t : Nat}
    (h : run c ne dt0 filt first more s (t + 1) = some p) : ∃ q, run c ne dt0 filt first more s t = some q ∧ step c ne (filt t) (first t) (more t) q = some p := by
  have h' : (run c ne dt0 filt first more s t).bind (step c ne (filt t) (first t) (more t)) = some p := h
  rw [Option.bind_eq_some_iff] at h'
  exact h'

theorem run_good {c : Cfg K n T} (ok : Ok c) (hf : EdgeFree c) (ne : Nonempty (Prs.Pts c.N)) (dt0 : K) (filt : Nat → Bool) (first : Nat → K) (more : Nat → List K) {s : St K n T} :
    ∀ (t : Nat) {p : St K n T}, run c ne dt0 filt first more s t = some p → p.edge = saveEdges c s.psi ∧ Good c (saveEdges c s.psi) (vips c p.psi) := by
  intro t
  induction t with
  | zero => intro p h; obtain ⟨a, b, _⟩ := anteLoop_good ok ne dt0 h; exact ⟨a, b⟩
  | succ t ih =>
    intro p h
    obtain ⟨q, hq, hp⟩ := run_pred h
    obtain ⟨e1, g1⟩ := ih hq
    obtain ⟨_, _, _, e2, g2⟩ := step_keep ok ne _ _ _ hf (by rw [e1]; exact saveEdges_ok c s.psi) hp
    exact ⟨e2.trans e1, e1 ▸ g2⟩

theorem Good.noFlow {c : Cfg K n T} {psi : Nat → Idx n → K} {v : Fin n → Idx n → K} (h : Good c (saveEdges c psi) v) : NoFlow c v := by
  intro d x hk hx hw
  rw [h.edge d x hx ⟨by rw [hk]; simp, hw⟩]
  exact saveEdges_ok c psi d x (by rw [hk]; simp)

theorem Dup.lin {c : Cfg K n T} {v w : Fin n → Idx n → K} (hv : Dup c v) (hw : Dup c w) (a b : K) : Dup c (fun d y => a * v d y - b * w d y) := by
  intro d x h1 h2 h3
  show a * v d _ - b * w d _ = a * v d _ - b * w d _
  rw [hv d x h1 h2 h3, hw d x h1 h2 h3]

theorem NoFlow.lin {c : Cfg K n T} {v w : Fin n → Idx n → K} (hv : NoFlow c v) (hw : NoFlow c w) (a b : K) : NoFlow c (fun d y => a * v d y - b * w d y) := by
  intro d x h1 h2 h3
  show a * v d _ - b * w d _ = 0
  rw [hv d x h1 h2 h3, hw d x h1 h2 h3]; ring

/-- the divergence of the advector of a step whose history holds `w` -/
theorem advector_div {c : Cfg K n T} (ok : Ok c) (F : Faces c) (eg : EdgeG c) (first : K) (more : List K) (hts : c.vc.varDt = true ∨ c.vc.div3 = true ∨ more = [])
    (s : VP.St K (Idx n) n T) (w : Fin n → Idx n → K) (hw : extrpBeta ((first :: more).getLast (by simp)) s.ds0 = 0 ∨ ∀ d x, inBox c.N x → s.stash (stashBlk c.vc s.timestep 1) d x = w d x)
    (nv : NoFlow c (vips c s.psi)) (nw : NoFlow c w) {x : Idx n} (hx : inBox c.N x) (hdup : (Dup c (vips c s.psi) ∧ Dup c w) ∨ ∀ d, c.kind d = .cyclic → 0 < x d ∧ x d < (c.N d : Int) - 1)
    (hG : c.G x ≠ 0) :
    let dt := (first :: more).getLast (by simp)
    let GC := ((first :: more).foldl (VP.calcGc c.toCfg) s).GC
    ∑ d, (GC d x - GC d (stepIdx x d (-1))) = dt * c.G x * ((1 + extrpBeta dt s.ds0) * dvg c (vips c s.psi) x - extrpBeta dt s.ds0 * dvg c w x) := by
  intro dt GC
  obtain ⟨junk, dst, hgc⟩ := gc_val ok first more hts s
  have e1 : (fun d => c.xchngP (fun x => if c.grid x then
      (1 + extrpBeta ((first :: more).getLast (by simp)) s.ds0) * s.psi (c.vip d) x - extrpBeta ((first :: more).getLast (by simp)) s.ds0 * s.stash (stashBlk c.vc s.timestep 1) d x
      else junk d x)) = fun d => c.xchngP (fun x => if c.grid x then (fun d y => (1 + extrpBeta dt s.ds0) * vips c s.psi d y - extrpBeta dt s.ds0 * w d y) d x else junk d x) := by
    funext d
    congr 1
    funext y
    split_ifs with hy
    · show _ = (1 + extrpBeta dt s.ds0) * s.psi (c.vip d) y - extrpBeta dt s.ds0 * w d y
      rcases hw with hw | hw
      · show _ = (1 + extrpBeta ((first :: more).getLast (by simp)) s.ds0) * s.psi (c.vip d) y - extrpBeta ((first :: more).getLast (by simp)) s.ds0 * w d y
        rw [hw]; ring
      · rw [hw d y ((ok.grid y).1 hy)]
    · rfl
  show ∑ d, (((first :: more).foldl (VP.calcGc c.toCfg) s).GC d x - ((first :: more).foldl (VP.calcGc c.toCfg) s).GC d (stepIdx x d (-1))) = _
  rw [hgc, e1, gc_div ok F eg (nv.lin nw _ _) junk dst _ hx (hdup.imp (fun h => h.1.lin h.2 _ _) id) hG, dvg_lin]

/-- step `t` of a run: time step, velocities before it and one step earlier -/
theorem run_advector {c : Cfg K n T} (ok : Ok c) (F : Faces c) (eg : EdgeG c) (hf : EdgeFree c) (ne : Nonempty (Prs.Pts c.N)) (dt0 : K) (filt : Nat → Bool) (first : Nat → K) (more : Nat → List K)
    (hts : c.vc.varDt = true ∨ c.vc.div3 = true ∨ ∀ t, more t = []) {s : St K n T} (h0 : s.ds0 = 0) {x : Idx n} (hx : inBox c.N x) (hG : c.G x ≠ 0) (t : Nat)
    (hdup : (∀ q r, q ≤ t → run c ne dt0 filt first more s q = some r → Dup c (vips c r.psi)) ∨ ∀ d, c.kind d = .cyclic → 0 < x d ∧ x d < (c.N d : Int) - 1)
    {δ : K} (hδ : Guarantees c.prs c.N c.tol δ) {p : St K n T} (h : run c ne dt0 filt first more s (t + 1) = some p) :
    ∃ b : K, |∑ d, (p.GC d x - p.GC d (stepIdx x d (-1)))| ≤ |(first t :: more t).getLast (by simp)| * |c.G x| * (δ * (1 + 2 * |b|)) ∧
      (t = 0 → b = 0) ∧ ∀ u, t = u + 1 → b = extrpBeta ((first t :: more t).getLast (by simp)) ((first u :: more u).getLast (by simp)) := by
  obtain ⟨q, hq, hp⟩ := run_pred h
  obtain ⟨e1, g1⟩ := run_good ok hf ne dt0 filt first more t hq
  obtain ⟨_, _, k3, _, _⟩ := step_keep ok ne _ _ _ hf (by rw [e1]; exact saveEdges_ok c s.psi) hp
  set dt := (first t :: more t).getLast (by simp) with hdt
  have hts' : c.vc.varDt = true ∨ c.vc.div3 = true ∨ more t = [] := hts.imp id (Or.imp id (fun h => h t))
  have fin : ∀ (b A B : K), |A| ≤ δ → |B| ≤ δ → |dt * c.G x * ((1 + b) * A - b * B)| ≤ |dt| * |c.G x| * (δ * (1 + 2 * |b|)) := by
    intro b A B hA hB
    rw [abs_mul, abs_mul]
    refine mul_le_mul_of_nonneg_left ?_ (by positivity)
    have h1 : |(1 + b) * A - b * B| ≤ |A| + |b| * |A| + |b| * |B| := by
      rw [show (1 + b) * A - b * B = A + b * A - b * B by ring]
      refine (abs_sub _ _).trans ?_
      rw [abs_mul b B]
      have := abs_add_le A (b * A)
      rw [abs_mul b A] at this
      linarith
    have h2 : |b| * |A| ≤ |b| * δ := mul_le_mul_of_nonneg_left hA (abs_nonneg b)
    have h3 : |b| * |B| ≤ |b| * δ := mul_le_mul_of_nonneg_left hB (abs_nonneg b)
    nlinarith
  rcases t with _ | u
  · have hds : q.ds0 = 0 := by rw [(anteLoop_good ok ne dt0 hq).2.2.2, h0]
    have hb : extrpBeta dt q.ds0 = 0 := by unfold extrpBeta; rw [hds]; simp
    refine ⟨0, ?_, fun _ => rfl, fun u hu => by omega⟩
    have := advector_div ok F eg (first 0) (more 0) hts' q.toSt (vips c q.psi) (Or.inl hb) g1.noFlow g1.noFlow hx
      (hdup.imp (fun h => ⟨h 0 q (le_refl 0) hq, h 0 q (le_refl 0) hq⟩) id) hG
    rw [k3]
    simp only at this
    rw [this]
    have h3 := fin (extrpBeta dt q.ds0) _ _ (g1.div δ hδ x hx) (g1.div δ hδ x hx)
    rw [hb] at h3 ⊢
    exact h3
  · obtain ⟨r, hr, hq'⟩ := run_pred hq
    obtain ⟨e2, g2⟩ := run_good ok hf ne dt0 filt first more u hr
    obtain ⟨k1, k2, _, _, _⟩ := step_keep ok ne _ _ _ hf (by rw [e2]; exact saveEdges_ok c s.psi) hq'
    refine ⟨extrpBeta dt q.ds0, ?_, fun h => by omega, fun v hv => ?_⟩
    · have := advector_div ok F eg (first (u + 1)) (more (u + 1)) hts' q.toSt (vips c r.psi) (Or.inr k1) g1.noFlow g2.noFlow hx
        (hdup.imp (fun h => ⟨h (u + 1) q (le_refl _) hq, h u r (by omega) hr⟩) id) hG
      rw [k3]
      simp only at this
      rw [this]
      exact fin (extrpBeta dt q.ds0) _ _ (g1.div δ hδ x hx) (g2.div δ hδ x hx)
    · have : v = u := by omega
      subst this
      rw [k2]

/-! ## The concrete solvers -/
section
variable [NeZero n]

theorem bnd_f (N : Fin n → Nat) (kind : Fin n → BcKind) (halo : Int) (d : Fin n) : (bnd N kind halo).f d = 0 := rfl
theorem bnd_l (N : Fin n → Nat) (kind : Fin n → BcKind) (halo : Int) (d : Fin n) : (bnd N kind halo).l d = (N d : Int) - 1 := rfl

/-- points beside the grid in one dimension only are filled by that dimension alone -/
theorem pres_row (B : Bnd n) (ext : Int) (a : Sca n K) (d : Fin n) {y : Idx n} (hy : ∀ e, e ≠ d → B.f e ≤ y e ∧ y e ≤ B.l e) :
    ∃ a', (∀ z, InDomain B.b z → a' z = a z) ∧ xchngPres B (List.finRange n) ext a y = fillP B d (fun _ => ext) (fun _ => ext) a' y := by
  have key : ∀ (l : List (Fin n)) (a : Sca n K), l.Nodup →
      (d ∉ l → xchngPres B l ext a y = a y) ∧ (d ∈ l → ∃ a', (∀ z, InDomain B.b z → a' z = a z) ∧ xchngPres B l ext a y = fillP B d (fun _ => ext) (fun _ => ext) a' y) := by
    intro l
    induction l with
    | nil => intro a _; exact ⟨fun _ => rfl, fun h => by cases h⟩
    | cons e l ih =>
      intro a hn
      rw [List.nodup_cons] at hn
      obtain ⟨i1, i2⟩ := ih (fillP B e (fun _ => ext) (fun _ => ext) a) hn.2
      have hcons : xchngPres B (e :: l) ext a = xchngPres B l ext (fillP B e (fun _ => ext) (fun _ => ext) a) := rfl
      rw [hcons]
      constructor
      · intro hd
        rw [List.mem_cons, not_or] at hd
        rw [i1 hd.2, fillP_keeps B e _ _ a y (hy e (Ne.symm hd.1))]
      · intro hd
        by_cases he : d = e
        · subst he
          exact ⟨a, fun _ _ => rfl, i1 hn.1⟩
        · obtain ⟨a', h1, h2⟩ := i2 ((List.mem_cons.1 hd).resolve_left he)
          exact ⟨a', fun z hz => by rw [h1 z hz, fillP_keeps B e _ _ a z (hz e)], h2⟩
  exact (key _ a (List.nodup_finRange n)).2 (List.mem_finRange d)

theorem bnd_depthL (N : Fin n → Nat) (kind : Fin n → BcKind) {halo : Int} (hh : 1 ≤ halo) (d : Fin n) : 1 ≤ presDepthL (bnd N kind halo) d := by
  unfold presDepthL
  split_ifs
  · omega
  · exact le_min (by omega) hh
  · exact hh

theorem bnd_depthR (N : Fin n → Nat) (kind : Fin n → BcKind) {halo : Int} (hh : 1 ≤ halo) (d : Fin n) : 1 ≤ presDepthR (bnd N kind halo) d := by
  unfold presDepthR
  split_ifs
  · exact le_min (by omega) hh
  · exact hh

theorem pres_left (N : Fin n → Nat) (hN : ∀ d, 2 ≤ N d) (kind : Fin n → BcKind) {halo ext : Int} (hh : 1 ≤ halo) (he : 0 ≤ ext) (a : Sca n K) (d : Fin n) (hk : kind d ≠ .cyclic)
    {x : Idx n} (hx : inBox N x) (h0 : x d = 0) : xchngPres (bnd N kind halo) (List.finRange n) ext a (stepIdx x d (-1)) = 2 * a x - a (stepIdx x d 1) := by
  have off : ∀ (k : Int) (e : Fin n), e ≠ d → stepIdx x d k e = x e := by intro k e he; unfold stepIdx; simp [he]
  have atd : ∀ k : Int, stepIdx x d k d = x d + k := by intro k; unfold stepIdx; simp
  have hN2 := hN d
  obtain ⟨a', h1, h2⟩ := pres_row (bnd N kind halo) ext a d (y := stepIdx x d (-1)) (fun e he => by rw [off _ e he]; exact hx e)
  have hd := bnd_depthL N kind hh d
  rw [h2]
  unfold fillP
  rw [asgN_of_not (fun h => by have := h.1.1; rw [atd, bnd_l] at this; omega), asgN_of]
  · have v : valPL (bnd N kind halo) d a' (stepIdx x d (-1)) = 2 * a' x - a' (stepIdx x d 1) := by
      unfold valPL
      rw [bnd_f, atd, h0]
      rcases hc : kind d with _ | _ | _
      · exact absurd hc hk
      · simp only [bnd, hc, step_step]
        rw [show (-1 + (0 - (0 + -1)) : Int) = 0 by ring, show (-1 + 2 * (0 - (0 + -1)) : Int) = 1 by ring, step_zero]
      · simp only [bnd, hc, step_step]
        rw [show (-1 + (0 - (0 + -1)) : Int) = 0 by ring, show (-1 + (0 + 1 - (0 + -1)) : Int) = 1 by ring, step_zero]
        norm_num
    rw [v, h1 x hx, h1 _ (box_step hx d 1 (by omega) (by omega))]
  · refine ⟨by rw [atd, bnd_f]; omega, fun e he => ?_⟩
    have := hx e
    rw [off _ e he]
    show (0 : Int) - ext ≤ x e ∧ x e ≤ (N e : Int) - 1 + ext
    omega

theorem pres_rght (N : Fin n → Nat) (hN : ∀ d, 2 ≤ N d) (kind : Fin n → BcKind) {halo ext : Int} (hh : 1 ≤ halo) (he : 0 ≤ ext) (a : Sca n K) (d : Fin n) (hk : kind d ≠ .cyclic)
    {x : Idx n} (hx : inBox N x) (h0 : x d = (N d : Int) - 1) : xchngPres (bnd N kind halo) (List.finRange n) ext a (stepIdx x d 1) = 2 * a x - a (stepIdx x d (-1)) := by
  have off : ∀ (k : Int) (e : Fin n), e ≠ d → stepIdx x d k e = x e := by intro k e he; unfold stepIdx; simp [he]
  have atd : ∀ k : Int, stepIdx x d k d = x d + k := by intro k; unfold stepIdx; simp
  have hN2 := hN d
  obtain ⟨a', h1, h2⟩ := pres_row (bnd N kind halo) ext a d (y := stepIdx x d 1) (fun e he => by rw [off _ e he]; exact hx e)
  have hd := bnd_depthR N kind hh d
  rw [h2]
  unfold fillP
  rw [asgN_of]
  · have keepL : ∀ (z : Idx n), InDomain (bnd N kind halo).b z → asgN (fun x => ((bnd N kind halo).f d - presDepthL (bnd N kind halo) d ≤ x d ∧ x d ≤ (bnd N kind halo).f d - 1) ∧
        Ot (bnd N kind halo).b d (fun _ => ext) (fun _ => ext) x) (valPL (bnd N kind halo) d a') a' z = a' z := by
      intro z hz
      exact asgN_of_not (fun h => by have := h.1.2; have := (hz d).1; rw [bnd_f] at *; have h3 : (bnd N kind halo).b d = ⟨0, (N d : Int) - 1⟩ := rfl; rw [h3] at this; simp only at this; omega)
    generalize hA : asgN (fun x => ((bnd N kind halo).f d - presDepthL (bnd N kind halo) d ≤ x d ∧ x d ≤ (bnd N kind halo).f d - 1) ∧
        Ot (bnd N kind halo).b d (fun _ => ext) (fun _ => ext) x) (valPL (bnd N kind halo) d a') a' = A at keepL
    have v : valPR (bnd N kind halo) d A (stepIdx x d 1) = 2 * A x - A (stepIdx x d (-1)) := by
      unfold valPR
      rw [bnd_l, atd, h0]
      rcases hc : kind d with _ | _ | _
      · exact absurd hc hk
      · simp only [bnd, hc, step_step]
        rw [show (1 + ((N d : Int) - 1 - ((N d : Int) - 1 + 1)) : Int) = 0 by ring, show (1 + 2 * ((N d : Int) - 1 - ((N d : Int) - 1 + 1)) : Int) = -1 by ring, step_zero]
      · simp only [bnd, hc, step_step]
        rw [show (1 + ((N d : Int) - 1 - ((N d : Int) - 1 + 1)) : Int) = 0 by ring, show (1 + ((N d : Int) - 1 - 1 - ((N d : Int) - 1 + 1)) : Int) = -1 by ring, step_zero,
          show ((N d : Int) - 1 + 1 - ((N d : Int) - 1) + 1 : Int) = 2 by ring, show ((N d : Int) - 1 + 1 - ((N d : Int) - 1) : Int) = 1 by ring]
        norm_num
    have bm : inBox N (stepIdx x d (-1)) := box_step hx d _ (by omega) (by omega)
    rw [v, keepL x hx, keepL _ bm, h1 x hx, h1 _ bm]
  · refine ⟨by rw [atd, bnd_l]; omega, fun e he => ?_⟩
    have := hx e
    rw [off _ e he]
    show (0 : Int) - ext ≤ x e ∧ x e ≤ (N e : Int) - 1 + ext
    omega

/-- the periodic filling of one component -/
def cycA (B : Bnd n) (d : Fin n) (a : Sca n K) : Sca n K := fillA B d false (fun _ => a) d

theorem fillA_cyc (B : Bnd n) (d : Fin n) (hl : B.kl d = .cyclic) (hr : B.kr d = .cyclic) (A : Vec n K) :
    (fillA B d false A) d = cycA B d (A d) ∧ ∀ e, e ≠ d → (fillA B d false A) e = A e := by
  unfold cycA fillA
  simp only [hl, hr, if_false, reduceCtorEq]
  constructor
  · simp only [Function.update_self]
    have e1 : valAL B d A = valAL B d (fun _ => A d) := by funext x; simp [valAL, hl]
    rw [e1]
    congr 1
    funext x; simp [valAR, hr]
  · intro e he
    simp [Function.update_of_ne he]

theorem alngCyc_at (B : Bnd n) (hk : ∀ d, B.kl d = .cyclic ↔ B.kr d = .cyclic) (A : Vec n K) (d : Fin n) : alngCyc B A d = if B.kl d = .cyclic then cycA B d (A d) else A d := by
  unfold alngCyc
  have key : ∀ (l : List (Fin n)) (A : Vec n K), l.Nodup →
      (l.foldl (fun A d => if B.kl d = .cyclic then fillA B d false A else A) A) d = if d ∈ l ∧ B.kl d = .cyclic then cycA B d (A d) else A d := by
    intro l
    induction l with
    | nil => intro A _; simp
    | cons e l ih =>
      intro A hn
      rw [List.nodup_cons] at hn
      rw [List.foldl_cons, ih _ hn.2]
      by_cases hc : B.kl e = .cyclic
      · obtain ⟨f1, f2⟩ := fillA_cyc B e hc ((hk e).1 hc) A
        by_cases he : d = e
        · subst he
          simp [hn.1, hc, f1]
        · simp [he, hc, f2 d he]
      · by_cases he : d = e
        · subst he
          simp [hn.1, hc]
        · simp [he, hc]
  rw [key _ A (List.nodup_finRange n)]
  simp

theorem bnd_cyc (N : Fin n → Nat) (kind : Fin n → BcKind) (halo : Int) (d : Fin n) : ((bnd N kind halo).kl d = .cyclic ↔ kind d = .cyclic) ∧ ((bnd N kind halo).kr d = .cyclic ↔ kind d = .cyclic) := by
  rcases h : kind d <;> simp [bnd, h]

/-- the exchanges of `interpolate_in_space` on faces beside the grid in their own dimension only -/
theorem fillGC_at (N : Fin n → Nat) (kind : Fin n → BcKind) (halo ext : Int) (v : Vec n K) (d : Fin n) {y : Idx n} (hy : ∀ e, e ≠ d → 0 ≤ y e ∧ y e ≤ (N e : Int) - 1) :
    xchngNrml (bnd N kind halo) ext (alngCyc (bnd N kind halo) v) d y = if kind d = .cyclic then cycA (bnd N kind halo) d (v d) y else v d y := by
  rw [C60_nrml_keeps_faces (bnd N kind halo) ext _ hy, alngCyc_at _ (fun d => ((bnd_cyc N kind halo d).1.trans (bnd_cyc N kind halo d).2.symm))]
  by_cases h : kind d = .cyclic
  · rw [if_pos h, if_pos ((bnd_cyc N kind halo d).1.2 h)]
  · rw [if_neg h, if_neg (fun h' => h ((bnd_cyc N kind halo d).1.1 h'))]

theorem cycA_val (N : Fin n → Nat) (kind : Fin n → BcKind) {halo : Int} (hh : 1 ≤ halo) (d : Fin n) (hk : kind d = .cyclic) (hN : 2 ≤ N d) (a : Sca n K) {y : Idx n}
    (hy : ∀ e, e ≠ d → 0 ≤ y e ∧ y e ≤ (N e : Int) - 1) :
    (0 ≤ y d → y d ≤ (N d : Int) - 2 → cycA (bnd N kind halo) d a y = a y) ∧ (y d = -1 → cycA (bnd N kind halo) d a y = a (stepIdx y d ((N d : Int) - 1))) ∧
    (y d = (N d : Int) - 1 → cycA (bnd N kind halo) d a y = a (stepIdx y d (-((N d : Int) - 1)))) := by
  have hl := (bnd_cyc N kind halo d).1.2 hk
  have hr := (bnd_cyc N kind halo d).2.2 hk
  have hot : Ot (bnd N kind halo).b d (fun _ => 0) (fun _ => 0) y := by
    intro e he
    have := hy e he
    show (0 : Int) - 0 ≤ y e ∧ y e ≤ (N e : Int) - 1 + 0
    omega
  have eL : ∀ m, alngL (bnd N kind halo) d false m ↔ 0 - halo ≤ m ∧ m ≤ 0 - 1 := by intro m; unfold alngL; rw [hl]; rfl
  have eR : ∀ m, alngR (bnd N kind halo) d false m ↔ (N d : Int) - 1 ≤ m ∧ m ≤ (N d : Int) - 1 + halo - 1 := by intro m; unfold alngR; rw [hr]; rfl
  unfold cycA fillA
  simp only [hl, hr, if_false, reduceCtorEq, Function.update_self]
  refine ⟨fun h1 h2 => ?_, fun h1 => ?_, fun h1 => ?_⟩
  · rw [asgN_of_not (fun h => by have := (eR _).1 h.1; omega), asgN_of_not (fun h => by have := (eL _).1 h.1; omega)]
  · rw [asgN_of_not (fun h => by have := (eR _).1 h.1; omega), asgN_of ⟨(eL _).2 ⟨by omega, by omega⟩, hot⟩]
    unfold valAL
    rw [hl]
    simp only [bnd_l, bnd_f]
    rw [sub_zero]
  · rw [asgN_of ⟨(eR _).2 ⟨by omega, by omega⟩, hot⟩]
    unfold valAR
    rw [hr]
    simp only [Function.update_self, bnd_l, bnd_f]
    rw [asgN_of_not (fun h => by have := (eL _).1 h.1; unfold stepIdx at this; simp at this; omega), sub_zero]

/-- 2-D and 3-D solvers: what a program has to satisfy -/
structure Setup (u : VP.User K (Idx n) n) (N : Fin n → Nat) (halo : Int) (a : CfgN n K) : Prop where
  two : ∀ d, 2 ≤ N d
  halo : 1 ≤ halo
  box : ∀ d, a.box d = ⟨0, (N d : Int) - 1⟩
  fill : ∀ f x, inBox N x → a.fillS f x = f x
  den : u.den = none
  inj : Function.Injective u.vip

variable {u : VP.User K (Idx n) n} {N : Fin n → Nat} {kind : Fin n → BcKind} {halo : Int} {a : CfgN n K} {tol : K} {cap : Nat} {prs : Scheme}

theorem Setup.ok (h : Setup u N halo a) : Ok (solver u N kind halo a tol cap prs) where
  grid x := by
    show decide (cellBox a.box x) = true ↔ _
    rw [decide_eq_true_iff]
    unfold cellBox
    constructor
    · intro hx d
      have h1 := hx d; rw [h.box d] at h1
      simp only at h1
      show 0 ≤ x d ∧ x d ≤ (N d : Int) - 1
      omega
    · intro hx d
      rw [h.box d]
      have h1 : 0 ≤ x d ∧ x d ≤ (N d : Int) - 1 := hx d
      simp only
      omega
  den := h.den
  inj := h.inj
  xchng f x hx := h.fill f x hx
  postVip _ _ _ := rfl
  postFrame _ _ := ⟨rfl, rfl, rfl, rfl⟩

theorem Setup.faces (h : Setup u N halo a) : Faces (solver u N kind halo a tol cap prs) := by
  have off : ∀ (x : Idx n) (d : Fin n) (k : Int) (e : Fin n), e ≠ d → stepIdx x d k e = x e := by intro x d k e he; unfold stepIdx; simp [he]
  have atd : ∀ (x : Idx n) (d : Fin n) (k : Int), stepIdx x d k d = x d + k := by intro x d k; unfold stepIdx; simp
  have hh := h.halo
  refine ⟨h.two, rfl, ?_, ?_, ?_, ?_, ?_, ?_, ?_⟩
  · intro d x h1 h2 h3
    show decide (Bx a.box (fun e => if e = d then halo else halo - 1) (fun _ => halo - 1) x) = true
    rw [decide_eq_true_iff]
    intro e
    rw [h.box e]
    by_cases he : e = d
    · subst he
      simp only [if_true]
      have : x e ≤ (N e : Int) - 1 := h3
      omega
    · simp only [if_neg he]
      have : 0 ≤ x e ∧ x e ≤ (N e : Int) - 1 := h1 e he
      omega
  · intro f x hx
    exact C60_pres_keeps_domain (bnd N kind halo) _ _ f hx
  · intro f d x hk hx h0
    exact pres_left N h.two kind hh (by omega) f d hk hx h0
  · intro f d x hk hx h0
    exact pres_rght N h.two kind hh (by omega) f d hk hx h0
  · intro v d x hx h1
    show xchngNrml _ _ (alngCyc _ v) d x = _
    rw [fillGC_at N kind halo _ v d (fun e _ => hx e)]
    split_ifs with hk
    · exact (cycA_val N kind hh d hk (h.two d) (v d) (fun e _ => hx e)).1 (hx d).1 h1
    · rfl
  · intro v d x hx h1
    have hy : ∀ e, e ≠ d → 0 ≤ stepIdx x d (-1) e ∧ stepIdx x d (-1) e ≤ (N e : Int) - 1 := fun e he => by rw [off x d _ e he]; exact hx e
    show xchngNrml _ _ (alngCyc _ v) d _ = _
    rw [fillGC_at N kind halo _ v d hy]
    by_cases hk : kind d = .cyclic
    · rw [if_pos hk, if_pos (show (solver u N kind halo a tol cap prs).kind d = .cyclic from hk), (cycA_val N kind hh d hk (h.two d) (v d) hy).2.1 (by rw [atd]; omega), step_step]
      congr 2
      show -1 + ((N d : Int) - 1) = (N d : Int) - 2
      ring
    · rw [if_neg hk, if_neg (show ¬ (solver u N kind halo a tol cap prs).kind d = .cyclic from hk)]
  · intro v d x hx h1
    show xchngNrml _ _ (alngCyc _ v) d _ = _
    rw [fillGC_at N kind halo _ v d (fun e _ => hx e)]
    by_cases hk : kind d = .cyclic
    · rw [if_pos hk, if_pos (show (solver u N kind halo a tol cap prs).kind d = .cyclic from hk), (cycA_val N kind hh d hk (h.two d) (v d) (fun e _ => hx e)).2.2 h1]; rfl
    · rw [if_neg hk, if_neg (show ¬ (solver u N kind halo a tol cap prs).kind d = .cyclic from hk)]

end
end Mpdata.PP
