import Verif.Lemmas.ThreadPrs
import Verif.Props.ThreadsRace
/-! # C65: multi-threaded runs of incompressible solvers

The program is `runT` of `Verif.Model.ThreadPrs`; arithmetic, boundary conditions, forcings, tolerance and the test of convergence are arbitrary. -/
set_option linter.unusedSectionVars false
set_option linter.unusedSimpArgs false
namespace Mpdata
namespace Threads
open Classical
variable {V : Type}

/-- **C65, result**: whole runs of a 2-D solver with right-hand sides, prognosed velocities and a pressure solver end with the same memory (or with an exception) whatever the numbers of threads and the
interleavings, although the number of passes of the pressure solver depends on data and every thread decides for itself when to leave it. Conditions: FCT only with the infinite-gauge option, and a field of
which forcings read neighbouring columns is no velocity, is not scaled, and has no right-hand side unless the scheme is `euler_a`. Missing: the other cases; the statement is false of them
(`C26_fails_fct_2d`, `C65_fails_forcing_trapez`, `C65_fails_forcing_euler_b`). -/
theorem C65_threads_prs_2d_partial (o : POpts) (N M T T' : Nat) (hM : 0 < M) (hT : 0 < T) (hT' : 0 < T') (hTN : T ≤ N) (hTN' : T' ≤ N) (hno : o.fct = false ∨ o.iga = true) (ho : o.order ≠ [])
    (hforce : ∀ e, o.nbr e = true → (∀ d, o.vip d ≠ e) ∧ o.scaled e = false ∧ (o.sch ≠ .eulerA → o.hasRhs e = false)) (f0 : FP V) (fs : List (FP V))
    (m : Ap × Int × Int → V) (r r' : Option (Ap × Int × Int → V)) (h : PExec N T (runT o N M f0 fs) m r) (h' : PExec N T' (runT o N M f0 fs) m r') : r = r' :=
  exec_indep hT hT' hTN hTN' (runT_ok o N M (by omega) hM hno hforce ho f0 fs) h h'

/-- **C65, decisions**: at every decision a run reaches (leave the pressure solver or go on, divide by a sum or not, refuse the initial advector or not) all threads decide the same way, so none waits at a
barrier that others do not reach. The threads' scalars are equal at the beginning (constructors give them the same values). -/
theorem C65_threads_decide_alike_partial (o : POpts) (N M T : Nat) (hM : 0 < M) (hT : 0 < T) (hTN : T ≤ N) (hno : o.fct = false ∨ o.iga = true) (ho : o.order ≠ [])
    (hforce : ∀ e, o.nbr e = true → (∀ d, o.vip d ≠ e) ∧ o.scaled e = false ∧ (o.sch ≠ .eulerA → o.hasRhs e = false)) (f0 : FP V) (fs : List (FP V)) (m : Ap × Int × Int → V)
    (hm : ∀ k x x', 0 ≤ x → x ≤ (N : Int) - 1 → 0 ≤ x' → x' ≤ (N : Int) - 1 → m (.sc k, x, 0) = m (.sc k, x', 0))
    (c : (Sc → V) → Bool) (p q : PProg V) (m' : Ap × Int × Int → V) (h : PReach N T (runT o N M f0 fs) m (.br c p q) m')
    (t t' : Fin T) (x x' : Int) (hx : (slabOf N T t).Mem x) (hx' : (slabOf N T t').Mem x') : c (fun k => m' (.sc k, x, 0)) = c (fun k => m' (.sc k, x', 0)) := by
  have ha := (reach_agree hT hTN h (runT_ok o N M (by omega) hM hno hforce ho f0 fs) hm).2
  have b := slab_in t hx
  have b' := slab_in t' hx'
  congr 1
  funext k
  exact ha k x x' b.1 b.2 b'.1 b'.2

/-- **C65, no deadlock**: wherever a run has got to, it can be completed -/
theorem C65_threads_complete_partial (o : POpts) (N M T : Nat) (hM : 0 < M) (hT : 0 < T) (hTN : T ≤ N) (hno : o.fct = false ∨ o.iga = true) (ho : o.order ≠ [])
    (hforce : ∀ e, o.nbr e = true → (∀ d, o.vip d ≠ e) ∧ o.scaled e = false ∧ (o.sch ≠ .eulerA → o.hasRhs e = false)) (f0 : FP V) (fs : List (FP V)) (m : Ap × Int × Int → V)
    (hm : ∀ k x x', 0 ≤ x → x ≤ (N : Int) - 1 → 0 ≤ x' → x' ≤ (N : Int) - 1 → m (.sc k, x, 0) = m (.sc k, x', 0))
    (p : PProg V) (m' : Ap × Int × Int → V) (h : PReach N T (runT o N M f0 fs) m p m') : ∃ r, PExec N T p m' r := by
  have ha := reach_agree hT hTN h (runT_ok o N M (by omega) hM hno hforce ho f0 fs) hm
  exact exec_exists hT hTN p ha.1 m' ha.2

/-- shallow-water-like options: forcings of the velocities 1 and 2 read neighbours of field 0, which has no right-hand side; trapezoidal scheme, conjugate residuals with 3 inner iterations, 2 passes of MPDATA with FCT -/
def exOpts : POpts where
  fct := true
  iga := true
  dfl := false
  div3dt := false
  n_iters := 2
  halo := 2
  sch := .trapez
  slv := .gcrk 3
  nEq := 3
  hasRhs e := e != 0
  scaled _ := false
  order := [0, 1, 2]
  vip d := if d then 2 else 1
  nbr e := e == 0
  chk := true
  cap := 10000

theorem exOpts_safe : ∀ e, exOpts.nbr e = true → (∀ d, exOpts.vip d ≠ e) ∧ exOpts.scaled e = false ∧ (exOpts.sch ≠ .eulerA → exOpts.hasRhs e = false) := by
  intro e he
  have : e = 0 := by simpa [exOpts] using he
  subst this
  exact ⟨by intro d; cases d <;> simp [exOpts], rfl, fun _ => rfl⟩

/-- runs of two steps by one thread and by three exist, from any memory in which scalars agree, and end alike -/
example (f0 f1 f2 : FP Int) (m : Ap × Int × Int → Int) (hm : ∀ k x, m (.sc k, x, 0) = 1) : ∃ r, PExec 7 1 (runT exOpts 7 5 f0 [f1, f2]) m r ∧ PExec 7 3 (runT exOpts 7 5 f0 [f1, f2]) m r := by
  have ha : ∀ k x x', 0 ≤ x → x ≤ ((7 : Nat) : Int) - 1 → 0 ≤ x' → x' ≤ ((7 : Nat) : Int) - 1 → m (.sc k, x, 0) = m (.sc k, x', 0) := fun k x x' _ _ _ _ => by rw [hm, hm]
  obtain ⟨r, h⟩ := C65_threads_complete_partial exOpts 7 5 1 (by decide) (by decide) (by decide) (Or.inr rfl) (by simp [exOpts]) exOpts_safe f0 [f1, f2] m ha _ _ (.refl _ m)
  obtain ⟨r', h'⟩ := C65_threads_complete_partial exOpts 7 5 3 (by decide) (by decide) (by decide) (Or.inr rfl) (by simp [exOpts]) exOpts_safe f0 [f1, f2] m ha _ _ (.refl _ m)
  have := C65_threads_prs_2d_partial exOpts 7 5 1 3 (by decide) (by decide) (by decide) (by decide) (by decide) (Or.inr rfl) (by simp [exOpts]) exOpts_safe f0 [f1, f2] m r r' h h'
  exact ⟨r, h, this ▸ h'⟩

/-! ## Forcings that read neighbours of a field they change -/

/-- witness: the force is the value of the field in the next column, `apply_rhs` adds it; everything else leaves arrays as they are -/
def frcF : FP Nat where
  F nm a v x y :=
    if nm = "force" then (v (.psi 0 false) (x + 1) y).getD 0
    else if nm = "apply" then (v (.psi 0 false) x y).getD 0 + (v (.rhs 0) x y).getD 0
    else (v a x y).getD 0
  G _ _ _ _ _ := 0
  nz _ := false
  cv _ := true
  big _ := false
  adv _ := raceF
  gcf := raceF
  lvl _ := false
  sv := 0

/-- one equation with a right-hand side, of which the forcing reads neighbouring columns; basic MPDATA with two passes -/
def frcO (s : RSch) : POpts where
  fct := false
  iga := false
  dfl := false
  div3dt := false
  n_iters := 2
  halo := 1
  sch := s
  slv := .mr
  nEq := 1
  hasRhs _ := true
  scaled _ := false
  order := [0]
  vip _ := 1
  nbr e := e == 0
  chk := false
  cap := 10000

/-- a statement that may read the location it assigns, and keeps its value, changes nothing -/
theorem keep_serial1 {N T : Nat} (s : S Ap Int Nat) (m : Ap × Int × Int → Nat) (hr : ∀ x y, s.rd x y s.dst x y) (hf : ∀ v x y, s.f v x y = (v s.dst x y).getD 0) : serial1 (s.toStmt N T) m = m := by
  funext l
  unfold serial1
  split_ifs with h
  · obtain ⟨t, ht⟩ := h
    rw [mem_dom] at ht
    obtain ⟨a, x, y⟩ := l
    have h1 : a = s.dst := ht.1
    subst h1
    show s.f _ x y = _
    rw [hf, if_pos (hr x y)]
    rfl
  · rfl

theorem keep_phase {N T : Nat} (hT : 0 < T) (hTN : T ≤ N) {ss : List (S Ap Int Nat)} (h : PhOk N ss) (hk : ∀ s ∈ ss, (∀ x y, s.rd x y s.dst x y) ∧ ∀ v x y, s.f v x y = (v s.dst x y).getD 0)
    (m : Ap × Int × Int → Nat) : PhaseExec (progOf (ss.map fun s => s.toStmt N T)) m m := by
  obtain ⟨m', h'⟩ := phase_exec_exists (progOf (ss.map fun s => s.toStmt N T)) m
  have e := phOk_serial hT hTN h h'
  have : ∀ (ss : List (S Ap Int Nat)), (∀ s ∈ ss, (∀ x y, s.rd x y s.dst x y) ∧ ∀ v x y, s.f v x y = (v s.dst x y).getD 0) → serial (ss.map fun s => s.toStmt N T) m = m := by
    intro ss
    induction ss with
    | nil => intro _; rfl
    | cons s ss ih =>
      intro hk
      show serial (ss.map fun s => s.toStmt N T) (serial1 (s.toStmt N T) m) = m
      rw [keep_serial1 s m (hk s List.mem_cons_self).1 (hk s List.mem_cons_self).2]
      exact ih fun s' h' => hk s' (List.mem_cons_of_mem _ h')
  rw [this ss hk] at e
  rw [e] at h'
  exact h'

theorem keep_phs {N T : Nat} (hT : 0 < T) (hTN : T ≤ N) {ps : List (List (S Ap Int Nat))} (h : ∀ ss ∈ ps, PhOk N ss)
    (hk : ∀ ss ∈ ps, ∀ s ∈ ss, (∀ x y, s.rd x y s.dst x y) ∧ ∀ v x y, s.f v x y = (v s.dst x y).getD 0) {p : PProg Nat} {m : Ap × Int × Int → Nat} {r : Option (Ap × Int × Int → Nat)}
    (hp : PExec N T p m r) : PExec N T (.phs ps p) m r := by
  unfold PProg.phs
  induction ps with
  | nil => exact hp
  | cons ss ps ih =>
    exact .ph _ _ _ m _ (keep_phase hT hTN (h ss List.mem_cons_self) (hk ss List.mem_cons_self) m) (ih (fun ss' h' => h ss' (List.mem_cons_of_mem _ h')) fun ss' h' => hk ss' (List.mem_cons_of_mem _ h'))

/-- `update_rhs` and `apply_rhs` one after the other, as in `hook_ante_step` with `euler_b` and in `hook_post_step` with `trapez` -/
def frcProg (o : POpts) (nm : String) (F : FP Nat) : PProg Nat := updRhsT F o 2 1 (fun _ => false) [] fun q => .ph (q ++ appRhsT F o 1 nm fun _ => false) .done

/-- as `frcF`, with the label of the statement that applies the right-hand side -/
def frcFn (nm : String) : FP Nat := { frcF with F := fun n a v x y => frcF.F (if n = nm then "apply" else n) a v x y }

abbrev frcS0 (s : RSch) (nm : String) : S Ap Int Nat := pt (frcFn nm) 1 "force" (.rhs 0) (fun a => ∃ e', (frcO s).nbr e' = true ∧ a = .psi e' false)
abbrev frcS1 (nm : String) : S Ap Int Nat := pt (frcFn nm) 1 nm (.psi 0 false) nb0
abbrev frcPhase (s : RSch) (nm : String) : List (S Ap Int Nat) := [frcS0 s nm, frcS1 nm]

theorem frc_prog (s : RSch) (nm : String) (t : Fin 2) : progOf ((frcPhase s nm).map fun s => s.toStmt 2 2) t =
    [((frcS0 s nm).toStmt 2 2).act (.rhs 0, t.1, 0), ((frcS1 nm).toStmt 2 2).act (.psi 0 false, t.1, 0)] := by
  have hi : irange (Dom.rng (.ext 0 0) 2 2 t) = [(t.1 : Int)] := by revert t; decide
  have d0 : ((frcS0 s nm).toStmt 2 2).dom t = [((.rhs 0 : Ap), (t.1 : Int), (0 : Int))] := by
    show (irange (Dom.rng (.ext 0 0) 2 2 t)).flatMap _ = _
    rw [hi]
    rfl
  have d1 : ((frcS1 nm).toStmt 2 2).dom t = [((.psi 0 false : Ap), (t.1 : Int), (0 : Int))] := by
    show (irange (Dom.rng (.ext 0 0) 2 2 t)).flatMap _ = _
    rw [hi]
    rfl
  show (((frcS0 s nm).toStmt 2 2).dom t).map _ ++ ((((frcS1 nm).toStmt 2 2).dom t).map _ ++ []) = _
  rw [d0, d1]
  rfl

theorem frc_force (s : RSch) (nm : String) (hnm : nm ≠ "force") (x : Int) (m : Ap × Int × Int → Nat) :
    (((frcS0 s nm).toStmt 2 2).act (.rhs 0, x, 0)).f m = m (.psi 0 false, x + 1, 0) := by
  simp only [Stmt.act, S.toStmt, frcS0, pt]
  simp only [frcFn, frcF, if_neg (Ne.symm hnm), if_true]
  rw [if_pos]
  · rfl
  · exact Or.inl ⟨0, rfl, rfl⟩

theorem frc_apply (nm : String) (x : Int) (m : Ap × Int × Int → Nat) :
    (((frcS1 nm).toStmt 2 2).act (.psi 0 false, x, 0)).f m = m (.psi 0 false, x, 0) + m (.rhs 0, x, 0) := by
  simp only [Stmt.act, S.toStmt, frcS1, pt]
  simp only [frcFn, frcF, if_true]
  rw [if_neg (by decide), if_pos, if_pos]
  · rfl
  · exact Or.inr ⟨trivial, fun _ => trivial⟩
  · exact Or.inr ⟨trivial, fun _ => trivial⟩

/-- the phase executed by one thread after the other, thread `t` first -/
theorem frc_order (ss : List (Stmt (Fin 2) (Ap × Int × Int) Nat)) (t t' : Fin 2) (ht : ∀ u, u = t ∨ u = t') (hne : t' ≠ t) (m : Ap × Int × Int → Nat) :
    PhaseExec (progOf ss) m ((progOf ss t').foldl exec1 ((progOf ss t).foldl exec1 m)) := by
  have r1 := run_alone t (progOf ss t) ⟨m, progOf ss, fun _ => none⟩ [] (by simp) rfl
  have r2 := run_alone t' (progOf ss t') ⟨(progOf ss t).foldl exec1 m, upd (progOf ss) t [], fun _ => none⟩ [] (by simp [upd, hne]) rfl
  refine ⟨_, Steps.trans r1 r2, ?_, rfl⟩
  intro u
  rcases ht u with rfl | rfl
  · simp [upd]
  · simp [upd]

theorem frc_exec (s : RSch) (nm : String) (hz : nm ≠ "zero") (hx : nm ≠ "sclr") (m m' : Ap × Int × Int → Nat)
    (h : PhaseExec (progOf ((frcPhase s nm).map fun s => s.toStmt 2 2)) m m') : PExec 2 2 (frcProg (frcO s) nm (frcFn nm)) m (some m') := by
  have hd : ∀ n, n ≠ nm → n ≠ "force" → n ≠ "apply" → ∀ a v x y, (frcFn nm).F n a v x y = (v a x y).getD 0 := by
    intro n h1 h2 h3 a v x y
    simp [frcFn, frcF, h1, h2, h3]
  refine .ph _ _ _ m _ (keep_phase (by decide) (by decide) ?_ ?_ m) (keep_phs (by decide) (by decide) ?_ ?_ (.ph _ _ _ _ _ h (.done m')))
  · exact ptIn_ok (W := fun a => a = .rhs 0) (R := nb0) (.cons (pt_one _ _ _ _ _ rfl (fun _ h => h) (fun k => by simp)) .nil) (fun _ _ h => h)
  · intro s' hs'
    have : s' = pt (frcFn nm) 1 "zero" (.rhs 0) nb0 := by simpa [frcO, List.range_succ] using hs'
    subst this
    exact ⟨fun x y => Or.inr ⟨rfl, fun _ => rfl⟩, fun v x y => hd _ (Ne.symm hz) (by decide) (by decide) _ v x y⟩
  · intro ss hss
    obtain ⟨e, -, hss⟩ := List.mem_flatMap.1 hss
    exact xpres_ok _ _ _ _ _ _ (nosc_psi _ _) _ ss hss
  · intro ss hss s' hs'
    obtain ⟨e, -, hss⟩ := List.mem_flatMap.1 hss
    simp only [xpres, List.mem_cons, List.not_mem_nil, or_false] at hss
    rcases hss with rfl | rfl | rfl <;> rw [List.mem_singleton] at hs' <;> subst hs' <;>
      exact ⟨fun x y => Or.inl ⟨rfl, rfl⟩, fun v x y => hd _ (Ne.symm hx) (by decide) (by decide) _ v x y⟩

theorem frc_race (s : RSch) (nm : String) (hnm : nm ≠ "force") (hz : nm ≠ "zero") (hx : nm ≠ "sclr") : ∃ (r r' : Ap × Int × Int → Nat),
    PExec 2 2 (frcProg (frcO s) nm (frcFn nm)) (fun _ => 1) (some r) ∧ PExec 2 2 (frcProg (frcO s) nm (frcFn nm)) (fun _ => 1) (some r') ∧ r (.psi 0 false, 0, 0) = 2 ∧ r' (.psi 0 false, 0, 0) = 3 := by
  have v0 := frc_force s nm hnm
  have v1 := frc_apply nm
  have w0 : ∀ x, (((frcS0 s nm).toStmt 2 2).act (.rhs 0, x, 0)).wr = (.rhs 0, x, 0) := fun _ => rfl
  have w1 : ∀ x, (((frcS1 nm).toStmt 2 2).act (.psi 0 false, x, 0)).wr = (.psi 0 false, x, 0) := fun _ => rfl
  refine ⟨_, _, frc_exec s nm hz hx _ _ (frc_order _ 0 1 (by decide) (by decide) _), frc_exec s nm hz hx _ _ (frc_order _ 1 0 (by decide) (by decide) _), ?_, ?_⟩
  · rw [frc_prog, frc_prog]
    simp only [List.foldl_cons, List.foldl_nil, exec1, v0, v1, w0, w1]
    simp [upd]
  · rw [frc_prog, frc_prog]
    simp only [List.foldl_cons, List.foldl_nil, exec1, v0, v1, w0, w1]
    simp [upd]

/-- **C65 fails** for forcings that read neighbours of a field with a right-hand side, scheme `trapez`: nothing separates `update_rhs` from `apply_rhs` in `hook_post_step` (mpdata_rhs.hpp:185-188), so a
thread may use values of its neighbour's columns before or after these were changed: with two threads, two executions of the hook end differently -/
theorem C65_fails_forcing_trapez : ∃ (f : FP Nat) (o : POpts), o.sch = .trapez ∧ o.nbr 0 = true ∧ o.hasRhs 0 = true ∧ ∃ m r r',
    PExec 2 2 (rhsPost f o 2 1 [] fun q => .ph q .done) m (some r) ∧ PExec 2 2 (rhsPost f o 2 1 [] fun q => .ph q .done) m (some r') ∧ r ≠ r' := by
  obtain ⟨r, r', h, h', e, e'⟩ := frc_race .trapez "applyP" (by decide) (by decide) (by decide)
  refine ⟨frcFn "applyP", frcO .trapez, rfl, rfl, rfl, _, r, r', h, h', ?_⟩
  intro he
  rw [he, e'] at e
  simp at e

/-- the same with scheme `euler_b` in `hook_ante_step` (mpdata_rhs.hpp:160-163) -/
theorem C65_fails_forcing_euler_b : ∃ (f : FP Nat) (o : POpts), o.sch = .eulerB ∧ o.nbr 0 = true ∧ o.hasRhs 0 = true ∧ ∃ m r r',
    PExec 2 2 (rhsAnte f o 2 1 [] fun q => .ph q .done) m (some r) ∧ PExec 2 2 (rhsAnte f o 2 1 [] fun q => .ph q .done) m (some r') ∧ r ≠ r' := by
  obtain ⟨r, r', h, h', e, e'⟩ := frc_race .eulerB "applyA" (by decide) (by decide) (by decide)
  refine ⟨frcFn "applyA", frcO .eulerB, rfl, rfl, rfl, _, r, r', h, h', ?_⟩
  intro he
  rw [he, e'] at e
  simp at e

end Threads
end Mpdata
