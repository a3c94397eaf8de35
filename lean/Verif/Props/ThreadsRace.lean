import Verif.Props.Threads
import Mathlib.Tactic.FinCases
/-! # C26: a data race in two-dimensional FCT

For every rank but the first, `im^1` starts at `first - 1` (mpdata_osc_2d.hpp:233), while `beta_up(first-1)`, computed by that rank because the
betas are computed on `i^1`, reads the flux at `first - 2`, which only the preceding rank computes, in the same phase (mpdata_fct_2d.hpp:71-81, no
barrier in between).  The preceding rank then uses `beta_up(first-1)` for its last face. -/
set_option linter.unusedSectionVars false
namespace Mpdata
namespace Threads
open Classical

section generic
variable {ι L V : Type} [DecidableEq ι] [DecidableEq L]

/-- effect of an uninterrupted action -/
def exec1 (m : L → V) (a : Act L V) : L → V := upd m a.wr (a.f m)

theorem Steps.trans {a b c : PSt ι L V} (h1 : Steps a b) (h2 : Steps b c) : Steps a c := by
  induction h2 with
  | refl => exact h1
  | tail _ _ _ hst ih => exact Steps.tail _ _ _ ih hst

/-- a thread may run alone for a while -/
theorem run_alone (t : ι) (as : List (Act L V)) : ∀ (s : PSt ι L V) (bs : List (Act L V)), s.rem t = as ++ bs → s.reg t = none →
    Steps s ⟨as.foldl exec1 s.mem, upd s.rem t bs, s.reg⟩ := by
  induction as with
  | nil =>
    intro s bs h _
    have : upd s.rem t bs = s.rem := by
      funext t'; unfold upd; split_ifs with h'
      · subst h'; rw [h]; rfl
      · rfl
    rw [this]; exact Steps.refl _
  | cons a as ih =>
    intro s bs h hr
    let s1 : PSt ι L V := { s with reg := upd s.reg t (some (a.f s.mem)) }
    let s2 : PSt ι L V := { mem := upd s1.mem a.wr (a.f s.mem), rem := upd s1.rem t (as ++ bs), reg := upd s1.reg t none }
    have st1 : Step s s1 := Step.load s t a (as ++ bs) h hr
    have st2 : Step s1 s2 := Step.store s1 t a (as ++ bs) _ h (by simp [s1, upd])
    have := ih s2 bs (by simp [s2, upd]) (by simp [s2, upd])
    have e1 : upd s2.rem t bs = upd s.rem t bs := by
      funext t'; simp only [upd, s2, s1]; split_ifs <;> rfl
    have e2 : s2.reg = s.reg := by
      funext t'; simp only [upd, s2, s1]; split_ifs with h'
      · subst h'; exact hr.symm
      · rfl
    rw [e1, e2] at this
    exact Steps.trans (Steps.tail _ _ _ (Steps.tail _ _ _ (Steps.refl s) st1) st2) this

theorem foldl_exec_notin (as : List (Act L V)) (m : L → V) (l : L) (h : ∀ a ∈ as, a.wr ≠ l) : as.foldl exec1 m l = m l := by
  induction as generalizing m with
  | nil => rfl
  | cons a as ih =>
    simp only [List.foldl_cons]
    rw [ih _ (fun b hb => h b (List.mem_cons_of_mem _ hb))]
    unfold exec1 upd
    rw [if_neg]
    exact fun h' => h a List.mem_cons_self h'.symm

/-- if every action writing `l` writes `v`, and some does, then `l` holds `v` -/
theorem foldl_exec_const (as : List (Act L V)) (m : L → V) (l : L) (v : V) (hv : ∀ a ∈ as, a.wr = l → ∀ m, a.f m = v) (h : ∃ a ∈ as, a.wr = l) :
    as.foldl exec1 m l = v := by
  obtain ⟨a, ha, hl⟩ := h
  have aux : ∀ (as : List (Act L V)) (m : L → V), (∀ a ∈ as, a.wr = l → ∀ m, a.f m = v) → m l = v → as.foldl exec1 m l = v := by
    intro as
    induction as with
    | nil => intro m _ h; exact h
    | cons b bs ih =>
      intro m hb hm
      simp only [List.foldl_cons]
      refine ih _ (fun c hc => hb c (List.mem_cons_of_mem _ hc)) ?_
      unfold exec1 upd
      split_ifs with h
      · exact hb b List.mem_cons_self h.symm m
      · exact hm
  obtain ⟨p, q, rfl⟩ := List.append_of_mem ha
  rw [List.foldl_append, List.foldl_cons]
  refine aux q _ (fun b hb => hv b (by simp [hb])) ?_
  unfold exec1 upd
  rw [if_pos hl.symm]
  exact hv a ha hl _
end generic

/-- formulae for the witness: fluxes are 1, `beta_up` is the flux through the left face, limited velocities are `beta_up` of the left cell -/
def raceF : F2 Nat where
  pmin _ _ _ := 0
  pmax _ _ _ := 0
  flx _ _ _ _ _ := 0
  flx1 _ _ _ _ _ := 1
  anti _ _ _ _ _ := 0
  bup _ v x y := (v (.flux false) (x - 1) y).getD 0
  bdn _ _ _ _ := 0
  mono _ _ v x y := (v .bup x y).getD 0
  donor _ _ _ _ := 0
  fillX _ _ _ _ := 0
  fillY _ _ _ := 0
  zero _ _ _ _ := 0
  alngX _ _ _ _ := 0
  alngY _ _ _ := 0
  nrmlX _ _ _ _ := 0
  nrmlY _ _ _ := 0
  fluxX _ _ _ _ := 0
  fluxY _ _ _ := 0

/-- the phase of `fct_adjust_antidiff` computing fluxes and betas (2 × 1 points, 2 threads) -/
noncomputable abbrev racePhase : List (Stmt (Fin 2) (A2 × Int × Int) Nat) :=
  (flux2b raceF 1 false 1 ++ betas2 raceF 1 false .flux 1).map fun s => s.toStmt 2 2

theorem race_slab0 : slabOf 2 2 0 = ⟨0, 0⟩ := by decide
theorem race_slab1 : slabOf 2 2 1 = ⟨1, 1⟩ := by decide

theorem race_dom (s : S A2 Int Nat) (t : Fin 2) (l : A2 × Int × Int) (h : l ∈ (s.toStmt 2 2).dom t) :
    l.1 = s.dst ∧ (s.dom.rng 2 2 t).Mem l.2.1 ∧ l.2.2 ∈ s.ys := (mem_dom s 2 2 t l).1 h

theorem race_mem (t : Fin 2) (b : Act (A2 × Int × Int) Nat) : b ∈ progOf racePhase t ↔
    ∃ s ∈ flux2b raceF 1 false 1 ++ betas2 raceF 1 false .flux 1, ∃ l ∈ (s.toStmt 2 2).dom t, b = (s.toStmt 2 2).act l := by
  unfold progOf racePhase
  simp only [List.mem_flatMap, List.mem_map]
  constructor
  · rintro ⟨_, ⟨s, hs, rfl⟩, l, hl, rfl⟩; exact ⟨s, hs, l, hl, rfl⟩
  · rintro ⟨s, hs, l, hl, rfl⟩; exact ⟨_, ⟨s, hs, rfl⟩, l, hl, rfl⟩

/-- location of the flux that rank 1 does not compute, and of the beta that both ranks compute -/
abbrev locF : A2 × Int × Int := (.flux false, -1, 0)
abbrev locB : A2 × Int × Int := (.bup, 0, 0)

theorem race_noflux : ∀ a ∈ progOf racePhase 1, a.wr ≠ locF := by
  intro a ha h
  obtain ⟨s, hs, l, hl, rfl⟩ := (race_mem 1 a).1 ha
  have h' : l = locF := h
  subst h'
  obtain ⟨h1, h2, -⟩ := race_dom s 1 _ hl
  simp only [flux2b, betas2, List.mem_append, List.mem_cons, List.not_mem_nil, or_false] at hs
  rcases hs with (rfl | rfl) | (rfl | rfl)
  · simp only [Dom.rng, race_slab1, Rng.Mem] at h2
    revert h2; decide
  all_goals simp at h1

/-- the statement computing `beta_up` -/
abbrev sB : S A2 Int Nat := (betas2 raceF 1 false .flux 1).head (by simp [betas2])

theorem race_bup_act (t : Fin 2) (a : Act (A2 × Int × Int) Nat) (ha : a ∈ progOf racePhase t) (h : a.wr = locB) : a = (sB.toStmt 2 2).act locB := by
  obtain ⟨s, hs, l, hl, rfl⟩ := (race_mem t a).1 ha
  have h' : l = locB := h
  subst h'
  obtain ⟨h1, -, -⟩ := race_dom s t _ hl
  simp only [flux2b, betas2, List.mem_append, List.mem_cons, List.not_mem_nil, or_false] at hs
  rcases hs with (rfl | rfl) | (rfl | rfl)
  · simp at h1
  · simp at h1
  · rfl
  · simp at h1

theorem race_bup_mem (t : Fin 2) : (sB.toStmt 2 2).act locB ∈ progOf racePhase t := by
  refine (race_mem t _).2 ⟨sB, List.mem_append_right _ (List.head_mem _), locB, ?_, rfl⟩
  rw [mem_dom]
  refine ⟨rfl, ?_, ?_⟩
  · revert t; decide
  · show (0 : Int) ∈ rows (-1) 1
    rw [mem_rows]; omega

/-- value written for the beta: the flux at `locF` as seen when it is evaluated -/
theorem race_bup_val (m : A2 × Int × Int → Nat) : ((sB.toStmt 2 2).act locB).f m = m locF := by
  show ((if sB.rd 0 0 (.flux false) (0 - 1) 0 then some (m (.flux false, 0 - 1, 0)) else none).getD 0) = m locF
  rw [if_pos]
  · rfl
  · show A2.flux false = A2.psi false ∨ A2.flux false = A2.pmax ∨ _ ∨ _
    exact Or.inr (Or.inr (Or.inl ⟨rfl, Or.inr rfl, rfl⟩))

theorem race_split : ∃ p q, progOf racePhase 1 = p ++ (sB.toStmt 2 2).act locB :: q ∧ ∀ a ∈ q, a.wr ≠ locB := by
  have h : (sB.toStmt 2 2).act locB ∈ (progOf racePhase 1).reverse := List.mem_reverse.2 (race_bup_mem 1)
  obtain ⟨p, q, h1, h2⟩ := List.eq_append_cons_of_mem h
  refine ⟨q.reverse, p.reverse, ?_, ?_⟩
  · rw [← List.reverse_reverse (progOf racePhase 1), h1]; simp
  · intro a ha hw
    rw [List.mem_reverse] at ha
    have : a ∈ progOf racePhase 1 := by
      rw [← List.mem_reverse, h1]; exact List.mem_append_left _ ha
    rw [race_bup_act 1 a this hw] at ha
    exact h2 ha

/-- an execution in which the beta ends up wrong: rank 1 evaluates it before rank 0 has computed the flux, and stores it after rank 0 has stored
the right value -/
theorem race_bad (m : A2 × Int × Int → Nat) : ∃ m', PhaseExec (progOf racePhase) m m' ∧ m' locB = m locF := by
  obtain ⟨p, q, hpq, hq⟩ := race_split
  let a := (sB.toStmt 2 2).act locB
  let s0 : PSt (Fin 2) (A2 × Int × Int) Nat := ⟨m, progOf racePhase, fun _ => none⟩
  let m1 := p.foldl exec1 m
  let s1 : PSt (Fin 2) (A2 × Int × Int) Nat := ⟨m1, upd (progOf racePhase) 1 (a :: q), fun _ => none⟩
  have r1 : Steps s0 s1 := run_alone 1 p s0 (a :: q) hpq rfl
  let s2 : PSt (Fin 2) (A2 × Int × Int) Nat := { s1 with reg := upd s1.reg 1 (some (a.f m1)) }
  have r2 : Step s1 s2 := Step.load s1 1 a q (by simp [s1, upd]) rfl
  let s3 : PSt (Fin 2) (A2 × Int × Int) Nat := ⟨(progOf racePhase 0).foldl exec1 m1, upd s2.rem 0 [], s2.reg⟩
  have r3 : Steps s2 s3 := run_alone 0 (progOf racePhase 0) s2 [] (by simp [s2, s1, upd]) (by simp [s2, s1, upd])
  let s4 : PSt (Fin 2) (A2 × Int × Int) Nat := ⟨upd s3.mem a.wr (a.f m1), upd s3.rem 1 q, upd s3.reg 1 none⟩
  have r4 : Step s3 s4 := Step.store s3 1 a q _ (by simp [s3, s2, s1, upd]) (by simp [s3, s2, upd])
  let s5 : PSt (Fin 2) (A2 × Int × Int) Nat := ⟨q.foldl exec1 s4.mem, upd s4.rem 1 [], s4.reg⟩
  have r5 : Steps s4 s5 := run_alone 1 q s4 [] (by simp [s4, upd]) (by simp [s4, upd])
  refine ⟨s5.mem, ⟨s5, Steps.trans (Steps.tail _ _ _ (Steps.trans (Steps.tail _ _ _ r1 r2) r3) r4) r5, ?_, rfl⟩, ?_⟩
  · intro t
    fin_cases t
    · simp [s5, s4, s3, upd]
    · simp [s5, upd]
  · show q.foldl exec1 s4.mem locB = m locF
    rw [foldl_exec_notin q _ _ hq]
    show upd s3.mem a.wr (a.f m1) locB = m locF
    have : a.wr = locB := rfl
    rw [upd, if_pos this.symm]
    show a.f m1 = m locF
    rw [race_bup_val]
    refine foldl_exec_notin p m _ ?_
    intro b hb
    exact race_noflux b (by rw [hpq]; exact List.mem_append_left _ hb)

/-- an execution in which rank 0 runs before rank 1 -/
theorem race_good (m : A2 × Int × Int → Nat) : ∃ m', PhaseExec (progOf racePhase) m m' ∧ m' locB = 1 := by
  obtain ⟨p, q, hpq, hq⟩ := race_split
  let a := (sB.toStmt 2 2).act locB
  let s0 : PSt (Fin 2) (A2 × Int × Int) Nat := ⟨m, progOf racePhase, fun _ => none⟩
  let m1 := (progOf racePhase 0).foldl exec1 m
  let s1 : PSt (Fin 2) (A2 × Int × Int) Nat := ⟨m1, upd (progOf racePhase) 0 [], fun _ => none⟩
  have r1 : Steps s0 s1 := run_alone 0 (progOf racePhase 0) s0 [] (by simp [s0]) rfl
  let s2 : PSt (Fin 2) (A2 × Int × Int) Nat := ⟨(progOf racePhase 1).foldl exec1 m1, upd s1.rem 1 [], s1.reg⟩
  have r2 : Steps s1 s2 := run_alone 1 (progOf racePhase 1) s1 [] (by simp [s1, upd]) rfl
  refine ⟨s2.mem, ⟨s2, Steps.trans r1 r2, ?_, rfl⟩, ?_⟩
  · intro t
    fin_cases t
    · simp [s2, s1, upd]
    · simp [s2, upd]
  · show (progOf racePhase 1).foldl exec1 m1 locB = 1
    rw [hpq, List.foldl_append, List.foldl_cons, foldl_exec_notin q _ _ hq]
    unfold exec1
    have : ((sB.toStmt 2 2).act locB).wr = locB := rfl
    rw [upd, if_pos this.symm, race_bup_val]
    rw [show p.foldl (fun m a => upd m a.wr (a.f m)) m1 = p.foldl exec1 m1 from rfl]
    rw [foldl_exec_notin p _ _ (fun b hb => race_noflux b (by rw [hpq]; exact List.mem_append_left _ hb))]
    refine foldl_exec_const _ _ _ _ ?_ ?_
    · intro b hb hw mm
      obtain ⟨s, hs, l, hl, rfl⟩ := (race_mem 0 b).1 hb
      have h' : l = locF := hw
      subst h'
      obtain ⟨h1, -, -⟩ := race_dom s 0 _ hl
      simp only [flux2b, betas2, List.mem_append, List.mem_cons, List.not_mem_nil, or_false] at hs
      rcases hs with (rfl | rfl) | (rfl | rfl)
      · rfl
      · simp at h1
      · simp at h1
      · simp at h1
    · refine ⟨((flux2b raceF 1 false 1).head (by simp [flux2b])).toStmt 2 2 |>.act locF, (race_mem 0 _).2 ⟨_, ?_, locF, ?_, rfl⟩, rfl⟩
      · exact List.mem_append_left _ (List.head_mem _)
      · rw [mem_dom]
        refine ⟨rfl, ?_, ?_⟩
        · simp only [flux2b, List.head_cons]; decide
        · simp only [flux2b, List.head_cons, mem_rows]; omega

/-- **C26 fails for 2-D FCT without the infinite-gauge option**: for 2 × 1 points and two threads, the two phases of the flux-correction step that
compute betas and limited velocities (as they stand in `iter2`) have two executions from the same memory that end with different limited
velocities on the face between the threads' slabs. -/
theorem C26_fails_fct_2d : ∃ (o : TOpts) (m m' m'' : A2 × Int × Int → Nat), o.fct = true ∧ o.iga = false ∧
    [flux2b raceF 1 false 1 ++ betas2 raceF 1 false .flux 1, mono2 raceF 1 false 1 ++ flux2 raceF 1 false .mono 1] <:+: iter2 raceF o 2 1 false 1 ∧
    PhasesExec (toPhases 2 2 [flux2b raceF 1 false 1 ++ betas2 raceF 1 false .flux 1, mono2 raceF 1 false 1 ++ flux2 raceF 1 false .mono 1]) m m' ∧
    PhasesExec (toPhases 2 2 [flux2b raceF 1 false 1 ++ betas2 raceF 1 false .flux 1, mono2 raceF 1 false 1 ++ flux2 raceF 1 false .mono 1]) m m'' ∧
    m' (.mono false, 0, 0) ≠ m'' (.mono false, 0, 0) := by
  have second : ∀ m1 : A2 × Int × Int → Nat, ∃ m2, PhaseExec (progOf ((mono2 raceF 1 false 1 ++ flux2 raceF 1 false .mono 1).map
      fun s => s.toStmt 2 2)) m1 m2 ∧ m2 (.mono false, 0, 0) = m1 locB := by
    intro m1
    obtain ⟨m2, h2⟩ := phase_exec_exists (progOf ((mono2 raceF 1 false 1 ++ flux2 raceF 1 false .mono 1).map fun s => s.toStmt 2 2)) m1
    refine ⟨m2, h2, ?_⟩
    have hg : Good 2 2 (mono2 raceF 1 false 1 ++ flux2 raceF 1 false .mono 1) [] (mono2 raceF 1 false 1 ++ flux2 raceF 1 false .mono 1) := by
      have hf := flux2_reads raceF 2 1 2 false (all := mono2 raceF 1 false 1 ++ flux2 raceF 1 false .mono 1) (pre := mono2 raceF 1 false 1) .mono 1
        (by simp [mono2, flux2])
        (Or.inr ⟨_, List.mem_cons_self, _, List.mem_cons_of_mem _ List.mem_cons_self, rfl, rfl, rfl, rfl, rfl, rfl⟩)
      refine ⟨?_, ?_, hf _ (by simp [mono2]) _ (by simp [flux2]), hf _ (by simp [mono2]) _ (by simp [flux2]), trivial⟩
      · intro t x hx y hy a' x' y' hr
        refine Or.inr (free_of ?_ _ _)
        rcases hr with rfl | ⟨d, rfl⟩ | ⟨rfl | rfl, -⟩ <;> simp [mono2, flux2, corr2]
      · intro t x hx y hy a' x' y' hr
        refine Or.inr (free_of ?_ _ _)
        rcases hr with rfl | ⟨d, rfl⟩ | ⟨rfl | rfl, -⟩ <;> simp [mono2, flux2, corr2]
    have hw := (wf_compute raceF ⟨true, false, false, false, 2, 2⟩ 1 false 1 .mono (Or.inr (Or.inr rfl))).2.2.2.2.2.2.1
    rw [phase_serial (good_safe hg hw.1 hw.2) h2]
    simp only [mono2, flux2, List.cons_append, List.nil_append, List.map_cons, List.map_nil, serial, List.foldl_cons, List.foldl_nil]
    rw [serial1, if_neg, serial1, if_neg, serial1, if_neg, serial1, if_pos]
    · simp [S.toStmt, raceF]
    · refine ⟨0, ?_⟩
      rw [mem_dom]
      exact ⟨rfl, by simp only; decide, by simp only [mem_rows]; omega⟩
    · rintro ⟨t, ht⟩; have := (race_dom _ t _ ht).1; simp at this
    · rintro ⟨t, ht⟩; have := (race_dom _ t _ ht).1; simp at this
    · rintro ⟨t, ht⟩; have := (race_dom _ t _ ht).1; simp at this
  obtain ⟨b1, hb1, hb2⟩ := race_bad (fun _ => 0)
  obtain ⟨g1, hg1, hg2⟩ := race_good (fun _ => 0)
  obtain ⟨b2, hb3, hb4⟩ := second b1
  obtain ⟨g2, hg3, hg4⟩ := second g1
  refine ⟨⟨true, false, false, false, 2, 2⟩, fun _ => 0, b2, g2, rfl, rfl, ?_, ?_, ?_, ?_⟩
  · refine ⟨xchng2 raceF ⟨true, false, false, false, 2, 2⟩ 2 1 (.psi false) ++ [anti2 raceF 1 false 1] ++
      alng2 raceF ⟨true, false, false, false, 2, 2⟩ 2 1 (corr2 1) ++ nrml2 raceF ⟨true, false, false, false, 2, 2⟩ 2 1 (corr2 1),
      xflux2 raceF 2 1 .flux ++ [[donor2 raceF 1 false .flux 1]], ?_⟩
    simp [iter2]
  · exact PhasesExec.cons _ _ _ _ _ hb1 (PhasesExec.cons _ _ _ _ _ hb3 (PhasesExec.nil _))
  · exact PhasesExec.cons _ _ _ _ _ hg1 (PhasesExec.cons _ _ _ _ _ hg3 (PhasesExec.nil _))
  · rw [hb4, hg4, hb2, hg2]; decide

end Threads
end Mpdata
