import Verif.Props.ThreadsRace
import Verif.Props.Threads3
/-! # C26: the same data race in three-dimensional FCT

As `Verif.Props.ThreadsRace`: along the split dimension 1 `jm^1` of every rank but the first starts at `first - 1` (mpdata_osc_3d.hpp:257), while the betas
computed on `j^1` read the flux at `first - 2` (mpdata_fct_3d.hpp:81-92, no barrier in between). -/
namespace Mpdata
namespace Threads
open Classical

/-- formulae for the witness: fluxes are 1, `beta_up` is the flux through the left face, limited velocities are `beta_up` of the left cell -/
def raceF3 : F3 Nat where
  pmin _ _ _ := 0
  pmax _ _ _ := 0
  flx _ _ _ _ _ := 0
  flx1 _ _ _ _ _ := 1
  anti _ _ _ _ _ := 0
  bup _ v x y := (v (.flux 1) (x - 1) y).getD 0
  bdn _ _ _ _ := 0
  mono _ _ v x y := (v .bup x y).getD 0
  donor _ _ _ _ := 0
  sclr _ _ _ _ _ := 0
  alng _ _ _ _ _ _ := 0
  zero _ _ _ _ _ _ _ := 0
  nrml _ _ _ _ _ _ := 0
  fluxB _ _ _ _ _ := 0

/-- the phase of `fct_adjust_antidiff` computing fluxes and betas (1 × 2 × 1 points, 2 threads) -/
noncomputable abbrev racePhase3 : List (Stmt (Fin 2) (A3 × Int × IK) Nat) :=
  (flux3b raceF3 1 1 false 1 ++ betas3 raceF3 1 1 false .flux 1).map fun s => s.toStmt 2 2

theorem race3_dom (s : S A3 IK Nat) (t : Fin 2) (l : A3 × Int × IK) (h : l ∈ (s.toStmt 2 2).dom t) :
    l.1 = s.dst ∧ (s.dom.rng 2 2 t).Mem l.2.1 ∧ l.2.2 ∈ s.ys := (mem_dom s 2 2 t l).1 h

theorem race3_mem (t : Fin 2) (b : Act (A3 × Int × IK) Nat) : b ∈ progOf racePhase3 t ↔
    ∃ s ∈ flux3b raceF3 1 1 false 1 ++ betas3 raceF3 1 1 false .flux 1, ∃ l ∈ (s.toStmt 2 2).dom t, b = (s.toStmt 2 2).act l := by
  unfold progOf racePhase3
  simp only [List.mem_flatMap, List.mem_map]
  constructor
  · rintro ⟨_, ⟨s, hs, rfl⟩, l, hl, rfl⟩; exact ⟨s, hs, l, hl, rfl⟩
  · rintro ⟨s, hs, l, hl, rfl⟩; exact ⟨_, ⟨s, hs, rfl⟩, l, hl, rfl⟩

/-- location of the flux that rank 1 does not compute, and of the beta that both ranks compute -/
abbrev locF3 : A3 × Int × IK := (.flux 1, -1, (0, 0))
abbrev locB3 : A3 × Int × IK := (.bup, 0, (0, 0))

theorem race3_noflux : ∀ a ∈ progOf racePhase3 1, a.wr ≠ locF3 := by
  intro a ha h
  obtain ⟨s, hs, l, hl, rfl⟩ := (race3_mem 1 a).1 ha
  have h' : l = locF3 := h
  subst h'
  obtain ⟨h1, h2, -⟩ := race3_dom s 1 _ hl
  simp only [flux3b, betas3, List.mem_append, List.mem_cons, List.not_mem_nil, or_false] at hs
  rcases hs with (rfl | rfl | rfl) | (rfl | rfl)
  · simp at h1
  · simp only [Dom.rng, race_slab1, Rng.Mem] at h2
    revert h2; decide
  all_goals simp at h1

/-- the statement computing `beta_up` -/
abbrev sB3 : S A3 IK Nat := (betas3 raceF3 1 1 false .flux 1).head (by simp [betas3])

theorem race3_bup_act (t : Fin 2) (a : Act (A3 × Int × IK) Nat) (ha : a ∈ progOf racePhase3 t) (h : a.wr = locB3) : a = (sB3.toStmt 2 2).act locB3 := by
  obtain ⟨s, hs, l, hl, rfl⟩ := (race3_mem t a).1 ha
  have h' : l = locB3 := h
  subst h'
  obtain ⟨h1, -, -⟩ := race3_dom s t _ hl
  simp only [flux3b, betas3, List.mem_append, List.mem_cons, List.not_mem_nil, or_false] at hs
  rcases hs with (rfl | rfl | rfl) | (rfl | rfl)
  · simp at h1
  · simp at h1
  · simp at h1
  · rfl
  · simp at h1

theorem race3_bup_mem (t : Fin 2) : (sB3.toStmt 2 2).act locB3 ∈ progOf racePhase3 t := by
  refine (race3_mem t _).2 ⟨sB3, List.mem_append_right _ (List.head_mem _), locB3, ?_, rfl⟩
  rw [mem_dom]
  refine ⟨rfl, ?_, ?_⟩
  · revert t; decide
  · show ((0, 0) : IK) ∈ box (rows (-1) 1) (rows (-1) 1)
    rw [mem_box, mem_rows]; omega

/-- value written for the beta: the flux at `locF3` as seen when it is evaluated -/
theorem race3_bup_val (m : A3 × Int × IK → Nat) : ((sB3.toStmt 2 2).act locB3).f m = m locF3 := by
  show ((if sB3.rd 0 (0, 0) (.flux 1) (0 - 1) (0, 0) then some (m (.flux 1, 0 - 1, (0, 0))) else none).getD 0) = m locF3
  rw [if_pos]
  · rfl
  · show A3.flux 1 = A3.psi false ∨ A3.flux 1 = A3.pmax ∨ Faces _ _ _ _ _ _
    exact Or.inr (Or.inr (Or.inr (Or.inl ⟨rfl, Or.inr rfl, rfl⟩)))

theorem race3_split : ∃ p q, progOf racePhase3 1 = p ++ (sB3.toStmt 2 2).act locB3 :: q ∧ ∀ a ∈ q, a.wr ≠ locB3 := by
  have h : (sB3.toStmt 2 2).act locB3 ∈ (progOf racePhase3 1).reverse := List.mem_reverse.2 (race3_bup_mem 1)
  obtain ⟨p, q, h1, h2⟩ := List.eq_append_cons_of_mem h
  refine ⟨q.reverse, p.reverse, ?_, ?_⟩
  · rw [← List.reverse_reverse (progOf racePhase3 1), h1]; simp
  · intro a ha hw
    rw [List.mem_reverse] at ha
    have : a ∈ progOf racePhase3 1 := by
      rw [← List.mem_reverse, h1]; exact List.mem_append_left _ ha
    rw [race3_bup_act 1 a this hw] at ha
    exact h2 ha

/-- an execution in which the beta ends up wrong: rank 1 evaluates it before rank 0 has computed the flux, and stores it after rank 0 has stored
the right value -/
theorem race3_bad (m : A3 × Int × IK → Nat) : ∃ m', PhaseExec (progOf racePhase3) m m' ∧ m' locB3 = m locF3 := by
  obtain ⟨p, q, hpq, hq⟩ := race3_split
  let a := (sB3.toStmt 2 2).act locB3
  let s0 : PSt (Fin 2) (A3 × Int × IK) Nat := ⟨m, progOf racePhase3, fun _ => none⟩
  let m1 := p.foldl exec1 m
  let s1 : PSt (Fin 2) (A3 × Int × IK) Nat := ⟨m1, upd (progOf racePhase3) 1 (a :: q), fun _ => none⟩
  have r1 : Steps s0 s1 := run_alone 1 p s0 (a :: q) hpq rfl
  let s2 : PSt (Fin 2) (A3 × Int × IK) Nat := { s1 with reg := upd s1.reg 1 (some (a.f m1)) }
  have r2 : Step s1 s2 := Step.load s1 1 a q (by simp [s1, upd]) rfl
  let s3 : PSt (Fin 2) (A3 × Int × IK) Nat := ⟨(progOf racePhase3 0).foldl exec1 m1, upd s2.rem 0 [], s2.reg⟩
  have r3 : Steps s2 s3 := run_alone 0 (progOf racePhase3 0) s2 [] (by simp [s2, s1, upd]) (by simp [s2, s1, upd])
  let s4 : PSt (Fin 2) (A3 × Int × IK) Nat := ⟨upd s3.mem a.wr (a.f m1), upd s3.rem 1 q, upd s3.reg 1 none⟩
  have r4 : Step s3 s4 := Step.store s3 1 a q _ (by simp [s3, s2, s1, upd]) (by simp [s3, s2, upd])
  let s5 : PSt (Fin 2) (A3 × Int × IK) Nat := ⟨q.foldl exec1 s4.mem, upd s4.rem 1 [], s4.reg⟩
  have r5 : Steps s4 s5 := run_alone 1 q s4 [] (by simp [s4, upd]) (by simp [s4, upd])
  refine ⟨s5.mem, ⟨s5, Steps.trans (Steps.tail _ _ _ (Steps.trans (Steps.tail _ _ _ r1 r2) r3) r4) r5, ?_, rfl⟩, ?_⟩
  · intro t
    fin_cases t
    · simp [s5, s4, s3, upd]
    · simp [s5, upd]
  · show q.foldl exec1 s4.mem locB3 = m locF3
    rw [foldl_exec_notin q _ _ hq]
    show upd s3.mem a.wr (a.f m1) locB3 = m locF3
    have : a.wr = locB3 := rfl
    rw [upd, if_pos this.symm]
    show a.f m1 = m locF3
    rw [race3_bup_val]
    refine foldl_exec_notin p m _ ?_
    intro b hb
    exact race3_noflux b (by rw [hpq]; exact List.mem_append_left _ hb)

set_option maxRecDepth 4000 in
/-- an execution in which rank 0 runs before rank 1 -/
theorem race3_good (m : A3 × Int × IK → Nat) : ∃ m', PhaseExec (progOf racePhase3) m m' ∧ m' locB3 = 1 := by
  obtain ⟨p, q, hpq, hq⟩ := race3_split
  let a := (sB3.toStmt 2 2).act locB3
  let s0 : PSt (Fin 2) (A3 × Int × IK) Nat := ⟨m, progOf racePhase3, fun _ => none⟩
  let m1 := (progOf racePhase3 0).foldl exec1 m
  let s1 : PSt (Fin 2) (A3 × Int × IK) Nat := ⟨m1, upd (progOf racePhase3) 0 [], fun _ => none⟩
  have r1 : Steps s0 s1 := run_alone 0 (progOf racePhase3 0) s0 [] (by simp [s0]) rfl
  let s2 : PSt (Fin 2) (A3 × Int × IK) Nat := ⟨(progOf racePhase3 1).foldl exec1 m1, upd s1.rem 1 [], s1.reg⟩
  have r2 : Steps s1 s2 := run_alone 1 (progOf racePhase3 1) s1 [] (by simp [s1, upd]) rfl
  refine ⟨s2.mem, ⟨s2, Steps.trans r1 r2, ?_, rfl⟩, ?_⟩
  · intro t
    fin_cases t
    · simp [s2, s1, upd]
    · simp [s2, upd]
  · show (progOf racePhase3 1).foldl exec1 m1 locB3 = 1
    rw [hpq, List.foldl_append, List.foldl_cons, foldl_exec_notin q _ _ hq]
    unfold exec1
    have : ((sB3.toStmt 2 2).act locB3).wr = locB3 := rfl
    rw [upd, if_pos this.symm, race3_bup_val]
    rw [show p.foldl (fun m a => upd m a.wr (a.f m)) m1 = p.foldl exec1 m1 from rfl]
    rw [foldl_exec_notin p _ _ (fun b hb => race3_noflux b (by rw [hpq]; exact List.mem_append_left _ hb))]
    refine foldl_exec_const _ _ _ _ ?_ ?_
    · intro b hb hw mm
      obtain ⟨s, hs, l, hl, rfl⟩ := (race3_mem 0 b).1 hb
      have h' : l = locF3 := hw
      subst h'
      obtain ⟨h1, -, -⟩ := race3_dom s 0 _ hl
      simp only [flux3b, betas3, List.mem_append, List.mem_cons, List.not_mem_nil, or_false] at hs
      rcases hs with (rfl | rfl | rfl) | (rfl | rfl)
      · simp at h1
      · rfl
      all_goals simp at h1
    · let sF : S A3 IK Nat := ⟨.flux 1, .face 1, box (rows (-1) 1) (rows (-1) 1), fun x y a' x' y' => a' = .psi false ∨ (a' = corr3 1 1 ∧ x' = x ∧ y' = y), raceF3.flx1 1 1⟩
      refine ⟨(sF.toStmt 2 2).act locF3, (race3_mem 0 _).2 ⟨sF, ?_, locF3, ?_, rfl⟩, rfl⟩
      · simp [flux3b, sF]
      · rw [mem_dom]
        refine ⟨rfl, ?_, ?_⟩
        · show (Dom.rng (.face 1) 2 2 0).Mem (-1)
          decide
        · show ((0, 0) : IK) ∈ box (rows (-1) 1) (rows (-1) 1)
          rw [mem_box, mem_rows]; omega

/-- **C26 fails for 3-D FCT without the infinite-gauge option**: for 1 × 2 × 1 points and two threads, the two phases of the flux-correction step that
compute betas and limited velocities (as they stand in `iter3`) have two executions from the same memory that end with different limited
velocities on the face between the threads' slabs. -/
theorem C26_fails_fct_3d (div3 : Bool) : ∃ (o : TOpts) (m m' m'' : A3 × Int × IK → Nat), o.fct = true ∧ o.iga = false ∧
    [flux3b raceF3 1 1 false 1 ++ betas3 raceF3 1 1 false .flux 1, mono3 raceF3 1 1 false 1 ++ flux3 raceF3 1 1 false .mono 1] <:+: iter3 raceF3 o div3 1 2 1 false 1 ∧
    PhasesExec (toPhases 2 2 [flux3b raceF3 1 1 false 1 ++ betas3 raceF3 1 1 false .flux 1, mono3 raceF3 1 1 false 1 ++ flux3 raceF3 1 1 false .mono 1]) m m' ∧
    PhasesExec (toPhases 2 2 [flux3b raceF3 1 1 false 1 ++ betas3 raceF3 1 1 false .flux 1, mono3 raceF3 1 1 false 1 ++ flux3 raceF3 1 1 false .mono 1]) m m'' ∧
    m' (.mono 1, 0, (0, 0)) ≠ m'' (.mono 1, 0, (0, 0)) := by
  have second : ∀ m1 : A3 × Int × IK → Nat, ∃ m2, PhaseExec (progOf ((mono3 raceF3 1 1 false 1 ++ flux3 raceF3 1 1 false .mono 1).map
      fun s => s.toStmt 2 2)) m1 m2 ∧ m2 (.mono 1, 0, (0, 0)) = m1 locB3 := by
    intro m1
    obtain ⟨m2, h2⟩ := phase_exec_exists (progOf ((mono3 raceF3 1 1 false 1 ++ flux3 raceF3 1 1 false .mono 1).map fun s => s.toStmt 2 2)) m1
    refine ⟨m2, h2, ?_⟩
    have ho : OwnPhase 2 (mono3 raceF3 1 1 false 1 ++ flux3 raceF3 1 1 false .mono 1) := by
      refine ⟨?_, ?_, ?_, ?_⟩ <;> simp only [mono3, flux3, List.cons_append, List.nil_append, List.mem_cons, List.mem_nil_iff, or_false]
      · rintro s (rfl | rfl | rfl | rfl | rfl | rfl) <;> simp [Dom.Own]
      · rintro s (rfl | rfl | rfl | rfl | rfl | rfl) <;> exact nodup_box (nodup_rows _ _) (nodup_rows _ _)
      · intro s hs x hx y hy a' x' y' hr s' hs' hd hy' hx'
        have e : (∃ d, s'.dst = .mono d) ∨ ∃ d, s'.dst = .flux d := by
          rcases hs' with rfl | rfl | rfl | rfl | rfl | rfl <;> simp
        have e2 : a' = .psi false ∨ a' = .bup ∨ a' = .bdn ∨ x' = x := by
          rcases hs with rfl | rfl | rfl | rfl | rfl | rfl <;>
            first
              | (rcases hr with h | ⟨-, h, -⟩ | ⟨h | h, -⟩ <;> simp [h])
              | (rcases hr with h | ⟨-, h, -⟩ <;> simp [h])
        rcases e2 with h | h | h | h
        · rcases e with ⟨d, e⟩ | ⟨d, e⟩ <;> rw [e, h] at hd <;> cases hd
        · rcases e with ⟨d, e⟩ | ⟨d, e⟩ <;> rw [e, h] at hd <;> cases hd
        · rcases e with ⟨d, e⟩ | ⟨d, e⟩ <;> rw [e, h] at hd <;> cases hd
        · exact Or.inl h
      · rintro s (rfl | rfl | rfl | rfl | rfl | rfl) x y x' y' hx hy hr hx' hy' <;> simp [corr3] at hr
    rw [phase_serial_owned (own_stmts (by decide) (by decide) ho) h2]
    simp only [mono3, flux3, List.cons_append, List.nil_append, List.map_cons, List.map_nil, serial, List.foldl_cons, List.foldl_nil]
    rw [serial1, if_neg, serial1, if_neg, serial1, if_neg, serial1, if_neg, serial1, if_pos]
    · simp [S.toStmt, raceF3]
      rw [serial1, if_neg]
      rintro ⟨t, ht⟩
      simp at ht
    · refine ⟨0, ?_⟩
      rw [mem_dom]
      exact ⟨rfl, by simp only; decide, by simp only [mem_box, mem_rows]; omega⟩
    · rintro ⟨t, ht⟩; have := (race3_dom _ t _ ht).1; simp at this
    · rintro ⟨t, ht⟩; have := (race3_dom _ t _ ht).1; simp at this
    · rintro ⟨t, ht⟩; have := (race3_dom _ t _ ht).1; simp at this
    · rintro ⟨t, ht⟩; have := (race3_dom _ t _ ht).1; simp at this
  obtain ⟨b1, hb1, hb2⟩ := race3_bad (fun _ => 0)
  obtain ⟨g1, hg1, hg2⟩ := race3_good (fun _ => 0)
  obtain ⟨b2, hb3, hb4⟩ := second b1
  obtain ⟨g2, hg3, hg4⟩ := second g1
  refine ⟨⟨true, false, false, false, 2, 2⟩, fun _ => 0, b2, g2, rfl, rfl, ?_, ?_, ?_, ?_⟩
  · refine ⟨xchng3 raceF3 ⟨true, false, false, false, 2, 2⟩ 1 2 1 (.psi false) ++ [anti3 raceF3 div3 1 1 false 1] ++
      alng3 raceF3 ⟨true, false, false, false, 2, 2⟩ 1 2 1 true (corr3 1) ++ nrml3 raceF3 ⟨true, false, false, false, 2, 2⟩ div3 1 2 1 0 (corr3 1),
      xflux3 raceF3 1 2 1 .flux ++ [[donor3 raceF3 1 1 false .flux 1]], ?_⟩
    simp [iter3]
  · exact PhasesExec.cons _ _ _ _ _ hb1 (PhasesExec.cons _ _ _ _ _ hb3 (PhasesExec.nil _))
  · exact PhasesExec.cons _ _ _ _ _ hg1 (PhasesExec.cons _ _ _ _ _ hg3 (PhasesExec.nil _))
  · rw [hb4, hg4, hb2, hg2]; decide

end Threads
end Mpdata
