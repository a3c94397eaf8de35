import Verif.Props.ThreadSgs
import Verif.Props.ThreadsRace
import Mathlib.Tactic.NormNum
/-! # C51: a data race with compact differencing and Smagorinsky viscosity

`multiply_sgs_visc` (mpdata_rhs_vip_prs_sgs_smg.hpp:35-43) computes `k_m` on the thread's points and then multiplies the tensor on the thread's faces with no
barrier in between. `k_m` at the first point of a slab reads the tensor on the face to its left, which the other thread multiplies in the same phase; and the
multiplication on the last face of a slab reads `k_m` at the first point of the next one. -/
set_option linter.unusedSectionVars false
namespace Mpdata
namespace Threads
open Classical

section generic
variable {ι L V : Type} [DecidableEq ι] [DecidableEq L]

/-- effect of a statement on what one thread assigns -/
noncomputable def eff (s : Stmt ι L V) (t : ι) (m : L → V) : L → V := fun l => if l ∈ s.dom t then s.f m l else m l

theorem alone_progOf (t : ι) : ∀ (ss : List (Stmt ι L V)) (m : L → V),
    (∀ s ∈ ss, (∀ (m m' : L → V) l, (∀ l', s.rd l l' → m l' = m' l') → s.f m l = s.f m' l) ∧ (s.dom t).Nodup ∧
      ∀ l ∈ s.dom t, ∀ l', s.rd l l' → l' ∈ s.dom t → l' = l) → alone m (progOf ss t) = ss.foldl (fun m s => eff s t m) m := by
  intro ss
  induction ss with
  | nil => intro m _; rfl
  | cons s ss ih =>
    intro m h
    have hc : progOf (s :: ss) t = (s.dom t).map s.act ++ progOf ss t := by simp [progOf]
    obtain ⟨h1, h2, h3⟩ := h s List.mem_cons_self
    rw [hc, alone_append, ih _ (fun s' hs' => h s' (List.mem_cons_of_mem _ hs')), List.foldl_cons]
    congr 1
    funext l
    rw [alone_stmt s t (fun _ => True) m m (fun _ _ => rfl) h1 h2 (fun l hl l' hr => ⟨trivial, h3 l hl l' hr⟩) l trivial]
    rfl

/-- two threads may run one after the other -/
theorem exec_two (prog : Fin 2 → List (Act L V)) (m : L → V) (t t' : Fin 2) (h : t ≠ t') : PhaseExec prog m (alone (alone m (prog t)) (prog t')) := by
  let s0 : PSt (Fin 2) L V := ⟨m, prog, fun _ => none⟩
  let s1 : PSt (Fin 2) L V := ⟨(prog t).foldl exec1 m, upd prog t [], fun _ => none⟩
  have r1 : Steps s0 s1 := run_alone t (prog t) s0 [] (by simp [s0]) rfl
  let s2 : PSt (Fin 2) L V := ⟨(prog t').foldl exec1 s1.mem, upd s1.rem t' [], s1.reg⟩
  have r2 : Steps s1 s2 := run_alone t' (prog t') s1 [] (by simp [s1, upd, Ne.symm h]) rfl
  refine ⟨s2, Steps.trans r1 r2, ?_, rfl⟩
  intro u
  have : u = t ∨ u = t' := by
    fin_cases u <;> fin_cases t <;> fin_cases t' <;> simp_all
  rcases this with rfl | rfl
  · simp [s2, s1, upd, h]
  · simp [s2, upd]
end generic

/-- value seen, zero if not visible -/
def see (v : View As Int ℚ) (a : As) (x y : Int) : ℚ := (v a x y).getD 0

/-- formulae of the witness: unit grid steps, `smg_c = 1`, `G = 1`; viscosity, multiplication and forces as in the code (mpdata_rhs_vip_prs_sgs_smg.hpp:33-43,
stress_formulae.hpp:367-395, 455-471, 571-592, 754-790), everything else sets zero -/
def sgsRaceF : FS ℚ where
  fillX _ _ _ _ _ := 0
  fillY _ _ _ _ := 0
  vgrad _ _ _ _ _ := 0
  copyW _ _ _ := 0
  padeW _ _ _ _ _ := 0
  padeA _ _ _ := 0
  copyD _ _ _ := 0
  deform _ _ _ _ := 0
  km _ _ _ := 0
  mul _ _ _ _ := 0
  sdiv _ _ _ _ _ := 0
  srhs _ _ _ _ := 0
  drag _ _ _ := 0
  vipDiv _ _ _ := 0
  deformC _ _ _ _ := 0
  kmC v x y := (1 * ((1 + 1) / 3)) ^ 2 * (
    ((see v (.tau 0) x y) ^ 2 + (see v (.tau 0) (x - 1) y) ^ 2 + (see v (.tau 1) x y) ^ 2 + (see v (.tau 1) x (y - 1)) ^ 2
      + (see v (.tau 2) x y) ^ 2 + (see v (.tau 2) (x - 1) y) ^ 2 + (see v (.tau 2) x (y - 1)) ^ 2 + (see v (.tau 2) (x - 1) (y - 1)) ^ 2) / 8
    + (max ((see v (.tau 0) x y) ^ 2) ((see v (.tau 0) (x - 1) y) ^ 2) + max ((see v (.tau 1) x y) ^ 2) ((see v (.tau 1) x (y - 1)) ^ 2)
      + 2 * max (max ((see v (.tau 2) x y) ^ 2) ((see v (.tau 2) (x - 1) y) ^ 2)) (max ((see v (.tau 2) x (y - 1)) ^ 2) ((see v (.tau 2) (x - 1) (y - 1)) ^ 2))) / 4)
  mulC k v x y := see v (.tau k) x y *
    (if k = 0 then 1 / 2 * (see v .km (x + 1) y + see v .km x y) else if k = 1 then 1 / 2 * (see v .km x (y + 1) + see v .km x y)
     else 1 / 4 * (see v .km (x + 1) y + see v .km x y + see v .km (x + 1) (y + 1) + see v .km x (y + 1)))
  srhsC d v x y := see v (.rhs d) x y + 2 * (if d = false then
      (see v (.tau 0) x y - see v (.tau 0) (x - 1) y)
        + 1 / 2 * (see v (.tau 2) x y - see v (.tau 2) x (y - 1) + see v (.tau 2) (x - 1) y - see v (.tau 2) (x - 1) (y - 1))
    else 1 / 2 * (see v (.tau 2) x y - see v (.tau 2) (x - 1) y + see v (.tau 2) x (y - 1) - see v (.tau 2) (x - 1) (y - 1))
        + (see v (.tau 1) x y - see v (.tau 1) x (y - 1)))

def sgsRaceO : SOpts := ⟨.compact, true, false, 1⟩

theorem sgs_slab0 : slabOf 4 2 0 = ⟨0, 1⟩ := by decide
theorem sgs_slab1 : slabOf 4 2 1 = ⟨2, 3⟩ := by decide

/-- the phase of the race -/
noncomputable abbrev sgsRacePhase : List (Stmt (Fin 2) (As × Int × Int) ℚ) := (sviscC sgsRaceF sgsRaceO 1).map fun s => s.toStmt 4 2

/-- only one tensor element is not zero, on the face between the two slabs -/
def sgsRaceMem : As × Int × Int → ℚ := fun l => if l = (.tau 0, 1, 0) then 1 else 0

theorem sgs_alone (t : Fin 2) (m : As × Int × Int → ℚ) : alone m (progOf sgsRacePhase t) = sgsRacePhase.foldl (fun m s => eff s t m) m := by
  refine alone_progOf t _ m ?_
  intro s' hs'
  obtain ⟨s, hs, rfl⟩ := List.mem_map.1 hs'
  refine ⟨?_, ?_, ?_⟩
  · intro m m' l hl
    show s.f _ _ _ = s.f _ _ _
    congr 1
    funext a x y
    by_cases h : s.rd l.2.1 l.2.2 a x y
    · simp only [if_pos h]; rw [hl (a, x, y) h]
    · simp only [if_neg h]
  · refine stmt_nodup s 4 2 t ?_
    simp only [sviscC, sgsRaceO, skmC, smulC, if_true, List.cons_append, List.nil_append, List.mem_cons, List.not_mem_nil, or_false] at hs
    rcases hs with rfl | rfl | rfl | rfl <;> exact nodup_rows _ _
  · intro l hl l' hr hl'
    have h1 := (mem_dom s 4 2 t l).1 hl
    have h2 := (mem_dom s 4 2 t l').1 hl'
    have hr' : s.rd l.2.1 l.2.2 l'.1 l'.2.1 l'.2.2 := hr
    rw [h2.1] at hr'
    simp only [sviscC, sgsRaceO, skmC, smulC, if_true, List.cons_append, List.nil_append, List.mem_cons, List.not_mem_nil, or_false] at hs
    rcases hs with rfl | rfl | rfl | rfl
    · simp at hr'
    all_goals
      simp only [true_and, reduceCtorEq, false_and, and_false, or_false] at hr'
      exact Prod.ext (by rw [h1.1, h2.1]) (Prod.ext hr'.1 hr'.2)

/-- elements of the tensor that are zero stay zero -/
theorem eff_zero (t : Fin 2) (m : As × Int × Int → ℚ) (s : S As Int ℚ) (hs : s ∈ sviscC sgsRaceF sgsRaceO 1) (k : Fin 3) (x y : Int) (h : m (.tau k, x, y) = 0) :
    eff (s.toStmt 4 2) t m (.tau k, x, y) = 0 := by
  unfold eff
  split_ifs with hd
  · have hk := ((mem_dom s 4 2 t _).1 hd).1
    simp only [sviscC, sgsRaceO, skmC, smulC, if_true, List.cons_append, List.nil_append, List.mem_cons, List.not_mem_nil, or_false] at hs
    rcases hs with rfl | rfl | rfl | rfl
    · simp at hk
    all_goals
      simp only [As.tau.injEq] at hk
      subst hk
      simp [S.toStmt, sgsRaceF, see, h]
  · exact h

theorem fold_zero (t : Fin 2) (k : Fin 3) (x y : Int) : ∀ (l : List (S As Int ℚ)), (∀ s ∈ l, s ∈ sviscC sgsRaceF sgsRaceO 1) → ∀ m : As × Int × Int → ℚ,
    m (.tau k, x, y) = 0 → (l.map fun s => s.toStmt 4 2).foldl (fun m s => eff s t m) m (.tau k, x, y) = 0 := by
  intro l
  induction l with
  | nil => intro _ m h; exact h
  | cons s l ih =>
    intro hl m h
    rw [List.map_cons, List.foldl_cons]
    exact ih (fun s' hs' => hl s' (List.mem_cons_of_mem _ hs')) _ (eff_zero t m s (hl s List.mem_cons_self) k x y h)

theorem alone_zero (t : Fin 2) (k : Fin 3) (x y : Int) (m : As × Int × Int → ℚ) (h : m (.tau k, x, y) = 0) : alone m (progOf sgsRacePhase t) (.tau k, x, y) = 0 := by
  rw [sgs_alone]; exact fold_zero t k x y _ (fun _ h => h) m h

theorem eff_other (t : Fin 2) (m : As × Int × Int → ℚ) (s : S As Int ℚ) (l : As × Int × Int) (h : l.1 ≠ s.dst) : eff (s.toStmt 4 2) t m l = m l := by
  unfold eff
  rw [if_neg]
  intro hd
  exact h ((mem_dom s 4 2 t l).1 hd).1

/-- the viscosity a thread computes at its point `(x, 0)` -/
theorem eff_km (t : Fin 2) (m : As × Int × Int → ℚ) (x : Int) (hx : (slabOf 4 2 t).Mem x) : eff ((skmC sgsRaceF 1).toStmt 4 2) t m (.km, x, 0) =
    sgsRaceF.kmC (fun a x y => some (m (a, x, y))) x 0 := by
  unfold eff
  rw [if_pos]
  · simp [S.toStmt, skmC, sgsRaceF, see]
  · rw [mem_dom]
    refine ⟨rfl, by simpa [skmC, Dom.rng] using hx, ?_⟩
    simp only [skmC, mem_rows]; omega

theorem km_outside (t : Fin 2) (m : As × Int × Int → ℚ) (x : Int) (hx : ¬ (slabOf 4 2 t).Mem x) : eff ((skmC sgsRaceF 1).toStmt 4 2) t m (.km, x, 0) = m (.km, x, 0) := by
  unfold eff
  rw [if_neg]
  rw [mem_dom]
  rintro ⟨-, h, -⟩
  exact hx (by simpa [skmC, Dom.rng] using h)

/-- the tensor element between the slabs, multiplied by thread 0 -/
theorem eff_mul0 (m : As × Int × Int → ℚ) : eff ((smulC sgsRaceF sgsRaceO 1 0).toStmt 4 2) 0 m (.tau 0, 1, 0) =
    m (.tau 0, 1, 0) * (1 / 2 * (m (.km, 2, 0) + m (.km, 1, 0))) := by
  unfold eff
  rw [if_pos]
  · simp [S.toStmt, smulC, sgsRaceF, sgsRaceO, see]
  · rw [mem_dom]
    refine ⟨rfl, ?_, ?_⟩
    · simp only [smulC, Dom.rng, sgs_slab0, Rng.Mem]; simp
    · simp only [smulC, mem_rows]; omega

theorem eff_mul1 (m : As × Int × Int → ℚ) : eff ((smulC sgsRaceF sgsRaceO 1 0).toStmt 4 2) 1 m (.tau 0, 1, 0) = m (.tau 0, 1, 0) := by
  unfold eff
  rw [if_neg]
  rw [mem_dom]
  rintro ⟨-, h, -⟩
  simp only [smulC, Dom.rng, sgs_slab1, Rng.Mem] at h
  revert h; decide

theorem race_unfold (t : Fin 2) (m : As × Int × Int → ℚ) : sgsRacePhase.foldl (fun m s => eff s t m) m =
    eff ((smulC sgsRaceF sgsRaceO 1 2).toStmt 4 2) t (eff ((smulC sgsRaceF sgsRaceO 1 1).toStmt 4 2) t (eff ((smulC sgsRaceF sgsRaceO 1 0).toStmt 4 2) t
      (eff ((skmC sgsRaceF 1).toStmt 4 2) t m))) := by
  simp [sgsRacePhase, sviscC, sgsRaceO]

/-- thread 0 alone: the element is multiplied by the average of `k_m` in memory to the right and its own `k_m` to the left -/
theorem tau_thread0 (m : As × Int × Int → ℚ) : alone m (progOf sgsRacePhase 0) (.tau 0, 1, 0) =
    m (.tau 0, 1, 0) * (1 / 2 * (m (.km, 2, 0) + sgsRaceF.kmC (fun a x y => some (m (a, x, y))) 1 0)) := by
  rw [sgs_alone, race_unfold, eff_other _ _ _ _ (by simp [smulC]), eff_other _ _ _ _ (by simp [smulC]), eff_mul0,
    eff_other _ _ _ _ (by simp [skmC]), eff_km 0 m 1 (by rw [sgs_slab0]; simp [Rng.Mem]), km_outside 0 m 2 (by rw [sgs_slab0]; simp [Rng.Mem])]

theorem tau_thread1 (m : As × Int × Int → ℚ) : alone m (progOf sgsRacePhase 1) (.tau 0, 1, 0) = m (.tau 0, 1, 0) := by
  rw [sgs_alone, race_unfold, eff_other _ _ _ _ (by simp [smulC]), eff_other _ _ _ _ (by simp [smulC]), eff_mul1, eff_other _ _ _ _ (by simp [skmC])]

theorem km_thread1 (m : As × Int × Int → ℚ) : alone m (progOf sgsRacePhase 1) (.km, 2, 0) = sgsRaceF.kmC (fun a x y => some (m (a, x, y))) 2 0 := by
  rw [sgs_alone, race_unfold, eff_other _ _ _ _ (by simp [smulC]), eff_other _ _ _ _ (by simp [smulC]), eff_other _ _ _ _ (by simp [smulC]),
    eff_km _ _ _ (by rw [sgs_slab1]; simp [Rng.Mem])]

/-- rank 0 before rank 1 -/
theorem race_01 : alone (alone sgsRaceMem (progOf sgsRacePhase 0)) (progOf sgsRacePhase 1) (.tau 0, 1, 0) = 1 / 12 := by
  rw [tau_thread1, tau_thread0]
  simp [sgsRaceMem, sgsRaceF, see]
  norm_num

/-- rank 1 before rank 0 -/
theorem race_10 : alone (alone sgsRaceMem (progOf sgsRacePhase 1)) (progOf sgsRacePhase 0) (.tau 0, 1, 0) = 1 / 6 := by
  rw [tau_thread0, tau_thread1, km_thread1]
  have z : ∀ (k : Fin 3) (x y : Int), (k, x, y) ≠ (0, 1, 0) → alone sgsRaceMem (progOf sgsRacePhase 1) (.tau k, x, y) = 0 := by
    intro k x y h
    refine alone_zero 1 k x y _ ?_
    unfold sgsRaceMem
    rw [if_neg]
    intro e; apply h
    simpa using e
  have e1 : sgsRaceF.kmC (fun a x y => some (alone sgsRaceMem (progOf sgsRacePhase 1) (a, x, y))) 1 0 = 1 / 6 := by
    simp only [sgsRaceF, see, Option.getD_some]
    rw [z 0 (1 - 1) 0 (by decide), z 1 1 0 (by decide), z 1 1 (0 - 1) (by decide), z 2 1 0 (by decide), z 2 (1 - 1) 0 (by decide), z 2 1 (0 - 1) (by decide),
      z 2 (1 - 1) (0 - 1) (by decide), tau_thread1]
    simp [sgsRaceMem]; norm_num
  rw [e1]
  simp [sgsRaceMem, sgsRaceF, see]
  norm_num

/-- the situation after the race: one tensor element is `c`, the others and the force are zero -/
def RInv (c : ℚ) (m : As × Int × Int → ℚ) : Prop :=
  (∀ (k : Fin 3) (x y : Int), (k, x, y) ≠ (0, 1, 0) → m (.tau k, x, y) = 0) ∧ m (.tau 0, 1, 0) = c ∧ m (.rhs false, 1, 0) = 0

/-- a halo fill keeps the situation -/
theorem rinv_fill {c : ℚ} {s : S As Int ℚ} (hok : POk 4 2 [s]) (hf : ∀ v x y, s.f v x y = 0) (h1 : s.dst ≠ .rhs false)
    (h2 : s.dst = .tau 0 → ∀ t : Fin 2, ¬ (s.dom.rng 4 2 t).Mem 1) {m m' : As × Int × Int → ℚ} (hm : RInv c m)
    (he : PhaseExec (progOf ([s].map fun s => s.toStmt 4 2)) m m') : RInv c m' := by
  have e : m' = serial1 (s.toStmt 4 2) m := by
    rcases hok with hs | hs
    · rw [phase_serial hs he]; rfl
    · rw [phase_serial_owned hs he]; rfl
  subst e
  obtain ⟨a, b, d⟩ := hm
  refine ⟨?_, ?_, ?_⟩
  · intro k x y hk
    unfold serial1
    split_ifs
    · exact hf _ _ _
    · exact a k x y hk
  · unfold serial1
    rw [if_neg]
    · exact b
    · rintro ⟨t, ht⟩
      obtain ⟨h3, h4, -⟩ := (mem_dom s 4 2 t _).1 ht
      exact h2 h3.symm t h4
  · unfold serial1
    rw [if_neg]
    · exact d
    · rintro ⟨t, ht⟩
      exact h1 ((mem_dom s 4 2 t _).1 ht).1.symm

/-- the exchanges between the race and the forces keep the situation -/
theorem rinv_fills {c : ℚ} {m m' : As × Int × Int → ℚ} : RInv c m →
    PhasesExec (toPhases 4 2 (sxdiag sgsRaceF sgsRaceO 4 1 ++ sxoff sgsRaceF sgsRaceO 4 1)) m m' → RInv c m' := by
  have ok : ∀ ss ∈ sxdiag sgsRaceF sgsRaceO 4 1 ++ sxoff sgsRaceF sgsRaceO 4 1, ∃ s, ss = [s] ∧ POk 4 2 [s] ∧ (∀ v x y, s.f v x y = 0) ∧ s.dst ≠ .rhs false ∧
      (s.dst = .tau 0 → ∀ t : Fin 2, ¬ (s.dom.rng 4 2 t).Mem 1) := by
    intro ss hs
    have hp : POk 4 2 ss := by
      rcases List.mem_append.1 hs with h | h
      · exact pok_sxdiag _ _ _ _ _ (by decide) ss h
      · exact pok_sxoff _ _ _ _ _ (by decide) ss h
    simp only [sxdiag, sxoff, List.cons_append, List.nil_append, List.mem_cons, List.not_mem_nil, or_false] at hs
    rcases hs with rfl | rfl | rfl | rfl | rfl | rfl
    all_goals refine ⟨_, rfl, hp, fun _ _ _ => rfl, by simp [sbc0, sbc1], ?_⟩
    all_goals
      intro h t ht
      first
        | (simp only [sbc0, sbc1, As.tau.injEq] at h; revert h; decide)
        | (simp only [sbc0, Bool.false_eq_true, if_true, if_false, Dom.rng, sgsRaceO, Rng.Mem] at ht; split_ifs at ht <;> (simp only at ht; omega))
  generalize sxdiag sgsRaceF sgsRaceO 4 1 ++ sxoff sgsRaceF sgsRaceO 4 1 = ps at ok
  induction ps generalizing m with
  | nil => intro hm he; cases he; exact hm
  | cons ss ps ih =>
    intro hm he
    cases he with
    | cons _ _ _ m1 _ he1 he2 =>
      obtain ⟨s, rfl, h1, h2, h3, h4⟩ := ok ss List.mem_cons_self
      exact ih (fun s' hs' => ok s' (List.mem_cons_of_mem _ hs')) (rinv_fill h1 h2 h3 h4 hm he1) he2

theorem phasesExec_append {ι L V : Type} [DecidableEq ι] [DecidableEq L] {ps qs : List (List (Stmt ι L V))} {m m' m'' : L → V} (h1 : PhasesExec ps m m')
    (h2 : PhasesExec qs m' m'') : PhasesExec (ps ++ qs) m m'' := by
  induction h1 with
  | nil => exact h2
  | cons ss ps m m1 m2 he _ ih => exact PhasesExec.cons ss _ m m1 _ he (ih h2)

/-- the force at the point next to the element -/
theorem rinv_rhs {c : ℚ} {m m' : As × Int × Int → ℚ} (hm : RInv c m) (he : PhaseExec (progOf ((ssrhsC sgsRaceF 1).map fun s => s.toStmt 4 2)) m m') :
    m' (.rhs false, 1, 0) = 2 * c := by
  have hok : POk (V := ℚ) 4 2 (ssrhsC sgsRaceF 1) := by
    refine pok_own 4 1 2 ?_
    simp only [ssrhsC, List.mem_cons, List.not_mem_nil, or_false, forall_eq_or_imp, forall_eq]
    constructor
    all_goals
      refine ⟨_, _, _, _, rfl, ⟨?_, ?_⟩⟩
      · rintro a' ⟨k, rfl⟩; simp [own]
      · simp
  have e : m' = serial ((ssrhsC sgsRaceF 1).map fun s => s.toStmt 4 2) m := by
    rcases hok with hs | hs
    · exact phase_serial hs he
    · exact phase_serial_owned hs he
  obtain ⟨a, b, d⟩ := hm
  rw [e]
  simp only [ssrhsC, List.map_cons, List.map_nil, serial, List.foldl_cons, List.foldl_nil]
  rw [serial1, if_neg, serial1, if_pos]
  · have z := fun k x y h => a k x y h
    simp only [S.toStmt, own, sgsRaceF, see]
    simp [b, d, a]
  · refine ⟨0, ?_⟩
    rw [mem_dom]
    refine ⟨rfl, ?_, ?_⟩
    · simp only [own, Dom.rng, sgs_slab0, Rng.Mem]; simp
    · simp only [own, mem_rows]; omega
  · rintro ⟨t, ht⟩
    have := ((mem_dom _ 4 2 t _).1 ht).1
    simp [own] at this

/-- **C51 fails for compact differencing with Smagorinsky viscosity**: with 4 × 1 points and two threads, the part of the hook from the multiplication by the
viscosity to its end has two executions from the same memory that end with different forces. -/
theorem C51_fails_compact_smg : ∃ (o : SOpts) (F : FS ℚ) (ps : List (List (S As Int ℚ))) (m m' m'' : As × Int × Int → ℚ), o.diff = .compact ∧ o.smg = true ∧
    ps <:+ sgsProg F o 4 1 ∧ PhasesExec (toPhases 4 2 ps) m m' ∧ PhasesExec (toPhases 4 2 ps) m m'' ∧ m' (.rhs false, 1, 0) ≠ m'' (.rhs false, 1, 0) := by
  let ps := [sviscC sgsRaceF sgsRaceO 1] ++ (sxdiag sgsRaceF sgsRaceO 4 1 ++ sxoff sgsRaceF sgsRaceO 4 1) ++ [ssrhsC sgsRaceF 1]
  have rest : ∀ c m, RInv c m → ∃ m', PhasesExec (toPhases 4 2 ((sxdiag sgsRaceF sgsRaceO 4 1 ++ sxoff sgsRaceF sgsRaceO 4 1) ++ [ssrhsC sgsRaceF 1])) m m' ∧
      m' (.rhs false, 1, 0) = 2 * c := by
    intro c m hm
    obtain ⟨m1, h1⟩ := C26_executions_exist (sxdiag sgsRaceF sgsRaceO 4 1 ++ sxoff sgsRaceF sgsRaceO 4 1) 4 2 m
    obtain ⟨m2, h2⟩ := phase_exec_exists (progOf ((ssrhsC sgsRaceF 1).map fun s => s.toStmt 4 2)) m1
    refine ⟨m2, ?_, rinv_rhs (rinv_fills hm h1) h2⟩
    have := phasesExec_append h1 (PhasesExec.cons _ _ _ _ _ h2 (PhasesExec.nil _))
    simpa [toPhases] using this
  have inv : ∀ (t t' : Fin 2), ∀ (c : ℚ), alone (alone sgsRaceMem (progOf sgsRacePhase t)) (progOf sgsRacePhase t') (.tau 0, 1, 0) = c →
      RInv c (alone (alone sgsRaceMem (progOf sgsRacePhase t)) (progOf sgsRacePhase t')) := by
    intro t t' c hc
    refine ⟨?_, hc, ?_⟩
    · intro k x y h
      refine alone_zero t' k x y _ (alone_zero t k x y _ ?_)
      unfold sgsRaceMem
      rw [if_neg]
      intro e; apply h
      simpa using e
    · rw [sgs_alone, race_unfold, eff_other _ _ _ _ (by simp [smulC]), eff_other _ _ _ _ (by simp [smulC]), eff_other _ _ _ _ (by simp [smulC]),
        eff_other _ _ _ _ (by simp [skmC]), sgs_alone, race_unfold, eff_other _ _ _ _ (by simp [smulC]), eff_other _ _ _ _ (by simp [smulC]),
        eff_other _ _ _ _ (by simp [smulC]), eff_other _ _ _ _ (by simp [skmC])]
      simp [sgsRaceMem]
  obtain ⟨a, ha1, ha2⟩ := rest _ _ (inv 0 1 _ race_01)
  obtain ⟨b, hb1, hb2⟩ := rest _ _ (inv 1 0 _ race_10)
  refine ⟨sgsRaceO, sgsRaceF, ps, sgsRaceMem, a, b, rfl, rfl, ?_, ?_, ?_, ?_⟩
  · refine ⟨sxchng sgsRaceF sgsRaceO 4 1 (.vip false) 1 ++ sxchng sgsRaceF sgsRaceO 4 1 (.vip true) 1 ++ [sdrag sgsRaceF 1] ++ sxdiv sgsRaceF sgsRaceO 4 1 ++
      [sdeformC sgsRaceF 1] ++ sxdiag sgsRaceF sgsRaceO 4 1 ++ sxoff sgsRaceF sgsRaceO 4 1, ?_⟩
    simp [ps, sgsProg, sgsCompact, sgsRaceO]
  · exact PhasesExec.cons _ _ _ _ _ (exec_two (progOf sgsRacePhase) sgsRaceMem 0 1 (by decide)) ha1
  · exact PhasesExec.cons _ _ _ _ _ (exec_two (progOf sgsRacePhase) sgsRaceMem 1 0 (by decide)) hb1
  · rw [ha2, hb2]; norm_num

end Threads
end Mpdata
