import Verif.Props.FctN
import Verif.Props.ConserveN
import Verif.Props.PositiveN
import Verif.Props.SymmetryN
import Verif.Props.AxesN
/-! # Theorems about cyclic 2-D runs applied to one concrete run
A flux-corrected third-order three-pass solver on a 5 x 5 grid, a shear flow and a field that varies in both directions, junk in every temporary: all hypotheses of the theorems on conservation,
positivity, ranges, periodicity, translation, sign and reversed axes are met at once, for every number of steps. -/
namespace Mpdata

/-- variable-sign, flux-corrected, third-order -/
def apO : OptsT := oAbs ||| oFct ||| oTot
def apC : CfgN 2 ℚ := demo2 apO 3
def apP : SpecN.Par 2 ℚ := ⟨apO, 1/1000, formulae2 apO .exact .noextrp (1/1000), ⟨fun _ => 1, fun _ _ => 0, fun _ _ => 0⟩⟩
/-- a shear flow -/
def apGC : Vec 2 ℚ := fun d x => if d = 0 then (if x 1 % 4 = 0 then 1/2 else -1/4) else 1/8
/-- values between 0 and 9 -/
def apPsi : Sca 2 ℚ := fun x => (x 0 % 4 : Int) + 2 * (x 1 % 4 : Int)
def apM : MemN 2 ℚ := demoMemN apPsi apGC 7

theorem apS : Solver2 apC apP (fun _ => 4) :=
  ⟨⟨rfl, rfl, rfl, fun _ => rfl, fun d => by decide, by decide, rfl, fun _ => rfl, fun _ => rfl, fun _ _ => rfl, fun _ _ _ => rfl, fun _ _ _ => rfl, fun _ _ => rfl,
      fun _ _ _ => rfl, fun _ _ _ => rfl⟩, ⟨_, _, _, rfl⟩, by decide⟩
/-- the same solver for a translated or reversed domain -/
theorem apSh : Solver2 apC (apP.sh 1 3) (fun _ => 4) :=
  ⟨⟨rfl, rfl, rfl, fun _ => rfl, fun d => by decide, by decide, rfl, fun _ => rfl, fun _ => rfl, fun _ _ => rfl, fun _ _ _ => rfl, fun _ _ _ => rfl, fun _ _ => rfl,
      fun _ _ _ => rfl, fun _ _ _ => rfl⟩, ⟨_, _, _, rfl⟩, by decide⟩

theorem ap_mod (x : Idx 2) (d e : Fin 2) : (stepIdx x d 4) e % 4 = x e % 4 := by unfold stepIdx; split <;> omega
theorem apPsi_per : PeriodicN (fun _ => 4 : Fin 2 → Nat) apPsi := fun x d => by
  simp only [apPsi, Nat.cast_ofNat, ap_mod]
theorem apGC_per (d : Fin 2) : PeriodicN (fun _ => 4 : Fin 2 → Nat) (apGC d) := fun x e => by
  simp only [apGC, Nat.cast_ofNat, ap_mod]
theorem apGC_div (x : Idx 2) : divN apGC x = 0 := by
  have hst : ∀ (x : Idx 2) (k : Int), (stepIdx x 0 k) 1 = x 1 := fun x k => by simp [stepIdx]
  simp only [divN, Fin.sum_univ_two, apGC, hst]; simp
theorem ap_g (x : Idx 2) : gFacN apP.o apP.st.G x = 1 := rfl
theorem apGC_out (x : Idx 2) : outflowN apGC x ≤ gFacN apP.o apP.st.G x := by
  have hst : ∀ (x : Idx 2) (k : Int), (stepIdx x 0 k) 1 = x 1 := fun x k => by simp [stepIdx]
  rw [ap_g]
  simp only [outflowN, Fin.sum_univ_two, apGC, hst, if_true, show (1 : Fin 2) ≠ 0 by decide, if_false]
  split <;> norm_num
theorem apPsi_range (x : Idx 2) : 0 ≤ apPsi x ∧ apPsi x ≤ 9 := by
  have a := Int.emod_nonneg (x 0) (show (4 : Int) ≠ 0 by decide)
  have b := Int.emod_lt_of_pos (x 0) (show (0 : Int) < 4 by decide)
  have c := Int.emod_nonneg (x 1) (show (4 : Int) ≠ 0 by decide)
  have d := Int.emod_lt_of_pos (x 1) (show (0 : Int) < 4 by decide)
  have e : apPsi x = ((x 0 % 4 + 2 * (x 1 % 4) : Int) : ℚ) := by simp only [apPsi]; push_cast; rfl
  rw [e]
  exact ⟨by exact_mod_cast (by omega : (0 : Int) ≤ x 0 % 4 + 2 * (x 1 % 4)), by exact_mod_cast (by omega : x 0 % 4 + 2 * (x 1 % 4) ≤ 9)⟩

/-- C12 -/
example (filt : Nat → Bool) (t : Nat) : ∑ x ∈ period (fun _ => 4 : Fin 2 → Nat), gFacN apC.o apC.st.G x * (runProgN apC filt t { apM with GC := prepGC apC (solverHalo apC.o) apM.GC }).psi x =
    ∑ x ∈ period (fun _ => 4 : Fin 2 → Nat), gFacN apC.o apC.st.G x * apPsi x :=
  C12_conservation_2d_partial apC apP _ apS (by decide) (.inr (.inl rfl)) (fun x => by rw [ap_g]; norm_num) filt apPsi apGC apPsi_per apGC_per apM (fun _ _ => rfl) (fun _ _ _ => rfl) t

/-- C13, C15 -/
example (filt : Nat → Bool) (t : Nat) (x : Idx 2) (hx : InGrid (fun _ => 4) x) :
    0 ≤ (runProgN apC filt t { apM with GC := prepGC apC (solverHalo apC.o) apM.GC }).psi x ∧ (runProgN apC filt t { apM with GC := prepGC apC (solverHalo apC.o) apM.GC }).psi x ≤ 9 :=
  ⟨C13_fct_positive_2d apC apP _ apS (by decide) rfl (fun x => by rw [ap_g]; norm_num) (by decide +kernel) filt apPsi apGC apPsi_per apGC_per apGC_out apM (fun _ _ => rfl) (fun _ _ _ => rfl)
    (fun x => (apPsi_range x).1) t x hx,
   (C15_fct_global_range_2d apC apP _ apS (by decide) rfl (fun x => by rw [ap_g]; norm_num) (by decide +kernel) 0 9 (.inr (.inl rfl)) filt apPsi apGC apPsi_per apGC_per apGC_div apGC_out apM
    (fun _ _ => rfl) (fun _ _ _ => rfl) apPsi_range t x hx).2⟩

/-- C21 (and C20: no value outside the written parts of the arrays enters) -/
example (filt : Nat → Bool) (t : Nat) (x : Idx 2) (hx : InGrid (fun _ => 4) x) :
    (runProgN apC filt t { apM with GC := prepGC apC (solverHalo apC.o) apM.GC }).psi x = SpecN.run apP 3 filt apGC t apPsi x :=
  C21_cyclic_2d_is_periodic_partial apC apP _ apS (by decide) (.inr (.inl rfl)) filt apPsi apGC apPsi_per apGC_per apM (fun _ _ => rfl) (fun _ _ _ => rfl) t x hx

/-- C19: the run started from the fields moved by three points along the second dimension; point (2, 0) of it is point (2, 3) of the other -/
example (filt : Nat → Bool) (t : Nat) :
    let m' := demoMemN (fun x => apPsi (stepIdx x 1 3)) (fun d x => apGC d (stepIdx x 1 3)) 5
    (runProgN apC filt t { m' with GC := prepGC apC (solverHalo apC.o) m'.GC }).psi ![2, 0] = (runProgN apC filt t { apM with GC := prepGC apC (solverHalo apC.o) apM.GC }).psi ![2, 3] :=
  C19_translation_2d_partial apC apC apP _ 1 3 apS apSh rfl (by decide) (.inr (.inl rfl)) filt apPsi apGC apPsi_per apGC_per apM _ (fun _ _ => rfl) (fun _ _ _ => rfl) (fun _ _ => rfl)
    (fun _ _ _ => rfl) t ![2, 0] ![2, 3] (by intro d; fin_cases d <;> decide) (by intro d; fin_cases d <;> decide) 0 (by decide)

/-- C19: the run started from the field of the other sign -/
example (filt : Nat → Bool) (t : Nat) (x : Idx 2) (hx : InGrid (fun _ => 4) x) :
    let m' := demoMemN (fun x => - apPsi x) apGC 5
    (runProgN apC filt t { m' with GC := prepGC apC (solverHalo apC.o) m'.GC }).psi x = -(runProgN apC filt t { apM with GC := prepGC apC (solverHalo apC.o) apM.GC }).psi x :=
  C19_sign_2d_partial apC apP _ apS rfl rfl rfl (fun x => by rw [ap_g]; norm_num) (by decide +kernel) (by decide) (.inr (.inl rfl)) filt apPsi apGC apPsi_per apGC_per apM
    (demoMemN (fun x => - apPsi x) apGC 5) (fun _ _ => rfl) (fun _ _ _ => rfl) (fun _ _ => rfl) (fun _ _ _ => rfl) t x hx

/-- C59: the run with the first axis reversed -/
example (filt : Nat → Bool) (t : Nat) (x : Idx 2) (hx : InGrid (fun _ => 4) x) :
    let m' := demoMemN (fun x => apPsi (revC 0 4 x)) (fun d x => if d = 0 then - apGC 0 (revF 0 4 x) else apGC d (revC 0 4 x)) 5
    (runProgN apC filt t (startN apC m')).psi x = (runProgN apC filt t (startN apC apM)).psi (revC 0 4 x) := by
  refine C59_reversed_axis_2d_partial apC apC apP _ 0 apS ?_ rfl (by decide) (.inr (.inl rfl)) filt apPsi apGC apPsi_per apGC_per apM _ (fun _ _ => rfl) (fun _ _ _ => rfl) (fun _ _ => rfl)
    (fun _ _ => rfl) (fun d x h _ => if_neg h) t x hx
  refine ⟨⟨rfl, rfl, rfl, fun _ => rfl, fun d => by decide, by decide, rfl, fun _ => rfl, fun _ => rfl, fun _ _ => rfl, fun d x e => ?_, fun d x e => ?_, fun _ _ => rfl, fun d x e => ?_, fun d x e => ?_⟩, ⟨_, _, _, rfl⟩, by decide⟩
  all_goals fin_cases d <;> rfl

/-! ## The same in 3-D -/
def apC3 : CfgN 3 ℚ := demo3 apO 3
def apP3 : SpecN.Par 3 ℚ := ⟨apO, 1/1000, formulae3 apO .exact .noextrp (1/1000), ⟨fun _ => 1, fun _ _ => 0, fun _ _ => 0⟩⟩
/-- a flow sheared along the last dimension -/
def apGC3 : Vec 3 ℚ := fun d x => if d = 0 then (if x 2 % 4 = 0 then 1/2 else -1/4) else if d = 1 then (if x 2 % 4 = 1 then -1/4 else 1/4) else 1/8
def apPsi3 : Sca 3 ℚ := fun x => (x 0 % 4 : Int) + 2 * (x 1 % 4 : Int) + (x 2 % 4 : Int)
def apM3 : MemN 3 ℚ := demoMemN apPsi3 apGC3 7

theorem apS3 : Solver3 apC3 apP3 (fun _ => 4) :=
  ⟨⟨rfl, rfl, rfl, fun _ => rfl, fun d => by decide, by decide, rfl, fun _ => rfl, fun _ => rfl, fun _ _ => rfl, fun _ _ _ => rfl, fun _ _ _ => rfl, fun _ _ => rfl,
      fun _ _ _ => rfl, fun _ _ _ => rfl⟩, ⟨_, _, _, rfl⟩⟩
theorem ap_mod3 (x : Idx 3) (d e : Fin 3) : (stepIdx x d 4) e % 4 = x e % 4 := by unfold stepIdx; split <;> omega
theorem apPsi3_per : PeriodicN (fun _ => 4 : Fin 3 → Nat) apPsi3 := fun x d => by
  simp only [apPsi3, Nat.cast_ofNat, ap_mod3]
theorem apGC3_per (d : Fin 3) : PeriodicN (fun _ => 4 : Fin 3 → Nat) (apGC3 d) := fun x e => by
  simp only [apGC3, Nat.cast_ofNat, ap_mod3]
theorem apGC3_div (x : Idx 3) : divN apGC3 x = 0 := by
  have h0 : ∀ (x : Idx 3) (k : Int), (stepIdx x 0 k) 2 = x 2 := fun x k => by simp [stepIdx]
  have h1 : ∀ (x : Idx 3) (k : Int), (stepIdx x 1 k) 2 = x 2 := fun x k => by simp [stepIdx]
  simp only [divN, Fin.sum_univ_three, apGC3, h0, h1]; simp
theorem ap_g3 (x : Idx 3) : gFacN apP3.o apP3.st.G x = 1 := rfl
theorem apGC3_out (x : Idx 3) : outflowN apGC3 x ≤ gFacN apP3.o apP3.st.G x := by
  have h0 : ∀ (x : Idx 3) (k : Int), (stepIdx x 0 k) 2 = x 2 := fun x k => by simp [stepIdx]
  have h1 : ∀ (x : Idx 3) (k : Int), (stepIdx x 1 k) 2 = x 2 := fun x k => by simp [stepIdx]
  rw [ap_g3]
  simp only [outflowN, Fin.sum_univ_three, apGC3, h0, h1, if_true, show (1 : Fin 3) ≠ 0 by decide, show (2 : Fin 3) ≠ 0 by decide, show (2 : Fin 3) ≠ 1 by decide, if_false]
  split <;> split <;> norm_num
theorem apPsi3_range (x : Idx 3) : 0 ≤ apPsi3 x ∧ apPsi3 x ≤ 12 := by
  have e : apPsi3 x = ((x 0 % 4 + 2 * (x 1 % 4) + x 2 % 4 : Int) : ℚ) := by simp only [apPsi3]; push_cast; rfl
  rw [e]
  exact ⟨by exact_mod_cast (by omega : (0 : Int) ≤ x 0 % 4 + 2 * (x 1 % 4) + x 2 % 4), by exact_mod_cast (by omega : x 0 % 4 + 2 * (x 1 % 4) + x 2 % 4 ≤ 12)⟩

/-- C12 -/
example (filt : Nat → Bool) (t : Nat) : ∑ x ∈ period (fun _ => 4 : Fin 3 → Nat), gFacN apC3.o apC3.st.G x * (runProgN apC3 filt t { apM3 with GC := prepGC apC3 (solverHalo apC3.o) apM3.GC }).psi x =
    ∑ x ∈ period (fun _ => 4 : Fin 3 → Nat), gFacN apC3.o apC3.st.G x * apPsi3 x :=
  C12_conservation_3d_partial apC3 apP3 _ apS3 (by decide) (.inr (.inl rfl)) (fun x => by rw [ap_g3]; norm_num) filt apPsi3 apGC3 apPsi3_per apGC3_per apM3 (fun _ _ => rfl) (fun _ _ _ => rfl) t

/-- C13, C15 -/
example (filt : Nat → Bool) (t : Nat) (x : Idx 3) (hx : InGrid (fun _ => 4) x) :
    0 ≤ (runProgN apC3 filt t { apM3 with GC := prepGC apC3 (solverHalo apC3.o) apM3.GC }).psi x ∧ (runProgN apC3 filt t { apM3 with GC := prepGC apC3 (solverHalo apC3.o) apM3.GC }).psi x ≤ 12 :=
  ⟨C13_fct_positive_3d apC3 apP3 _ apS3 (by decide) rfl (fun x => by rw [ap_g3]; norm_num) (by decide +kernel) filt apPsi3 apGC3 apPsi3_per apGC3_per apGC3_out apM3 (fun _ _ => rfl) (fun _ _ _ => rfl)
    (fun x => (apPsi3_range x).1) t x hx,
   (C15_fct_global_range_3d apC3 apP3 _ apS3 (by decide) rfl (fun x => by rw [ap_g3]; norm_num) (by decide +kernel) 0 12 (.inr (.inl rfl)) filt apPsi3 apGC3 apPsi3_per apGC3_per apGC3_div apGC3_out apM3
    (fun _ _ => rfl) (fun _ _ _ => rfl) apPsi3_range t x hx).2⟩

/-- C21 -/
example (filt : Nat → Bool) (t : Nat) (x : Idx 3) (hx : InGrid (fun _ => 4) x) :
    (runProgN apC3 filt t { apM3 with GC := prepGC apC3 (solverHalo apC3.o) apM3.GC }).psi x = SpecN.run apP3 3 filt apGC3 t apPsi3 x :=
  C21_cyclic_3d_is_periodic_partial apC3 apP3 _ apS3 (by decide) (.inr (.inl rfl)) filt apPsi3 apGC3 apPsi3_per apGC3_per apM3 (fun _ _ => rfl) (fun _ _ _ => rfl) t x hx

/-- C19: the other sign -/
example (filt : Nat → Bool) (t : Nat) (x : Idx 3) (hx : InGrid (fun _ => 4) x) :
    let m' := demoMemN (fun x => - apPsi3 x) apGC3 5
    (runProgN apC3 filt t { m' with GC := prepGC apC3 (solverHalo apC3.o) m'.GC }).psi x = -(runProgN apC3 filt t { apM3 with GC := prepGC apC3 (solverHalo apC3.o) apM3.GC }).psi x :=
  C19_sign_3d_partial apC3 apP3 _ apS3 rfl rfl rfl (fun x => by rw [ap_g3]; norm_num) (by decide +kernel) (by decide) (.inr (.inl rfl)) filt apPsi3 apGC3 apPsi3_per apGC3_per apM3
    (demoMemN (fun x => - apPsi3 x) apGC3 5) (fun _ _ => rfl) (fun _ _ _ => rfl) (fun _ _ => rfl) (fun _ _ _ => rfl) t x hx

end Mpdata
