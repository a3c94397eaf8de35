import Verif.Props.WallN
/-! # C50 and C58 fail with flux-corrected transport at a right wall
`fill_halos_vctr_alng(..., ad = true)` of the right rigid boundary starts one face further out but keeps its counter at 1 (rigid_2d.hpp:151-154): the corrective velocity
beyond the wall is the mirror image of the wrong face. The limiter then treats the two sides of the wall differently. -/
namespace Mpdata

def rwP : Fin 2 → Nat := ![3, 2]
def rwOpts : OptsT := oFct ||| oIga
def rwCfg : CfgN 2 ℚ := wallCfg (fun _ => true) (formulae2 rwOpts .exact .noextrp (1/1000)) rwOpts 2 rwP [0, 1]
def rwPar : SpecN.Par 2 ℚ := ⟨rwOpts, 1/1000, formulae2 rwOpts .exact .noextrp (1/1000), ⟨fun _ => 1, fun _ _ => 0, fun _ _ => 0⟩⟩
def rwPsi : Sca 2 ℚ := fun x => if x 0 = 0 then 3 else if x 0 = 1 then 1 else if x 0 = 2 then 4 else 0
def rwGC : Vec 2 ℚ := fun d x => if d = 0 then (if x 0 = 2 then 1/4 else if x 0 = 1 then 1/2 else -1/4) else 0
def rwMem : MemN 2 ℚ := demoMemN rwPsi rwGC 0
def rwOut : MemN 2 ℚ := runProgN rwCfg (fun _ => false) 1 { rwMem with GC := prepGC rwCfg (solverHalo rwCfg.o) rwMem.GC }

theorem rw_walled : Walled2 (fun _ => true) rwCfg rwPar rwP :=
  ⟨wallCfg_setup _ _ _ _ _ _ (by decide) (by decide), ⟨_, _, _, rfl⟩, by decide⟩

theorem rw_value00 : rwOut.psi ![0, 0] = 7/2 := by decide +kernel
theorem rw_value01 : rwOut.psi ![0, 1] = 7/2 := by decide +kernel
theorem rw_value02 : rwOut.psi ![0, 2] = 7/2 := by decide +kernel
theorem rw_value10 : rwOut.psi ![1, 0] = 1/4 := by decide +kernel
theorem rw_value11 : rwOut.psi ![1, 1] = 1/4 := by decide +kernel
theorem rw_value12 : rwOut.psi ![1, 2] = 1/4 := by decide +kernel
theorem rw_value20 : rwOut.psi ![2, 0] = 1767/487 := by decide +kernel
theorem rw_value21 : rwOut.psi ![2, 1] = 1767/487 := by decide +kernel
theorem rw_value22 : rwOut.psi ![2, 2] = 1767/487 := by decide +kernel
theorem rw_value30 : rwOut.psi ![3, 0] = 53953/31168 := by decide +kernel
theorem rw_value31 : rwOut.psi ![3, 1] = 53953/31168 := by decide +kernel
theorem rw_value32 : rwOut.psi ![3, 2] = 53953/31168 := by decide +kernel

theorem rw_values (i : Fin 4) (j : Fin 3) : rwOut.psi ![(i : Int), (j : Int)] = (![7/2, 1/4, 1767/487, 53953/31168] : Fin 4 → ℚ) i := by
  fin_cases i <;> fin_cases j
  · exact rw_value00
  · exact rw_value01
  · exact rw_value02
  · exact rw_value10
  · exact rw_value11
  · exact rw_value12
  · exact rw_value20
  · exact rw_value21
  · exact rw_value22
  · exact rw_value30
  · exact rw_value31
  · exact rw_value32

theorem rw_grid : gridPts rwP = Finset.univ.image (fun q : Fin 4 × Fin 3 => (![(q.1 : Int), (q.2 : Int)] : Idx 2)) := by decide +kernel

theorem rw_sum (f : Idx 2 → ℚ) : ∑ x ∈ gridPts rwP, f x = ∑ i : Fin 4, ∑ j : Fin 3, f ![(i : Int), (j : Int)] := by
  rw [rw_grid, Finset.sum_image, Fintype.sum_prod_type]
  rintro ⟨a, b⟩ _ ⟨c, d⟩ _ h
  have h0 := congrFun h 0
  have h1 := congrFun h 1
  simp at h0 h1
  ext <;> simp <;> omega

theorem rw_total : ∑ x ∈ gridPts rwP, trapW rwP x * (gFacN rwCfg.o rwCfg.st.G x * rwOut.psi x) ≠ ∑ x ∈ gridPts rwP, trapW rwP x * (gFacN rwCfg.o rwCfg.st.G x * rwMem.psi x) := by
  rw [rw_sum, rw_sum]
  simp only [rw_values]
  decide +kernel

/-- C50 fails with flux-corrected transport: in a box of 4 x 3 points with walls on all sides, one step of the two-pass infinite-gauge scheme changes the half-weighted total
(from 13 to 404801/31168). -/
theorem C50_fails_fct_right_wall : ∃ (c : CfgN 2 ℚ) (p : SpecN.Par 2 ℚ) (P : Fin 2 → Nat) (m : MemN 2 ℚ), Walled2 (fun _ => true) c p P ∧ c.nIters = 2 ∧
    HaloCovered c.o c.nIters ∧ isset c.o oFct = true ∧ (∀ x, gFacN p.o p.st.G x ≠ 0) ∧
    ∑ x ∈ gridPts P, trapW P x * (gFacN c.o c.st.G x * (runProgN c (fun _ => false) 1 { m with GC := prepGC c (solverHalo c.o) m.GC }).psi x)
      ≠ ∑ x ∈ gridPts P, trapW P x * (gFacN c.o c.st.G x * m.psi x) :=
  ⟨rwCfg, rwPar, rwP, rwMem, rw_walled, rfl, by unfold HaloCovered; decide, by decide, fun x => by simp [gFacN, rwPar], rw_total⟩

/-- C58 fails with flux-corrected transport: the same run is not the scheme on the mirrored continuation of the data. -/
theorem C58_fails_fct_right_wall : ∃ (c : CfgN 2 ℚ) (p : SpecN.Par 2 ℚ) (P : Fin 2 → Nat) (psi0 : Sca 2 ℚ) (GC : Vec 2 ℚ) (m : MemN 2 ℚ), Walled2 (fun _ => true) c p P ∧
    c.nIters = 2 ∧ HaloCovered c.o c.nIters ∧ isset c.o oFct = true ∧ ContS (fun _ => true) P psi0 ∧ ContV (fun _ => true) P GC ∧
    (∀ x, InGrid P x → m.psi x = psi0 x) ∧ (∀ d x, InFaces P d x → m.GC d x = GC d x) ∧
    ¬ ∀ x, InGrid P x → (runProgN c (fun _ => false) 1 { m with GC := prepGC c (solverHalo c.o) m.GC }).psi x = SpecN.run p c.nIters (fun _ => false) GC 1 psi0 x := by
  have hP : ∀ d, 1 ≤ rwP d := by decide
  refine ⟨rwCfg, rwPar, rwP, extS rwP rwPsi, extV rwP rwGC, rwMem, rw_walled, rfl, by unfold HaloCovered; decide, by decide, extS_cont hP _, extV_cont hP _,
    fun x hx => extS_eq hP rwPsi x hx, fun d x hx => extV_eq hP rwGC d x hx, fun hc => ?_⟩
  exact rw_total (conserve_of_mirror rw_walled.setup rw_walled.good rw_walled.mir (fun x => by simp [gFacN, rwPar]) (fun _ => false) (extS_cont hP _) (extV_cont hP _)
    (m := rwMem) (m' := rwOut) (fun x hx => extS_eq hP rwPsi x hx) 1 hc)

end Mpdata
