import Verif.Lemmas.SgsBsq
import Verif.Props.SgsHeat
/-! # C71 for the Boussinesq solvers -/
namespace Mpdata
namespace Drag
open Heat (step_add step_zero step_mem mem_grid facePts)
section
variable {n : Nat} [NeZero n] {K : Type} [Field K] [LinearOrder K] [IsStrictOrderedRing K] {c : Cfg n K} {P : Fin n → Nat} {b : Bsq n K} {two : Bool}

/-- the Smagorinsky-Lilly viscosity closes if deformation, temperature and mixing length do -/
theorem lilly_closes (hD : Domain c P) (tau : Fin n → Fin n → Sca n K) (tht mix : Sca n K) (h1 : Closes c P (tdefSqCmpct tau)) (h2 : Closes c P tht) (h3 : Closes c P mix) :
    Closes c P (Heat.Lilly (heatCfg c b) P tau tht mix) := by
  intro d x hk hx hd
  have hdz := (hD.cyc hk).2
  have hz2 := hD.two c.z
  have key : ∀ y ∈ gridPts P, y d = 0 → Heat.richardson (heatCfg c b) P tau tht (stepIdx y d (P d)) = Heat.richardson (heatCfg c b) P tau tht y := by
    intro y hy hyd
    have hyg := mem_grid.1 hy c.z
    have hs : ∀ j : Int, 0 ≤ y c.z + j → y c.z + j ≤ P c.z → tht (stepIdx (stepIdx y d (P d)) c.z j) = tht (stepIdx y c.z j) := fun j j1 j2 => by
      rw [step_comm y hdz]
      exact h2 d _ hk (step_mem hy ⟨j1, j2⟩) (by rw [stepIdx_other y hdz]; exact hyd)
    have hz : stepIdx y d (P d) c.z = y c.z := stepIdx_other y hdz.symm _
    have hv : Heat.vertGrad (heatCfg c b) P tht (stepIdx y d (P d)) = Heat.vertGrad (heatCfg c b) P tht y := by
      unfold Heat.vertGrad
      show (if stepIdx y d (P d) c.z = 0 then (tht (stepIdx (stepIdx y d (P d)) c.z 1) - tht (stepIdx y d (P d))) / c.dx c.z
        else if stepIdx y d (P d) c.z = P c.z then (tht (stepIdx y d (P d)) - tht (stepIdx (stepIdx y d (P d)) c.z (-1))) / c.dx c.z
        else (tht (stepIdx (stepIdx y d (P d)) c.z 1) - tht (stepIdx (stepIdx y d (P d)) c.z (-1))) / (2 * c.dx c.z)) =
        if y c.z = 0 then (tht (stepIdx y c.z 1) - tht y) / c.dx c.z
        else if y c.z = P c.z then (tht y - tht (stepIdx y c.z (-1))) / c.dx c.z
        else (tht (stepIdx y c.z 1) - tht (stepIdx y c.z (-1))) / (2 * c.dx c.z)
      rw [hz, h2 d y hk hy hyd]
      by_cases e1 : y c.z = 0
      · rw [if_pos e1, if_pos e1, hs 1 (by omega) (by omega)]
      · rw [if_neg e1, if_neg e1]
        by_cases e2 : y c.z = P c.z
        · rw [if_pos e2, if_pos e2, hs (-1) (by omega) (by omega)]
        · rw [if_neg e2, if_neg e2, hs 1 (by omega) (by omega), hs (-1) (by omega) (by omega)]
    unfold Heat.richardson
    rw [hv, h1 d y hk hy hyd]
  have hz : stepIdx x d (P d) c.z = x c.z := stepIdx_other x hdz.symm _
  have fin : ∀ y ∈ gridPts P, y d = 0 →
      (if Heat.richardson (heatCfg c b) P tau tht (stepIdx y d (P d)) < b.pr then (b.smgC * mix (stepIdx y d (P d))) ^ 2 *
        c.sqrt (tdefSqCmpct tau (stepIdx y d (P d)) * (1 - Heat.richardson (heatCfg c b) P tau tht (stepIdx y d (P d)) / b.pr)) else 0) =
      if Heat.richardson (heatCfg c b) P tau tht y < b.pr then (b.smgC * mix y) ^ 2 * c.sqrt (tdefSqCmpct tau y * (1 - Heat.richardson (heatCfg c b) P tau tht y / b.pr)) else 0 := by
    intro y hy hyd
    rw [key y hy hyd, h1 d y hk hy hyd, h3 d y hk hy hyd]
  by_cases e : x c.z = 0
  · have l1 : ∀ w : Idx n, w c.z = 0 → Heat.Lilly (heatCfg c b) P tau tht mix w = _ := fun w hw => by
      unfold Heat.Lilly
      simp only
      rw [show (if w (heatCfg c b).z = 0 then stepIdx w (heatCfg c b).z 1 else w) = stepIdx w c.z 1 from if_pos hw]
    rw [l1 _ e, l1 _ (by rw [hz]; exact e), step_comm x hdz]
    exact fin _ (step_mem hx (by omega)) (by rw [stepIdx_other x hdz]; exact hd)
  · have l1 : ∀ w : Idx n, w c.z ≠ 0 → Heat.Lilly (heatCfg c b) P tau tht mix w = _ := fun w hw => by
      unfold Heat.Lilly
      simp only
      rw [show (if w (heatCfg c b).z = 0 then stepIdx w (heatCfg c b).z 1 else w) = w from if_neg hw]
    rw [l1 _ e, l1 _ (by rw [hz]; exact e)]
    exact fin x hx hd

/-- C71, Boussinesq solvers: the viscosity the momentum equation uses is the one of the heat equation (C70): at every grid point the Smagorinsky viscosity reduced by stable stratification,
evaluated with the deformation of the flow and the current temperature. -/
theorem C71_boussinesq_viscosity (h : Domain (bsqSolver c b two) P) (hh : Heat.Domain (heatCfg c b) P) (m : Mem n K) :
    ∃ tau : Fin n → Fin n → Sca n K,
      (∀ d e x, x ∈ gridPts P → x d < P d → x e < P e → tau d e x = deformCmpct c.z c.dx (forces (bsqSolver c b two) m).v (forces (bsqSolver c b two) m).div d e x) ∧
      ∀ x ∈ gridPts P, (forces (bsqSolver c b two) m).km false x = Heat.Lilly (heatCfg c b) P tau b.tht b.mixH x ∧
        (forces (bsqSolver c b two) m).km true x = Heat.Lilly (heatCfg c b) P tau b.tht b.mixV x ∧
        (forces (bsqSolver c b two) m).km false x = (Heat.multiplySgsVisc (heatCfg c b) tau b.tht b.mem).kh x ∧
        (forces (bsqSolver c b two) m).km true x = (Heat.multiplySgsVisc (heatCfg c b) tau b.tht b.mem).kv x := by
  refine ⟨(half (bsqSolver c b two) m).tau, fun d e x hx hd he => half_in h m hx hd he, fun x hx => ?_⟩
  have hf := Heat.km_final hh (half (bsqSolver c b two) m).tau b.tht b.mem hx
  rw [forces_km]
  exact ⟨hf.1, hf.2, rfl, rfl⟩

theorem bsq_closes (h : Domain (bsqSolver c b two) P) (hD : Domain c P) (hu : Uniform c) (hh : Heat.Domain (heatCfg c b) P) (m : Mem n K) (hv : ∀ e, Closes c P (m.v e)) (ht : Closes c P b.tht)
    (hH : Closes c P b.mixH) (hV : Closes c P b.mixV) (i : Bool) : Closes c P ((forces (bsqSolver c b two) m).km i) := by
  have hf := fun x hx => Heat.km_final hh (half (bsqSolver c b two) m).tau b.tht b.mem (x := x) hx
  have htd : Closes c P (tdefSqCmpct (half (bsqSolver c b two) m).tau) := tdef_closes h hu m hv
  intro d x hk hx hd
  have h2 := hD.two d
  have hx' : stepIdx x d (P d) ∈ gridPts P := step_mem hx (by omega)
  rw [forces_km]
  cases i
  · exact ((hf _ hx').1.trans (lilly_closes hD _ _ _ htd ht hH d x hk hx hd)).trans (hf _ hx).1.symm
  · exact ((hf _ hx').2.trans (lilly_closes hD _ _ _ htd ht hV d x hk hx hd)).trans (hf _ hx).2.symm

/-- C71, Boussinesq solvers with uniform density, momentum: the total of a horizontal momentum component along a cyclic dimension changes by minus the surface stress. -/
theorem C71_boussinesq_momentum (h : Domain c P) (hs : IsRoot c) (hu : Uniform c) (hh : Heat.Domain (heatCfg c b) P) (m : Mem n K) (hv : ∀ e, Closes c P (m.v e)) (ht : Closes c P b.tht)
    (hH : Closes c P b.mixH) (hV : Closes c P b.mixV) {d : Fin n} (hd : c.B.kl d = .cyclic) :
    ∑ x ∈ gridPts P, trapW P x * (c.rho x * ((forces (bsqSolver c b two) m).rhs d x - m.rhs d x)) =
      -2 * ((∑ x ∈ groundFaces P c.z d, edgeW P d c.z x * groundStress c m.v d x) / c.dx c.z) := by
  have h' : Domain (bsqSolver c b two) P := ⟨h.box, h.two, h.halo, h.last, h.sides, h.bottom, h.top, h.order, h.lateral, h.G0, h.Gper⟩
  exact C71_momentum_budget h' hs m (fun _ i => bsq_closes h' h hu hh m hv ht hH hV i) hv hd

/-- C71, Boussinesq solvers with uniform density, energy: the forces never do positive work, whatever the temperature. -/
theorem C71_boussinesq_energy (h : Domain c P) (hs : IsRoot c) (hu : Uniform c) (hh : Heat.Domain (heatCfg c b) P) (m : Mem n K) (hv : ∀ e, Closes c P (m.v e)) (ht : Closes c P b.tht)
    (hH : Closes c P b.mixH) (hV : Closes c P b.mixV) (h0 : ∀ d, NoFlow c P d (m.v d)) (hc : 0 ≤ c.cdrag) :
    ∑ d, ∑ x ∈ gridPts P, trapW P x * (m.v d x * (c.rho x * ((forces (bsqSolver c b two) m).rhs d x - m.rhs d x))) ≤ 0 := by
  have h' : Domain (bsqSolver c b two) P := ⟨h.box, h.two, h.halo, h.last, h.sides, h.bottom, h.top, h.order, h.lateral, h.G0, h.Gper⟩
  refine C71_energy_decreases h' hs hu m (fun _ i => bsq_closes h' h hu hh m hv ht hH hV i) hv h0 hh.G0 hh.dx0 hc (fun eta he => by cases he) (fun _ i x hx => ?_)
  have hf := Heat.km_final hh (half (bsqSolver c b two) m).tau b.tht b.mem hx
  rw [forces_km]
  cases i
  · exact le_of_le_of_eq (Heat.Lilly_nonneg hh hs _ _ _ _) hf.1.symm
  · exact le_of_le_of_eq (Heat.Lilly_nonneg hh hs _ _ _ _) hf.2.symm
end

/-! ### example: wind and a stable layer in the channel -/
noncomputable def warm : Bsq 2 ℝ := ⟨10, 300, 1, 1, 0, fun _ => 1, fun _ => 2, fun x => 300 + (x 1 : ℝ), ⟨fun _ => 0, fun _ => 0, fun _ _ => 0, fun _ => 0, fun _ => 0, fun _ => 0, fun _ => 0, fun _ => 0⟩⟩

theorem warm_domain (visc : Visc 2 ℝ) (cd : ℝ) : Heat.Domain (heatCfg (chan visc cd) warm) chanP where
  box := (chan_domain visc cd).box
  two d := by have := (chan_domain visc cd).two d; omega
  halo := (chan_domain visc cd).halo
  sides := (chan_domain visc cd).sides
  bottom := (chan_domain visc cd).bottom
  top := (chan_domain visc cd).top
  order := ⟨by show ([0, 1] : List (Fin 2)).Nodup; decide, (chan_domain visc cd).order⟩
  G0 x _ := by
    show (0 : ℝ) < (chan visc cd).rho x
    rw [show (chan visc cd).rho x = 1 from rfl]; norm_num
  dx0 _ := by show (0 : ℝ) < 1; norm_num
  pr0 := by show (0 : ℝ) < 1; norm_num

/-- the hypotheses hold for this flow -/
example (two : Bool) (m : Mem 2 ℝ) (hm : m.v = wind) :
    ∑ d, ∑ x ∈ gridPts chanP, trapW chanP x * (m.v d x * ((chan (.smg 1) 1).rho x * ((forces (bsqSolver (chan (.smg 1) 1) warm two) m).rhs d x - m.rhs d x))) ≤ 0 := by
  refine C71_boussinesq_energy (chan_domain _ _) (chan_root _ _) (fun h => by cases h) (warm_domain _ _) m (fun e => hm ▸ wind_closes _ _ e) ?_ (fun _ _ _ _ _ => rfl) (fun _ _ _ _ _ => rfl)
    (fun d => hm ▸ wind_noflow _ _ d) (by show (0 : ℝ) ≤ 1; norm_num)
  intro d x hk _ _
  have hd : d ≠ 1 := by rintro rfl; exact (by decide : BcAll.gndsky ≠ BcAll.cyclic) hk
  show (300 : ℝ) + (stepIdx x d (chanP d) 1 : ℝ) = 300 + (x 1 : ℝ)
  rw [stepIdx_other x hd.symm]
end Drag
end Mpdata
