import Verif.Lemmas.WallExt
import Verif.Props.ConserveN
import Verif.Props.ConstN
import Verif.Props.PositiveN
/-! # C50 and C58: rigid walls in 2-D and 3-D -/
set_option linter.unusedSectionVars false
namespace Mpdata
variable {n : Nat} {K : Type} [Field K] [LinearOrder K] [IsStrictOrderedRing K]

/-- a 2-D solver whose dimensions are each bounded by rigid walls (`wall d`) or cyclic -/
structure Walled2 (wall : Fin 2 → Bool) (c : CfgN 2 K) (p : SpecN.Par 2 K) (P : Fin 2 → Nat) : Prop where
  setup : WallSetupN wall c p P [0, 1]
  form : ∃ si te tiny, p.F = formulae2 p.o si te tiny
  fot : isset p.o oFot = true → isset p.o oTot = true ∨ isset p.o oDiv3 = true

/-- a 3-D solver whose dimensions are each bounded by rigid walls (`wall d`) or cyclic -/
structure Walled3 (wall : Fin 3 → Bool) (c : CfgN 3 K) (p : SpecN.Par 3 K) (P : Fin 3 → Nat) : Prop where
  setup : WallSetupN wall c p P [1, 0, 2]
  form : ∃ si te tiny, p.F = formulae3 p.o si te tiny

theorem Walled2.good {wall : Fin 2 → Bool} {c : CfgN 2 K} {p : SpecN.Par 2 K} {P : Fin 2 → Nat} (h : Walled2 wall c p P) : FGood p.o p.F := by
  obtain ⟨si, te, tiny, hF⟩ := h.form
  rw [hF]; exact formulae2_good p.o si te tiny h.fot
theorem Walled2.mir {wall : Fin 2 → Bool} {c : CfgN 2 K} {p : SpecN.Par 2 K} {P : Fin 2 → Nat} (h : Walled2 wall c p P) : FMir p.F := by
  obtain ⟨si, te, tiny, hF⟩ := h.form
  rw [hF]; exact formulae2_mir p.o si te tiny
theorem Walled3.good {wall : Fin 3 → Bool} {c : CfgN 3 K} {p : SpecN.Par 3 K} {P : Fin 3 → Nat} (h : Walled3 wall c p P) : FGood p.o p.F := by
  obtain ⟨si, te, tiny, hF⟩ := h.form
  rw [hF]; exact formulae3_good p.o si te tiny
theorem Walled3.mir {wall : Fin 3 → Bool} {c : CfgN 3 K} {p : SpecN.Par 3 K} {P : Fin 3 → Nat} (h : Walled3 wall c p P) : FMir p.F := by
  obtain ⟨si, te, tiny, hF⟩ := h.form
  rw [hF]; exact formulae3_mir p.o si te tiny

/-! ## C58: walls act as mirrors -/

/-- C58, 2-D (partial: without flux-corrected transport, see `C58_fails_fct_right_wall`, and without the divergence-form options in three or more passes). A run of any
length on a domain with rigid walls in some dimensions and cyclic boundaries in the others computes, at every grid point, what the scheme computes on the unbounded grid with
the mirrored (periodic) continuation of the data: no wall is visible to the scheme other than as a mirror. -/
theorem C58_walls_are_mirrors_2d_partial (wall : Fin 2 → Bool) (c : CfgN 2 K) (p : SpecN.Par 2 K) (P : Fin 2 → Nat) (h : Walled2 wall c p P) (hf : isset c.o oFct = false)
    (hn : 1 ≤ c.nIters) (hx : HaloCovered c.o c.nIters) (filt : Nat → Bool) (psi0 : Sca 2 K) (GC : Vec 2 K) (h0 : ContS wall P psi0) (hg : ContV wall P GC) (m : MemN 2 K)
    (hpsi : ∀ x, InGrid P x → m.psi x = psi0 x) (hGC : ∀ d x, InFaces P d x → m.GC d x = GC d x) (t : Nat) :
    ∀ x, InGrid P x → (runProgN c filt t { m with GC := prepGC c (solverHalo c.o) m.GC }).psi x = SpecN.run p c.nIters filt GC t psi0 x :=
  wallN_run h.setup h.good h.mir hf hn hx filt h0 hg m hpsi hGC t

/-- C58, 3-D (partial: same exclusions). -/
theorem C58_walls_are_mirrors_3d_partial (wall : Fin 3 → Bool) (c : CfgN 3 K) (p : SpecN.Par 3 K) (P : Fin 3 → Nat) (h : Walled3 wall c p P) (hf : isset c.o oFct = false)
    (hn : 1 ≤ c.nIters) (hx : HaloCovered c.o c.nIters) (filt : Nat → Bool) (psi0 : Sca 3 K) (GC : Vec 3 K) (h0 : ContS wall P psi0) (hg : ContV wall P GC) (m : MemN 3 K)
    (hpsi : ∀ x, InGrid P x → m.psi x = psi0 x) (hGC : ∀ d x, InFaces P d x → m.GC d x = GC d x) (t : Nat) :
    ∀ x, InGrid P x → (runProgN c filt t { m with GC := prepGC c (solverHalo c.o) m.GC }).psi x = SpecN.run p c.nIters filt GC t psi0 x :=
  wallN_run h.setup h.good h.mir hf hn hx filt h0 hg m hpsi hGC t

/-! ## C50: walls conserve the half-weighted total -/
section
variable {wall : Fin n → Bool} {c : CfgN n K} {p : SpecN.Par n K} {P : Fin n → Nat} {ds : List (Fin n)}

theorem mem_gridPts {x : Idx n} : x ∈ gridPts P ↔ InGrid P x := by simp [gridPts, InGrid, Fintype.mem_piFinset]

theorem perN_double {a : Sca n K} (h : ContS wall P a) : PeriodicN (fun d => 2 * P d) a := by
  intro x d
  by_cases hw : wall d = true
  · exact_mod_cast h.per x d hw
  · have hw' : wall d = false := by simpa using hw
    have e : stepIdx x d ((2 * P d : Nat) : Int) = stepIdx (stepIdx x d (P d)) d (P d) := by rw [stepIdx_add]; congr 1; push_cast; ring
    rw [e, h.cyc _ d hw', h.cyc _ d hw']

theorem perV_double {A : Vec n K} (h : ContV wall P A) (k : Fin n) : PeriodicN (fun d => 2 * P d) (A k) := by
  intro x d
  by_cases hw : wall d = true
  · exact_mod_cast h.per k x d hw
  · have hw' : wall d = false := by simpa using hw
    have e : stepIdx x d ((2 * P d : Nat) : Int) = stepIdx (stepIdx x d (P d)) d (P d) := by rw [stepIdx_add]; congr 1; push_cast; ring
    rw [e, h.cyc _ _ d hw', h.cyc _ _ d hw']

theorem gFac_wall (h : WallSetupN wall c p P ds) {x : Idx n} (hx : InGrid P x) : gFacN c.o c.st.G x = gFacN p.o p.st.G x := by
  unfold gFacN
  rw [h.ho, h.hG x (fun e => by have := hx e; rw [h.hbox]; constructor <;> simp <;> omega)]

theorem contS_gFac (h : ContS wall P p.st.G) : ContS wall P (gFacN p.o p.st.G) := by
  unfold gFacN
  refine ⟨fun x d hw => ?_, fun x d hw => ?_, fun x d hw => ?_⟩ <;> split_ifs
  · exact h.cyc x d hw
  · rfl
  · exact h.per x d hw
  · rfl
  · exact h.even x d hw
  · rfl

theorem contS_mul {a b : Sca n K} (ha : ContS wall P a) (hb : ContS wall P b) : ContS wall P (fun x => a x * b x) :=
  ⟨fun x d hw => by rw [ha.cyc x d hw, hb.cyc x d hw], fun x d hw => by rw [ha.per x d hw, hb.per x d hw], fun x d hw => by rw [ha.even x d hw, hb.even x d hw]⟩

/-- a run that computes what the scheme computes on the continued data conserves the half-weighted total -/
theorem conserve_of_mirror (h : WallSetupN wall c p P ds) (hF : FGood p.o p.F) (hM : FMir p.F)
    (hG : ∀ x, gFacN p.o p.st.G x ≠ 0) (filt : Nat → Bool) {psi0 : Sca n K} {GC : Vec n K} (h0 : ContS wall P psi0)
    (hg : ContV wall P GC) {m m' : MemN n K} (hpsi : ∀ x, InGrid P x → m.psi x = psi0 x) (t : Nat)
    (hr : ∀ x, InGrid P x → m'.psi x = SpecN.run p c.nIters filt GC t psi0 x) :
    ∑ x ∈ gridPts P, trapW P x * (gFacN c.o c.st.G x * m'.psi x) = ∑ x ∈ gridPts P, trapW P x * (gFacN c.o c.st.G x * m.psi x) := by
  have hP : ∀ d, 1 ≤ P d := fun d => by have := h.hhP d; have := (solverHalo_ge c.o).1; omega
  have hP2 : ∀ d, 1 ≤ 2 * P d := fun d => by have := hP d; omega
  have hpp : ParPerN p (fun d => 2 * P d) := ⟨perN_double h.contG, perV_double h.contNdt, perV_double h.contNdtt⟩
  have ht := specN_run_total hF hP2 hpp hG (perN_double h0) (perV_double hg) c.nIters filt t
  have hcG := contS_gFac (p := p) h.contG
  rw [trap_sum hP (contS_mul hcG (specN_run_cont hF hM h.par c.nIters filt h0 hg t)), trap_sum hP (contS_mul hcG h0)] at ht
  have h2 : (2 : K) ^ n ≠ 0 := pow_ne_zero _ two_ne_zero
  have ht := mul_left_cancel₀ h2 ht
  rw [Finset.sum_congr rfl (fun x hx => by rw [gFac_wall h (mem_gridPts.1 hx), hr x (mem_gridPts.1 hx)]), ht]
  exact Finset.sum_congr rfl (fun x hx => by rw [gFac_wall h (mem_gridPts.1 hx), hpsi x (mem_gridPts.1 hx)])

theorem conserve_wallN (h : WallSetupN wall c p P ds) (hF : FGood p.o p.F) (hM : FMir p.F) (hf : isset c.o oFct = false) (hn : 1 ≤ c.nIters)
    (hx : HaloCovered c.o c.nIters) (hG : ∀ x, gFacN p.o p.st.G x ≠ 0) (filt : Nat → Bool) {psi0 : Sca n K} {GC : Vec n K} (h0 : ContS wall P psi0)
    (hg : ContV wall P GC) (m : MemN n K) (hpsi : ∀ x, InGrid P x → m.psi x = psi0 x) (hGC : ∀ d x, InFaces P d x → m.GC d x = GC d x) (t : Nat) :
    ∑ x ∈ gridPts P, trapW P x * (gFacN c.o c.st.G x * (runProgN c filt t { m with GC := prepGC c (solverHalo c.o) m.GC }).psi x)
      = ∑ x ∈ gridPts P, trapW P x * (gFacN c.o c.st.G x * m.psi x) :=
  conserve_of_mirror h hF hM hG filt h0 hg hpsi t (wallN_run h hF hM hf hn hx filt h0 hg m hpsi hGC t)
end

/-- C50, 2-D (partial: without flux-corrected transport and without the divergence-form options in three or more passes). The G-weighted total over the grid, with weight
one half for every dimension in which a point is the first or the last, is conserved by any number of steps between rigid walls (and, in the dimensions without walls, cyclic
boundaries), for every other option set, number of passes, filter pattern, field and advector. -/
theorem C50_walls_conserve_2d_partial (wall : Fin 2 → Bool) (c : CfgN 2 K) (p : SpecN.Par 2 K) (P : Fin 2 → Nat) (h : Walled2 wall c p P) (hf : isset c.o oFct = false)
    (hn : 1 ≤ c.nIters) (hx : HaloCovered c.o c.nIters) (hG : ∀ x, gFacN p.o p.st.G x ≠ 0) (filt : Nat → Bool) (psi0 : Sca 2 K) (GC : Vec 2 K) (h0 : ContS wall P psi0)
    (hg : ContV wall P GC) (m : MemN 2 K) (hpsi : ∀ x, InGrid P x → m.psi x = psi0 x) (hGC : ∀ d x, InFaces P d x → m.GC d x = GC d x) (t : Nat) :
    ∑ x ∈ gridPts P, trapW P x * (gFacN c.o c.st.G x * (runProgN c filt t { m with GC := prepGC c (solverHalo c.o) m.GC }).psi x)
      = ∑ x ∈ gridPts P, trapW P x * (gFacN c.o c.st.G x * m.psi x) :=
  conserve_wallN h.setup h.good h.mir hf hn hx hG filt h0 hg m hpsi hGC t

/-- C50, 3-D (partial: same exclusions). -/
theorem C50_walls_conserve_3d_partial (wall : Fin 3 → Bool) (c : CfgN 3 K) (p : SpecN.Par 3 K) (P : Fin 3 → Nat) (h : Walled3 wall c p P) (hf : isset c.o oFct = false)
    (hn : 1 ≤ c.nIters) (hx : HaloCovered c.o c.nIters) (hG : ∀ x, gFacN p.o p.st.G x ≠ 0) (filt : Nat → Bool) (psi0 : Sca 3 K) (GC : Vec 3 K) (h0 : ContS wall P psi0)
    (hg : ContV wall P GC) (m : MemN 3 K) (hpsi : ∀ x, InGrid P x → m.psi x = psi0 x) (hGC : ∀ d x, InFaces P d x → m.GC d x = GC d x) (t : Nat) :
    ∑ x ∈ gridPts P, trapW P x * (gFacN c.o c.st.G x * (runProgN c filt t { m with GC := prepGC c (solverHalo c.o) m.GC }).psi x)
      = ∑ x ∈ gridPts P, trapW P x * (gFacN c.o c.st.G x * m.psi x) :=
  conserve_wallN h.setup h.good h.mir hf hn hx hG filt h0 hg m hpsi hGC t

/-- C50, box with walls on all sides (partial: same exclusions): no condition at all on the field, the advector or any other contents of the memory. -/
theorem C50_box_conserves_2d_partial (c : CfgN 2 K) (p : SpecN.Par 2 K) (P : Fin 2 → Nat) (h : Walled2 (fun _ => true) c p P) (hf : isset c.o oFct = false)
    (hn : 1 ≤ c.nIters) (hx : HaloCovered c.o c.nIters) (hG : ∀ x, gFacN p.o p.st.G x ≠ 0) (filt : Nat → Bool) (m : MemN 2 K) (t : Nat) :
    ∑ x ∈ gridPts P, trapW P x * (gFacN c.o c.st.G x * (runProgN c filt t { m with GC := prepGC c (solverHalo c.o) m.GC }).psi x)
      = ∑ x ∈ gridPts P, trapW P x * (gFacN c.o c.st.G x * m.psi x) := by
  have hP : ∀ d, 1 ≤ P d := fun d => by have := h.setup.hhP d; have := (solverHalo_ge c.o).1; omega
  exact conserve_wallN h.setup h.good h.mir hf hn hx hG filt (extS_cont hP m.psi) (extV_cont hP m.GC) m (extS_eq hP m.psi) (extV_eq hP m.GC) t

/-- C50, box with walls on all sides in 3-D (partial: same exclusions). -/
theorem C50_box_conserves_3d_partial (c : CfgN 3 K) (p : SpecN.Par 3 K) (P : Fin 3 → Nat) (h : Walled3 (fun _ => true) c p P) (hf : isset c.o oFct = false)
    (hn : 1 ≤ c.nIters) (hx : HaloCovered c.o c.nIters) (hG : ∀ x, gFacN p.o p.st.G x ≠ 0) (filt : Nat → Bool) (m : MemN 3 K) (t : Nat) :
    ∑ x ∈ gridPts P, trapW P x * (gFacN c.o c.st.G x * (runProgN c filt t { m with GC := prepGC c (solverHalo c.o) m.GC }).psi x)
      = ∑ x ∈ gridPts P, trapW P x * (gFacN c.o c.st.G x * m.psi x) := by
  have hP : ∀ d, 1 ≤ P d := fun d => by have := h.setup.hhP d; have := (solverHalo_ge c.o).1; omega
  exact conserve_wallN h.setup h.good h.mir hf hn hx hG filt (extS_cont hP m.psi) (extV_cont hP m.GC) m (extS_eq hP m.psi) (extV_eq hP m.GC) t

/-! ## Concrete instances -/

/-- a solver over the rationals with `P d + 1` points in dimension `d`, walls where `wall d`, G = 1, steady advector -/
def wallCfg {n : Nat} (wall : Fin n → Bool) (F : Formulae n ℚ) (o : OptsT) (k : Nat) (P : Fin n → Nat) (ds : List (Fin n)) : CfgN n ℚ :=
  { o := o, nIters := k, filter := false, eps := 1/1000, F := F, box := fun d => ⟨0, P d⟩
    st := ⟨fun _ => 1, fun _ _ => 0, fun _ _ => 0⟩
    fillS := bcXchngS wall (fun d => ⟨0, P d⟩) (solverHalo o) ds
    fillA := fun ad => bcXchngA wall (fun d => ⟨0, P d⟩) (solverHalo o) ad
    fillN := fun ext => bcXchngN wall (fun d => ⟨0, P d⟩) (solverHalo o) ext }

theorem wallCfg_setup {n : Nat} (wall : Fin n → Bool) (F : Formulae n ℚ) (o : OptsT) (k : Nat) (P : Fin n → Nat) (ds : List (Fin n)) (h : ∀ d, solverHalo o ≤ P d)
    (hd : ds.Nodup ∧ ∀ d, d ∈ ds) :
    WallSetupN wall (wallCfg wall F o k P ds) ⟨o, 1/1000, F, ⟨fun _ => 1, fun _ _ => 0, fun _ _ => 0⟩⟩ P ds :=
  ⟨rfl, rfl, rfl, fun _ => rfl, h, hd, rfl, fun _ => rfl, fun _ => rfl, ⟨fun _ _ _ => rfl, fun _ _ _ => rfl, fun _ _ _ => rfl⟩,
    ⟨fun _ _ _ _ => rfl, fun _ _ _ _ => rfl, fun _ _ _ => by simp, fun _ _ _ _ _ => rfl⟩, ⟨fun _ _ _ _ => rfl, fun _ _ _ _ => rfl, fun _ _ _ => by simp, fun _ _ _ _ _ => rfl⟩,
    fun _ _ => rfl, fun _ _ _ => rfl, fun _ _ _ => rfl⟩

/-- hypotheses met: a third-order two-pass solver in a channel with walls in the second dimension -/
example : Walled2 ![false, true] (wallCfg ![false, true] (formulae2 (oTot ||| oDfl) .exact .noextrp (1/1000)) (oTot ||| oDfl) 3 (fun _ => 4) [0, 1])
    ⟨oTot ||| oDfl, 1/1000, formulae2 (oTot ||| oDfl) .exact .noextrp (1/1000), ⟨fun _ => 1, fun _ _ => 0, fun _ _ => 0⟩⟩ (fun _ => 4) ∧
    isset (oTot ||| oDfl) oFct = false ∧ HaloCovered (oTot ||| oDfl) 3 :=
  ⟨⟨wallCfg_setup _ _ _ _ _ _ (fun d => by decide) (by decide), ⟨_, _, _, rfl⟩, by decide⟩, by decide, by unfold HaloCovered; decide⟩

/-- hypotheses met: an infinite-gauge third-order solver in a 3-D box -/
example : Walled3 (fun _ => true) (wallCfg (fun _ => true) (formulae3 (oTot ||| oIga) .exact .noextrp (1/1000)) (oTot ||| oIga) 2 (fun _ => 4) [1, 0, 2])
    ⟨oTot ||| oIga, 1/1000, formulae3 (oTot ||| oIga) .exact .noextrp (1/1000), ⟨fun _ => 1, fun _ _ => 0, fun _ _ => 0⟩⟩ (fun _ => 4) ∧
    isset (oTot ||| oIga) oFct = false ∧ HaloCovered (oTot ||| oIga) 2 :=
  ⟨⟨wallCfg_setup _ _ _ _ _ _ (fun d => by decide) (by decide), ⟨_, _, _, rfl⟩⟩, by decide, by unfold HaloCovered; decide⟩

/-- hypotheses met: every field and advector on a box has a continuation -/
example (m : MemN 3 ℚ) : ContS (fun _ => true) (fun _ => 4) (extS (fun _ => 4) m.psi) ∧ ContV (fun _ => true) (fun _ => 4) (extV (fun _ => 4) m.GC) :=
  ⟨extS_cont (fun _ => by decide) _, extV_cont (fun _ => by decide) _⟩

end Mpdata
