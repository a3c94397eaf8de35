import Verif.Lemmas.AccStep1
import Verif.Props.Order1
/-! # C56, C57: accuracy in flows that vary in space and time, 1-D -/
set_option linter.unusedSectionVars false
namespace Mpdata
variable {K : Type} [Field K] [LinearOrder K] [IsStrictOrderedRing K]
open Spec1

/-- one two-pass step of the program in terms of the samples around a grid point -/
theorem program_sampled1 (c : Cfg1 K) (P : Par K) (N : Nat) (hC : CyclicSetup c P N) (hn : c.nIters = 2) (hf : isset c.o oFct = false)
    (m : Mem1 K) (hper : m.psi c.ijk.last = m.psi c.ijk.first) (i : Int) (psi U : K → K → K) (G : K → K) (ndt ndtt : K → Int → K) (lam h : K)
    (hO : OnGrid1 c.ijk.first c.ijk.last i m.psi m.GC P.G c.si c.te psi U G lam h)
    (h1 : isset c.o oDiv3 = true → ∀ k : Int, -3 ≤ k → k ≤ 2 → P.ndtGC (i + k) = ndt h k ∧ P.ndttGC (i + k) = ndtt h k) :
    (runProg1 c (fun _ => false) 1 { m with GC := c.fillV false m.GC }).psi i =
      step (sampled1 c.o c.si c.te c.tiny c.eps G ndt ndtt h) 2 (fun k => psi (k * h) 0) (gcSample1 c.si c.te U lam h) 0 := by
  have hl : c.ijk.last = c.ijk.first + N := by have := hC.hN; omega
  have hx : HaloCovered c.o c.nIters := by unfold HaloCovered; rw [hn]; simp
  have hpe := perExt_agree' c.ijk.first N m.psi (by rw [← hl]; exact hper)
  have hge := perExt_agree c.ijk.first N m.GC
  have hr := cyc_run hC (by omega) hx (fun _ => false) (perExt_periodic c.ijk.first N m.psi) (perExt_periodic c.ijk.first N m.GC)
    m (by rw [hl]; exact hpe) (by rw [hl]; exact hge) 1
  have hL := hO.left
  have hR := hO.right
  rw [hr i (by omega) (by omega), hn]
  show step P 2 (perExt c.ijk.first N m.psi) (perExt c.ijk.first N m.GC) i = _
  refine step2_local P _ i _ _ _ _ hC.ho.symm hC.hsi.symm hC.hte.symm hC.htiny.symm (by rw [← hC.ho]; exact hf) ?_ ?_ ?_ ?_ ?_
  · intro k k1 k2; rw [← hpe (i + k) (by omega) (by omega)]; exact hO.field k k1 k2
  · intro k k1 k2; rw [← hge (i + k) (by omega) (by omega)]; exact hO.gc k k1 k2
  · intro k k1 k2; exact hO.gfac k (by omega) (by omega)
  · intro h3 k k1 k2; rw [← hC.ho] at h3; exact (h1 h3 k (by omega) (by omega)).1
  · intro h3 k k1 k2; rw [← hC.ho] at h3; exact (h1 h3 k (by omega) (by omega)).2

/-- C56, 1-D: second-order accuracy in any flow. Let `psi` solve the advection equation with a flux velocity `U` and a G-factor `G` that vary smoothly in space and (`U`) in time.
With the option `dfl` or `div_2nd` the program, given samples of `psi` with grid spacing `h`, returns after one time step `lam * h` the value of the solution at the new time
up to an error of at most `M * h^3` (so that the error accumulated over a given time is of second order); `M` does not depend on the grid, on the grid point or on anything
stored elsewhere. The flow does not vanish at the point; in the basic (not infinite-gauge) scheme the field does not vanish there and divisions are exact (option `pfc`, or no
small number added to denominators). -/
theorem C56_second_order_1d (o : OptsT) (si : SptlIntrp) (te : TmprlExtrp) (tiny eps lam : K) (psi U : K → K → K) (G : K → K) (p u g : Ser2 K)
    (h : Advects1 psi U G p u g) (hu : lam * u 0 0 ≠ 0) (hopt : isset o oDiv3 = false ∧ (isset o oDiv2 = true ∨ isset o oDfl = true))
    (ha : isset o oAbs = false) (hf : isset o oFct = false) (hnug : isset o oNug = true ∨ ∀ x, G x = 1)
    (hp : isset o oIga = true ∨ (p 0 0 ≠ 0 ∧ (isset o oPfc = true ∨ tiny = 0))) :
    ∃ M h0 : K, 0 < h0 ∧ ∀ hx, 0 < hx → hx ≤ h0 →
      ∀ (c : Cfg1 K) (P : Par K) (N : Nat), CyclicSetup c P N → c.nIters = 2 → c.o = o → c.si = si → c.te = te → c.tiny = tiny → c.eps = eps →
      ∀ (m : Mem1 K) (i : Int), m.psi c.ijk.last = m.psi c.ijk.first →
        OnGrid1 c.ijk.first c.ijk.last i m.psi m.GC P.G si te psi U G lam hx →
        |(runProg1 c (fun _ => false) 1 { m with GC := c.fillV false m.GC }).psi i - psi 0 (lam * hx)| ≤ M * hx ^ 3 := by
  obtain ⟨M, h0, hpos, hM⟩ := second_ref1 (eps := eps) (ndt := fun _ _ => 0) (ndtt := fun _ _ => 0) (si := si) (te := te) h hu
    ⟨ha, hp.imp id fun e => e.2⟩ hf hnug (hp.imp id fun e => e.1) hopt
  refine ⟨M, h0, hpos, fun hx x0 x1 c P N hC hn ho hsi hte hti heps m i hper hO => ?_⟩
  subst ho hsi hte hti heps
  rw [program_sampled1 c P N hC hn hf m hper i psi U G (fun _ _ => 0) (fun _ _ => 0) lam hx hO (by simp [hopt.1])]
  exact hM hx x0 x1

/-- C57, 1-D: third-order accuracy in any flow. With the option `div_3rd` (and time derivatives of the Courant numbers supplied as announced) the error of one step is at most
`M * h^4`, whichever of the supported interpolations of the Courant numbers in space and in time is announced. In the basic scheme it is assumed in addition that the
antidiffusive velocity does not vanish to leading order at the point. -/
theorem C57_third_order_1d (o : OptsT) (si : SptlIntrp) (te : TmprlExtrp) (tiny eps lam : K) (psi U : K → K → K) (G : K → K) (p u g : Ser2 K)
    (h : Advects1 psi U G p u g) (hu : lam * u 0 0 ≠ 0) (hopt : isset o oDiv3 = true)
    (ha : isset o oAbs = false) (hf : isset o oFct = false) (hnug : isset o oNug = true ∨ ∀ x, G x = 1)
    (hp : isset o oIga = true ∨ (p 0 0 ≠ 0 ∧ (isset o oPfc = true ∨ tiny = 0) ∧
      |lam * u 0 0| * p 1 0 ≠ lam * u 0 0 * (lam * (u 0 0 * p 1 0 + u 1 0 * p 0 0)) / g 0 0))
    (ndt ndtt : K → Int → K) (hn1 : NdtSampled1 u lam ndt) (hn2 : NdttSampled1 u lam ndtt) :
    ∃ M h0 : K, 0 < h0 ∧ ∀ hx, 0 < hx → hx ≤ h0 →
      ∀ (c : Cfg1 K) (P : Par K) (N : Nat), CyclicSetup c P N → c.nIters = 2 → c.o = o → c.si = si → c.te = te → c.tiny = tiny → c.eps = eps →
      ∀ (m : Mem1 K) (i : Int), m.psi c.ijk.last = m.psi c.ijk.first →
        OnGrid1 c.ijk.first c.ijk.last i m.psi m.GC P.G si te psi U G lam hx →
        (∀ k : Int, -3 ≤ k → k ≤ 2 → P.ndtGC (i + k) = ndt hx k ∧ P.ndttGC (i + k) = ndtt hx k) →
        |(runProg1 c (fun _ => false) 1 { m with GC := c.fillV false m.GC }).psi i - psi 0 (lam * hx)| ≤ M * hx ^ 4 := by
  obtain ⟨M, h0, hpos, hM⟩ := third_ref1 (eps := eps) (si := si) (te := te) h hu
    ⟨ha, hp.imp id fun e => e.2.1⟩ hf hnug (hp.imp id fun e => ⟨e.1, e.2.2⟩) hopt hn1 hn2
  refine ⟨M, h0, hpos, fun hx x0 x1 c P N hC hn ho hsi hte hti heps m i hper hO hN => ?_⟩
  subst ho hsi hte hti heps
  rw [program_sampled1 c P N hC hn hf m hper i psi U G ndt ndtt lam hx hO (fun _ => hN)]
  exact hM hx x0 x1

/-- a solution for a divergent, unsteady flow and a variable G-factor: `(1 + x) ∂ψ/∂t + ∂(Uψ)/∂x = 0` with `ψ = 1 + x + t`, `U = -(1 + x - t) / 2` -/
theorem exampleFlow1 : Advects1 (fun x t => 1 + x + t : ℚ → ℚ → ℚ) (fun x t => -(1 + x - t) / 2) (fun x => 1 + x)
    (fun m n => if m = 0 ∧ n = 0 ∨ m = 1 ∧ n = 0 ∨ m = 0 ∧ n = 1 then 1 else 0)
    (fun m n => if m = 0 ∧ n = 0 ∨ m = 1 ∧ n = 0 then -1 / 2 else if m = 0 ∧ n = 1 then 1 / 2 else 0)
    (fun m n => if m = 0 ∧ n = 0 ∨ m = 1 ∧ n = 0 then 1 else 0) := by
  refine ⟨⟨0, 1, one_pos, fun x t _ _ => ?_⟩, ⟨0, 1, one_pos, fun x t _ _ => ?_⟩, ⟨0, 1, one_pos, fun x t _ _ => ?_⟩, by simp, fun m n _ => by simp, fun m n h => ?_⟩
  · rw [zero_mul, abs_nonpos_iff]; norm_num [Ser2.poly]; ring
  · rw [zero_mul, abs_nonpos_iff]; norm_num [Ser2.poly]; ring
  · simp [Ser2.poly]
  · rcases (show m = 0 ∧ n = 0 ∨ m = 1 ∧ n = 0 ∨ m = 2 ∧ n = 0 ∨ m = 0 ∧ n = 1 ∨ m = 1 ∧ n = 1 ∨ m = 0 ∧ n = 2 by omega) with
      ⟨rfl, rfl⟩ | ⟨rfl, rfl⟩ | ⟨rfl, rfl⟩ | ⟨rfl, rfl⟩ | ⟨rfl, rfl⟩ | ⟨rfl, rfl⟩ <;>
    norm_num [Ser2.mul, Ser2.dx, Ser2.dt, Finset.sum_range_succ]

/-- program and data for that flow: 21 points, the assessed point in the middle, G-factor and Courant numbers continued periodically -/
def exampleCfg1 (o : OptsT) (h : ℚ) : Cfg1 ℚ :=
  { demo1 o 2 with ijk := ⟨0, 20⟩, G := perExt 0 20 (fun i => 1 + (i - 10) * h), ndtGC := fun _ => 1 / 8 * h, fillS := cycFillS ⟨0, 20⟩ (solverHalo o), fillV := fun _ => cycFillV ⟨0, 20⟩ (solverHalo o) }
def examplePar1 (o : OptsT) (h : ℚ) : Par ℚ := ⟨o, .exact, .noextrp, 1/1000, 1/1000, perExt 0 20 (fun i => 1 + (i - 10) * h), fun _ => 1 / 8 * h, fun _ => 0⟩
def exampleMem1 (h : ℚ) : Mem1 ℚ :=
  { demoMem 7 with psi := fun i => if i = 20 then 1 - 10 * h else 1 + (i - 10) * h, GC := fun i => gcSample1 .exact .noextrp (fun x t => -(1 + x - t) / 2) (1 / 2) h (i - 10) }

/-- the hypotheses of C56 and C57 hold for this flow with the basic scheme, for every grid spacing -/
example (o : OptsT) (ho : solverHalo o ≤ 20) (h : ℚ) : CyclicSetup (exampleCfg1 o h) (examplePar1 o h) (20 : Nat) ∧ (exampleCfg1 o h).nIters = 2 ∧
    (exampleMem1 h).psi (exampleCfg1 o h).ijk.last = (exampleMem1 h).psi (exampleCfg1 o h).ijk.first ∧
    OnGrid1 (exampleCfg1 o h).ijk.first (exampleCfg1 o h).ijk.last 10 (exampleMem1 h).psi (exampleMem1 h).GC (examplePar1 o h).G .exact .noextrp
      (fun x t => 1 + x + t) (fun x t => -(1 + x - t) / 2) (fun x => 1 + x) (1 / 2) h := by
  refine ⟨⟨rfl, rfl, rfl, rfl, rfl, rfl, by exact_mod_cast ho, rfl, rfl, ⟨by exact perExt_periodic 0 20 (fun i => 1 + ((i : ℚ) - 10) * h), fun _ => rfl, fun _ => rfl⟩, fun _ _ _ => rfl, fun _ _ _ => rfl, fun _ _ _ => rfl⟩, rfl, ?_, ?_⟩
  · simp [exampleMem1, exampleCfg1]; ring
  · refine ⟨by simp [exampleCfg1], by simp [exampleCfg1], fun k k1 k2 => ?_, fun k k1 k2 => ?_, fun k k1 k2 => ?_⟩
    · simp only [exampleMem1]
      rw [if_neg (by omega)]; push_cast; ring
    · simp only [exampleMem1, show 10 + k - 10 = k by ring]
    · simp only [examplePar1, perExt]
      rw [show (0 : Int) + (10 + k - 0) % 20 = 10 + k by omega]; push_cast; ring

/-- options and flow of C56 and C57, basic scheme: `dfl`, `div_2nd`, `div_3rd` with `nug` and `pfc` -/
example : (isset (oDfl ||| oNug ||| oPfc) oDiv3 = false ∧ isset (oDfl ||| oNug ||| oPfc) oDfl = true ∧ isset (oDfl ||| oNug ||| oPfc) oAbs = false ∧ isset (oDfl ||| oNug ||| oPfc) oFct = false ∧ isset (oDfl ||| oNug ||| oPfc) oPfc = true) ∧
    (isset (oDiv2 ||| oDiv3 ||| oNug ||| oPfc) oDiv3 = true ∧ isset (oDiv2 ||| oDiv3 ||| oNug ||| oPfc) oAbs = false ∧ isset (oDiv2 ||| oDiv3 ||| oNug ||| oPfc) oFct = false ∧ isset (oDiv2 ||| oDiv3 ||| oNug ||| oPfc) oPfc = true) ∧
    (|(1 : ℚ) / 2 * (-1 / 2)| * 1 ≠ 1 / 2 * (-1 / 2) * (1 / 2 * (-1 / 2 * 1 + -1 / 2 * 1)) / 1) := by
  refine ⟨by decide, by decide, ?_⟩
  rw [abs_of_neg (by norm_num)]; norm_num

/-- the supplied time derivatives are the announced ones -/
example : NdtSampled1 (fun m n => if m = 0 ∧ n = 0 ∨ m = 1 ∧ n = 0 then -1 / 2 else if m = 0 ∧ n = 1 then 1 / 2 else 0) (1 / 2 : ℚ) (fun h _ => 1 / 8 * h) ∧
    NdttSampled1 (fun m n => if m = 0 ∧ n = 0 ∨ m = 1 ∧ n = 0 then -1 / 2 else if m = 0 ∧ n = 1 then 1 / 2 else 0) (1 / 2 : ℚ) (fun _ _ => 0) := by
  refine ⟨⟨fun _ s => 1 / 8 * s, fun m n => if m = 0 ∧ n = 1 then 1 / 8 else 0, ⟨0, 1, one_pos, fun x t _ _ => by simp [Ser2.poly]⟩, fun _ _ => rfl, fun m => ⟨by simp, ?_⟩⟩,
    ⟨fun _ _ => 0, fun _ _ => 0, ⟨0, 1, one_pos, fun x t _ _ => by simp [Ser2.poly]⟩, fun _ _ => rfl, fun m => ⟨rfl, rfl, by simp [Ser2.dt]⟩⟩⟩
  by_cases hm : m = 0 <;> norm_num [hm, Ser2.dt]

end Mpdata
