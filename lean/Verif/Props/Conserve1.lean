import Verif.Lemmas.Run1
import Verif.Props.Donor
/-! # C12 (conservation), C17 (buffers) and C18 (constants) for the whole 1-D MPDATA step -/
set_option linter.unusedSectionVars false
namespace Mpdata
variable {K : Type} [Field K] [LinearOrder K] [IsStrictOrderedRing K]
open Spec1

/-- G-weighted total of a field over `N` cells starting at `f` -/
def total (o : OptsT) (G : Int → K) (f : Int) (N : Nat) (a : Int → K) : K :=
  ∑ i ∈ Finset.range N, gFac1 o G (f + i) * a (f + i)

theorem passes_total (p : Par K) (N : Nat) (f : Int) (hp : ParPeriodic p N) (hG : ∀ i, gFac1 p.o p.G i ≠ 0)
    {psi0 GC : Int → K} (h0 : Periodic N psi0) (hg : Periodic N GC) (k : Nat) :
    total p.o p.G f N (passes p psi0 GC k).1 = total p.o p.G f N psi0 := by
  have key : ∀ psi flx : Int → K, Periodic N flx →
      total p.o p.G f N (donorStep1 p.o psi flx p.G) = total p.o p.G f N psi := by
    intro psi flx hflx
    apply C08_conservation_1d
    · exact fun i _ _ => hG i
    · have := hflx (f - 1)
      rw [← this]; congr 1; ring
  induction k with
  | zero => exact key _ _ (makeFlux1_periodic _ h0 hg)
  | succ k ih =>
    obtain ⟨i1, i2⟩ := passes_periodic p hp h0 hg k
    have hA := antidiff1_periodic p.o p.si p.te p.tiny i1 i2 hp.G hp.ndt hp.ndtt
    have hC : Periodic N (if isset p.o oFct = true then limited p psi0 (passes p psi0 GC k).1
        (velocity p (passes p psi0 GC k).1 (passes p psi0 GC k).2)
        else velocity p (passes p psi0 GC k).1 (passes p psi0 GC k).2) := by
      split
      · exact limited_periodic p h0 i1 hA hp.G
      · exact hA
    rw [← ih]
    show total p.o p.G f N (corrective p psi0 _ _) = _
    unfold corrective
    apply key
    split
    · exact hC
    · exact makeFlux1_periodic _ i1 hC

theorem run_total (p : Par K) (N : Nat) (f : Int) (hp : ParPeriodic p N) (hG : ∀ i, gFac1 p.o p.G i ≠ 0)
    {psi0 GC : Int → K} (h0 : Periodic N psi0) (hg : Periodic N GC) (n : Nat) (filt : Nat → Bool) (t : Nat) :
    total p.o p.G f N (Spec1.run p n filt GC t psi0) = total p.o p.G f N psi0 := by
  induction t with
  | zero => rfl
  | succ t ih => rw [← ih]; exact passes_total p N f hp hG (run_periodic p hp n filt h0 hg t) hg _

/-- C12, 1-D (partial: divergence-form options with three or more passes and no fct are excluded, where it fails, see
`C12_fails_div2_three_passes`). On a cyclic domain the program conserves the G-weighted total over one period, for every
option set, number of passes, pattern of upwind-filter steps, grid size, field, advector, non-zero G, contents of
the temporaries and number of time steps. -/
theorem C12_conservation_1d_partial (c : Cfg1 K) (p : Par K) (N : Nat) (h : CyclicSetup c p N)
    (hn : 1 ≤ c.nIters) (hx : HaloCovered c.o c.nIters) (hG : ∀ i, gFac1 p.o p.G i ≠ 0)
    (filt : Nat → Bool) (m : Mem1 K) (hper : m.psi c.ijk.last = m.psi c.ijk.first) (t : Nat) :
    ∑ i ∈ Finset.range N, gFac1 c.o c.G (c.ijk.first + i)
        * (runProg1 c filt t { m with GC := c.fillV false m.GC }).psi (c.ijk.first + i)
      = ∑ i ∈ Finset.range N, gFac1 c.o c.G (c.ijk.first + i) * m.psi (c.ijk.first + i) := by
  have hl : c.ijk.last = c.ijk.first + N := by have := h.hN; omega
  have hpe := perExt_agree' c.ijk.first N m.psi (by rw [← hl]; exact hper)
  have hpg := perExt_agree c.ijk.first N m.GC
  have hr := cyc_run h hn hx filt (perExt_periodic c.ijk.first N m.psi) (perExt_periodic c.ijk.first N m.GC)
    m (by rw [hl]; exact hpe) (by rw [hl]; exact hpg) t
  have ht := run_total p N c.ijk.first h.per hG (perExt_periodic c.ijk.first N m.psi)
    (perExt_periodic c.ijk.first N m.GC) c.nIters filt t
  have hGe : ∀ i ∈ Finset.range N, gFac1 c.o c.G (c.ijk.first + i) = gFac1 p.o p.G (c.ijk.first + i) := by
    intro i hi
    have := Finset.mem_range.1 hi
    unfold gFac1
    rw [h.ho, h.hG _ (by omega) (by omega)]
  unfold total at ht
  rw [Finset.sum_congr rfl (fun i hi => by
      rw [hGe i hi, hr (c.ijk.first + i) (by omega) (by have := Finset.mem_range.1 hi; omega)]), ht]
  refine Finset.sum_congr rfl (fun i hi => ?_)
  have := Finset.mem_range.1 hi
  rw [hGe i hi, hpe _ (by omega) (by omega)]

/-- hypotheses met: the demo solver with three passes, third-order, divergent-flow and fct options -/
example : (demoMem 7).psi (demo1 (oFct ||| oTot ||| oDfl) 3).ijk.last
    = (demoMem 7).psi (demo1 (oFct ||| oTot ||| oDfl) 3).ijk.first ∧
    ∀ i, gFac1 (oFct ||| oTot ||| oDfl) (fun _ => (1 : ℚ)) i ≠ 0 := by
  refine ⟨by decide +kernel, fun i => ?_⟩
  simp [gFac1]

/-- C12 fails for `div_2nd`, three passes, no fct: with other leftovers in the temporary arrays the program
creates or destroys the advected quantity. -/
theorem C12_fails_div2_three_passes :
    let m : Mem1 ℚ := demoMem 7
    let m' := advance1 (demo1 oDiv2 3) m
    m'.psi 0 + m'.psi 1 + m'.psi 2 + m'.psi 3 ≠ m.psi 0 + m.psi 1 + m.psi 2 + m.psi 3 := by
  decide +kernel

/-! ## C17: buffers -/

/-- C17: in every corrective iteration, storing the corrected velocity does not change the velocity being
corrected, nor the user's advector. -/
theorem C17_corr_does_not_alias_unco (iter : Nat) (h : 1 ≤ iter) (m : Mem1 K) (a : Int → K) :
    gcUnco iter (setCorr iter m a) = gcUnco iter m ∧ (setCorr iter m a).GC = m.GC ∧ gcCorr iter (setCorr iter m a) = a := by
  refine ⟨?_, setCorr_GC iter m a, gcCorr_setCorr iter m a⟩
  unfold gcUnco setCorr
  by_cases h1 : iter = 1
  · subst h1; rfl
  · by_cases h2 : iter % 2 = 1 <;> simp [h1, h2]

/-- C17: the velocity corrected by iteration `k+1` is the one produced by iteration `k`; iteration 1
corrects the advector. -/
theorem C17_next_reads_previous (iter : Nat) (m : Mem1 K) :
    gcUnco 1 m = m.GC ∧ (1 ≤ iter → gcUnco (iter + 1) m = gcCorr iter m) :=
  ⟨rfl, fun h => gcUnco_succ iter h m⟩

/-- C17: the user's advector survives a whole step and a whole run, whatever the options. -/
theorem C17_advector_preserved (c : Cfg1 K) (filt : Nat → Bool) (t : Nat) (m : Mem1 K) :
    (advance1 c m).GC = m.GC ∧ (runProg1 c filt t m).GC = m.GC := ⟨advance1_GC c m, runProg1_GC c filt t m⟩

/-- number of allocated temporary velocity fields (mpdata_common.hpp:67-70, 101-110) -/
def nTmp (nIters : Nat) : Nat := if nIters > 2 then 2 else 1
/-- index of the temporary field used as `GC_corr(iter)` (mpdata_common.hpp:49-54) -/
def corrIdx (iter : Nat) : Nat := if iter % 2 = 1 then 0 else 1

/-- C17: allocation suffices: every temporary index used by any corrective iteration is allocated, and
the index is the one the model's `gcCorr` reads. -/
theorem C17_tmp_allocated (n iter : Nat) (h1 : 1 ≤ iter) (h2 : iter < n) (m : Mem1 K) :
    corrIdx iter < nTmp n ∧ gcCorr iter m = (if corrIdx iter = 0 then m.tmp0 else m.tmp1) := by
  unfold corrIdx nTmp gcCorr
  constructor
  · split_ifs <;> omega
  · split_ifs <;> simp_all

/-! ## C18: constants -/

/-- C18: for a constant field, uniform advector and any G, every antidiffusive velocity formula vanishes except
for the term of `div_3rd` that holds the second time derivative of the advector. -/
theorem C18_antidiff_constant (p : Par K) (v C d0 d1 : K) (hndt : ∀ i, p.ndtGC i = d0) (hndtt : ∀ i, p.ndttGC i = d1)
    (hd : isset p.o oDiv3 = true → d1 = 0) (i : Int) :
    velocity p (fun _ => v) (fun _ => C) i = 0 := by
  have f0 : ∀ x : K, frac p.o p.tiny 0 x = 0 := by intro x; unfold frac; split <;> simp
  have e1 : ∀ j, ndxPsi1 p.o p.tiny (fun _ => v) j = 0 := by intro j; simp [ndxPsi1, f0]
  have e2 : ∀ j, ndxxPsi1 p.o p.tiny (fun _ => v) j = 0 := by intro j; simp [ndxxPsi1, f0]
  have e3 : ∀ j, fdivCentre1 p.o (fun _ => v) (fun _ => C) p.G j = 0 := by intro j; simp [fdivCentre1, psiBarX1]
  have e4 : nfdiv1 p.o p.tiny (fun _ => v) (fun _ => C) p.G i = 0 := by simp [nfdiv1, gc0BarX1, f0]
  have e4' : nfdiv1 p.o p.tiny (fun _ => v) p.ndtGC p.G i = 0 := by simp [nfdiv1, gc0BarX1, f0, hndt]
  have e5 : nfdivFdiv1 p.o p.tiny (fun _ => v) (fun _ => C) p.G i = 0 := by simp [nfdivFdiv1, e3, f0]
  have e6 : ndxFdiv1 p.o p.tiny (fun _ => v) (fun _ => C) p.G i = 0 := by simp [ndxFdiv1, e3, f0]
  have e7 : ∀ te, div3rd1 p.o p.si te p.tiny (fun _ => v) (fun _ => C) p.ndtGC p.ndttGC p.G i = 0 := by
    intro te
    unfold div3rd1
    split
    · rename_i h3
      have e8 : ndttGC01 p.o (fun _ => v) p.ndttGC i = 0 := by simp [ndttGC01, hndtt, hd h3]
      have e9 : div3rdTemporal1 p.o te (fun _ => v) p.ndttGC i = 0 := by
        unfold div3rdTemporal1; cases te <;> simp [e8]
      have e10 : div3rdSpatialHelper1 p.o p.si (fun _ => v) (fun _ => C) i = 0 := by
        unfold div3rdSpatialHelper1 ndxxGC01
        have : C + C - 2 * C = 0 := by ring
        cases p.si <;> simp [this]
      simp [div3rdUpwind1, e1, e2, div3rdSpatial1, e4, e4', e5, e6, e9, e10, ndxGC01]
    · rfl
  unfold velocity antidiff1
  rw [e7]
  simp [div2nd1, e1, e4, tot1, e2, dfl1]

theorem passes_constant (p : Par K) (v C d0 d1 : K) (hndt : ∀ i, p.ndtGC i = d0) (hndtt : ∀ i, p.ndttGC i = d1)
    (hd : isset p.o oDiv3 = true → d1 = 0) (k : Nat) :
    (passes p (fun _ => v) (fun _ => C) k).1 = (fun _ => v) ∧
    (passes p (fun _ => v) (fun _ => C) k).2 = (fun _ => if k = 0 then C else 0) := by
  have hdon : ∀ F : K, donorStep1 p.o (fun _ => v) (fun _ => F) p.G = fun _ => v := by
    intro F; funext i; unfold donorStep1; rw [donorSum1_eq]; simp
  induction k with
  | zero =>
    refine ⟨?_, rfl⟩
    show first p _ _ = _
    unfold first makeFlux1
    exact hdon _
  | succ k ih =>
    obtain ⟨a, b⟩ := ih
    have hA : velocity p (passes p (fun _ => v) (fun _ => C) k).1 (passes p (fun _ => v) (fun _ => C) k).2 = fun _ => 0 := by
      funext i; rw [a, b]; exact C18_antidiff_constant p v _ d0 d1 hndt hndtt hd i
    refine ⟨?_, ?_⟩
    · show corrective p _ _ _ = _
      rw [hA, a]
      unfold corrective
      have hl : limited p (fun _ => v) (fun _ => v) (fun _ => 0) = fun _ => 0 := by
        funext i
        simp only [limited, gcMono1, zero_mul, ite_self]
      simp only [hl, ite_self]
      have hm : makeFlux1 p.o (fun _ => v) (fun _ => (0 : K)) = fun _ => 0 := by
        funext i; simp [makeFlux1, donorF, pospart_eq, negpart_eq]
      simp only [hm, ite_self]
      exact hdon 0
    · show velocity p _ _ = _
      rw [hA]; simp

/-- C18, 1-D, about the program: a constant field in uniform (1-D non-divergent) flow is a fixed point of a cyclic run of
any length, for every option set covered by the halo exchanges, any G, number of passes and contents of temporaries. -/
theorem C18_constant_is_fixed_point_1d (c : Cfg1 K) (p : Par K) (N : Nat) (h : CyclicSetup c p N)
    (hn : 1 ≤ c.nIters) (hx : HaloCovered c.o c.nIters)
    (v C d0 d1 : K) (hndt : ∀ i, p.ndtGC i = d0) (hndtt : ∀ i, p.ndttGC i = d1)
    (hd : isset p.o oDiv3 = true → d1 = 0) (filt : Nat → Bool) (m : Mem1 K)
    (hGC : ∀ i, c.ijk.first ≤ i → i ≤ c.ijk.last - 1 → m.GC i = C)
    (hpsi : ∀ i, c.ijk.first ≤ i → i ≤ c.ijk.last → m.psi i = v) (t : Nat) :
    ∀ i, c.ijk.first ≤ i → i ≤ c.ijk.last →
      (runProg1 c filt t { m with GC := c.fillV false m.GC }).psi i = v := by
  intro i h1 h2
  have hr := cyc_run h hn hx filt (psi0 := fun _ => v) (GC := fun _ => C) (fun _ => rfl) (fun _ => rfl) m hpsi hGC t
  rw [hr i h1 h2]
  have : ∀ t, Spec1.run p c.nIters filt (fun _ => C) t (fun _ => v) = fun _ => v := by
    intro t
    induction t with
    | zero => rfl
    | succ t ih =>
      show step p _ (Spec1.run p c.nIters filt (fun _ => C) t (fun _ => v)) _ = _
      rw [ih]
      exact (passes_constant p v C d0 d1 hndt hndtt hd _).1
  rw [this]

end Mpdata
