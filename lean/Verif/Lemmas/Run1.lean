import Verif.Props.Halo1
import Verif.Lemmas.Donor
/-! Many steps of the 1-D program: the advector is never overwritten, and a cyclic run of any length equals the
run of the specification. -/
set_option linter.unusedSectionVars false
namespace Mpdata
variable {K : Type} [Field K] [LinearOrder K]
open Spec1

theorem fctInit1_GC (c : Cfg1 K) (m : Mem1 K) : (fctInit1 c m).GC = m.GC := by
  unfold fctInit1; split <;> rfl
theorem fctAdjust1_GC (c : Cfg1 K) (iter : Nat) (m : Mem1 K) : (fctAdjust1 c iter m).GC = m.GC := by
  unfold fctAdjust1
  split
  · simp only; split <;> simp
  · rfl
theorem advIter1_GC (c : Cfg1 K) (iter : Nat) (m : Mem1 K) : (advIter1 c iter m).GC = m.GC := by
  unfold advIter1
  simp only
  split <;> split <;> simp only [fctAdjust1_GC] <;> (try split) <;> simp only [setCorr_GC]
theorem advLoop1_GC (c : Cfg1 K) (k iter : Nat) (m : Mem1 K) : (advLoop1 c k iter m).GC = m.GC := by
  induction k generalizing iter m with
  | zero => rfl
  | succ k ih =>
    unfold advLoop1
    simp only
    split
    · exact advIter1_GC c iter m
    · rw [ih, advIter1_GC]
theorem advance1_GC (c : Cfg1 K) (m : Mem1 K) : (advance1 c m).GC = m.GC := by
  unfold advance1; simp only [advLoop1_GC, fctInit1_GC]

/-- `k` time steps of the program on one equation (solver_common.hpp:270-358 with a time-independent advector);
`filt t` tells whether step `t` is an upwind-filter step -/
def runProg1 (c : Cfg1 K) (filt : Nat → Bool) : Nat → Mem1 K → Mem1 K
  | 0, m => m
  | t + 1, m => advance1 { c with filter := filt t } (runProg1 c filt t m)

theorem runProg1_GC (c : Cfg1 K) (filt : Nat → Bool) (t : Nat) (m : Mem1 K) : (runProg1 c filt t m).GC = m.GC := by
  induction t with
  | zero => rfl
  | succ t ih => unfold runProg1; rw [advance1_GC, ih]

namespace Spec1
/-- `t` steps of the specification, `n` passes each, upwind only in filter steps -/
def run (p : Par K) (n : Nat) (filt : Nat → Bool) (GC : Int → K) : Nat → (Int → K) → (Int → K)
  | 0, psi => psi
  | t + 1, psi => step p (if filt t then 1 else n) (run p n filt GC t psi) GC
end Spec1

theorem run_periodic (p : Par K) {N : Int} (hp : ParPeriodic p N) (n : Nat) (filt : Nat → Bool) {psi GC : Int → K}
    (h0 : Periodic N psi) (hg : Periodic N GC) (t : Nat) : Periodic N (Spec1.run p n filt GC t psi) := by
  induction t with
  | zero => exact h0
  | succ t ih => exact (passes_periodic p hp ih hg _).1

theorem CyclicSetup.filt {c : Cfg1 K} {p : Par K} {N : Int} (h : CyclicSetup c p N) (b : Bool) :
    CyclicSetup { c with filter := b } p N :=
  ⟨h.ho, h.hsi, h.hte, h.htiny, h.heps, h.hN, h.hhN, h.hS, h.hV, h.per, h.hG, h.hndt, h.hndtt⟩

/-- filling the advector halo again changes nothing where it matters -/
theorem cyc_GC_fill {c : Cfg1 K} {p : Par K} {N : Int} (h : CyclicSetup c p N) {a GC : Int → K} (hg : Periodic N GC)
    (hGC : Agree c.ijk.first (c.ijk.last - 1) a GC) :
    Agree (c.ijk.first - solverHalo c.o) (c.ijk.last + solverHalo c.o - 1) (c.fillV false a) GC := by
  rw [h.hV]; exact cycFillV_periodic h.hN h.hhN hg hGC

/-- one step from any memory holding the right field and a filled advector -/
theorem cyc_step {c : Cfg1 K} {p : Par K} {N : Int} (h : CyclicSetup c p N)
    (hn : 1 ≤ c.nIters) (hx : HaloCovered c.o c.nIters) {psi0 GC : Int → K}
    (h0 : Periodic N psi0) (hg : Periodic N GC) (m : Mem1 K)
    (hpsi : Agree c.ijk.first c.ijk.last m.psi psi0)
    (hGC : Agree (c.ijk.first - solverHalo c.o) (c.ijk.last + solverHalo c.o - 1) m.GC GC) :
    Agree c.ijk.first c.ijk.last (advance1 c m).psi (step p (if c.filter then 1 else c.nIters) psi0 GC) := by
  have hid : ∀ k, Ref1.passes ⟨p, id, fun _ => id⟩ c.nIters psi0 GC k = Spec1.passes p psi0 GC k :=
    ref_id_passes p c.nIters psi0 GC
  have hper := passes_periodic p h.per h0 hg
  have := advance1_refines h.implements c.nIters rfl hn psi0 GC m hx h0
    (fun k => by rw [hid]; exact (hper k).1)
    (fun k => by
      rw [hid]
      exact antidiff1_periodic _ _ _ _ (hper k).1 (hper k).2 h.per.G h.per.ndt h.per.ndtt)
    hpsi hGC
  rw [hid] at this
  unfold step
  cases hfi : c.filter <;> simpa [hfi] using this

/-- a cyclic run of any length computes the run of the specification -/
theorem cyc_run {c : Cfg1 K} {p : Par K} {N : Int} (h : CyclicSetup c p N)
    (hn : 1 ≤ c.nIters) (hx : HaloCovered c.o c.nIters) (filt : Nat → Bool) {psi0 GC : Int → K}
    (h0 : Periodic N psi0) (hg : Periodic N GC) (m : Mem1 K)
    (hpsi : Agree c.ijk.first c.ijk.last m.psi psi0)
    (hGC : Agree c.ijk.first (c.ijk.last - 1) m.GC GC) (t : Nat) :
    Agree c.ijk.first c.ijk.last (runProg1 c filt t { m with GC := c.fillV false m.GC }).psi
      (Spec1.run p c.nIters filt GC t psi0) := by
  induction t with
  | zero => exact hpsi
  | succ t ih =>
    unfold runProg1 Spec1.run
    have := cyc_step (h.filt (filt t)) hn hx (run_periodic p h.per c.nIters filt h0 hg t) hg
      (runProg1 c filt t { m with GC := c.fillV false m.GC }) ih
      (by rw [runProg1_GC]; exact cyc_GC_fill h hg hGC)
    exact this

/-- every array on the interior is the restriction of a periodic one iff its end points agree -/
def perExt (f N : Int) (a : Int → K) : Int → K := fun i => a (f + (i - f) % N)

theorem perExt_periodic (f N : Int) (a : Int → K) : Periodic N (perExt f N a) := by
  intro i; unfold perExt
  rw [show i + N - f = (i - f) + N by ring, Int.add_emod_right]

theorem perExt_agree (f N : Int) (a : Int → K) : Agree f (f + N - 1) a (perExt f N a) := by
  intro i h1 h2
  unfold perExt
  rw [Int.emod_eq_of_lt (by omega) (by omega)]
  congr 1; ring

theorem perExt_agree' (f N : Int) (a : Int → K) (h : a (f + N) = a f) : Agree f (f + N) a (perExt f N a) := by
  intro i h1 h2
  by_cases hi : i = f + N
  · subst hi
    unfold perExt
    rw [show f + N - f = N by ring, Int.emod_self, h, add_zero]
  · exact perExt_agree f N a i h1 (by omega)

end Mpdata
