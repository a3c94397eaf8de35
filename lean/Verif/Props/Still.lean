import Verif.Lemmas.Still3
/-! # C63 (advection): without flow nothing is transported; C20 for whole runs -/
set_option linter.unusedSectionVars false
set_option linter.unusedVariables false
namespace Mpdata
variable {n : Nat} {K : Type} [Field K] [LinearOrder K] [IsStrictOrderedRing K]

/-- the advector vanishes on all faces of the cells of the domain -/
def NoFlowN (c : CfgN n K) (GC : Vec n K) : Prop := ∀ d x, ((c.box d).first - 1 ≤ x d ∧ x d ≤ (c.box d).last ∧ ∀ e, e ≠ d → (c.box e).first ≤ x e ∧ x e ≤ (c.box e).last) → GC d x = 0

theorem run_still {c : CfgN n K} (h : ∀ f, StillOk { c with filter := f }) (h1 : 1 ≤ c.nIters) {m : MemN n K} (hG : NoFlowN c m.GC) (filt : Nat → Bool) (t : Nat) {x : Idx n}
    (hx : InDomain c.box x) : (runProgN c filt t { m with GC := prepGC c (solverHalo c.o) m.GC }).psi x = m.psi x := by
  have hz : ZF c.box m.GC := fun d x hx => hG d x ⟨by have := hx d; simp only [if_true] at this; omega, by have := hx d; simp only [if_true] at this; omega,
    fun e he => by simpa [he] using hx e⟩
  have hp : ZF c.box (prepGC c (solverHalo c.o) m.GC) := by
    unfold prepGC
    exact (h false).fillN _ _ ((h false).fillA _ _ hz)
  induction t with
  | zero => rfl
  | succ t ih =>
    show (advanceN { c with filter := filt t } _).psi x = _
    rw [advance_still (c := { c with filter := filt t }) (h (filt t)) h1 (by rw [runProgN_GC]; exact hp) (fun e => by simpa using hx e)]
    exact ih

/-- C63, 2-D: if the advector vanishes on every face of the domain's cells, no field ever changes: for every combination of boundary kinds, every initial memory (halos, temporaries),
every number of passes and steps (filtered or not) and every option set without the third-order divergence-form terms, the field inside the domain is, exactly, the initial one. -/
theorem C63_no_flow_2d_partial (c : CfgN 2 K) (B : Bnd 2) (hB : BcSolver c B [0, 1]) (hW : Wide B) (si : SptlIntrp) (te : TmprlExtrp) (tiny : K)
    (hF : c.F = formulae2 c.o si te tiny) (h3 : isset c.o oDiv3 = false) (h3t : isset c.o oDiv3dt = false) (h1 : 1 ≤ c.nIters)
    (m : MemN 2 K) (hG : NoFlowN c m.GC) (filt : Nat → Bool) (t : Nat) :
    ∀ x, InDomain c.box x → (runProgN c filt t { m with GC := prepGC c (solverHalo c.o) m.GC }).psi x = m.psi x := by
  intro x hx
  refine run_still (fun f => stillOk_of (B := B) (ds := [0, 1]) ⟨hB.box, hB.halo, hB.all, hB.s, hB.a, hB.n⟩ hW (fun d st psi old GC x h => ?_) (fun psi flx G x h => ?_)) h1 hG filt t hx
  · show c.F.vel d st psi old GC x = 0
    rw [hF]; exact velZ_2 _ _ _ _ h3 h3t d st psi old GC x h
  · show c.F.donor psi flx G x = psi x
    rw [hF]; exact donorZ_2 _ _ _ _ psi flx G x h

/-- C63, 3-D. -/
theorem C63_no_flow_3d_partial (c : CfgN 3 K) (B : Bnd 3) (hB : BcSolver c B [1, 0, 2]) (hW : Wide B) (si : SptlIntrp) (te : TmprlExtrp) (tiny : K)
    (hF : c.F = formulae3 c.o si te tiny) (h3 : isset c.o oDiv3 = false) (h3t : isset c.o oDiv3dt = false) (h1 : 1 ≤ c.nIters)
    (m : MemN 3 K) (hG : NoFlowN c m.GC) (filt : Nat → Bool) (t : Nat) :
    ∀ x, InDomain c.box x → (runProgN c filt t { m with GC := prepGC c (solverHalo c.o) m.GC }).psi x = m.psi x := by
  intro x hx
  refine run_still (fun f => stillOk_of (B := B) (ds := [1, 0, 2]) ⟨hB.box, hB.halo, hB.all, hB.s, hB.a, hB.n⟩ hW (fun d st psi old GC x h => ?_) (fun psi flx G x h => ?_)) h1 hG filt t hx
  · show c.F.vel d st psi old GC x = 0
    rw [hF]; exact velZ_3 _ _ _ _ h3 h3t d st psi old GC x h
  · show c.F.donor psi flx G x = psi x
    rw [hF]; exact donorZ_3 _ _ _ _ psi flx G x h

theorem prepGC_filter (c : CfgN n K) (f : Bool) (h : Int) (A : Vec n K) : prepGC { c with filter := f } h A = prepGC c h A := rfl

/-- C20, 2-D, whole runs: every combination of boundary kinds, any number of steps; partial only in the option sets. -/
theorem C20_halo_suffices_all_bconds_run_2d_partial (c : CfgN 2 K) (B : Bnd 2) (hB : BcSolver c B [0, 1]) (hW : Wide B) (hP : PolarTwo B) (si : SptlIntrp) (te : TmprlExtrp) (tiny : K)
    (hF : c.F = formulae2 c.o si te tiny) (hfot : isset c.o oFot = true → isset c.o oTot = true ∨ isset c.o oDiv3 = true) (hn : 1 ≤ c.nIters) (hx : HaloCoveredN c.o c.nIters)
    (m m' : MemN 2 K) (hpsi : ∀ x, InDomain c.box x → m.psi x = m'.psi x) (hGC : ∀ d x, HaloFace c.box (solverHalo c.o) d x → m.GC d x = m'.GC d x) (filt : Nat → Bool) (t : Nat) :
    ∀ x, InDomain c.box x → (runProgN c filt t m).psi x = (runProgN c filt t m').psi x := by
  induction t with
  | zero => exact hpsi
  | succ t ih =>
    exact C20_halo_suffices_all_bconds_2d_partial { c with filter := filt t } B ⟨hB.box, hB.halo, hB.all, hB.s, hB.a, hB.n⟩ hW hP si te tiny hF hfot hn hx _ _ ih
      (by rw [runProgN_GC, runProgN_GC]; exact hGC)

/-- C20, 3-D, whole runs: every combination of boundary kinds, any number of steps; partial only in the option sets. -/
theorem C20_halo_suffices_all_bconds_run_3d_partial (c : CfgN 3 K) (B : Bnd 3) (hB : BcSolver c B [1, 0, 2]) (hW : Wide B) (hP : PolarTwo B) (si : SptlIntrp) (te : TmprlExtrp) (tiny : K)
    (hF : c.F = formulae3 c.o si te tiny) (hn : 1 ≤ c.nIters) (hx : HaloCoveredN c.o c.nIters)
    (m m' : MemN 3 K) (hpsi : ∀ x, InDomain c.box x → m.psi x = m'.psi x) (hGC : ∀ d x, HaloFace c.box (solverHalo c.o) d x → m.GC d x = m'.GC d x) (filt : Nat → Bool) (t : Nat) :
    ∀ x, InDomain c.box x → (runProgN c filt t m).psi x = (runProgN c filt t m').psi x := by
  induction t with
  | zero => exact hpsi
  | succ t ih =>
    exact C20_halo_suffices_all_bconds_3d_partial { c with filter := filt t } B ⟨hB.box, hB.halo, hB.all, hB.s, hB.a, hB.n⟩ hW hP si te tiny hF hn hx _ _ ih
      (by rw [runProgN_GC, runProgN_GC]; exact hGC)

/-- the same memory without any flow in it -/
def noFlowMem (m : MemN n K) : MemN n K := { m with GC := zv n K, tmp0 := zv n K, tmp1 := zv n K }

theorem prep_zero {c : CfgN n K} {B : Bnd n} [NeZero n] {ds : List (Fin n)} (hB : BcSolver c B ds) (hW : Wide B) (hP : PolarTwo B) {A : Vec n K}
    (hG : ∀ d x, InnerFace c.box d x → A d x = 0) {d : Fin n} {x : Idx n} (hx : HaloFace c.box (solverHalo c.o) d x) : prepGC c (solverHalo c.o) A d x = 0 := by
  unfold prepGC
  rw [hB.n, hB.a, ← hB.halo]
  rw [← hB.halo, ← hB.box] at hx
  rw [C60_advector_no_stale B hW hP A (zv n K) (fun c x h => hG c x (by rw [← hB.box]; exact h)) hx, xchngAlng_zero, xchngNrml_zero]

/-- C63, 2-D, third-order divergence form included: if the advector vanishes on the faces between points of the domain (and its time derivatives vanish), no field ever changes: for
every combination of boundary kinds, every initial memory, every number of steps (filtered or not), in the option sets whose stencils the halo exchanges cover (C20). -/
theorem C63_no_flow_div3_2d_partial (c : CfgN 2 K) (B : Bnd 2) (hB : BcSolver c B [0, 1]) (hW : Wide B) (hP : PolarTwo B) (si : SptlIntrp) (te : TmprlExtrp) (tiny : K)
    (hF : c.F = formulae2 c.o si te tiny) (hfot : isset c.o oFot = true → isset c.o oTot = true ∨ isset c.o oDiv3 = true) (h1 : 1 ≤ c.nIters) (hx : HaloCoveredN c.o c.nIters)
    (hnd : ∀ d x, c.st.ndt d x = 0 ∧ c.st.ndtt d x = 0) (m : MemN 2 K) (hG : ∀ d x, InnerFace c.box d x → m.GC d x = 0) (filt : Nat → Bool) (t : Nat) :
    ∀ x, InDomain c.box x → (runProgN c filt t { m with GC := prepGC c (solverHalo c.o) m.GC }).psi x = m.psi x := by
  intro x hx'
  refine (C20_halo_suffices_all_bconds_run_2d_partial c B hB hW hP si te tiny hF hfot h1 hx { m with GC := prepGC c (solverHalo c.o) m.GC } (noFlowMem m) (fun _ _ => rfl) (fun d x h => prep_zero hB hW hP hG h) filt t x hx').trans ?_
  refine (run_zm (fun f => stillAll_of (B := B) (ds := [0, 1]) ⟨hB.box, hB.halo, hB.all, hB.s, hB.a, hB.n⟩ (fun d psi old x => ?_) (fun psi flx G x h => ?_)) h1 (m := noFlowMem m)
    ⟨rfl, rfl, rfl⟩ filt t).1 x (fun e => by simpa using hx' e)
  · show c.F.vel d c.st psi old (zv 2 K) x = 0
    rw [hF]; exact velZA_2 _ _ _ _ d c.st (by funext d x; exact (hnd d x).1) (by funext d x; exact (hnd d x).2) psi old x
  · show c.F.donor psi flx G x = psi x
    rw [hF]; exact donorZ_2 _ _ _ _ psi flx G x h

/-- C63, 3-D, third-order divergence form included. -/
theorem C63_no_flow_div3_3d_partial (c : CfgN 3 K) (B : Bnd 3) (hB : BcSolver c B [1, 0, 2]) (hW : Wide B) (hP : PolarTwo B) (si : SptlIntrp) (te : TmprlExtrp) (tiny : K)
    (hF : c.F = formulae3 c.o si te tiny) (h1 : 1 ≤ c.nIters) (hx : HaloCoveredN c.o c.nIters)
    (hnd : ∀ d x, c.st.ndt d x = 0 ∧ c.st.ndtt d x = 0) (m : MemN 3 K) (hG : ∀ d x, InnerFace c.box d x → m.GC d x = 0) (filt : Nat → Bool) (t : Nat) :
    ∀ x, InDomain c.box x → (runProgN c filt t { m with GC := prepGC c (solverHalo c.o) m.GC }).psi x = m.psi x := by
  intro x hx'
  refine (C20_halo_suffices_all_bconds_run_3d_partial c B hB hW hP si te tiny hF h1 hx { m with GC := prepGC c (solverHalo c.o) m.GC } (noFlowMem m) (fun _ _ => rfl) (fun d x h => prep_zero hB hW hP hG h) filt t x hx').trans ?_
  refine (run_zm (fun f => stillAll_of (B := B) (ds := [1, 0, 2]) ⟨hB.box, hB.halo, hB.all, hB.s, hB.a, hB.n⟩ (fun d psi old x => ?_) (fun psi flx G x h => ?_)) h1 (m := noFlowMem m)
    ⟨rfl, rfl, rfl⟩ filt t).1 x (fun e => by simpa using hx' e)
  · show c.F.vel d c.st psi old (zv 3 K) x = 0
    rw [hF]; exact velZA_3 _ _ _ _ d c.st (by funext d x; exact (hnd d x).1) (by funext d x; exact (hnd d x).2) psi old x
  · show c.F.donor psi flx G x = psi x
    rw [hF]; exact donorZ_3 _ _ _ _ psi flx G x h

/-! ### Satisfiability -/

example : BcSolver (channelC (oFct ||| oTot ||| oDfl) 3) (channelB (solverHalo (oFct ||| oTot ||| oDfl))) [0, 1] ∧ Wide (channelB (solverHalo (oFct ||| oTot ||| oDfl))) ∧
    isset (oFct ||| oTot ||| oDfl) oDiv3 = false ∧ isset (oFct ||| oTot ||| oDfl) oDiv3dt = false ∧
    NoFlowN (channelC (oFct ||| oTot ||| oDfl) 3) (fun d x => if x d = 7 then (3 : ℚ) else 0) := by
  refine ⟨⟨rfl, rfl, by decide, fun _ => rfl, fun _ _ => rfl, fun _ _ => rfl⟩, ⟨by decide, by decide, by decide⟩, by decide, by decide, fun d x h => if_neg (fun h7 => ?_)⟩
  have : x d ≤ 4 := h.2.1
  omega

example : BcSolver (channelC (oDiv2 ||| oDiv3) 2) (channelB (solverHalo (oDiv2 ||| oDiv3))) [0, 1] ∧ Wide (channelB (solverHalo (oDiv2 ||| oDiv3))) ∧
    PolarTwo (channelB (solverHalo (oDiv2 ||| oDiv3))) ∧ HaloCoveredN (oDiv2 ||| oDiv3) 2 ∧ (isset (oDiv2 ||| oDiv3) oFot = true → isset (oDiv2 ||| oDiv3) oTot = true ∨
      isset (oDiv2 ||| oDiv3) oDiv3 = true) ∧ (∀ d x, (channelC (oDiv2 ||| oDiv3) 2).st.ndt d x = 0 ∧ (channelC (oDiv2 ||| oDiv3) 2).st.ndtt d x = 0) ∧
    ∀ d x, InnerFace (channelC (oDiv2 ||| oDiv3) 2).box d x → (if x d = 4 ∨ x d = -1 then (3 : ℚ) else 0) = 0 := by
  refine ⟨⟨rfl, rfl, by decide, fun _ => rfl, fun _ _ => rfl, fun _ _ => rfl⟩, ⟨by decide, by decide, by decide⟩, by unfold PolarTwo; decide, by unfold HaloCoveredN; decide, by decide,
    fun _ _ => ⟨rfl, rfl⟩, fun d x h => if_neg (fun h7 => ?_)⟩
  have h1 : x d ≤ 4 - 1 := h.1.2
  have h2 : 0 ≤ x d := h.1.1
  omega

end Mpdata
