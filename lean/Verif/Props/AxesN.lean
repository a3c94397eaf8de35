import Verif.Lemmas.AxesN
import Verif.Props.WallN
import Verif.Props.SymmetryN
/-! # C59: no preferred direction
Renaming the axes, or reversing one of them, renames or reverses the result and does nothing else. -/
set_option linter.unusedSectionVars false
namespace Mpdata
variable {n : Nat} {K : Type} [Field K] [LinearOrder K] [IsStrictOrderedRing K]

/-! ## helper facts -/
section
variable {wall : Fin n → Bool} {P : Fin n → Nat}

theorem revS_eq (w : Fin n) (L : Int) (a : Sca n K) : revS w L a = mirS w (shN w L a) := by
  funext x; simp only [revS, mirS, shN]; congr 1; funext e; simp only [revC, mirC, stepIdx]; split_ifs <;> ring
theorem revV_eq (w : Fin n) (L : Int) (A : Vec n K) : revV w L A = mirV w (fun d => shN w L (A d)) := by
  funext d x
  simp only [revV, mirV, shN]
  split_ifs
  · congr 2; funext e; simp only [revF, mirF, stepIdx]; split_ifs <;> ring
  · congr 1; funext e; simp only [revC, mirC, stepIdx]; split_ifs <;> ring
theorem parRev_eq (w : Fin n) (L : Int) (p : SpecN.Par n K) : p.rev w L = (p.sh w L).mir w := by
  unfold SpecN.Par.rev SpecN.Par.mir SpecN.Par.sh Stat.rev Stat.mir Stat.sh
  simp only [revS_eq, revV_eq]

theorem specN_run_rev {p : SpecN.Par n K} (w : Fin n) (L : Int) (hF : FGood p.o p.F) (hM : FMir p.F) (N : Nat) (filt : Nat → Bool) (psi : Sca n K) (GC : Vec n K) (t : Nat) :
    SpecN.run (p.rev w L) N filt (revV w L GC) t (revS w L psi) = revS w L (SpecN.run p N filt GC t psi) := by
  rw [parRev_eq, revV_eq, revS_eq, revS_eq, specN_run_mir (p := p.sh w L) w hF hM, runN_sh hF]

theorem inGrid_rev (w : Fin n) {x : Idx n} (hx : InGrid P x) : InGrid P (revC w (P w) x) := by
  intro e; have := hx e; simp only [revC]; split_ifs with h
  · subst h; omega
  · exact this
theorem inFaces_rev_own (w : Fin n) {x : Idx n} (hx : InFaces P w x) : InFaces P w (revF w (P w) x) := by
  refine ⟨fun e => ?_, ?_⟩
  · have := hx.1 e; have := hx.2; simp only [revF]; split_ifs with h
    · subst h; omega
    · assumption
  · have := hx.1 w; simp only [revF, if_true]; omega
theorem inFaces_rev_other {w d : Fin n} (h : d ≠ w) {x : Idx n} (hx : InFaces P d x) : InFaces P d (revC w (P w) x) := by
  refine ⟨inGrid_rev w hx.1, ?_⟩
  have := hx.2; simp only [revC, if_neg h]; exact this

theorem contS_rev (w : Fin n) {a : Sca n K} (h : ContS wall P a) : ContS wall P (revS w (P w) a) := by
  have st : ∀ (x : Idx n) (d : Fin n) (k : Int), revC w (P w) (stepIdx x d k) = stepIdx (revC w (P w) x) d (if d = w then -k else k) := by
    intro x d k; funext e; simp only [revC, stepIdx]; split_ifs <;> first | ring1 | simp_all
  have back : ∀ (x : Idx n) (d : Fin n) (k : Int), (∀ x, a (stepIdx x d k) = a x) → ∀ x, a (stepIdx x d (-k)) = a x := by
    intro x d k hk x
    rw [← hk (stepIdx x d (-k)), stepIdx_add]; congr 1; funext e; simp [stepIdx]
  refine ⟨fun x d hw => ?_, fun x d hw => ?_, fun x d hw => ?_⟩
  · unfold revS; rw [st]; split_ifs
    · exact back x d _ (fun x => h.cyc x d hw) _
    · exact h.cyc _ d hw
  · unfold revS; rw [st]; split_ifs
    · exact back x d _ (fun x => h.per x d hw) _
    · exact h.per _ d hw
  · unfold revS
    by_cases hd : d = w
    · subst hd
      have e1 : revC d (P d) (mirC d x) = mirC d (stepIdx (revC d (P d) x) d (-(2 * P d))) := by
        funext e; simp only [revC, mirC, stepIdx]; split_ifs <;> ring
      rw [e1, h.even _ d hw]
      exact back x d _ (fun x => h.per x d hw) _
    · have e1 : revC w (P w) (mirC d x) = mirC d (revC w (P w) x) := by
        funext e; simp only [revC, mirC]; split_ifs <;> simp_all
      rw [e1]; exact h.even _ d hw

theorem contV_rev (w : Fin n) {A : Vec n K} (h : ContV wall P A) : ContV wall P (revV w (P w) A) := by
  have stC : ∀ (x : Idx n) (d : Fin n) (k : Int), revC w (P w) (stepIdx x d k) = stepIdx (revC w (P w) x) d (if d = w then -k else k) := by
    intro x d k; funext e; simp only [revC, stepIdx]; split_ifs <;> first | ring1 | simp_all
  have stF : ∀ (x : Idx n) (d : Fin n) (k : Int), revF w (P w) (stepIdx x d k) = stepIdx (revF w (P w) x) d (if d = w then -k else k) := by
    intro x d k; funext e; simp only [revF, stepIdx]; split_ifs <;> first | ring1 | simp_all
  have back : ∀ (c d : Fin n) (k : Int), (∀ x, A c (stepIdx x d k) = A c x) → ∀ x, A c (stepIdx x d (-k)) = A c x := by
    intro c d k hk x
    rw [← hk (stepIdx x d (-k)), stepIdx_add]; congr 1; funext e; simp [stepIdx]
  refine ⟨fun c x d hw => ?_, fun c x d hw => ?_, fun x d hw => ?_, fun c x d hcd hw => ?_⟩
  · unfold revV; rw [stC, stF]; split_ifs
    · rw [back _ _ _ (fun x => h.cyc _ x d hw)]
    · rw [h.cyc _ _ d hw]
    · rw [back _ _ _ (fun x => h.cyc _ x d hw)]
    · rw [h.cyc _ _ d hw]
  · unfold revV; rw [stC, stF]; split_ifs
    · rw [back _ _ _ (fun x => h.per _ x d hw)]
    · rw [h.per _ _ d hw]
    · rw [back _ _ _ (fun x => h.per _ x d hw)]
    · rw [h.per _ _ d hw]
  · unfold revV; split_ifs with hd
    · subst hd
      have e1 : revF d (P d) (mirF d x) = mirF d (stepIdx (revF d (P d) x) d (-(2 * P d))) := by
        funext e; simp only [revF, mirF, stepIdx]; split_ifs <;> ring
      rw [e1, h.odd _ d hw, back _ _ _ (fun x => h.per _ x d hw)]
    · have e1 : revC w (P w) (mirF d x) = mirF d (revC w (P w) x) := by
        funext e; simp only [revC, mirF]; split_ifs <;> simp_all
      rw [e1]; exact h.odd _ d hw
  · unfold revV; split_ifs with hc
    · have hdw : d ≠ w := fun q => hcd (hc.trans q.symm)
      have e1 : revF w (P w) (mirC d x) = mirC d (revF w (P w) x) := by
        funext e; simp only [revF, mirC]; split_ifs <;> simp_all
      rw [e1, h.even c _ d hcd hw]
    · by_cases hd : d = w
      · subst hd
        have e1 : revC d (P d) (mirC d x) = mirC d (stepIdx (revC d (P d) x) d (-(2 * P d))) := by
          funext e; simp only [revC, mirC, stepIdx]; split_ifs <;> ring
        rw [e1, h.even c _ d hcd hw, back _ _ _ (fun x => h.per _ x d hw)]
      · have e1 : revC w (P w) (mirC d x) = mirC d (revC w (P w) x) := by
          funext e; simp only [revC, mirC]; split_ifs <;> simp_all
        rw [e1]; exact h.even c _ d hcd hw

theorem inGrid_ax (s : Equiv.Perm (Fin n)) {x : Idx n} (hx : InGrid (fun d => P (s.symm d)) x) : InGrid P (axI s x) := by
  intro e; have := hx (s e); simpa [axI] using this
theorem inFaces_ax (s : Equiv.Perm (Fin n)) {d : Fin n} {x : Idx n} (hx : InFaces (fun d => P (s.symm d)) d x) : InFaces P (s.symm d) (axI s x) := by
  refine ⟨inGrid_ax s hx.1, ?_⟩
  have := hx.2; simpa [axI] using this

theorem mirC_ax (s : Equiv.Perm (Fin n)) (d : Fin n) (x : Idx n) : axI s (mirC d x) = mirC (s.symm d) (axI s x) := by
  funext e
  simp only [axI, mirC]
  by_cases h : s e = d
  · rw [if_pos h, if_pos (show e = s.symm d by rw [← h, Equiv.symm_apply_apply])]
  · rw [if_neg h, if_neg (fun he => h (by rw [he, Equiv.apply_symm_apply]))]
theorem mirF_ax (s : Equiv.Perm (Fin n)) (d : Fin n) (x : Idx n) : axI s (mirF d x) = mirF (s.symm d) (axI s x) := by
  funext e
  simp only [axI, mirF]
  by_cases h : s e = d
  · rw [if_pos h, if_pos (show e = s.symm d by rw [← h, Equiv.symm_apply_apply])]
  · rw [if_neg h, if_neg (fun he => h (by rw [he, Equiv.apply_symm_apply]))]

theorem contS_ax (s : Equiv.Perm (Fin n)) {a : Sca n K} (h : ContS wall P a) : ContS (fun d => wall (s.symm d)) (fun d => P (s.symm d)) (axS s a) := by
  refine ⟨fun x d hw => ?_, fun x d hw => ?_, fun x d hw => ?_⟩ <;> unfold axS
  · rw [axI_step]; exact h.cyc _ _ hw
  · rw [axI_step]; exact h.per _ _ hw
  · rw [mirC_ax]; exact h.even _ _ hw
theorem contV_ax (s : Equiv.Perm (Fin n)) {A : Vec n K} (h : ContV wall P A) : ContV (fun d => wall (s.symm d)) (fun d => P (s.symm d)) (axV s A) := by
  refine ⟨fun c x d hw => ?_, fun c x d hw => ?_, fun x d hw => ?_, fun c x d hcd hw => ?_⟩ <;> unfold axV
  · rw [axI_step]; exact h.cyc _ _ _ hw
  · rw [axI_step]; exact h.per _ _ _ hw
  · rw [mirF_ax]; exact h.odd _ _ hw
  · rw [mirC_ax]; exact h.even _ _ _ (fun q => hcd (s.symm.injective q)) hw

theorem contS_of_periodic {a : Sca n K} (h : PeriodicN P a) : ContS (fun _ => false) P a :=
  ⟨fun x d _ => h x d, fun _ _ h => absurd h (by simp), fun _ _ h => absurd h (by simp)⟩
theorem contV_of_periodic {A : Vec n K} (h : ∀ d, PeriodicN P (A d)) : ContV (fun _ => false) P A :=
  ⟨fun c x d _ => h c x d, fun _ _ _ h => absurd h (by simp), fun _ _ h => absurd h (by simp), fun _ _ _ _ h => absurd h (by simp)⟩
theorem ContS.periodic {a : Sca n K} (h : ContS (fun _ => false) P a) : PeriodicN P a := fun x d => h.cyc x d rfl
theorem ContV.periodic {A : Vec n K} (h : ContV (fun _ => false) P A) (d : Fin n) : PeriodicN P (A d) := fun x e => h.cyc d x e rfl
end

/-! ## runs -/
section
variable {wall : Fin n → Bool} {c c' : CfgN n K} {p : SpecN.Par n K} {P : Fin n → Nat} {ds ds' : List (Fin n)}

/-- the prepared state a run starts from -/
def startN (c : CfgN n K) (m : MemN n K) : MemN n K := { m with GC := prepGC c (solverHalo c.o) m.GC }

theorem reverse_cycN (w : Fin n) (h : CyclicSetupN c p P ds) (h' : CyclicSetupN c' (p.rev w (P w)) P ds') (hF : FGood p.o p.F) (hM : FMir p.F) (hni : c'.nIters = c.nIters)
    (hn : 1 ≤ c.nIters) (hx : HaloCovered c.o c.nIters) (filt : Nat → Bool) {psi0 : Sca n K} {GC : Vec n K} (h0 : PeriodicN P psi0) (hg : ∀ d, PeriodicN P (GC d))
    (m m' : MemN n K) (hpsi : ∀ x, InGrid P x → m.psi x = psi0 x) (hGC : ∀ d x, InFaces P d x → m.GC d x = GC d x)
    (hpsi' : ∀ x, InGrid P x → m'.psi x = m.psi (revC w (P w) x)) (hGC1 : ∀ x, InFaces P w x → m'.GC w x = -m.GC w (revF w (P w) x))
    (hGC2 : ∀ d x, d ≠ w → InFaces P d x → m'.GC d x = m.GC d (revC w (P w) x)) (t : Nat) (x : Idx n) (hxg : InGrid P x) :
    (runProgN c' filt t (startN c' m')).psi x = (runProgN c filt t (startN c m)).psi (revC w (P w) x) := by
  have ho : c'.o = c.o := by rw [h'.ho, h.ho]; rfl
  have q1 : ∀ x, InGrid P x → m'.psi x = revS w (P w) psi0 x := fun y hy => by rw [hpsi' y hy, hpsi _ (inGrid_rev w hy)]; rfl
  have q2 : ∀ d x, InFaces P d x → m'.GC d x = revV w (P w) GC d x := fun d y hy => by
    unfold revV
    split_ifs with hd
    · subst hd; rw [hGC1 y hy, hGC _ _ (inFaces_rev_own d hy)]
    · rw [hGC2 d y hd hy, hGC _ _ (inFaces_rev_other hd hy)]
  unfold startN
  rw [cycN_run h hF hn hx filt h0 hg m hpsi hGC t _ (inGrid_rev w hxg),
    cycN_run h' hF (by omega) (by rw [ho, hni]; exact hx) filt (contS_rev w (contS_of_periodic h0)).periodic (contV_rev w (contV_of_periodic hg)).periodic m' q1 q2 t x hxg,
    hni, specN_run_rev w _ hF hM]
  rfl

theorem reverse_wallN (w : Fin n) (h : WallSetupN wall c p P ds) (h' : WallSetupN wall c' (p.rev w (P w)) P ds') (hF : FGood p.o p.F) (hM : FMir p.F) (hni : c'.nIters = c.nIters)
    (hf : isset c.o oFct = false) (hn : 1 ≤ c.nIters) (hx : HaloCovered c.o c.nIters) (filt : Nat → Bool) {psi0 : Sca n K} {GC : Vec n K} (h0 : ContS wall P psi0) (hg : ContV wall P GC)
    (m m' : MemN n K) (hpsi : ∀ x, InGrid P x → m.psi x = psi0 x) (hGC : ∀ d x, InFaces P d x → m.GC d x = GC d x)
    (hpsi' : ∀ x, InGrid P x → m'.psi x = m.psi (revC w (P w) x)) (hGC1 : ∀ x, InFaces P w x → m'.GC w x = -m.GC w (revF w (P w) x))
    (hGC2 : ∀ d x, d ≠ w → InFaces P d x → m'.GC d x = m.GC d (revC w (P w) x)) (t : Nat) (x : Idx n) (hxg : InGrid P x) :
    (runProgN c' filt t (startN c' m')).psi x = (runProgN c filt t (startN c m)).psi (revC w (P w) x) := by
  have ho : c'.o = c.o := by rw [h'.ho, h.ho]; rfl
  have q1 : ∀ x, InGrid P x → m'.psi x = revS w (P w) psi0 x := fun y hy => by rw [hpsi' y hy, hpsi _ (inGrid_rev w hy)]; rfl
  have q2 : ∀ d x, InFaces P d x → m'.GC d x = revV w (P w) GC d x := fun d y hy => by
    unfold revV
    split_ifs with hd
    · subst hd; rw [hGC1 y hy, hGC _ _ (inFaces_rev_own d hy)]
    · rw [hGC2 d y hd hy, hGC _ _ (inFaces_rev_other hd hy)]
  unfold startN
  rw [wallN_run h hF hM hf hn hx filt h0 hg m hpsi hGC t _ (inGrid_rev w hxg),
    wallN_run h' hF hM (by rw [ho]; exact hf) (by omega) (by rw [ho, hni]; exact hx) filt (contS_rev w h0) (contV_rev w hg) m' q1 q2 t x hxg,
    hni, specN_run_rev w _ hF hM]
  rfl

theorem axes_cycN (s : Equiv.Perm (Fin n)) (h : CyclicSetupN c p P ds) (h' : CyclicSetupN c' (p.ax s) (fun d => P (s.symm d)) ds') (hF : FGood p.o p.F) (hM : FAx p.F)
    (hni : c'.nIters = c.nIters) (hn : 1 ≤ c.nIters) (hx : HaloCovered c.o c.nIters) (filt : Nat → Bool) {psi0 : Sca n K} {GC : Vec n K} (h0 : PeriodicN P psi0)
    (hg : ∀ d, PeriodicN P (GC d)) (m m' : MemN n K) (hpsi : ∀ x, InGrid P x → m.psi x = psi0 x) (hGC : ∀ d x, InFaces P d x → m.GC d x = GC d x)
    (hpsi' : ∀ x, InGrid P x → m'.psi (axI s.symm x) = m.psi x) (hGC' : ∀ d x, InFaces P d x → m'.GC (s d) (axI s.symm x) = m.GC d x) (t : Nat)
    (x : Idx n) (hxg : InGrid P x) :
    (runProgN c' filt t (startN c' m')).psi (axI s.symm x) = (runProgN c filt t (startN c m)).psi x := by
  have hxx : ∀ x : Idx n, axI s (axI s.symm x) = x := fun x => by funext e; simp [axI]
  have hxx' : ∀ x : Idx n, axI s.symm (axI s x) = x := fun x => by funext e; simp [axI]
  have hin : InGrid (fun d => P (s.symm d)) (axI s.symm x) := fun d => hxg (s.symm d)
  have ho : c'.o = c.o := by rw [h'.ho, h.ho]; rfl
  unfold startN
  rw [cycN_run h hF hn hx filt h0 hg m hpsi hGC t _ hxg,
    cycN_run h' hF (by omega) (by rw [ho, hni]; exact hx) filt (psi0 := axS s psi0) (GC := axV s GC) (contS_ax s (contS_of_periodic h0)).periodic
      (contV_ax s (contV_of_periodic hg)).periodic m' (fun y hy => ?_) (fun d y hy => ?_) t _ hin, hni, specN_run_ax s hF hM]
  · show SpecN.run p c.nIters filt GC t psi0 (axI s (axI s.symm x)) = _
    rw [hxx]
  · show _ = psi0 (axI s y)
    rw [← hpsi _ (inGrid_ax s hy), ← hpsi' _ (inGrid_ax s hy), hxx']
  · show _ = GC (s.symm d) (axI s y)
    rw [← hGC _ _ (inFaces_ax s hy), ← hGC' _ _ (inFaces_ax s hy), hxx', Equiv.apply_symm_apply]

theorem axes_wallN (s : Equiv.Perm (Fin n)) (h : WallSetupN wall c p P ds) (h' : WallSetupN (fun d => wall (s.symm d)) c' (p.ax s) (fun d => P (s.symm d)) ds') (hF : FGood p.o p.F)
    (hM : FMir p.F) (hA : FAx p.F) (hf : isset c.o oFct = false)
    (hni : c'.nIters = c.nIters) (hn : 1 ≤ c.nIters) (hx : HaloCovered c.o c.nIters) (filt : Nat → Bool) {psi0 : Sca n K} {GC : Vec n K} (h0 : ContS wall P psi0)
    (hg : ContV wall P GC) (m m' : MemN n K) (hpsi : ∀ x, InGrid P x → m.psi x = psi0 x) (hGC : ∀ d x, InFaces P d x → m.GC d x = GC d x)
    (hpsi' : ∀ x, InGrid P x → m'.psi (axI s.symm x) = m.psi x) (hGC' : ∀ d x, InFaces P d x → m'.GC (s d) (axI s.symm x) = m.GC d x) (t : Nat)
    (x : Idx n) (hxg : InGrid P x) :
    (runProgN c' filt t (startN c' m')).psi (axI s.symm x) = (runProgN c filt t (startN c m)).psi x := by
  have hxx : ∀ x : Idx n, axI s (axI s.symm x) = x := fun x => by funext e; simp [axI]
  have hxx' : ∀ x : Idx n, axI s.symm (axI s x) = x := fun x => by funext e; simp [axI]
  have hin : InGrid (fun d => P (s.symm d)) (axI s.symm x) := fun d => hxg (s.symm d)
  have ho : c'.o = c.o := by rw [h'.ho, h.ho]; rfl
  unfold startN
  rw [wallN_run h hF hM hf hn hx filt h0 hg m hpsi hGC t _ hxg,
    wallN_run h' hF hM (by rw [ho]; exact hf) (by omega) (by rw [ho, hni]; exact hx) filt (psi0 := axS s psi0) (GC := axV s GC) (contS_ax s h0)
      (contV_ax s hg) m' (fun y hy => ?_) (fun d y hy => ?_) t _ hin, hni, specN_run_ax s hF hA]
  · show SpecN.run p c.nIters filt GC t psi0 (axI s (axI s.symm x)) = _
    rw [hxx]
  · show _ = psi0 (axI s y)
    rw [← hpsi _ (inGrid_ax s hy), ← hpsi' _ (inGrid_ax s hy), hxx']
  · show _ = GC (s.symm d) (axI s y)
    rw [← hGC _ _ (inFaces_ax s hy), ← hGC' _ _ (inFaces_ax s hy), hxx', Equiv.apply_symm_apply]
end

/-! ## the statements -/

/-- C59 (reversed axis), 2-D, cyclic boundaries, all option sets: if one solver's data are those of another with the direction of the axis `w` reversed (the velocity along `w` changing sign), then so are
its results, after any number of steps. Partial: divergence-form options with three or more passes and no fct are excluded. -/
theorem C59_reversed_axis_2d_partial (c c' : CfgN 2 K) (p : SpecN.Par 2 K) (P : Fin 2 → Nat) (w : Fin 2) (h : Solver2 c p P) (h' : Solver2 c' (p.rev w (P w)) P)
    (hni : c'.nIters = c.nIters) (hn : 1 ≤ c.nIters) (hx : HaloCovered c.o c.nIters) (filt : Nat → Bool) (psi0 : Sca 2 K) (GC : Vec 2 K) (h0 : PeriodicN P psi0)
    (hg : ∀ d, PeriodicN P (GC d)) (m m' : MemN 2 K) (hpsi : ∀ x, InGrid P x → m.psi x = psi0 x) (hGC : ∀ d x, InFaces P d x → m.GC d x = GC d x)
    (hpsi' : ∀ x, InGrid P x → m'.psi x = m.psi (revC w (P w) x)) (hGC1 : ∀ x, InFaces P w x → m'.GC w x = -m.GC w (revF w (P w) x))
    (hGC2 : ∀ d x, d ≠ w → InFaces P d x → m'.GC d x = m.GC d (revC w (P w) x)) (t : Nat) (x : Idx 2) (hxg : InGrid P x) :
    (runProgN c' filt t (startN c' m')).psi x = (runProgN c filt t (startN c m)).psi (revC w (P w) x) :=
  reverse_cycN w h.setup h'.setup h.good (by obtain ⟨si, te, tiny, q⟩ := h.form; rw [q]; exact formulae2_mir p.o si te tiny) hni hn hx filt h0 hg m m' hpsi hGC hpsi' hGC1 hGC2 t x hxg

/-- C59 (renamed axes), 2-D, cyclic boundaries, all option sets: if one solver's data are those of another with the axes renamed by `s` (old axis `e` is new axis `s e`, grid sizes and boundary kinds
renamed along), then so are its results, after any number of steps. Partial: same exclusions. -/
theorem C59_renamed_axes_2d_partial (c c' : CfgN 2 K) (p : SpecN.Par 2 K) (P : Fin 2 → Nat) (s : Equiv.Perm (Fin 2)) (h : Solver2 c p P)
    (h' : Solver2 c' (p.ax s) (fun d => P (s.symm d))) (hni : c'.nIters = c.nIters) (hn : 1 ≤ c.nIters) (hx : HaloCovered c.o c.nIters) (filt : Nat → Bool) (psi0 : Sca 2 K) (GC : Vec 2 K) (h0 : PeriodicN P psi0)
    (hg : ∀ d, PeriodicN P (GC d)) (m m' : MemN 2 K) (hpsi : ∀ x, InGrid P x → m.psi x = psi0 x) (hGC : ∀ d x, InFaces P d x → m.GC d x = GC d x)
    (hpsi' : ∀ x, InGrid P x → m'.psi (axI s.symm x) = m.psi x) (hGC' : ∀ d x, InFaces P d x → m'.GC (s d) (axI s.symm x) = m.GC d x) (t : Nat)
    (x : Idx 2) (hxg : InGrid P x) :
    (runProgN c' filt t (startN c' m')).psi (axI s.symm x) = (runProgN c filt t (startN c m)).psi x :=
  axes_cycN s h.setup h'.setup h.good (by obtain ⟨si, te, tiny, q⟩ := h.form; rw [q]; exact formulae2_ax p.o si te tiny) hni hn hx filt h0 hg m m' hpsi hGC hpsi' hGC' t x hxg

/-- C59 (reversed axis), 3-D, cyclic boundaries, all option sets: if one solver's data are those of another with the direction of the axis `w` reversed (the velocity along `w` changing sign), then so are
its results, after any number of steps. Partial: divergence-form options with three or more passes and no fct are excluded. -/
theorem C59_reversed_axis_3d_partial (c c' : CfgN 3 K) (p : SpecN.Par 3 K) (P : Fin 3 → Nat) (w : Fin 3) (h : Solver3 c p P) (h' : Solver3 c' (p.rev w (P w)) P)
    (hni : c'.nIters = c.nIters) (hn : 1 ≤ c.nIters) (hx : HaloCovered c.o c.nIters) (filt : Nat → Bool) (psi0 : Sca 3 K) (GC : Vec 3 K) (h0 : PeriodicN P psi0)
    (hg : ∀ d, PeriodicN P (GC d)) (m m' : MemN 3 K) (hpsi : ∀ x, InGrid P x → m.psi x = psi0 x) (hGC : ∀ d x, InFaces P d x → m.GC d x = GC d x)
    (hpsi' : ∀ x, InGrid P x → m'.psi x = m.psi (revC w (P w) x)) (hGC1 : ∀ x, InFaces P w x → m'.GC w x = -m.GC w (revF w (P w) x))
    (hGC2 : ∀ d x, d ≠ w → InFaces P d x → m'.GC d x = m.GC d (revC w (P w) x)) (t : Nat) (x : Idx 3) (hxg : InGrid P x) :
    (runProgN c' filt t (startN c' m')).psi x = (runProgN c filt t (startN c m)).psi (revC w (P w) x) :=
  reverse_cycN w h.setup h'.setup h.good (by obtain ⟨si, te, tiny, q⟩ := h.form; rw [q]; exact formulae3_mir p.o si te tiny) hni hn hx filt h0 hg m m' hpsi hGC hpsi' hGC1 hGC2 t x hxg

/-- C59 (renamed axes), 3-D, cyclic boundaries, all option sets: if one solver's data are those of another with the axes renamed by `s` (old axis `e` is new axis `s e`, grid sizes and boundary kinds
renamed along), then so are its results, after any number of steps. Partial: same exclusions. -/
theorem C59_renamed_axes_3d_partial (c c' : CfgN 3 K) (p : SpecN.Par 3 K) (P : Fin 3 → Nat) (s : Equiv.Perm (Fin 3)) (h : Solver3 c p P)
    (h' : Solver3 c' (p.ax s) (fun d => P (s.symm d))) (hni : c'.nIters = c.nIters) (hn : 1 ≤ c.nIters) (hx : HaloCovered c.o c.nIters) (filt : Nat → Bool) (psi0 : Sca 3 K) (GC : Vec 3 K) (h0 : PeriodicN P psi0)
    (hg : ∀ d, PeriodicN P (GC d)) (m m' : MemN 3 K) (hpsi : ∀ x, InGrid P x → m.psi x = psi0 x) (hGC : ∀ d x, InFaces P d x → m.GC d x = GC d x)
    (hpsi' : ∀ x, InGrid P x → m'.psi (axI s.symm x) = m.psi x) (hGC' : ∀ d x, InFaces P d x → m'.GC (s d) (axI s.symm x) = m.GC d x) (t : Nat)
    (x : Idx 3) (hxg : InGrid P x) :
    (runProgN c' filt t (startN c' m')).psi (axI s.symm x) = (runProgN c filt t (startN c m)).psi x :=
  axes_cycN s h.setup h'.setup h.good (by obtain ⟨si, te, tiny, q⟩ := h.form; rw [q]; exact formulae3_ax p.o si te tiny) hni hn hx filt h0 hg m m' hpsi hGC hpsi' hGC' t x hxg

/-- C59 (reversed axis), 2-D, rigid walls in any dimensions, without fct: if one solver's data are those of another with the direction of the axis `w` reversed (the velocity along `w` changing sign), then so are
its results, after any number of steps. Partial: divergence-form options with three or more passes are excluded; with fct it is false, `C58_fails_fct_right_wall`. -/
theorem C59_reversed_axis_walls_2d_partial (wall : Fin 2 → Bool) (c c' : CfgN 2 K) (p : SpecN.Par 2 K) (P : Fin 2 → Nat) (w : Fin 2) (h : Walled2 wall c p P) (h' : Walled2 wall c' (p.rev w (P w)) P)
    (hni : c'.nIters = c.nIters) (hf : isset c.o oFct = false) (hn : 1 ≤ c.nIters) (hx : HaloCovered c.o c.nIters) (filt : Nat → Bool) (psi0 : Sca 2 K) (GC : Vec 2 K) (h0 : ContS wall P psi0)
    (hg : ContV wall P GC) (m m' : MemN 2 K) (hpsi : ∀ x, InGrid P x → m.psi x = psi0 x) (hGC : ∀ d x, InFaces P d x → m.GC d x = GC d x)
    (hpsi' : ∀ x, InGrid P x → m'.psi x = m.psi (revC w (P w) x)) (hGC1 : ∀ x, InFaces P w x → m'.GC w x = -m.GC w (revF w (P w) x))
    (hGC2 : ∀ d x, d ≠ w → InFaces P d x → m'.GC d x = m.GC d (revC w (P w) x)) (t : Nat) (x : Idx 2) (hxg : InGrid P x) :
    (runProgN c' filt t (startN c' m')).psi x = (runProgN c filt t (startN c m)).psi (revC w (P w) x) :=
  reverse_wallN w h.setup h'.setup h.good h.mir hni hf hn hx filt h0 hg m m' hpsi hGC hpsi' hGC1 hGC2 t x hxg

/-- C59 (renamed axes), 2-D, rigid walls in any dimensions, without fct: if one solver's data are those of another with the axes renamed by `s` (old axis `e` is new axis `s e`, grid sizes and boundary kinds
renamed along), then so are its results, after any number of steps. Partial: same exclusions. -/
theorem C59_renamed_axes_walls_2d_partial (wall : Fin 2 → Bool) (c c' : CfgN 2 K) (p : SpecN.Par 2 K) (P : Fin 2 → Nat) (s : Equiv.Perm (Fin 2)) (h : Walled2 wall c p P)
    (h' : Walled2 (fun d => wall (s.symm d)) c' (p.ax s) (fun d => P (s.symm d))) (hf : isset c.o oFct = false) (hni : c'.nIters = c.nIters) (hn : 1 ≤ c.nIters) (hx : HaloCovered c.o c.nIters) (filt : Nat → Bool) (psi0 : Sca 2 K) (GC : Vec 2 K) (h0 : ContS wall P psi0)
    (hg : ContV wall P GC) (m m' : MemN 2 K) (hpsi : ∀ x, InGrid P x → m.psi x = psi0 x) (hGC : ∀ d x, InFaces P d x → m.GC d x = GC d x)
    (hpsi' : ∀ x, InGrid P x → m'.psi (axI s.symm x) = m.psi x) (hGC' : ∀ d x, InFaces P d x → m'.GC (s d) (axI s.symm x) = m.GC d x) (t : Nat)
    (x : Idx 2) (hxg : InGrid P x) :
    (runProgN c' filt t (startN c' m')).psi (axI s.symm x) = (runProgN c filt t (startN c m)).psi x :=
  axes_wallN s h.setup h'.setup h.good h.mir (by obtain ⟨si, te, tiny, q⟩ := h.form; rw [q]; exact formulae2_ax p.o si te tiny) hf hni hn hx filt h0 hg m m' hpsi hGC hpsi' hGC' t x hxg

/-- C59 (reversed axis), 3-D, rigid walls in any dimensions, without fct: if one solver's data are those of another with the direction of the axis `w` reversed (the velocity along `w` changing sign), then so are
its results, after any number of steps. Partial: divergence-form options with three or more passes are excluded; with fct it is false, `C58_fails_fct_right_wall`. -/
theorem C59_reversed_axis_walls_3d_partial (wall : Fin 3 → Bool) (c c' : CfgN 3 K) (p : SpecN.Par 3 K) (P : Fin 3 → Nat) (w : Fin 3) (h : Walled3 wall c p P) (h' : Walled3 wall c' (p.rev w (P w)) P)
    (hni : c'.nIters = c.nIters) (hf : isset c.o oFct = false) (hn : 1 ≤ c.nIters) (hx : HaloCovered c.o c.nIters) (filt : Nat → Bool) (psi0 : Sca 3 K) (GC : Vec 3 K) (h0 : ContS wall P psi0)
    (hg : ContV wall P GC) (m m' : MemN 3 K) (hpsi : ∀ x, InGrid P x → m.psi x = psi0 x) (hGC : ∀ d x, InFaces P d x → m.GC d x = GC d x)
    (hpsi' : ∀ x, InGrid P x → m'.psi x = m.psi (revC w (P w) x)) (hGC1 : ∀ x, InFaces P w x → m'.GC w x = -m.GC w (revF w (P w) x))
    (hGC2 : ∀ d x, d ≠ w → InFaces P d x → m'.GC d x = m.GC d (revC w (P w) x)) (t : Nat) (x : Idx 3) (hxg : InGrid P x) :
    (runProgN c' filt t (startN c' m')).psi x = (runProgN c filt t (startN c m)).psi (revC w (P w) x) :=
  reverse_wallN w h.setup h'.setup h.good h.mir hni hf hn hx filt h0 hg m m' hpsi hGC hpsi' hGC1 hGC2 t x hxg

/-- C59 (renamed axes), 3-D, rigid walls in any dimensions, without fct: if one solver's data are those of another with the axes renamed by `s` (old axis `e` is new axis `s e`, grid sizes and boundary kinds
renamed along), then so are its results, after any number of steps. Partial: same exclusions. -/
theorem C59_renamed_axes_walls_3d_partial (wall : Fin 3 → Bool) (c c' : CfgN 3 K) (p : SpecN.Par 3 K) (P : Fin 3 → Nat) (s : Equiv.Perm (Fin 3)) (h : Walled3 wall c p P)
    (h' : Walled3 (fun d => wall (s.symm d)) c' (p.ax s) (fun d => P (s.symm d))) (hf : isset c.o oFct = false) (hni : c'.nIters = c.nIters) (hn : 1 ≤ c.nIters) (hx : HaloCovered c.o c.nIters) (filt : Nat → Bool) (psi0 : Sca 3 K) (GC : Vec 3 K) (h0 : ContS wall P psi0)
    (hg : ContV wall P GC) (m m' : MemN 3 K) (hpsi : ∀ x, InGrid P x → m.psi x = psi0 x) (hGC : ∀ d x, InFaces P d x → m.GC d x = GC d x)
    (hpsi' : ∀ x, InGrid P x → m'.psi (axI s.symm x) = m.psi x) (hGC' : ∀ d x, InFaces P d x → m'.GC (s d) (axI s.symm x) = m.GC d x) (t : Nat)
    (x : Idx 3) (hxg : InGrid P x) :
    (runProgN c' filt t (startN c' m')).psi (axI s.symm x) = (runProgN c filt t (startN c m)).psi x :=
  axes_wallN s h.setup h'.setup h.good h.mir (by obtain ⟨si, te, tiny, q⟩ := h.form; rw [q]; exact formulae3_ax p.o si te tiny) hf hni hn hx filt h0 hg m m' hpsi hGC hpsi' hGC' t x hxg

/-- hypotheses met: a channel of 7 x 5 points with walls in the second dimension, and the same channel with its axes exchanged -/
example : let o := oTot ||| oDfl
    let p : SpecN.Par 2 ℚ := ⟨o, 1/1000, formulae2 o .exact .noextrp (1/1000), ⟨fun _ => 1, fun _ _ => 0, fun _ _ => 0⟩⟩
    Walled2 ![false, true] (wallCfg ![false, true] p.F o 3 ![6, 4] [0, 1]) p ![6, 4] ∧
    Walled2 (fun d => ![false, true] ((Equiv.swap (0 : Fin 2) 1).symm d)) (wallCfg (fun d => ![false, true] ((Equiv.swap (0 : Fin 2) 1).symm d)) p.F o 3
      (fun d => ![6, 4] ((Equiv.swap (0 : Fin 2) 1).symm d)) [0, 1]) (p.ax (Equiv.swap 0 1)) (fun d => ![6, 4] ((Equiv.swap (0 : Fin 2) 1).symm d)) ∧
    Walled2 ![false, true] (wallCfg ![false, true] p.F o 3 ![6, 4] [0, 1]) (p.rev 1 4) ![6, 4] := by
  intro o p
  have hr : p.rev 1 4 = p := by
    have hv : revV 1 4 (fun _ _ => (0 : ℚ) : Vec 2 ℚ) = fun _ _ => 0 := by funext d x; simp [revV]
    simp only [SpecN.Par.rev, Stat.rev, p, hv]
    rfl
  refine ⟨⟨wallCfg_setup _ _ _ _ _ _ (fun d => by revert d; decide) (by decide), ⟨_, _, _, rfl⟩, by decide⟩,
    ⟨wallCfg_setup _ _ _ _ _ _ (fun d => by revert d; decide) (by decide), ⟨_, _, _, rfl⟩, by decide⟩, ?_⟩
  rw [hr]
  exact ⟨wallCfg_setup _ _ _ _ _ _ (fun d => by revert d; decide) (by decide), ⟨_, _, _, rfl⟩, by decide⟩

end Mpdata
