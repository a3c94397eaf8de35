import Verif.Lemmas.BoundsN
import Verif.Lemmas.Tr3
import Verif.Spec.Axes
/-! # The scheme does not depend on the names of the axes -/
set_option linter.unusedSectionVars false
namespace Mpdata
variable {n : Nat} {K : Type} [Field K] [LinearOrder K]

theorem axI_step (s : Equiv.Perm (Fin n)) (x : Idx n) (d : Fin n) (k : Int) : axI s (stepIdx x d k) = stepIdx (axI s x) (s.symm d) k := by
  funext e
  simp only [axI, stepIdx]
  by_cases h : s e = d
  · rw [if_pos h, if_pos (show e = s.symm d by rw [← h, Equiv.symm_apply_apply])]
  · rw [if_neg h, if_neg (fun he => h (by rw [he, Equiv.apply_symm_apply]))]

/-- formulae that do not depend on the names of the axes -/
def FAx (F : Formulae n K) : Prop := ∀ (s : Equiv.Perm (Fin n)) (d : Fin n) (st : Stat n K) (psi old : Sca n K) (U : Vec n K) (x : Idx n),
  F.vel d (st.ax s) (axS s psi) (axS s old) (axV s U) x = axV s (fun d => F.vel d st psi old U) d x

section
variable [IsStrictOrderedRing K] (s : Equiv.Perm (Fin n)) (p : SpecN.Par n K)

theorem nbMax_ax (psi : Sca n K) : nbMax (axS s psi) = axS s (nbMax psi) := by
  funext x
  refine le_antisymm ?_ ?_
  · rw [nbMax_le_iff]
    obtain ⟨h1, h2⟩ := (nbMax_le_iff psi (axI s x) _).1 le_rfl
    refine ⟨h1, fun d => ?_⟩
    unfold axS
    rw [axI_step, axI_step]
    exact h2 _
  · show nbMax psi (axI s x) ≤ _
    rw [nbMax_le_iff]
    obtain ⟨h1, h2⟩ := (nbMax_le_iff (axS s psi) x _).1 le_rfl
    refine ⟨h1, fun d => ?_⟩
    have := h2 (s d)
    unfold axS at this
    rwa [axI_step, axI_step, Equiv.symm_apply_apply] at this
theorem nbMin_ax (psi : Sca n K) : nbMin (axS s psi) = axS s (nbMin psi) := by
  funext x
  refine le_antisymm ?_ ?_
  · show _ ≤ nbMin psi (axI s x)
    rw [le_nbMin_iff]
    obtain ⟨h1, h2⟩ := (le_nbMin_iff (axS s psi) x _).1 le_rfl
    refine ⟨h1, fun d => ?_⟩
    have := h2 (s d)
    unfold axS at this
    rwa [axI_step, axI_step, Equiv.symm_apply_apply] at this
  · rw [le_nbMin_iff]
    obtain ⟨h1, h2⟩ := (le_nbMin_iff psi (axI s x) _).1 le_rfl
    refine ⟨h1, fun d => ?_⟩
    unfold axS
    rw [axI_step, axI_step]
    exact h2 _

theorem makeFluxN_ax (o : OptsT) (psi : Sca n K) (A : Vec n K) : makeFluxN o (axS s psi) (axV s A) = axV s (makeFluxN o psi A) := by
  funext d x
  unfold makeFluxN axS axV
  rw [axI_step]

theorem betaUpN_ax (o : OptsT) (eps : K) (psi mx : Sca n K) (flx : Vec n K) (G : Sca n K) :
    betaUpN o eps (axS s psi) (axS s mx) (axV s flx) (axS s G) = axS s (betaUpN o eps psi mx flx G) := by
  funext x
  show _ = betaUpN o eps psi mx flx G (axI s x)
  unfold betaUpN
  rw [nbMax_ax]
  have : (∑ d, (pospart o (axV s flx d (stepIdx x d (-1))) - negpart o (axV s flx d x))) = ∑ d, (pospart o (flx d (stepIdx (axI s x) d (-1))) - negpart o (flx d (axI s x))) := by
    rw [← Equiv.sum_comp s.symm (fun d => (pospart o (flx d (stepIdx (axI s x) d (-1))) - negpart o (flx d (axI s x))))]
    refine Finset.sum_congr rfl fun d _ => ?_
    unfold axV
    rw [axI_step]
  rw [this]; rfl
theorem betaDnN_ax (o : OptsT) (eps : K) (psi mn : Sca n K) (flx : Vec n K) (G : Sca n K) :
    betaDnN o eps (axS s psi) (axS s mn) (axV s flx) (axS s G) = axS s (betaDnN o eps psi mn flx G) := by
  funext x
  show _ = betaDnN o eps psi mn flx G (axI s x)
  unfold betaDnN
  rw [nbMin_ax]
  have : (∑ d, (pospart o (axV s flx d x) - negpart o (axV s flx d (stepIdx x d (-1))))) = ∑ d, (pospart o (flx d (axI s x)) - negpart o (flx d (stepIdx (axI s x) d (-1)))) := by
    rw [← Equiv.sum_comp s.symm (fun d => (pospart o (flx d (axI s x)) - negpart o (flx d (stepIdx (axI s x) d (-1)))))]
    refine Finset.sum_congr rfl fun d _ => ?_
    unfold axV
    rw [axI_step]
  rw [this]; rfl

theorem limitedN_ax (psi0 psi : Sca n K) (A : Vec n K) :
    SpecN.limited (p.ax s) (axS s psi0) (axS s psi) (axV s A) = axV s (SpecN.limited p psi0 psi A) := by
  unfold SpecN.limited
  have h1 : (p.ax s).o = p.o := rfl
  have h2 : (p.ax s).eps = p.eps := rfl
  have h3 : (p.ax s).st.G = axS s p.st.G := rfl
  have hflx : (if isset p.o oIga = true then axV s A else makeFluxN p.o (axS s psi) (axV s A))
      = axV s (if isset p.o oIga = true then A else makeFluxN p.o psi A) := by
    split
    · rfl
    · exact makeFluxN_ax _ _ _ _
  simp only [h1, h2, h3, hflx, nbMax_ax, nbMin_ax, betaUpN_ax, betaDnN_ax]
  generalize betaUpN p.o p.eps psi (nbMax psi0) _ p.st.G = u
  generalize betaDnN p.o p.eps psi (nbMin psi0) _ p.st.G = v
  funext d x
  show _ = gcMonoN p.o psi u v A (s.symm d) (axI s x)
  rw [gcMonoN_eq, gcMonoN_eq]
  unfold axS axV
  rw [axI_step]

variable {p}
theorem donorN_ax (hF : FGood p.o p.F) (psi : Sca n K) (flx : Vec n K) (G : Sca n K) :
    p.F.donor (axS s psi) (axV s flx) (axS s G) = axS s (p.F.donor psi flx G) := by
  funext x
  show _ = p.F.donor psi flx G (axI s x)
  rw [hF.donor_eq, hF.donor_eq]
  have : (∑ d, (axV s flx d (stepIdx x d (-1)) - axV s flx d x)) = ∑ d, (flx d (stepIdx (axI s x) d (-1)) - flx d (axI s x)) := by
    rw [← Equiv.sum_comp s.symm (fun d => (flx d (stepIdx (axI s x) d (-1)) - flx d (axI s x)))]
    refine Finset.sum_congr rfl fun d _ => ?_
    unfold axV
    rw [axI_step]
  rw [this]; rfl

theorem velocityN_ax (hM : FAx p.F) (psi old : Sca n K) (U : Vec n K) :
    SpecN.velocity (p.ax s) (axS s psi) (axS s old) (axV s U) = axV s (SpecN.velocity p psi old U) := by
  funext d x; exact hM s d p.st psi old U x

theorem passesN_ax (hF : FGood p.o p.F) (hM : FAx p.F) (psi0 : Sca n K) (GC : Vec n K) (j : Nat) :
    (SpecN.passes (p.ax s) (axS s psi0) (axV s GC) j).psi = axS s (SpecN.passes p psi0 GC j).psi ∧
    (SpecN.passes (p.ax s) (axS s psi0) (axV s GC) j).old = axS s (SpecN.passes p psi0 GC j).old ∧
    (SpecN.passes (p.ax s) (axS s psi0) (axV s GC) j).U = axV s (SpecN.passes p psi0 GC j).U := by
  have h1 : (p.ax s).o = p.o := rfl
  have h3 : (p.ax s).st.G = axS s p.st.G := rfl
  have h4 : (p.ax s).F = p.F := rfl
  induction j with
  | zero =>
    refine ⟨?_, rfl, rfl⟩
    show p.F.donor _ (makeFluxN p.o _ _) (axS s p.st.G) = _
    rw [makeFluxN_ax, donorN_ax s hF]; rfl
  | succ j ih =>
    obtain ⟨i1, i2, i3⟩ := ih
    simp only [SpecN.passes, i1, i2, i3, velocityN_ax s hM]
    refine ⟨?_, trivial, trivial⟩
    unfold SpecN.corrective
    simp only [limitedN_ax, h1, h3, h4]
    generalize SpecN.velocity p _ _ _ = A
    have hC : (if isset p.o oFct = true then axV s (SpecN.limited p psi0 (SpecN.passes p psi0 GC j).psi A) else axV s A)
        = axV s (if isset p.o oFct = true then SpecN.limited p psi0 (SpecN.passes p psi0 GC j).psi A else A) := by
      split <;> rfl
    simp only [hC]
    generalize (if isset p.o oFct = true then SpecN.limited p psi0 (SpecN.passes p psi0 GC j).psi A else A) = C
    have hX : (if isset p.o oIga = true then axV s C else makeFluxN p.o (axS s (SpecN.passes p psi0 GC j).psi) (axV s C))
        = axV s (if isset p.o oIga = true then C else makeFluxN p.o (SpecN.passes p psi0 GC j).psi C) := by
      split
      · rfl
      · exact makeFluxN_ax _ _ _ _
    rw [hX]
    exact donorN_ax s hF _ _ _

theorem specN_run_ax (hF : FGood p.o p.F) (hM : FAx p.F) (N : Nat) (filt : Nat → Bool) (psi : Sca n K) (GC : Vec n K) (t : Nat) :
    SpecN.run (p.ax s) N filt (axV s GC) t (axS s psi) = axS s (SpecN.run p N filt GC t psi) := by
  induction t with
  | zero => rfl
  | succ t ih =>
    unfold SpecN.run SpecN.step
    rw [ih]
    exact (passesN_ax s hF hM _ _ _).1
end

/-! ### the 2-D and 3-D formulae -/
theorem formulae2_ax (o : OptsT) (si : SptlIntrp) (te : TmprlExtrp) (tiny : K) : FAx (formulae2 o si te tiny) := by
  intro s d st psi old U x
  have e1 : d + 1 ≠ d := by revert d; decide
  have h1 : s.symm (d + 1) = s.symm d + 1 := by
    have : s.symm (d + 1) ≠ s.symm d := fun h => absurd (s.symm.injective h) e1
    revert this; generalize s.symm (d + 1) = a; generalize s.symm d = b; revert a b; decide
  have hv : ∀ a : Sca 2 K, view2 d x (axS s a) = view2 (s.symm d) (axI s x) a := fun a => by
    funext i j; simp only [view2, axS, axI_step, h1]
  have hv' : ∀ (A : Vec 2 K) (e : Fin 2), view2 d x (axV s A e) = view2 (s.symm d) (axI s x) (A (s.symm e)) := fun A e => hv (A (s.symm e))
  show antidiff2 _ _ _ _ _ _ _ _ _ _ _ _ _ _ = antidiff2 _ _ _ _ _ _ _ _ _ _ _ _ _ _
  simp only [Stat.ax, hv, hv', h1]

theorem formulae3_ax (o : OptsT) (si : SptlIntrp) (te : TmprlExtrp) (tiny : K) : FAx (formulae3 o si te tiny) := by
  intro s d st psi old U x
  have e1 : d + 1 ≠ d := by revert d; decide
  have e2 : d + 2 ≠ d := by revert d; decide
  have e3 : d + 1 ≠ d + 2 := by revert d; decide
  have h : (s.symm (d + 1) = s.symm d + 1 ∧ s.symm (d + 2) = s.symm d + 2) ∨ (s.symm (d + 1) = s.symm d + 2 ∧ s.symm (d + 2) = s.symm d + 1) := by
    have q1 : s.symm (d + 1) ≠ s.symm d := fun h => absurd (s.symm.injective h) e1
    have q2 : s.symm (d + 2) ≠ s.symm d := fun h => absurd (s.symm.injective h) e2
    have q3 : s.symm (d + 1) ≠ s.symm (d + 2) := fun h => absurd (s.symm.injective h) e3
    revert q1 q2 q3; generalize s.symm (d + 1) = a; generalize s.symm (d + 2) = b; generalize s.symm d = e; revert a b e; decide
  rcases h with ⟨h1, h2⟩ | ⟨h1, h2⟩
  · have hv : ∀ a : Sca 3 K, view3 d x (axS s a) = view3 (s.symm d) (axI s x) a := fun a => by
      funext i j k; simp only [view3, axS, axI_step, h1, h2]
    have hv' : ∀ (A : Vec 3 K) (e : Fin 3), view3 d x (axV s A e) = view3 (s.symm d) (axI s x) (A (s.symm e)) := fun A e => hv (A (s.symm e))
    show antidiff3 _ _ _ _ _ _ _ _ _ _ _ _ _ _ _ _ _ = antidiff3 _ _ _ _ _ _ _ _ _ _ _ _ _ _ _ _ _
    simp only [Stat.ax, hv, hv', h1, h2]
  · have hv : ∀ a : Sca 3 K, view3 d x (axS s a) = tr3 (view3 (s.symm d) (axI s x) a) := fun a => by
      funext i j k; simp only [view3, axS, axI_step, h1, h2, tr3]; rw [stepIdx_comm]
    have hv' : ∀ (A : Vec 3 K) (e : Fin 3), view3 d x (axV s A e) = tr3 (view3 (s.symm d) (axI s x) (A (s.symm e))) := fun A e => hv (A (s.symm e))
    show antidiff3 _ _ _ _ _ _ _ _ _ _ _ _ _ _ _ _ _ = antidiff3 _ _ _ _ _ _ _ _ _ _ _ _ _ _ _ _ _
    simp only [Stat.ax, hv, hv', h1, h2]
    rw [antidiff3_tr]

end Mpdata
