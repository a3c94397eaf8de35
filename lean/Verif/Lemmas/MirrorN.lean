import Verif.Lemmas.CyclicN
import Verif.Lemmas.Refl2
import Verif.Lemmas.Refl3
import Verif.Spec.Mirror
/-! # The scheme commutes with mirror images -/
set_option linter.unusedSectionVars false
namespace Mpdata
variable {n : Nat} {K : Type} [Field K] [LinearOrder K]

/-! ### indices -/
theorem mirC_self (w : Fin n) (x : Idx n) : mirC w x w = -x w := by simp [mirC]
theorem mirC_other {w e : Fin n} (h : e ≠ w) (x : Idx n) : mirC w x e = x e := by simp [mirC, h]
theorem mirF_self (w : Fin n) (x : Idx n) : mirF w x w = -1 - x w := by simp [mirF]
theorem mirF_other {w e : Fin n} (h : e ≠ w) (x : Idx n) : mirF w x e = x e := by simp [mirF, h]
theorem mirC_mirC (w : Fin n) (x : Idx n) : mirC w (mirC w x) = x := by funext e; simp only [mirC]; split_ifs <;> ring
theorem mirF_mirF (w : Fin n) (x : Idx n) : mirF w (mirF w x) = x := by funext e; simp only [mirF]; split_ifs <;> ring
theorem mirC_step_self (w : Fin n) (x : Idx n) (k : Int) : mirC w (stepIdx x w k) = stepIdx (mirC w x) w (-k) := by
  funext e; simp only [mirC, stepIdx]; split_ifs <;> ring
theorem mirF_step_self (w : Fin n) (x : Idx n) (k : Int) : mirF w (stepIdx x w k) = stepIdx (mirF w x) w (-k) := by
  funext e; simp only [mirF, stepIdx]; split_ifs <;> ring
theorem mirC_step_other {w d : Fin n} (h : d ≠ w) (x : Idx n) (k : Int) : mirC w (stepIdx x d k) = stepIdx (mirC w x) d k := by
  funext e; simp only [mirC, stepIdx]; split_ifs <;> simp_all
theorem mirF_step_other {w d : Fin n} (h : d ≠ w) (x : Idx n) (k : Int) : mirF w (stepIdx x d k) = stepIdx (mirF w x) d k := by
  funext e; simp only [mirF, stepIdx]; split_ifs <;> simp_all
theorem mirC_eq_mirF (w : Fin n) (x : Idx n) : mirC w x = stepIdx (mirF w x) w 1 := by
  funext e; simp only [mirC, mirF, stepIdx]; split_ifs <;> ring
theorem mirF_eq_mirC (w : Fin n) (x : Idx n) : mirF w x = stepIdx (mirC w x) w (-1) := by
  funext e; simp only [mirC, mirF, stepIdx]; split_ifs <;> ring

theorem mirS_mirS (w : Fin n) (a : Sca n K) : mirS w (mirS w a) = a := by funext x; simp [mirS, mirC_mirC]
theorem mirV_mirV (w : Fin n) (A : Vec n K) : mirV w (mirV w A) = A := by
  funext d x; simp only [mirV]; split_ifs <;> simp [mirC_mirC, mirF_mirF]
theorem mirV_self (w : Fin n) (A : Vec n K) (x : Idx n) : mirV w A w x = -A w (mirF w x) := by simp [mirV]
theorem mirV_other {w d : Fin n} (h : d ≠ w) (A : Vec n K) (x : Idx n) : mirV w A d x = A d (mirC w x) := by simp [mirV, h]

/-- formulae that commute with mirror images -/
def FMir (F : Formulae n K) : Prop := ∀ (w d : Fin n) (st : Stat n K) (psi old : Sca n K) (U : Vec n K) (x : Idx n),
  F.vel d (st.mir w) (mirS w psi) (mirS w old) (mirV w U) x = mirV w (fun d => F.vel d st psi old U) d x

section
variable (w : Fin n) (p : SpecN.Par n K)

theorem nbMax_mir (psi : Sca n K) : nbMax (mirS w psi) = mirS w (nbMax psi) := by
  funext x
  unfold nbMax mirS
  congr 1
  funext m d
  by_cases h : d = w
  · subst h
    rw [mirC_step_self, mirC_step_self, neg_neg, max_right_comm]
  · rw [mirC_step_other h, mirC_step_other h]
theorem nbMin_mir (psi : Sca n K) : nbMin (mirS w psi) = mirS w (nbMin psi) := by
  funext x
  unfold nbMin mirS
  congr 1
  funext m d
  by_cases h : d = w
  · subst h
    rw [mirC_step_self, mirC_step_self, neg_neg, min_right_comm]
  · rw [mirC_step_other h, mirC_step_other h]

variable [IsStrictOrderedRing K]

theorem pos_neg (o : OptsT) (a : K) : pospart o (-a) = -negpart o a := by
  rw [pospart_eq, negpart_eq]
  rcases le_total 0 a with h | h
  · rw [max_eq_left (neg_nonpos.2 h), min_eq_left h, neg_zero]
  · rw [max_eq_right (neg_nonneg.2 h), min_eq_right h]
theorem neg_pos' (o : OptsT) (a : K) : negpart o (-a) = -pospart o a := by
  rw [pospart_eq, negpart_eq]
  rcases le_total 0 a with h | h
  · rw [min_eq_right (neg_nonpos.2 h), max_eq_right h]
  · rw [min_eq_left (neg_nonneg.2 h), max_eq_left h, neg_zero]

theorem donorF_mir (o : OptsT) (a b u : K) : donorF o a b (-u) = -donorF o b a u := by
  unfold donorF; rw [pos_neg, neg_pos']; ring

theorem makeFluxN_mir (o : OptsT) (psi : Sca n K) (A : Vec n K) : makeFluxN o (mirS w psi) (mirV w A) = mirV w (makeFluxN o psi A) := by
  funext d x
  by_cases h : d = w
  · subst h
    rw [mirV_self]
    unfold makeFluxN
    rw [mirV_self, donorF_mir, ← mirC_eq_mirF]
    unfold mirS
    rw [mirC_step_self, ← mirF_eq_mirC]
  · rw [mirV_other h]
    unfold makeFluxN
    rw [mirV_other h]
    unfold mirS
    rw [mirC_step_other h]

theorem gFacN_mir (o : OptsT) (G : Sca n K) (x : Idx n) : gFacN o (mirS w G) x = gFacN o G (mirC w x) := rfl

theorem betaUpN_mir (o : OptsT) (eps : K) (psi mx : Sca n K) (flx : Vec n K) (G : Sca n K) :
    betaUpN o eps (mirS w psi) (mirS w mx) (mirV w flx) (mirS w G) = mirS w (betaUpN o eps psi mx flx G) := by
  funext x
  unfold betaUpN
  rw [nbMax_mir, gFacN_mir]
  unfold mirS
  congr 1
  refine Finset.sum_congr rfl (fun d _ => ?_)
  by_cases h : d = w
  · subst h
    rw [mirV_self, mirV_self, pos_neg, neg_pos', mirF_step_self, neg_neg, ← mirC_eq_mirF, mirF_eq_mirC]; ring
  · rw [mirV_other h, mirV_other h, mirC_step_other h]
theorem betaDnN_mir (o : OptsT) (eps : K) (psi mn : Sca n K) (flx : Vec n K) (G : Sca n K) :
    betaDnN o eps (mirS w psi) (mirS w mn) (mirV w flx) (mirS w G) = mirS w (betaDnN o eps psi mn flx G) := by
  funext x
  unfold betaDnN
  rw [nbMin_mir, gFacN_mir]
  unfold mirS
  congr 1
  refine Finset.sum_congr rfl (fun d _ => ?_)
  by_cases h : d = w
  · subst h
    rw [mirV_self, mirV_self, pos_neg, neg_pos', mirF_step_self, neg_neg, ← mirC_eq_mirF, mirF_eq_mirC]; ring
  · rw [mirV_other h, mirV_other h, mirC_step_other h]

theorem monoCoef_mir (o : OptsT) (pl pr ul wl ur wr a : K) : -a * monoCoef o pr pl ur wr ul wl (-a) = -(a * monoCoef o pl pr ul wl ur wr a) := by
  by_cases ha : a = 0
  · subst ha; simp
  · rw [neg_mul]; congr 2
    unfold monoCoef
    have h1 : (-a > 0) ↔ ¬ a > 0 := by
      constructor
      · intro h; have := neg_pos.1 h; exact not_lt.2 this.le
      · intro h; exact neg_pos.2 (lt_of_le_of_ne (not_lt.1 h) ha)
    simp only [h1]
    by_cases h2 : a > 0 <;> simp only [h2, not_true, not_false_iff, if_true, if_false] <;> split_ifs <;> rw [min_right_comm]

theorem limitedN_mir (psi0 psi : Sca n K) (A : Vec n K) :
    SpecN.limited (p.mir w) (mirS w psi0) (mirS w psi) (mirV w A) = mirV w (SpecN.limited p psi0 psi A) := by
  unfold SpecN.limited
  have h1 : (p.mir w).o = p.o := rfl
  have h2 : (p.mir w).eps = p.eps := rfl
  have h3 : (p.mir w).st.G = mirS w p.st.G := rfl
  have hflx : (if isset p.o oIga = true then mirV w A else makeFluxN p.o (mirS w psi) (mirV w A))
      = mirV w (if isset p.o oIga = true then A else makeFluxN p.o psi A) := by
    split
    · rfl
    · exact makeFluxN_mir _ _ _ _
  simp only [h1, h2, h3, hflx, nbMax_mir, nbMin_mir, betaUpN_mir, betaDnN_mir]
  generalize betaUpN p.o p.eps psi (nbMax psi0) _ p.st.G = u
  generalize betaDnN p.o p.eps psi (nbMin psi0) _ p.st.G = v
  funext d x
  by_cases h : d = w
  · subst h
    rw [mirV_self, gcMonoN_eq, gcMonoN_eq, mirV_self]
    unfold mirS
    rw [mirC_step_self, ← mirF_eq_mirC, ← mirC_eq_mirF, monoCoef_mir]
  · rw [mirV_other h, gcMonoN_eq, gcMonoN_eq, mirV_other h]
    unfold mirS
    rw [mirC_step_other h]

variable {p}
theorem donorN_mir (hF : FGood p.o p.F) (psi : Sca n K) (flx : Vec n K) (G : Sca n K) :
    p.F.donor (mirS w psi) (mirV w flx) (mirS w G) = mirS w (p.F.donor psi flx G) := by
  funext x
  rw [hF.donor_eq, gFacN_mir]
  show _ = p.F.donor psi flx G (mirC w x)
  rw [hF.donor_eq]
  unfold mirS
  congr 2
  refine Finset.sum_congr rfl (fun d _ => ?_)
  by_cases h : d = w
  · subst h
    rw [mirV_self, mirV_self, mirF_step_self, neg_neg, ← mirC_eq_mirF, mirF_eq_mirC]; ring
  · rw [mirV_other h, mirV_other h, mirC_step_other h]

theorem velocityN_mir (hM : FMir p.F) (psi old : Sca n K) (U : Vec n K) :
    SpecN.velocity (p.mir w) (mirS w psi) (mirS w old) (mirV w U) = mirV w (SpecN.velocity p psi old U) := by
  funext d x; exact hM w d p.st psi old U x

theorem passesN_mir (hF : FGood p.o p.F) (hM : FMir p.F) (psi0 : Sca n K) (GC : Vec n K) (j : Nat) :
    (SpecN.passes (p.mir w) (mirS w psi0) (mirV w GC) j).psi = mirS w (SpecN.passes p psi0 GC j).psi ∧
    (SpecN.passes (p.mir w) (mirS w psi0) (mirV w GC) j).old = mirS w (SpecN.passes p psi0 GC j).old ∧
    (SpecN.passes (p.mir w) (mirS w psi0) (mirV w GC) j).U = mirV w (SpecN.passes p psi0 GC j).U := by
  have h1 : (p.mir w).o = p.o := rfl
  have h3 : (p.mir w).st.G = mirS w p.st.G := rfl
  have h4 : (p.mir w).F = p.F := rfl
  induction j with
  | zero =>
    refine ⟨?_, rfl, rfl⟩
    show p.F.donor _ (makeFluxN p.o _ _) (mirS w p.st.G) = _
    rw [makeFluxN_mir, donorN_mir w hF]; rfl
  | succ j ih =>
    obtain ⟨i1, i2, i3⟩ := ih
    simp only [SpecN.passes, i1, i2, i3, velocityN_mir w hM]
    refine ⟨?_, trivial, trivial⟩
    unfold SpecN.corrective
    simp only [limitedN_mir, h1, h3, h4]
    generalize SpecN.velocity p _ _ _ = A
    have hC : (if isset p.o oFct = true then mirV w (SpecN.limited p psi0 (SpecN.passes p psi0 GC j).psi A) else mirV w A)
        = mirV w (if isset p.o oFct = true then SpecN.limited p psi0 (SpecN.passes p psi0 GC j).psi A else A) := by
      split <;> rfl
    simp only [hC]
    generalize (if isset p.o oFct = true then SpecN.limited p psi0 (SpecN.passes p psi0 GC j).psi A else A) = C
    have hX : (if isset p.o oIga = true then mirV w C else makeFluxN p.o (mirS w (SpecN.passes p psi0 GC j).psi) (mirV w C))
        = mirV w (if isset p.o oIga = true then C else makeFluxN p.o (SpecN.passes p psi0 GC j).psi C) := by
      split
      · rfl
      · exact makeFluxN_mir _ _ _ _
    rw [hX]
    exact donorN_mir w hF _ _ _

theorem specN_run_mir (hF : FGood p.o p.F) (hM : FMir p.F) (N : Nat) (filt : Nat → Bool) (psi : Sca n K) (GC : Vec n K) (t : Nat) :
    SpecN.run (p.mir w) N filt (mirV w GC) t (mirS w psi) = mirS w (SpecN.run p N filt GC t psi) := by
  induction t with
  | zero => rfl
  | succ t ih =>
    unfold SpecN.run SpecN.step
    rw [ih]
    exact (passesN_mir w hF hM _ _ _).1
end

/-! ### the 2-D and 3-D formulae -/
section
variable [IsStrictOrderedRing K]

theorem view2_mir_own_c (d : Fin 2) (x : Idx 2) (a : Sca 2 K) : view2 d x (mirS d a) = c2x (view2 d (mirF d x) a) := by
  funext i j
  simp only [view2, mirS, c2x]
  congr 1
  funext e; fin_cases d <;> fin_cases e <;> simp [mirC, mirF, stepIdx] <;> ring
theorem view2_mir_own_f (d : Fin 2) (x : Idx 2) (a : Sca 2 K) : view2 d x (fun y => -a (mirF d y)) = f2x (view2 d (mirF d x) a) := by
  funext i j
  simp only [view2, f2x]
  congr 2
  funext e; fin_cases d <;> fin_cases e <;> simp [mirF, stepIdx] <;> ring
theorem view2_mir_tr_c (d : Fin 2) (x : Idx 2) (a : Sca 2 K) : view2 d x (mirS (d + 1) a) = c2y (view2 d (mirC (d + 1) x) a) := by
  funext i j
  simp only [view2, mirS, c2y]
  congr 1
  funext e; fin_cases d <;> fin_cases e <;> simp [mirC, stepIdx] <;> ring
theorem view2_mir_tr_f (d : Fin 2) (x : Idx 2) (a : Sca 2 K) : view2 d x (fun y => -a (mirF (d + 1) y)) = f2y (view2 d (mirC (d + 1) x) a) := by
  funext i j
  simp only [view2, f2y]
  congr 2
  funext e; fin_cases d <;> fin_cases e <;> simp [mirC, mirF, stepIdx] <;> ring

theorem mirV_self' (w : Fin n) (A : Vec n K) : mirV w A w = fun y => -A w (mirF w y) := by funext x; simp [mirV]
theorem mirV_other' {w d : Fin n} (h : d ≠ w) (A : Vec n K) : mirV w A d = mirS w (A d) := by funext x; simp [mirV, mirS, h]

theorem formulae2_mir (o : OptsT) (si : SptlIntrp) (te : TmprlExtrp) (tiny : K) : FMir (formulae2 o si te tiny) := by
  intro w d st psi old U x
  have hne : d + 1 ≠ d := by revert d; decide
  rcases (show w = d ∨ w = d + 1 by revert d w; decide) with rfl | rfl
  · rw [mirV_self]
    simp only [formulae2, Stat.mir, mirV_self', mirV_other' hne, view2_mir_own_c, view2_mir_own_f]
    rw [antidiff2_rx, neg_zero]
  · rw [mirV_other hne.symm]
    simp only [formulae2, Stat.mir, mirV_self', mirV_other' hne.symm, view2_mir_tr_c, view2_mir_tr_f]
    rw [antidiff2_ry, neg_zero]

theorem view3_mir_own_c (d : Fin 3) (x : Idx 3) (a : Sca 3 K) : view3 d x (mirS d a) = c3x (view3 d (mirF d x) a) := by
  funext i j k
  simp only [view3, mirS, c3x]
  congr 1
  funext e; fin_cases d <;> fin_cases e <;> simp [mirC, mirF, stepIdx] <;> ring
theorem view3_mir_own_f (d : Fin 3) (x : Idx 3) (a : Sca 3 K) : view3 d x (fun y => -a (mirF d y)) = f3x (view3 d (mirF d x) a) := by
  funext i j k
  simp only [view3, f3x]
  congr 2
  funext e; fin_cases d <;> fin_cases e <;> simp [mirF, stepIdx] <;> ring
theorem view3_mir_y_c (d : Fin 3) (x : Idx 3) (a : Sca 3 K) : view3 d x (mirS (d + 1) a) = c3y (view3 d (mirC (d + 1) x) a) := by
  funext i j k
  simp only [view3, mirS, c3y]
  congr 1
  funext e; fin_cases d <;> fin_cases e <;> simp [mirC, stepIdx] <;> ring
theorem view3_mir_y_f (d : Fin 3) (x : Idx 3) (a : Sca 3 K) : view3 d x (fun y => -a (mirF (d + 1) y)) = f3y (view3 d (mirC (d + 1) x) a) := by
  funext i j k
  simp only [view3, f3y]
  congr 2
  funext e; fin_cases d <;> fin_cases e <;> simp [mirC, mirF, stepIdx] <;> ring
theorem view3_mir_z_c (d : Fin 3) (x : Idx 3) (a : Sca 3 K) : view3 d x (mirS (d + 2) a) = c3z (view3 d (mirC (d + 2) x) a) := by
  funext i j k
  simp only [view3, mirS, c3z]
  congr 1
  funext e; fin_cases d <;> fin_cases e <;> simp [mirC, stepIdx] <;> ring
theorem view3_mir_z_f (d : Fin 3) (x : Idx 3) (a : Sca 3 K) : view3 d x (fun y => -a (mirF (d + 2) y)) = f3z (view3 d (mirC (d + 2) x) a) := by
  funext i j k
  simp only [view3, f3z]
  congr 2
  funext e; fin_cases d <;> fin_cases e <;> simp [mirC, mirF, stepIdx] <;> ring

theorem formulae3_mir (o : OptsT) (si : SptlIntrp) (te : TmprlExtrp) (tiny : K) : FMir (formulae3 o si te tiny) := by
  intro w d st psi old U x
  have h1 : d + 1 ≠ d := by revert d; decide
  have h2 : d + 2 ≠ d := by revert d; decide
  have h3 : d + 1 ≠ d + 2 := by revert d; decide
  rcases (show w = d ∨ w = d + 1 ∨ w = d + 2 by revert d w; decide) with rfl | rfl | rfl
  · rw [mirV_self]
    simp only [formulae3, Stat.mir, mirV_self', mirV_other' h1, mirV_other' h2, view3_mir_own_c, view3_mir_own_f]
    rw [antidiff3_rx, neg_zero]
  · rw [mirV_other h1.symm]
    simp only [formulae3, Stat.mir, mirV_self', mirV_other' h1.symm, mirV_other' h3.symm, view3_mir_y_c, view3_mir_y_f]
    rw [antidiff3_ry, neg_zero]
  · rw [mirV_other h2.symm]
    simp only [formulae3, Stat.mir, mirV_self', mirV_other' h2.symm, mirV_other' h3, view3_mir_z_c, view3_mir_z_f]
    rw [antidiff3_rz, neg_zero]
end
end Mpdata
