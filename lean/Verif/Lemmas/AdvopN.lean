import Verif.Spec.SchemeN
import Verif.Lemmas.Local2
import Verif.Lemmas.Local3
import Verif.Lemmas.PeriodicN
import Mathlib.Tactic.FinCases
/-! # Footprints of the N-D formulae -/
set_option linter.unusedSectionVars false
namespace Mpdata
variable {n : Nat} {K : Type} [Field K] [LinearOrder K]

/-- two arrays agree on a set of indices -/
def AgN (R : Idx n → Prop) (a b : Sca n K) : Prop := ∀ x, R x → a x = b x

theorem AgN.mono {R R' : Idx n → Prop} {a b : Sca n K} (h : AgN R a b) (hR : ∀ x, R' x → R x) : AgN R' a b := fun x hx => h x (hR x hx)

theorem asgN_in {P : Idx n → Prop} [DecidablePred P] {e a : Sca n K} {x : Idx n} (h : P x) : asgN P e a x = e x := by simp [asgN, h]
theorem asgN_out {P : Idx n → Prop} [DecidablePred P] {e a : Sca n K} {x : Idx n} (h : ¬ P x) : asgN P e a x = a x := by simp [asgN, h]

theorem asgN_agree {P : Idx n → Prop} [DecidablePred P] {e a b : Sca n K} (h : AgN P e b) : AgN P (asgN P e a) b := by
  intro x hx; rw [asgN_in hx]; exact h x hx

/-- the points around the face `x + 1/2` of dimension `d`: `r` points beyond the two adjacent cells in `d`, one to each side in the other dimensions -/
def Near (r : Int) (d : Fin n) (x y : Idx n) : Prop := (x d - r ≤ y d ∧ y d ≤ x d + 1 + r) ∧ ∀ e, e ≠ d → x e - 1 ≤ y e ∧ y e ≤ x e + 1

/-- the faces of dimension `e` around the face `x + 1/2` of dimension `d`: for `e = d` those within `w` in dimension `d`, for `e ≠ d` the four nearest -/
def NearV (w : Int) (d : Fin n) (x : Idx n) (e : Fin n) (y : Idx n) : Prop :=
  (e = d ∧ (x d - w ≤ y d ∧ y d ≤ x d + w) ∧ ∀ f, f ≠ d → y f = x f) ∨
  (e ≠ d ∧ (x d ≤ y d ∧ y d ≤ x d + 1) ∧ (x e - 1 ≤ y e ∧ y e ≤ x e) ∧ ∀ f, f ≠ d → f ≠ e → y f = x f)

/-- the faces read by the third-order divergence form -/
def NearD (d : Fin n) (x : Idx n) (e : Fin n) (y : Idx n) : Prop :=
  (e = d ∧ (x d - 1 ≤ y d ∧ y d ≤ x d + 1) ∧ ∀ f, f ≠ d → x f - 1 ≤ y f ∧ y f ≤ x f + 1) ∨
  (e ≠ d ∧ (x d ≤ y d ∧ y d ≤ x d + 1) ∧ (((x e - 1 ≤ y e ∧ y e ≤ x e) ∧ ∀ f, f ≠ d → f ≠ e → x f - 1 ≤ y f ∧ y f ≤ x f + 1) ∨
    ((x e - 2 ≤ y e ∧ y e ≤ x e + 1) ∧ ∀ f, f ≠ d → f ≠ e → y f = x f)))

def gcWide (o : OptsT) : Int := if isset o oDfl || isset o oDiv2 || isset o oDiv3 then 1 else 0

def NearU (o : OptsT) (d : Fin n) (x : Idx n) (e : Fin n) (y : Idx n) : Prop := NearV (gcWide o) d x e y ∨ (isset o oDiv3 = true ∧ NearD d x e y)

def hasNdt (o : OptsT) : Bool := isset o oDiv3 || isset o oDiv3dt

/-- the formulae read only nearby values -/
structure FLocal (o : OptsT) (F : Formulae n K) : Prop where
  vel : ∀ (d : Fin n) (st st' : Stat n K) (psi psi' old old' : Sca n K) (U U' : Vec n K) (x : Idx n),
    (∀ y, Near (mpdataHalo o - 1) d x y → psi y = psi' y) → (∀ y, Near 0 d x y → old y = old' y) → (∀ y, Near 0 d x y → st.G y = st'.G y) →
    (∀ e y, NearU o d x e y → U e y = U' e y) → (hasNdt o = true → ∀ e y, NearV 1 d x e y → st.ndt e y = st'.ndt e y) →
    (hasNdt o = true → st.ndtt d x = st'.ndtt d x) →
    F.vel d st psi old U x = F.vel d st' psi' old' U' x
  donor : ∀ (psi psi' : Sca n K) (flx flx' : Vec n K) (G G' : Sca n K) (x : Idx n), psi x = psi' x → G x = G' x →
    (∀ d, flx d x = flx' d x) → (∀ d, flx d (stepIdx x d (-1)) = flx' d (stepIdx x d (-1))) → F.donor psi flx G x = F.donor psi' flx' G' x

theorem mpdataHalo_ge (o : OptsT) : (1 : Int) ≤ mpdataHalo o ∧ (mpdataHalo o : Int) ≤ 2 := by
  unfold mpdataHalo; split <;> decide

theorem stepIdx_self (x : Idx n) (d : Fin n) (k : Int) : stepIdx x d k d = x d + k := by simp [stepIdx]
theorem stepIdx_other (x : Idx n) {d e : Fin n} (h : e ≠ d) (k : Int) : stepIdx x d k e = x e := by simp [stepIdx, h]

section two
theorem fin2_add_one_ne (d : Fin 2) : d + 1 ≠ d := by revert d; decide
theorem fin2_other {d e : Fin 2} (h : e ≠ d) : e = d + 1 := by revert d e; decide

theorem sh2_d (x : Idx 2) (d : Fin 2) (i j : Int) : stepIdx (stepIdx x d i) (d + 1) j d = x d + i := by
  rw [stepIdx_other _ (fin2_add_one_ne d).symm, stepIdx_self]
theorem sh2_e (x : Idx 2) (d : Fin 2) (i j : Int) : stepIdx (stepIdx x d i) (d + 1) j (d + 1) = x (d + 1) + j := by
  rw [stepIdx_self, stepIdx_other _ (fin2_add_one_ne d)]

theorem near2 {r : Int} {x : Idx 2} {d : Fin 2} {i j : Int} (h1 : -r ≤ i) (h2 : i ≤ 1 + r) (h3 : -1 ≤ j) (h4 : j ≤ 1) :
    Near r d x (stepIdx (stepIdx x d i) (d + 1) j) := by
  refine ⟨by rw [sh2_d]; omega, ?_⟩
  intro e he
  rw [fin2_other he, sh2_e]; omega

theorem view2_ag {r : Int} {x : Idx 2} {d : Fin 2} {a a' : Sca 2 K} (h : ∀ y, Near r d x y → a y = a' y) :
    Ag2 (0 - r) (0 + (1 + r)) (0 - 1) (0 + 1) (view2 d x a) (view2 d x a') := by
  intro i j h1 h2 h3 h4
  exact h _ (near2 (by omega) (by omega) (by omega) (by omega))

theorem formulae2_local (o : OptsT) (si : SptlIntrp) (te : TmprlExtrp) (tiny : K)
    (hfot : isset o oFot = true → isset o oTot = true ∨ isset o oDiv3 = true) : FLocal o (formulae2 o si te tiny) where
  vel d st st' psi psi' old old' U U' x hp hold hG hU hn hnt := by
    have hr := mpdataHalo_ge o
    have hG' := view2_ag hG
    have hold' := view2_ag hold
    have hne := fin2_add_one_ne d
    have vd : ∀ (w i : Int), -w ≤ i → i ≤ w → NearV w d x d (stepIdx (stepIdx x d i) (d + 1) 0) := by
      intro w i h1 h2
      refine Or.inl ⟨rfl, by rw [sh2_d]; omega, ?_⟩
      intro f hf; rw [fin2_other hf, sh2_e]; omega
    have ve : ∀ (w i j : Int), 0 ≤ i → i ≤ 1 → -1 ≤ j → j ≤ 0 → NearV w d x (d + 1) (stepIdx (stepIdx x d i) (d + 1) j) := by
      intro w i j h1 h2 h3 h4
      refine Or.inr ⟨hne, by rw [sh2_d]; omega, by rw [sh2_e]; omega, ?_⟩
      intro f hf hf'; exact absurd (fin2_other hf) hf'
    have hw0 : 0 ≤ gcWide o := by unfold gcWide; split <;> omega
    show antidiff2 _ _ _ _ _ _ _ _ _ _ _ _ 0 0 = antidiff2 _ _ _ _ _ _ _ _ _ _ _ _ 0 0
    refine antidiff2_congr o si te tiny hfot ?_ ?_ ?_ ?_ ?_ ?_ ?_ ?_ ?_ ?_ ?_ ?_
    · exact (view2_ag hp).mono (by omega) (by omega) (by omega) (by omega)
    · intro h2
      have := view2_ag hp
      rw [h2] at this
      exact this.mono (by omega) (by omega) (by omega) (by omega)
    · exact hold'.mono (by omega) (by omega) (by omega) (by omega)
    · exact hU d _ (Or.inl (vd _ 0 (by omega) (by omega)))
    · intro _ hw i j h1 h2 h3 h4
      have : j = 0 := by omega
      subst this
      have hg : gcWide o = 1 := by unfold gcWide; rw [if_pos hw]
      exact hU d _ (Or.inl (vd _ i (by omega) (by omega)))
    · intro h3 i j h1 h2 h4 h5
      refine hU d _ (Or.inr ⟨h3, Or.inl ⟨rfl, by rw [sh2_d]; omega, ?_⟩⟩)
      intro f hf; rw [fin2_other hf, sh2_e]; omega
    · intro i j h1 h2 h3 h4
      exact hU (d + 1) _ (Or.inl (ve _ i j (by omega) (by omega) (by omega) (by omega)))
    · intro h3 i j h1 h2 h4 h5
      refine hU (d + 1) _ (Or.inr ⟨h3, Or.inr ⟨hne, by rw [sh2_d]; omega, Or.inr ⟨by rw [sh2_e]; omega, ?_⟩⟩⟩)
      intro f hf hf'; exact absurd (fin2_other hf) hf'
    · intro h i j h1 h2 h3 h4
      have : j = 0 := by omega
      subst this
      exact hn h d _ (vd 1 i (by omega) (by omega))
    · intro h i j h1 h2 h3 h4
      exact hn h (d + 1) _ (ve 1 i j (by omega) (by omega) (by omega) (by omega))
    · intro h
      show st.ndtt d _ = st'.ndtt d _
      rw [stepIdx_zero, stepIdx_zero]; exact hnt h
    · exact hG'.mono (by omega) (by omega) (by omega) (by omega)
  donor psi psi' flx flx' G G' x hp hG h1 h2 := by
    have e : (![x 0, x 1] : Idx 2) = x := by funext i; fin_cases i <;> rfl
    have e0 : (![x 0 - 1, x 1] : Idx 2) = stepIdx x 0 (-1) := by funext i; fin_cases i <;> simp [stepIdx] <;> omega
    have e1 : (![x 0, x 1 - 1] : Idx 2) = stepIdx x 1 (-1) := by funext i; fin_cases i <;> simp [stepIdx] <;> omega
    simp only [formulae2, donorStep2, cur2, gFac2, pi2, if_true, e, e0, e1, hp, hG, h1, h2]
end two

section three
theorem fin3_a (d : Fin 3) : d + 1 ≠ d := by revert d; decide
theorem fin3_b (d : Fin 3) : d + 2 ≠ d := by revert d; decide
theorem fin3_c (d : Fin 3) : d + 2 ≠ d + 1 := by revert d; decide
theorem fin3_cases (d e : Fin 3) : e = d ∨ e = d + 1 ∨ e = d + 2 := by revert d e; decide

theorem sh3_d (x : Idx 3) (d : Fin 3) (i j k : Int) : stepIdx (stepIdx (stepIdx x d i) (d + 1) j) (d + 2) k d = x d + i := by
  rw [stepIdx_other _ (fin3_b d).symm, stepIdx_other _ (fin3_a d).symm, stepIdx_self]
theorem sh3_e (x : Idx 3) (d : Fin 3) (i j k : Int) : stepIdx (stepIdx (stepIdx x d i) (d + 1) j) (d + 2) k (d + 1) = x (d + 1) + j := by
  rw [stepIdx_other _ (fin3_c d).symm, stepIdx_self, stepIdx_other _ (fin3_a d)]
theorem sh3_f (x : Idx 3) (d : Fin 3) (i j k : Int) : stepIdx (stepIdx (stepIdx x d i) (d + 1) j) (d + 2) k (d + 2) = x (d + 2) + k := by
  rw [stepIdx_self, stepIdx_other _ (fin3_c d), stepIdx_other _ (fin3_b d)]

theorem forall3 {P : Fin 3 → Prop} (d : Fin 3) (h0 : P d) (h1 : P (d + 1)) (h2 : P (d + 2)) : ∀ e, P e := by
  intro e; rcases fin3_cases d e with h | h | h <;> rw [h] <;> assumption

theorem view3_ag {r : Int} {x : Idx 3} {d : Fin 3} {a a' : Sca 3 K} (h : ∀ y, Near r d x y → a y = a' y) :
    Ag3 (0 - r) (0 + (1 + r)) (0 - 1) (0 + 1) (0 - 1) (0 + 1) (view3 d x a) (view3 d x a') := by
  intro i j k h1 h2 h3 h4 h5 h6
  refine h _ ⟨by rw [sh3_d]; omega, forall3 d (fun h => absurd rfl h) (fun _ => ?_) (fun _ => ?_)⟩
  · rw [sh3_e]; omega
  · rw [sh3_f]; omega

theorem formulae3_local (o : OptsT) (si : SptlIntrp) (te : TmprlExtrp) (tiny : K) : FLocal o (formulae3 o si te tiny) where
  vel d st st' psi psi' old old' U U' x hp hold hG hU hn hnt := by
    have hr := mpdataHalo_ge o
    have hG' := view3_ag hG
    have hold' := view3_ag hold
    have hne := fin3_a d
    have hne' := fin3_b d
    have hne2 := fin3_c d
    have vd : ∀ (w i : Int), -w ≤ i → i ≤ w → NearV w d x d (stepIdx (stepIdx (stepIdx x d i) (d + 1) 0) (d + 2) 0) := by
      intro w i h1 h2
      refine Or.inl ⟨rfl, by rw [sh3_d]; omega, forall3 d (fun h => absurd rfl h) (fun _ => ?_) (fun _ => ?_)⟩
      · rw [sh3_e]; omega
      · rw [sh3_f]; omega
    have ve : ∀ (w i j : Int), 0 ≤ i → i ≤ 1 → -1 ≤ j → j ≤ 0 → NearV w d x (d + 1) (stepIdx (stepIdx (stepIdx x d i) (d + 1) j) (d + 2) 0) := by
      intro w i j h1 h2 h3 h4
      refine Or.inr ⟨hne, by rw [sh3_d]; omega, by rw [sh3_e]; omega, forall3 d (fun h => absurd rfl h) (fun _ h => absurd rfl h) (fun _ _ => ?_)⟩
      rw [sh3_f]; omega
    have vf : ∀ (w i k : Int), 0 ≤ i → i ≤ 1 → -1 ≤ k → k ≤ 0 → NearV w d x (d + 2) (stepIdx (stepIdx (stepIdx x d i) (d + 1) 0) (d + 2) k) := by
      intro w i j h1 h2 h3 h4
      refine Or.inr ⟨hne', by rw [sh3_d]; omega, by rw [sh3_f]; omega, forall3 d (fun h => absurd rfl h) (fun _ _ => ?_) (fun _ h => absurd rfl h)⟩
      rw [sh3_e]; omega
    have hw0 : 0 ≤ gcWide o := by unfold gcWide; split <;> omega
    show antidiff3 _ _ _ _ _ _ _ _ _ _ _ _ _ _ 0 0 0 = antidiff3 _ _ _ _ _ _ _ _ _ _ _ _ _ _ 0 0 0
    refine antidiff3_congr o si te tiny ?_ ?_ ?_ ?_ ?_ ?_ ?_ ?_ ?_ ?_ ?_ ?_ ?_ ?_ ?_ ?_ ?_
    · exact (view3_ag hp).mono (by omega)
    · intro h2
      have := view3_ag hp
      rw [h2] at this
      exact this.mono (by omega)
    · exact hold'.mono (by omega)
    · exact hU d _ (Or.inl (vd _ 0 (by omega) (by omega)))
    · intro _ hw i j k h1 h2 h3 h4 h5 h6
      have : j = 0 := by omega
      subst this
      have : k = 0 := by omega
      subst this
      have hg : gcWide o = 1 := by unfold gcWide; rw [if_pos hw]
      exact hU d _ (Or.inl (vd _ i (by omega) (by omega)))
    · intro h3 i j k h1 h2 h4 h5 h6 h7
      refine hU d _ (Or.inr ⟨h3, Or.inl ⟨rfl, by rw [sh3_d]; omega, forall3 d (fun h => absurd rfl h) (fun _ => ?_) (fun _ => ?_)⟩⟩)
      · rw [sh3_e]; omega
      · rw [sh3_f]; omega
    · intro i j k h1 h2 h3 h4 h5 h6
      have : k = 0 := by omega
      subst this
      exact hU (d + 1) _ (Or.inl (ve _ i j (by omega) (by omega) (by omega) (by omega)))
    · intro h3 i j k h1 h2 h4 h5 h6 h7
      refine hU (d + 1) _ (Or.inr ⟨h3, Or.inr ⟨hne, by rw [sh3_d]; omega, Or.inl ⟨by rw [sh3_e]; omega,
        forall3 d (fun h => absurd rfl h) (fun _ h => absurd rfl h) (fun _ _ => ?_)⟩⟩⟩)
      rw [sh3_f]; omega
    · intro h3 i j k h1 h2 h4 h5 h6 h7
      refine hU (d + 1) _ (Or.inr ⟨h3, Or.inr ⟨hne, by rw [sh3_d]; omega, Or.inr ⟨by rw [sh3_e]; omega,
        forall3 d (fun h => absurd rfl h) (fun _ h => absurd rfl h) (fun _ _ => ?_)⟩⟩⟩)
      rw [sh3_f]; omega
    · intro i j k h1 h2 h3 h4 h5 h6
      have : j = 0 := by omega
      subst this
      exact hU (d + 2) _ (Or.inl (vf _ i k (by omega) (by omega) (by omega) (by omega)))
    · intro h3 i j k h1 h2 h4 h5 h6 h7
      refine hU (d + 2) _ (Or.inr ⟨h3, Or.inr ⟨hne', by rw [sh3_d]; omega, Or.inl ⟨by rw [sh3_f]; omega,
        forall3 d (fun h => absurd rfl h) (fun _ _ => ?_) (fun _ h => absurd rfl h)⟩⟩⟩)
      rw [sh3_e]; omega
    · intro h3 i j k h1 h2 h4 h5 h6 h7
      refine hU (d + 2) _ (Or.inr ⟨h3, Or.inr ⟨hne', by rw [sh3_d]; omega, Or.inr ⟨by rw [sh3_f]; omega,
        forall3 d (fun h => absurd rfl h) (fun _ _ => ?_) (fun _ h => absurd rfl h)⟩⟩⟩)
      rw [sh3_e]; omega
    · intro h i j k h1 h2 h3 h4 h5 h6
      have : j = 0 := by omega
      subst this
      have : k = 0 := by omega
      subst this
      exact hn h d _ (vd 1 i (by omega) (by omega))
    · intro h i j k h1 h2 h3 h4 h5 h6
      have : k = 0 := by omega
      subst this
      exact hn h (d + 1) _ (ve 1 i j (by omega) (by omega) (by omega) (by omega))
    · intro h i j k h1 h2 h3 h4 h5 h6
      have : j = 0 := by omega
      subst this
      exact hn h (d + 2) _ (vf 1 i k (by omega) (by omega) (by omega) (by omega))
    · intro h
      show st.ndtt d _ = st'.ndtt d _
      rw [stepIdx_zero, stepIdx_zero, stepIdx_zero]; exact hnt h
    · exact hG'.mono (by omega)
  donor psi psi' flx flx' G G' x hp hG h1 h2 := by
    have e : (![x 0, x 1, x 2] : Idx 3) = x := by funext i; fin_cases i <;> rfl
    have e0 : (![x 0 - 1, x 1, x 2] : Idx 3) = stepIdx x 0 (-1) := by funext i; fin_cases i <;> simp [stepIdx] <;> omega
    have e1 : (![x 0, x 1 - 1, x 2] : Idx 3) = stepIdx x 1 (-1) := by funext i; fin_cases i <;> simp [stepIdx] <;> omega
    have e2 : (![x 0, x 1, x 2 - 1] : Idx 3) = stepIdx x 2 (-1) := by funext i; fin_cases i <;> simp [stepIdx] <;> omega
    simp only [formulae3, donorStep3, cur3, gFac3, pi3, if_true, e, e0, e1, e2, hp, hG, h1, h2]
end three

/-! ### generic formulae -/

theorem makeFluxN_congr (o : OptsT) {psi psi' : Sca n K} {A A' : Vec n K} {d : Fin n} {x : Idx n} (h0 : psi x = psi' x)
    (h1 : psi (stepIdx x d 1) = psi' (stepIdx x d 1)) (hA : A d x = A' d x) : makeFluxN o psi A d x = makeFluxN o psi' A' d x := by
  unfold makeFluxN; rw [h0, h1, hA]

theorem nbMax_congr {psi psi' : Sca n K} {x : Idx n} (h0 : psi x = psi' x)
    (h1 : ∀ d, psi (stepIdx x d 1) = psi' (stepIdx x d 1)) (h2 : ∀ d, psi (stepIdx x d (-1)) = psi' (stepIdx x d (-1))) : nbMax psi x = nbMax psi' x := by
  unfold nbMax; simp only [h0, h1, h2]
theorem nbMin_congr {psi psi' : Sca n K} {x : Idx n} (h0 : psi x = psi' x)
    (h1 : ∀ d, psi (stepIdx x d 1) = psi' (stepIdx x d 1)) (h2 : ∀ d, psi (stepIdx x d (-1)) = psi' (stepIdx x d (-1))) : nbMin psi x = nbMin psi' x := by
  unfold nbMin; simp only [h0, h1, h2]

theorem betaUpN_congr (o : OptsT) (eps : K) {psi psi' mx mx' G G' : Sca n K} {flx flx' : Vec n K} {x : Idx n} (h0 : psi x = psi' x)
    (h1 : ∀ d, psi (stepIdx x d 1) = psi' (stepIdx x d 1)) (h2 : ∀ d, psi (stepIdx x d (-1)) = psi' (stepIdx x d (-1))) (hm : mx x = mx' x)
    (hG : G x = G' x) (f0 : ∀ d, flx d x = flx' d x) (f1 : ∀ d, flx d (stepIdx x d (-1)) = flx' d (stepIdx x d (-1))) :
    betaUpN o eps psi mx flx G x = betaUpN o eps psi' mx' flx' G' x := by
  unfold betaUpN gFacN; rw [nbMax_congr h0 h1 h2]; simp only [h0, hm, hG, f0, f1]
theorem betaDnN_congr (o : OptsT) (eps : K) {psi psi' mx mx' G G' : Sca n K} {flx flx' : Vec n K} {x : Idx n} (h0 : psi x = psi' x)
    (h1 : ∀ d, psi (stepIdx x d 1) = psi' (stepIdx x d 1)) (h2 : ∀ d, psi (stepIdx x d (-1)) = psi' (stepIdx x d (-1))) (hm : mx x = mx' x)
    (hG : G x = G' x) (f0 : ∀ d, flx d x = flx' d x) (f1 : ∀ d, flx d (stepIdx x d (-1)) = flx' d (stepIdx x d (-1))) :
    betaDnN o eps psi mx flx G x = betaDnN o eps psi' mx' flx' G' x := by
  unfold betaDnN gFacN; rw [nbMin_congr h0 h1 h2]; simp only [h0, hm, hG, f0, f1]
theorem gcMonoN_congr (o : OptsT) {psi psi' bu bu' bd bd' : Sca n K} {A A' : Vec n K} {d : Fin n} {x : Idx n} (h0 : psi x = psi' x)
    (h1 : psi (stepIdx x d 1) = psi' (stepIdx x d 1)) (hA : A d x = A' d x) (u0 : bu x = bu' x) (u1 : bu (stepIdx x d 1) = bu' (stepIdx x d 1))
    (d0 : bd x = bd' x) (d1 : bd (stepIdx x d 1) = bd' (stepIdx x d 1)) :
    gcMonoN o psi bu bd A d x = gcMonoN o psi' bu' bd' A' d x := by
  unfold gcMonoN; simp only [h0, h1, hA, u0, u1, d0, d1]

end Mpdata
