import Verif.Props.HaloBc
import Verif.Lemmas.AdvopN
/-! Advection with a vanishing advector. -/
set_option linter.unusedSectionVars false
set_option linter.unusedVariables false
namespace Mpdata
variable {n : Nat} {K : Type} [Field K] [LinearOrder K] [IsStrictOrderedRing K]

/-- zero on all faces that touch the domain -/
def ZF (b : Fin n → Rng) (v : Vec n K) : Prop := ∀ d x, faceBox b d x → v d x = 0

/-- what is needed of formulae and exchanges -/
structure StillOk (c : CfgN n K) : Prop where
  velZ : ∀ d st psi old GC x, GC d x = 0 → c.F.vel d st psi old GC x = 0
  donorZ : ∀ psi flx G x, (∀ d, flx d x = 0 ∧ flx d (stepIdx x d (-1)) = 0) → c.F.donor psi flx G x = psi x
  fillS : ∀ a x, cellBox c.box x → c.fillS a x = a x
  fillA : ∀ ad A, ZF c.box A → ZF c.box (c.fillA ad A)
  fillN : ∀ ext A, ZF c.box A → ZF c.box (c.fillN ext A)

theorem gcCorr_set (iter : Nat) (m : MemN n K) (a : Vec n K) : gcCorrN iter (setCorrN iter m a) = a := by
  unfold gcCorrN setCorrN; split_ifs <;> rfl

theorem setCorr_frame (iter : Nat) (m : MemN n K) (a : Vec n K) : (setCorrN iter m a).psi = m.psi ∧ (setCorrN iter m a).psiN = m.psiN ∧ (setCorrN iter m a).GC = m.GC ∧
    (setCorrN iter m a).flux = m.flux := by
  unfold setCorrN; split_ifs <;> exact ⟨rfl, rfl, rfl, rfl⟩

theorem donorF_zero (o : OptsT) (a b : K) : donorF o a b 0 = 0 := by
  unfold donorF pospart negpart; split_ifs <;> simp

theorem gcMono_zero (o : OptsT) (psi bUp bDn : Sca n K) {gc : Vec n K} {d : Fin n} {x : Idx n} (h : gc d x = 0) : gcMonoN o psi bUp bDn gc d x = 0 := by
  unfold gcMonoN
  simp only [h]
  split_ifs <;> simp

/-- the corrective part of an iteration -/
structure StillIt (c : CfgN n K) (p : Sca n K) (iter : Nat) (m : MemN n K) : Prop where
  psi : ∀ x, cellBox c.box x → m.psi x = p x
  psiN : ∀ x, cellBox c.box x → m.psiN x = p x
  GC : ZF c.box m.GC
  used : ZF c.box (gcUsedN c.o iter m)
  corr : iter ≠ 0 → ZF c.box (gcCorrN iter m)

theorem fctAdjust_still {c : CfgN n K} (h : StillOk c) {iter : Nat} (h0 : iter ≠ 0) {m : MemN n K} (hc : ZF c.box (gcCorrN iter m)) :
    (fctAdjustN c iter m).psi = m.psi ∧ (fctAdjustN c iter m).psiN = m.psiN ∧ (fctAdjustN c iter m).GC = m.GC ∧ ZF c.box (gcCorrN iter (fctAdjustN c iter m)) ∧
      ZF c.box (gcUsedN c.o iter (fctAdjustN c iter m)) := by
  unfold fctAdjustN
  by_cases hf : isset c.o oFct = true
  · rw [if_pos hf]
    simp only
    set m1 := setCorrN iter m (c.fillA true (gcCorrN iter m)) with hm1
    have z1 : ZF c.box (gcCorrN iter m1) := by rw [hm1, gcCorr_set]; exact h.fillA true _ hc
    set m2 := setCorrN iter m1 (c.fillN 0 (gcCorrN iter m1)) with hm2
    have z2 : ZF c.box (gcCorrN iter m2) := by rw [hm2, gcCorr_set]; exact h.fillN 0 _ z1
    have f1 := setCorr_frame iter m (c.fillA true (gcCorrN iter m))
    have f2 := setCorr_frame iter m1 (c.fillN 0 (gcCorrN iter m1))
    set m3 := (if isset c.o oIga = true then m2 else { m2 with flux := fun d => asgN (faceBox1 c.box d) (makeFluxN c.o m2.psi (gcCorrN iter m2) d) (m2.flux d) }) with hm3
    have e3 : m3.psi = m2.psi ∧ m3.psiN = m2.psiN ∧ m3.GC = m2.GC ∧ gcCorrN iter m3 = gcCorrN iter m2 := by rw [hm3]; split_ifs <;> exact ⟨rfl, rfl, rfl, rfl⟩
    refine ⟨e3.1.trans (f2.1.trans f1.1), e3.2.1.trans (f2.2.1.trans f1.2.1), e3.2.2.1.trans (f2.2.2.1.trans f1.2.2.1), ?_, ?_⟩
    · show ZF c.box (gcCorrN iter m3); rw [e3.2.2.2]; exact z2
    · unfold gcUsedN
      rw [if_neg h0, if_pos hf]
      intro d x hx
      show asgN (faceBox c.box d) _ _ x = 0
      rw [asgN_of hx]
      have z3 : gcCorrN iter m3 d x = 0 := by rw [e3.2.2.2]; exact z2 d x hx
      exact gcMono_zero _ _ _ _ z3
  · rw [if_neg hf]
    refine ⟨rfl, rfl, rfl, hc, ?_⟩
    unfold gcUsedN
    rw [if_neg h0, if_neg hf]; exact hc

theorem corrIter_still {c : CfgN n K} (h : StillOk c) {p : Sca n K} {iter : Nat} (h0 : iter ≠ 0) {m : MemN n K} (hp : ∀ x, cellBox c.box x → m.psi x = p x)
    (hpN : ∀ x, cellBox c.box x → m.psiN x = p x) (hG : ZF c.box m.GC) (hu : ZF c.box (gcUncoN iter m)) : StillIt c p iter (corrIterN c iter m) := by
  unfold corrIterN
  simp only
  set m1 : MemN n K := { m with psi := c.fillS m.psiN, psiN := m.psi } with hm1
  have hu1 : gcUncoN iter m1 = gcUncoN iter m := rfl
  set m2 := setCorrN iter m1 (fun d => asgN (faceBox c.box d) (c.F.vel d c.st m1.psi m1.psiN (gcUncoN iter m1)) (gcCorrN iter m1 d)) with hm2
  have f2 := setCorr_frame iter m1 (fun d => asgN (faceBox c.box d) (c.F.vel d c.st m1.psi m1.psiN (gcUncoN iter m1)) (gcCorrN iter m1 d))
  have z2 : ZF c.box (gcCorrN iter m2) := by
    rw [hm2, gcCorr_set]
    intro d x hx
    beta_reduce
    rw [asgN_of hx]
    exact h.velZ _ _ _ _ _ _ (by rw [hu1]; exact hu d x hx)
  set m3 := (if (!isset c.o oFct && iter != c.nIters - 1) = true then
      (if isset c.o oDfl = true then setCorrN iter (setCorrN iter m2 (c.fillN 0 (gcCorrN iter m2))) (c.fillA false (gcCorrN iter (setCorrN iter m2 (c.fillN 0 (gcCorrN iter m2)))))
        else setCorrN iter m2 (c.fillN 0 (gcCorrN iter m2)))
    else m2) with hm3
  have e3 : m3.psi = m2.psi ∧ m3.psiN = m2.psiN ∧ m3.GC = m2.GC ∧ ZF c.box (gcCorrN iter m3) := by
    rw [hm3]
    have fa := setCorr_frame iter m2 (c.fillN 0 (gcCorrN iter m2))
    have za : ZF c.box (gcCorrN iter (setCorrN iter m2 (c.fillN 0 (gcCorrN iter m2)))) := by rw [gcCorr_set]; exact h.fillN 0 _ z2
    split_ifs
    · have fb := setCorr_frame iter (setCorrN iter m2 (c.fillN 0 (gcCorrN iter m2))) (c.fillA false (gcCorrN iter (setCorrN iter m2 (c.fillN 0 (gcCorrN iter m2)))))
      exact ⟨fb.1.trans fa.1, fb.2.1.trans fa.2.1, fb.2.2.1.trans fa.2.2.1, by rw [gcCorr_set]; exact h.fillA false _ za⟩
    · exact ⟨fa.1, fa.2.1, fa.2.2.1, za⟩
    · exact ⟨rfl, rfl, rfl, z2⟩
  obtain ⟨g1, g2, g3, g4, g5⟩ := fctAdjust_still h h0 e3.2.2.2
  refine ⟨fun x hx => ?_, fun x hx => ?_, ?_, g5, fun _ => g4⟩
  · rw [g1, e3.1, f2.1]
    exact (h.fillS _ x hx).trans (hpN x hx)
  · rw [g2, e3.2.1, f2.2.1]
    exact hp x hx
  · rw [g3, e3.2.2.1, f2.2.2.1]; exact hG

theorem cell_face {b : Fin n → Rng} {x : Idx n} (hx : cellBox b x) (d : Fin n) : faceBox b d x ∧ faceBox b d (stepIdx x d (-1)) := by
  have h : ∀ e, (b e).first ≤ x e ∧ x e ≤ (b e).last := fun e => by have := hx e; simpa using this
  constructor <;> intro e <;> have h := h e
  · by_cases he : e = d
    · subst he; simp; omega
    · simp [he]; omega
  · by_cases he : e = d
    · subst he; simp [stepIdx]; omega
    · simp [he, stepIdx]; omega

theorem advIter_still {c : CfgN n K} (h : StillOk c) {p : Sca n K} {iter : Nat} {m : MemN n K} (hp : ∀ x, cellBox c.box x → m.psi x = p x)
    (hpN : iter ≠ 0 → ∀ x, cellBox c.box x → m.psiN x = p x) (hG : ZF c.box m.GC) (hu : iter ≠ 0 → ZF c.box (gcUncoN iter m)) : StillIt c p iter (advIterN c iter m) := by
  unfold advIterN
  simp only
  set m1 := (if iter ≠ 0 then corrIterN c iter m else m) with hm1
  have e1 : (∀ x, cellBox c.box x → m1.psi x = p x) ∧ ZF c.box m1.GC ∧ ZF c.box (gcUsedN c.o iter m1) ∧ (iter ≠ 0 → ZF c.box (gcCorrN iter m1)) := by
    rw [hm1]
    by_cases h0 : iter = 0
    · rw [if_neg (by simpa using h0)]
      exact ⟨hp, hG, by unfold gcUsedN; rw [if_pos h0]; exact hG, fun h => absurd h0 h⟩
    · rw [if_pos h0]
      have k := corrIter_still h h0 hp (hpN h0) hG (hu h0)
      exact ⟨k.psi, k.GC, k.used, k.corr⟩
  set m2 := (if (!isset c.o oIga || iter == 0) = true then { m1 with flux := fun d => asgN (faceBox c.box d) (makeFluxN c.o m1.psi (gcUsedN c.o iter m1) d) (m1.flux d) } else m1) with hm2
  have e2 : m2.psi = m1.psi ∧ m2.GC = m1.GC ∧ gcUsedN c.o iter m2 = gcUsedN c.o iter m1 ∧ gcCorrN iter m2 = gcCorrN iter m1 := by rw [hm2]; split_ifs <;> exact ⟨rfl, rfl, rfl, rfl⟩
  have zf : ZF c.box (if (!isset c.o oIga || iter == 0) = true then m2.flux else gcUsedN c.o iter m2) := by
    by_cases hb : (!isset c.o oIga || iter == 0) = true
    · rw [if_pos hb, hm2, if_pos hb]
      intro d x hx
      show asgN (faceBox c.box d) _ _ x = 0
      rw [asgN_of hx]
      unfold makeFluxN
      rw [e1.2.2.1 d x hx]; exact donorF_zero _ _ _
    · rw [if_neg hb, e2.2.2.1]; exact e1.2.2.1
  refine ⟨fun x hx => by show m2.psi x = _; rw [e2.1]; exact e1.1 x hx, fun x hx => ?_, by show ZF c.box m2.GC; rw [e2.2.1]; exact e1.2.1, ?_, fun h0 => ?_⟩
  · show asgN (cellBox c.box) _ _ x = _
    rw [asgN_of hx, h.donorZ _ _ _ _ (fun d => ⟨zf d x (cell_face hx d).1, zf d _ (cell_face hx d).2⟩), e2.1]
    exact e1.1 x hx
  · show ZF c.box (gcUsedN c.o iter m2); rw [e2.2.2.1]; exact e1.2.2.1
  · show ZF c.box (gcCorrN iter m2); rw [e2.2.2.2]; exact e1.2.2.2 h0

theorem advLoop_still {c : CfgN n K} (h : StillOk c) {p : Sca n K} : ∀ (k iter : Nat) (m : MemN n K), (∀ x, cellBox c.box x → m.psi x = p x) →
    (iter ≠ 0 → ∀ x, cellBox c.box x → m.psiN x = p x) → ZF c.box m.GC → (iter ≠ 0 → ZF c.box (gcUncoN iter m)) → (k ≠ 0 ∨ iter ≠ 0) →
    (∀ x, cellBox c.box x → (advLoopN c k iter m).psiN x = p x) ∧ (∀ x, cellBox c.box x → (advLoopN c k iter m).psi x = p x) := by
  intro k
  induction k with
  | zero => intro iter m hp hpN _ _ hk; exact ⟨hpN (by simpa using hk), hp⟩
  | succ k ih =>
    intro iter m hp hpN hG hu _
    have it := advIter_still h hp hpN hG hu
    unfold advLoopN
    simp only
    split_ifs
    · exact ⟨it.psiN, it.psi⟩
    · refine ih (iter + 1) _ it.psi (fun _ => it.psiN) it.GC (fun _ => ?_) (.inr (by omega))
      unfold gcUncoN
      by_cases h0 : iter = 0
      · rw [if_pos (by omega)]; exact it.GC
      · rw [if_neg (by omega)]
        have := it.corr h0
        unfold gcCorrN at this
        by_cases h2 : iter % 2 = 1
        · rw [if_pos h2] at this; rw [if_neg (by omega)]; exact this
        · rw [if_neg h2] at this; rw [if_pos (by omega)]; exact this

/-- no flow, no change -/
theorem advance_still {c : CfgN n K} (h : StillOk c) (h1 : 1 ≤ c.nIters) {m : MemN n K} (hG : ZF c.box m.GC) {x : Idx n} (hx : cellBox c.box x) : (advanceN c m).psi x = m.psi x := by
  unfold advanceN
  simp only
  have e : (fctInitN c { m with psi := c.fillS m.psi }).psi = c.fillS m.psi ∧ (fctInitN c { m with psi := c.fillS m.psi }).GC = m.GC := by
    unfold fctInitN; split_ifs <;> exact ⟨rfl, rfl⟩
  exact (advLoop_still h (p := m.psi) c.nIters 0 _ (fun y hy => by rw [e.1]; exact h.fillS _ y hy) (fun h => absurd rfl h) (by rw [e.2]; exact hG) (fun h => absurd rfl h) (.inl (by omega))).1 x hx

/-! ## The solvers -/

theorem velZ_2 (o : OptsT) (si : SptlIntrp) (te : TmprlExtrp) (tiny : K) (h3 : isset o oDiv3 = false) (h3t : isset o oDiv3dt = false) (d : Fin 2) (st : Stat 2 K) (psi old : Sca 2 K) (GC : Vec 2 K)
    (x : Idx 2) (h : GC d x = 0) : (formulae2 o si te tiny).vel d st psi old GC x = 0 := by
  have e : view2 d x (GC d) 0 0 = 0 := by
    show GC d (stepIdx (stepIdx x d 0) (d + 1) 0) = 0
    rw [show stepIdx (stepIdx x d 0) (d + 1) 0 = x by funext e; simp [stepIdx]]; exact h
  show antidiff2 _ _ _ _ _ _ _ _ _ _ _ _ 0 0 = 0
  unfold antidiff2 div2nd2 div3rd2 tot2 fot2 dfl2 ndxxPsiCoeff2 ndxyPsiCoeff2 ndxxxPsiCoeff2 ndxxyPsiCoeff2 ndxyyPsiCoeff2
  simp [e, h3, h3t]

theorem velZ_3 (o : OptsT) (si : SptlIntrp) (te : TmprlExtrp) (tiny : K) (h3 : isset o oDiv3 = false) (h3t : isset o oDiv3dt = false) (d : Fin 3) (st : Stat 3 K) (psi old : Sca 3 K) (GC : Vec 3 K)
    (x : Idx 3) (h : GC d x = 0) : (formulae3 o si te tiny).vel d st psi old GC x = 0 := by
  have e : view3 d x (GC d) 0 0 0 = 0 := by
    show GC d (stepIdx (stepIdx (stepIdx x d 0) (d + 1) 0) (d + 2) 0) = 0
    rw [show stepIdx (stepIdx (stepIdx x d 0) (d + 1) 0) (d + 2) 0 = x by funext e; simp [stepIdx]]; exact h
  show antidiff3 _ _ _ _ _ _ _ _ _ _ _ _ _ _ 0 0 0 = 0
  unfold antidiff3 div2nd3 div3rd3 tot3 dfl3 ndxxPsiCoeff3 ndxyPsiCoeff3 ndxzPsiCoeff3 ndyzPsiCoeff3
  simp [e, h3, h3t]

theorem donorZ_2 (o : OptsT) (si : SptlIntrp) (te : TmprlExtrp) (tiny : K) (psi : Sca 2 K) (flx : Vec 2 K) (G : Sca 2 K) (x : Idx 2) (h : ∀ d, flx d x = 0 ∧ flx d (stepIdx x d (-1)) = 0) :
    (formulae2 o si te tiny).donor psi flx G x = psi x := by
  have e0 : (![x 0, x 1] : Idx 2) = x := by funext e; fin_cases e <;> rfl
  have e1 : (![x 0 - 1, x 1] : Idx 2) = stepIdx x 0 (-1) := by funext e; fin_cases e <;> simp [stepIdx]; ring
  have e2 : (![x 0, x 1 - 1] : Idx 2) = stepIdx x 1 (-1) := by funext e; fin_cases e <;> simp [stepIdx]; ring
  show donorStep2 o (cur2 psi) (cur2 (flx 0)) (cur2 (flx 1)) (cur2 G) (x 0) (x 1) = _
  unfold donorStep2 donorSum2 cur2
  rw [e0, e1, e2, kahanSum_eq, (h 0).1, (h 0).2, (h 1).1, (h 1).2]
  simp

theorem donorZ_3 (o : OptsT) (si : SptlIntrp) (te : TmprlExtrp) (tiny : K) (psi : Sca 3 K) (flx : Vec 3 K) (G : Sca 3 K) (x : Idx 3) (h : ∀ d, flx d x = 0 ∧ flx d (stepIdx x d (-1)) = 0) :
    (formulae3 o si te tiny).donor psi flx G x = psi x := by
  have e0 : (![x 0, x 1, x 2] : Idx 3) = x := by funext e; fin_cases e <;> rfl
  have e1 : (![x 0 - 1, x 1, x 2] : Idx 3) = stepIdx x 0 (-1) := by funext e; fin_cases e <;> simp [stepIdx]; ring
  have e2 : (![x 0, x 1 - 1, x 2] : Idx 3) = stepIdx x 1 (-1) := by funext e; fin_cases e <;> simp [stepIdx]; ring
  have e3 : (![x 0, x 1, x 2 - 1] : Idx 3) = stepIdx x 2 (-1) := by funext e; fin_cases e <;> simp [stepIdx]; ring
  show donorStep3 o (cur3 psi) (cur3 (flx 0)) (cur3 (flx 1)) (cur3 (flx 2)) (cur3 G) (x 0) (x 1) (x 2) = _
  unfold donorStep3 donorSum3 cur3
  rw [e0, e1, e2, e3, kahanSum_eq, (h 0).1, (h 0).2, (h 1).1, (h 1).2, (h 2).1, (h 2).2]
  simp

section
variable [NeZero n]

theorem transverse_zero (d : Fin n) (y : Idx n) : transverse d (fun _ _ => (0 : K)) y = 0 := by
  unfold transverse
  induction ((List.finRange n).filter (fun e => decide (e ≠ d))) with
  | nil => rfl
  | cons e l ih => rw [List.foldl_cons]; simp

theorem zeroRim_zero (B : Bnd n) (d : Fin n) (i : Int) : zeroRim B d i (fun _ _ => (0 : K)) = fun _ _ => 0 := by
  funext e x; unfold zeroRim asgN; split_ifs <;> simp

theorem fillA_zero (B : Bnd n) (d : Fin n) (ad : Bool) : fillA B d ad (fun _ _ => (0 : K)) = fun _ _ => 0 := by
  have u : ∀ (P : Idx n → Prop) [DecidablePred P] (val : Sca n K), (∀ x, val x = 0) → Function.update (fun (_ : Fin n) (_ : Idx n) => (0 : K)) d (asgN P val (fun _ => 0)) = fun _ _ => 0 := by
    intro P _ val hv
    funext e x
    by_cases he : e = d
    · subst he; rw [Function.update_self]; unfold asgN; split_ifs
      · exact hv x
      · rfl
    · rw [Function.update_of_ne he]
  unfold fillA
  simp only [zeroRim_zero, ite_self]
  rw [u _ _ (fun x => by unfold valAL; split <;> simp [transverse_zero])]
  simp only [zeroRim_zero, ite_self]
  exact u _ _ (fun x => by unfold valAR; split <;> simp [transverse_zero])

theorem xchngAlng_ZF (B : Bnd n) (hW : Wide B) (ad : Bool) {A : Vec n K} (h : ZF B.b A) : ZF B.b (xchngAlng B ad A) := by
  intro d x hx
  have z : (List.finRange n).foldl (fun A d => fillA B d ad A) (fun _ _ => (0 : K)) = fun _ _ => 0 := by
    induction (List.finRange n) with
    | nil => rfl
    | cons e l ih => rw [List.foldl_cons, fillA_zero]; exact ih
  have := foldA_agree B hW ad d x (List.finRange n) (A := A) (A' := fun _ _ => 0) h (Or.inl (h d x hx))
  rw [z] at this
  exact this

theorem xchngNrml_ZF (B : Bnd n) (ext : Int) {A : Vec n K} (h : ZF B.b A) : ZF B.b (xchngNrml B ext A) := by
  intro d x hx
  rw [C60_nrml_keeps_faces B ext A (fun e he => by have := hx e; simpa [he] using this)]
  exact h d x hx

/-- a solver with any kinds of boundaries -/
theorem stillOk_of {c : CfgN n K} {B : Bnd n} {ds : List (Fin n)} (hB : BcSolver c B ds) (hW : Wide B)
    (hv : ∀ d st psi old GC x, GC d x = 0 → c.F.vel d st psi old GC x = 0)
    (hd : ∀ psi flx G x, (∀ d, flx d x = 0 ∧ flx d (stepIdx x d (-1)) = 0) → c.F.donor psi flx G x = psi x) : StillOk c where
  velZ := hv
  donorZ := hd
  fillS a x hx := by
    rw [hB.s]
    rw [← hB.box] at hx
    exact C60_sclr_keeps_domain B ds _ _ _ (fun e => by have := hx e; simpa using this)
  fillA ad A h := by rw [hB.a]; rw [← hB.box] at h ⊢; exact xchngAlng_ZF B hW ad h
  fillN ext A h := by rw [hB.n]; rw [← hB.box] at h ⊢; exact xchngNrml_ZF B ext h
end

end Mpdata
