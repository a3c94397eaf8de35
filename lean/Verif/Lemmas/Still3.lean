import Verif.Lemmas.Still
/-! Advection with an advector that vanishes everywhere, third-order divergence form included. -/
set_option linter.unusedSectionVars false
set_option linter.unusedVariables false
namespace Mpdata
variable {n : Nat} {K : Type} [Field K] [LinearOrder K] [IsStrictOrderedRing K]

/-- the zero vector field -/
abbrev zv (n : Nat) (K : Type) [Zero K] : Vec n K := fun _ _ => 0

/-- what is needed of formulae and exchanges -/
structure StillAll (c : CfgN n K) : Prop where
  velZ : ∀ d psi old x, c.F.vel d c.st psi old (zv n K) x = 0
  donorZ : ∀ psi flx G x, (∀ d, flx d x = 0 ∧ flx d (stepIdx x d (-1)) = 0) → c.F.donor psi flx G x = psi x
  fillS : ∀ a x, cellBox c.box x → c.fillS a x = a x
  fillA : ∀ ad, c.fillA ad (zv n K) = zv n K
  fillN : ∀ ext, c.fillN ext (zv n K) = zv n K

/-- all advectors in memory vanish -/
structure ZM (m : MemN n K) : Prop where
  GC : m.GC = zv n K
  t0 : m.tmp0 = zv n K
  t1 : m.tmp1 = zv n K

theorem ZM.unco {m : MemN n K} (h : ZM m) (iter : Nat) : gcUncoN iter m = zv n K := by
  unfold gcUncoN; split_ifs
  exacts [h.GC, h.t1, h.t0]

theorem ZM.corr {m : MemN n K} (h : ZM m) (iter : Nat) : gcCorrN iter m = zv n K := by
  unfold gcCorrN; split_ifs
  · exact h.t0
  · exact h.t1

theorem ZM.setCorr {m : MemN n K} (h : ZM m) (iter : Nat) {a : Vec n K} (ha : a = zv n K) : ZM (setCorrN iter m a) := by
  unfold setCorrN; split_ifs
  · exact ⟨h.GC, ha, h.t1⟩
  · exact ⟨h.GC, h.t0, ha⟩

theorem asg_zv (R : Fin n → Idx n → Prop) [∀ d, DecidablePred (R d)] {v : Fin n → Sca n K} (hv : ∀ d x, v d x = 0) : (fun d => asgN (R d) (v d) (zv n K d)) = zv n K := by
  funext d x; unfold asgN; split_ifs
  · exact hv d x
  · rfl

theorem fctAdjust_zm {c : CfgN n K} (h : StillAll c) {iter : Nat} (h0 : iter ≠ 0) {m : MemN n K} (hm : ZM m) :
    (fctAdjustN c iter m).psi = m.psi ∧ (fctAdjustN c iter m).psiN = m.psiN ∧ ZM (fctAdjustN c iter m) ∧ ZF c.box (gcUsedN c.o iter (fctAdjustN c iter m)) := by
  unfold fctAdjustN
  by_cases hf : isset c.o oFct = true
  · rw [if_pos hf]
    simp only
    set m1 := setCorrN iter m (c.fillA true (gcCorrN iter m)) with hm1
    have z1 : ZM m1 := hm.setCorr iter (by rw [hm.corr, h.fillA])
    set m2 := setCorrN iter m1 (c.fillN 0 (gcCorrN iter m1)) with hm2
    have z2 : ZM m2 := z1.setCorr iter (by rw [z1.corr, h.fillN])
    have f1 := setCorr_frame iter m (c.fillA true (gcCorrN iter m))
    have f2 := setCorr_frame iter m1 (c.fillN 0 (gcCorrN iter m1))
    set m3 := (if isset c.o oIga = true then m2 else { m2 with flux := fun d => asgN (faceBox1 c.box d) (makeFluxN c.o m2.psi (gcCorrN iter m2) d) (m2.flux d) }) with hm3
    have e3 : m3.psi = m2.psi ∧ m3.psiN = m2.psiN ∧ ZM m3 := by rw [hm3]; split_ifs <;> exact ⟨rfl, rfl, z2.GC, z2.t0, z2.t1⟩
    refine ⟨e3.1.trans (f2.1.trans f1.1), e3.2.1.trans (f2.2.1.trans f1.2.1), ⟨e3.2.2.GC, e3.2.2.t0, e3.2.2.t1⟩, ?_⟩
    unfold gcUsedN
    rw [if_neg h0, if_pos hf]
    intro d x hx
    show asgN (faceBox c.box d) _ _ x = 0
    rw [asgN_of hx]
    have z3 : gcCorrN iter m3 d x = 0 := by rw [e3.2.2.corr]
    exact gcMono_zero _ _ _ _ z3
  · rw [if_neg hf]
    refine ⟨rfl, rfl, hm, ?_⟩
    unfold gcUsedN
    rw [if_neg h0, if_neg hf, hm.corr]; intro d x _; rfl

theorem corrIter_zm {c : CfgN n K} (h : StillAll c) {p : Sca n K} {iter : Nat} (h0 : iter ≠ 0) {m : MemN n K} (hp : ∀ x, cellBox c.box x → m.psi x = p x)
    (hpN : ∀ x, cellBox c.box x → m.psiN x = p x) (hm : ZM m) :
    (∀ x, cellBox c.box x → (corrIterN c iter m).psi x = p x) ∧ ZM (corrIterN c iter m) ∧ ZF c.box (gcUsedN c.o iter (corrIterN c iter m)) := by
  unfold corrIterN
  simp only
  set m1 : MemN n K := { m with psi := c.fillS m.psiN, psiN := m.psi } with hm1
  have z1 : ZM m1 := ⟨hm.GC, hm.t0, hm.t1⟩
  set m2 := setCorrN iter m1 (fun d => asgN (faceBox c.box d) (c.F.vel d c.st m1.psi m1.psiN (gcUncoN iter m1)) (gcCorrN iter m1 d)) with hm2
  have f2 := setCorr_frame iter m1 (fun d => asgN (faceBox c.box d) (c.F.vel d c.st m1.psi m1.psiN (gcUncoN iter m1)) (gcCorrN iter m1 d))
  have z2 : ZM m2 := z1.setCorr iter (by rw [z1.corr, z1.unco]; exact asg_zv _ (fun d x => h.velZ d _ _ x))
  set m3 := (if (!isset c.o oFct && iter != c.nIters - 1) = true then
      (if isset c.o oDfl = true then setCorrN iter (setCorrN iter m2 (c.fillN 0 (gcCorrN iter m2))) (c.fillA false (gcCorrN iter (setCorrN iter m2 (c.fillN 0 (gcCorrN iter m2)))))
        else setCorrN iter m2 (c.fillN 0 (gcCorrN iter m2)))
    else m2) with hm3
  have e3 : m3.psi = m2.psi ∧ ZM m3 := by
    rw [hm3]
    have fa := setCorr_frame iter m2 (c.fillN 0 (gcCorrN iter m2))
    have za : ZM (setCorrN iter m2 (c.fillN 0 (gcCorrN iter m2))) := z2.setCorr iter (by rw [z2.corr, h.fillN])
    split_ifs
    · have fb := setCorr_frame iter (setCorrN iter m2 (c.fillN 0 (gcCorrN iter m2))) (c.fillA false (gcCorrN iter (setCorrN iter m2 (c.fillN 0 (gcCorrN iter m2)))))
      exact ⟨fb.1.trans fa.1, za.setCorr iter (by rw [za.corr, h.fillA])⟩
    · exact ⟨fa.1, za⟩
    · exact ⟨rfl, z2⟩
  obtain ⟨g1, g2, g3, g4⟩ := fctAdjust_zm h h0 e3.2
  refine ⟨fun x hx => ?_, g3, g4⟩
  rw [g1, e3.1, f2.1]
  exact (h.fillS _ x hx).trans (hpN x hx)

theorem advIter_zm {c : CfgN n K} (h : StillAll c) {p : Sca n K} {iter : Nat} {m : MemN n K} (hp : ∀ x, cellBox c.box x → m.psi x = p x)
    (hpN : iter ≠ 0 → ∀ x, cellBox c.box x → m.psiN x = p x) (hm : ZM m) :
    (∀ x, cellBox c.box x → (advIterN c iter m).psi x = p x) ∧ (∀ x, cellBox c.box x → (advIterN c iter m).psiN x = p x) ∧ ZM (advIterN c iter m) := by
  unfold advIterN
  simp only
  set m1 := (if iter ≠ 0 then corrIterN c iter m else m) with hm1
  have e1 : (∀ x, cellBox c.box x → m1.psi x = p x) ∧ ZM m1 ∧ ZF c.box (gcUsedN c.o iter m1) := by
    rw [hm1]
    by_cases h0 : iter = 0
    · rw [if_neg (by simpa using h0)]
      exact ⟨hp, hm, by unfold gcUsedN; rw [if_pos h0, hm.GC]; intro d x _; rfl⟩
    · rw [if_pos h0]
      exact corrIter_zm h h0 hp (hpN h0) hm
  set m2 := (if (!isset c.o oIga || iter == 0) = true then { m1 with flux := fun d => asgN (faceBox c.box d) (makeFluxN c.o m1.psi (gcUsedN c.o iter m1) d) (m1.flux d) } else m1) with hm2
  have e2 : m2.psi = m1.psi ∧ gcUsedN c.o iter m2 = gcUsedN c.o iter m1 ∧ ZM m2 := by rw [hm2]; split_ifs <;> exact ⟨rfl, rfl, e1.2.1.GC, e1.2.1.t0, e1.2.1.t1⟩
  have zf : ZF c.box (if (!isset c.o oIga || iter == 0) = true then m2.flux else gcUsedN c.o iter m2) := by
    by_cases hb : (!isset c.o oIga || iter == 0) = true
    · rw [if_pos hb, hm2, if_pos hb]
      intro d x hx
      show asgN (faceBox c.box d) _ _ x = 0
      rw [asgN_of hx]
      unfold makeFluxN
      rw [e1.2.2 d x hx]; exact donorF_zero _ _ _
    · rw [if_neg hb, e2.2.1]; exact e1.2.2
  refine ⟨fun x hx => by show m2.psi x = _; rw [e2.1]; exact e1.1 x hx, fun x hx => ?_, ⟨e2.2.2.GC, e2.2.2.t0, e2.2.2.t1⟩⟩
  show asgN (cellBox c.box) _ _ x = _
  rw [asgN_of hx, h.donorZ _ _ _ _ (fun d => ⟨zf d x (cell_face hx d).1, zf d _ (cell_face hx d).2⟩), e2.1]
  exact e1.1 x hx

theorem advLoop_zm {c : CfgN n K} (h : StillAll c) {p : Sca n K} : ∀ (k iter : Nat) (m : MemN n K), (∀ x, cellBox c.box x → m.psi x = p x) →
    (iter ≠ 0 → ∀ x, cellBox c.box x → m.psiN x = p x) → ZM m → (k ≠ 0 ∨ iter ≠ 0) → (∀ x, cellBox c.box x → (advLoopN c k iter m).psiN x = p x) ∧ ZM (advLoopN c k iter m) := by
  intro k
  induction k with
  | zero => intro iter m hp hpN hm hk; exact ⟨hpN (by simpa using hk), hm⟩
  | succ k ih =>
    intro iter m hp hpN hm _
    have it := advIter_zm h hp hpN hm
    unfold advLoopN
    simp only
    split_ifs
    · exact ⟨it.2.1, it.2.2⟩
    · exact ih (iter + 1) _ it.1 (fun _ => it.2.1) it.2.2 (.inr (by omega))

/-- no flow anywhere, no change -/
theorem advance_zm {c : CfgN n K} (h : StillAll c) (h1 : 1 ≤ c.nIters) {m : MemN n K} (hm : ZM m) : (∀ x, cellBox c.box x → (advanceN c m).psi x = m.psi x) ∧ ZM (advanceN c m) := by
  unfold advanceN
  simp only
  have e : (fctInitN c { m with psi := c.fillS m.psi }).psi = c.fillS m.psi ∧ ZM (fctInitN c { m with psi := c.fillS m.psi }) := by
    unfold fctInitN; split_ifs <;> exact ⟨rfl, hm.GC, hm.t0, hm.t1⟩
  have k := advLoop_zm h (p := m.psi) c.nIters 0 _ (fun y hy => by rw [e.1]; exact h.fillS _ y hy) (fun h => absurd rfl h) e.2 (.inl (by omega))
  exact ⟨k.1, k.2.GC, k.2.t0, k.2.t1⟩

theorem velZA_2 (o : OptsT) (si : SptlIntrp) (te : TmprlExtrp) (tiny : K) (d : Fin 2) (st : Stat 2 K) (hn : st.ndt = zv 2 K) (hnn : st.ndtt = zv 2 K) (psi old : Sca 2 K) (x : Idx 2) :
    (formulae2 o si te tiny).vel d st psi old (zv 2 K) x = 0 := by
  have e : ∀ e i j, view2 d x (zv 2 K e) i j = 0 := fun _ _ _ => rfl
  show antidiff2 _ _ _ _ _ _ _ _ _ _ _ _ 0 0 = 0
  rw [hn, hnn]
  unfold antidiff2 div2nd2 div3rd2 tot2 fot2 dfl2 ndxxPsiCoeff2 ndxyPsiCoeff2 ndxxxPsiCoeff2 ndxxyPsiCoeff2 ndxyyPsiCoeff2 div3rdUpwind2 div3rdSpatial2 div3rdTemporal2
    div3rdSpatialHelper2 ndttGC02 ndxxGC02 ndxGC02 div2nd2 gc1BarXY2
  cases si <;> cases te <;> simp [e]

theorem velZA_3 (o : OptsT) (si : SptlIntrp) (te : TmprlExtrp) (tiny : K) (d : Fin 3) (st : Stat 3 K) (hn : st.ndt = zv 3 K) (hnn : st.ndtt = zv 3 K) (psi old : Sca 3 K) (x : Idx 3) :
    (formulae3 o si te tiny).vel d st psi old (zv 3 K) x = 0 := by
  have e : ∀ e i j k, view3 d x (zv 3 K e) i j k = 0 := fun _ _ _ _ => rfl
  show antidiff3 _ _ _ _ _ _ _ _ _ _ _ _ _ _ 0 0 0 = 0
  rw [hn, hnn]
  unfold antidiff3 div2nd3 div3rd3 tot3 dfl3 ndxxPsiCoeff3 ndxyPsiCoeff3 ndxzPsiCoeff3 ndyzPsiCoeff3 div3rdUpwind3 div3rdSpatial3 div3rdTemporal3
    div3rdSpatialHelper3 ndttGC03 ndxxGC03 ndxGC03 div2nd3
  cases si <;> cases te <;> simp [e]

section
variable [NeZero n]

theorem fillN_zero (B : Bnd n) (d : Fin n) (lo hi : Fin n → Int) : fillN B d lo hi (fun _ => (0 : K)) = fun _ => 0 := by
  have u : ∀ (P : Idx n → Prop) [DecidablePred P] (val : Sca n K), (∀ x, val x = 0) → asgN P val (fun _ => (0 : K)) = fun _ => 0 := by
    intro P _ val hv
    funext x; unfold asgN; split_ifs
    · exact hv x
    · rfl
  unfold fillN
  simp only
  rw [u _ _ (fun x => by unfold valNL; split <;> simp)]
  exact u _ _ (fun x => by unfold valNR; split <;> simp)

theorem xchngAlng_zero (B : Bnd n) (ad : Bool) : xchngAlng B ad (zv n K) = zv n K := by
  unfold xchngAlng
  induction (List.finRange n) with
  | nil => rfl
  | cons e l ih => rw [List.foldl_cons, fillA_zero]; exact ih

theorem xchngNrml_zero (B : Bnd n) (ext : Int) : xchngNrml B ext (zv n K) = zv n K := by
  funext c
  unfold xchngNrml
  induction ((List.finRange n).filter (fun d => decide (d ≠ c))) with
  | nil => rfl
  | cons e l ih => rw [List.foldl_cons, fillN_zero]; exact ih

theorem stillAll_of {c : CfgN n K} {B : Bnd n} {ds : List (Fin n)} (hB : BcSolver c B ds) (hv : ∀ d psi old x, c.F.vel d c.st psi old (zv n K) x = 0)
    (hd : ∀ psi flx G x, (∀ d, flx d x = 0 ∧ flx d (stepIdx x d (-1)) = 0) → c.F.donor psi flx G x = psi x) : StillAll c where
  velZ := hv
  donorZ := hd
  fillS a x hx := by
    rw [hB.s]
    rw [← hB.box] at hx
    exact C60_sclr_keeps_domain B ds _ _ _ (fun e => by have := hx e; simpa using this)
  fillA ad := by rw [hB.a]; exact xchngAlng_zero B ad
  fillN ext := by rw [hB.n]; exact xchngNrml_zero B ext
end

/-- whole runs from a memory without any flow -/
theorem run_zm {c : CfgN n K} (h : ∀ f, StillAll { c with filter := f }) (h1 : 1 ≤ c.nIters) {m : MemN n K} (hm : ZM m) (filt : Nat → Bool) (t : Nat) :
    (∀ x, cellBox c.box x → (runProgN c filt t m).psi x = m.psi x) ∧ ZM (runProgN c filt t m) := by
  induction t with
  | zero => exact ⟨fun _ _ => rfl, hm⟩
  | succ t ih =>
    have k := advance_zm (c := { c with filter := filt t }) (h (filt t)) h1 ih.2
    exact ⟨fun x hx => (k.1 x hx).trans (ih.1 x hx), k.2⟩

end Mpdata
