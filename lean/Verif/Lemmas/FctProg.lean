import Verif.Lemmas.BoundsN
import Mathlib.Order.Interval.Set.OrdConnected
/-! # The flux-corrected program keeps its bounds with any boundary conditions
No refinement to the unbounded grid is needed: whatever the halo exchanges put into the corrective velocities, the limiter applied by the program bounds the result. -/
set_option linter.unusedSectionVars false
namespace Mpdata
variable {n : Nat} {K : Type} [Field K] [LinearOrder K] [IsStrictOrderedRing K]

/-- the parameters of a solver, with G replaced by 1 where the limiter does not read it -/
def parIn (c : CfgN n K) : SpecN.Par n K := ⟨c.o, c.eps, c.F, ⟨asgN (cellBox1 c.box) c.st.G (fun _ => 1), c.st.ndt, c.st.ndtt⟩⟩

section
variable {c : CfgN n K}

theorem parIn_G {x : Idx n} (hx : cellBox1 c.box x) : (parIn c).st.G x = c.st.G x := by
  show asgN (cellBox1 c.box) c.st.G (fun _ => 1) x = _
  exact asgN_in hx
theorem parIn_G0 {x : Idx n} (hx : cellBox c.box x) : (parIn c).st.G x = c.st.G x := parIn_G (Bx.mono hx (by widths))

theorem parIn_pos (hg : ∀ x, cellBox1 c.box x → 0 < gFacN c.o c.st.G x) (x : Idx n) : 0 < gFacN (parIn c).o (parIn c).st.G x := by
  by_cases hx : cellBox1 c.box x
  · have := hg x hx
    unfold gFacN at *
    show 0 < if isset c.o oNug = true then asgN (cellBox1 c.box) c.st.G (fun _ => 1) x else 1
    rwa [asgN_in hx]
  · show 0 < if isset c.o oNug = true then asgN (cellBox1 c.box) c.st.G (fun _ => 1) x else 1
    rw [asgN_out hx]; simp

/-- what `fct_adjust_antidiff` stores in `GC_mono` is the limited velocity, whatever the velocities and the boundary conditions -/
theorem fctAdjust_mono (iter : Nat) (m : MemN n K) (psi0 : Sca n K) (hf : isset c.o oFct = true) (hex : ExtN c psi0 m) :
    let m' := fctAdjustN c iter m
    m'.psi = m.psi ∧ m'.GC = m.GC ∧ m'.psiMin = m.psiMin ∧ m'.psiMax = m.psiMax ∧
    ∀ d x, faceBox c.box d x → m'.mono d x = SpecN.limited (parIn c) psi0 m.psi (gcCorrN iter m') d x := by
  obtain ⟨hmx, hmn⟩ := hex hf
  unfold fctAdjustN
  simp only [hf, if_true, gcCorrN_set]
  generalize c.fillN 0 (c.fillA true (gcCorrN iter m)) = A'
  have hset : ∀ (m1 : MemN n K) (a : Vec n K), setCorrN iter (setCorrN iter m1 a) A' = setCorrN iter m1 A' := by
    intro m1 a; unfold setCorrN; split <;> rfl
  rw [hset]
  generalize hM : (if isset c.o oIga = true then setCorrN iter m A' else
      { (setCorrN iter m A') with flux := fun d => asgN (faceBox1 c.box d) (makeFluxN c.o (setCorrN iter m A').psi A' d) ((setCorrN iter m A').flux d) }) = M
  have hcorr : ∀ (m1 : MemN n K) (x : Vec n K), gcCorrN iter { (setCorrN iter m1 A') with flux := x } = A' := by
    intro m1 x; unfold gcCorrN setCorrN; split <;> rfl
  have hMc : gcCorrN iter M = A' := by
    rw [← hM]; split
    · exact gcCorrN_set _ _ _
    · exact hcorr _ _
  have hMpsi : M.psi = m.psi := by rw [← hM]; split <;> simp
  have hMGC : M.GC = m.GC := by rw [← hM]; split <;> simp
  have hMmn : M.psiMin = m.psiMin := by rw [← hM]; split <;> simp
  have hMmx : M.psiMax = m.psiMax := by rw [← hM]; split <;> simp
  refine ⟨hMpsi, hMGC, hMmn, hMmx, fun d x hx => ?_⟩
  have hflx : ∀ d z, faceBox1 c.box d z → (if isset c.o oIga = true then gcCorrN iter M else M.flux) d z = (if isset c.o oIga = true then A' else makeFluxN c.o m.psi A') d z := by
    intro d z hz
    by_cases hg : isset c.o oIga = true
    · rw [if_pos hg, if_pos hg, hMc]
    · rw [if_neg hg, if_neg hg, ← hM, if_neg hg]
      simp only [setCorrN_psi]
      exact asgN_in hz
  have hb1 : ∀ e z, cellBox1 c.box z → faceBox1 c.box e z ∧ faceBox1 c.box e (stepIdx z e (-1)) := fun e z hz =>
    ⟨Bx.mono hz (by widths), Bx.step hz (by simp) (by widths)⟩
  have eU : ∀ z, cellBox1 c.box z → betaUpN c.o c.eps M.psi M.psiMax (if isset c.o oIga = true then gcCorrN iter M else M.flux) c.st.G z =
      betaUpN c.o c.eps m.psi (nbMax psi0) (if isset c.o oIga = true then A' else makeFluxN c.o m.psi A') (parIn c).st.G z := by
    intro z hz
    rw [hMpsi, hMmx]
    exact betaUpN_congr _ _ rfl (fun _ => rfl) (fun _ => rfl) (hmx z hz) (parIn_G hz).symm (fun e => hflx e z (hb1 e z hz).1) (fun e => hflx e _ (hb1 e z hz).2)
  have eD : ∀ z, cellBox1 c.box z → betaDnN c.o c.eps M.psi M.psiMin (if isset c.o oIga = true then gcCorrN iter M else M.flux) c.st.G z =
      betaDnN c.o c.eps m.psi (nbMin psi0) (if isset c.o oIga = true then A' else makeFluxN c.o m.psi A') (parIn c).st.G z := by
    intro z hz
    rw [hMpsi, hMmn]
    exact betaDnN_congr _ _ rfl (fun _ => rfl) (fun _ => rfl) (hmn z hz) (parIn_G hz).symm (fun e => hflx e z (hb1 e z hz).1) (fun e => hflx e _ (hb1 e z hz).2)
  have z0 : cellBox1 c.box x := Bx.mono hx (by widths)
  have z1 : cellBox1 c.box (stepIdx x d 1) := Bx.step hx (by simp) (by widths)
  show asgN (faceBox c.box d) (gcMonoN c.o M.psi
    (asgN (cellBox1 c.box) (betaUpN c.o c.eps M.psi M.psiMax (if isset c.o oIga = true then gcCorrN iter M else M.flux) c.st.G) M.bUp)
    (asgN (cellBox1 c.box) (betaDnN c.o c.eps M.psi M.psiMin (if isset c.o oIga = true then gcCorrN iter M else M.flux) c.st.G) M.bDn)
    (gcCorrN iter M) d) (M.mono d) x = SpecN.limited (parIn c) psi0 m.psi (gcCorrN iter M) d x
  rw [hMc] at eU eD ⊢
  rw [asgN_in hx]
  unfold SpecN.limited
  refine gcMonoN_congr _ (by rw [hMpsi]) (by rw [hMpsi]) rfl ?_ ?_ ?_ ?_
  · rw [asgN_in z0]; exact eU x z0
  · rw [asgN_in z1]; exact eU _ z1
  · rw [asgN_in z0]; exact eD x z0
  · rw [asgN_in z1]; exact eD _ z1

/-- the field computed by the first pass -/
theorem advIter_first (hF : FGood c.o c.F) (m : MemN n K) (x : Idx n) (hx : cellBox c.box x) :
    (advIterN c 0 m).psiN x = c.F.donor m.psi (makeFluxN c.o m.psi m.GC) (parIn c).st.G x := by
  unfold advIterN
  simp only [ne_eq, not_true_eq_false, if_false, beq_self_eq_true, Bool.or_true, if_true]
  rw [asgN_in hx, hF.donor_eq, hF.donor_eq]
  have g : gFacN c.o c.st.G x = gFacN c.o (parIn c).st.G x := by
    unfold gFacN; rw [parIn_G0 hx]
  rw [← g]
  congr 2
  refine Finset.sum_congr rfl fun d _ => ?_
  rw [asgN_in (show faceBox c.box d x from Bx.mono hx (by widths)), asgN_in (show faceBox c.box d (stepIdx x d (-1)) from Bx.step hx (by simp) (by widths))]
  rfl

theorem corrIter_pre (iter : Nat) (m : MemN n K) (hf : isset c.o oFct = true) :
    ∃ m1 : MemN n K, corrIterN c iter m = fctAdjustN c iter m1 ∧ m1.psi = c.fillS m.psiN ∧ m1.GC = m.GC ∧ m1.psiMin = m.psiMin ∧ m1.psiMax = m.psiMax := by
  refine ⟨setCorrN iter { m with psi := c.fillS m.psiN, psiN := m.psi } (fun d =>
    asgN (faceBox c.box d) (c.F.vel d c.st (c.fillS m.psiN) m.psi (gcUncoN iter { m with psi := c.fillS m.psiN, psiN := m.psi }))
      (gcCorrN iter { m with psi := c.fillS m.psiN, psiN := m.psi } d)), ?_, ?_, ?_, ?_, ?_⟩
  · unfold corrIterN
    simp only [hf, Bool.not_true, Bool.false_and, Bool.false_eq_true, if_false]
  all_goals simp

/-- the field computed by a corrective pass is the limited corrective pass of the scheme with some velocity -/
theorem advIter_corr (hF : FGood c.o c.F) (k : Nat) (hk : k ≠ 0) (m : MemN n K) (psi0 : Sca n K) (hf : isset c.o oFct = true) (hex : ExtN c psi0 m) :
    ∃ A : Vec n K, ∀ x, cellBox c.box x → (advIterN c k m).psiN x = SpecN.corrective (parIn c) psi0 (c.fillS m.psiN) A x := by
  obtain ⟨m1, h1, hp, _, hmn, hmx⟩ := corrIter_pre k m hf
  have hex1 : ExtN c psi0 m1 := fun h => by rw [hmn, hmx]; exact hex h
  obtain ⟨q1, _, _, _, q5⟩ := fctAdjust_mono k m1 psi0 hf hex1
  refine ⟨gcCorrN k (fctAdjustN c k m1), fun x hx => ?_⟩
  unfold advIterN
  rw [if_pos hk, h1]
  generalize fctAdjustN c k m1 = M at *
  have hk' : (k == 0) = false := by simp [hk]
  have hfp : isset (parIn c).o oFct = true := hf
  simp only [hk', Bool.or_false]
  have g : gFacN c.o c.st.G x = gFacN c.o (parIn c).st.G x := by
    unfold gFacN; rw [parIn_G0 hx]
  have hb : ∀ d, faceBox c.box d x ∧ faceBox c.box d (stepIdx x d (-1)) := fun d => ⟨Bx.mono hx (by widths), Bx.step hx (by simp) (by widths)⟩
  unfold SpecN.corrective
  simp only [hfp, if_true]
  rw [← hp, ← q1]
  have hu : gcUsedN c.o k M = M.mono := by unfold gcUsedN; rw [if_neg hk, if_pos hf]
  rw [← q1] at q5
  by_cases hg : isset c.o oIga = true
  · have hgp : isset (parIn c).o oIga = true := hg
    simp only [hg, hgp, Bool.not_true, Bool.false_eq_true, if_false, if_true]
    rw [asgN_in hx, hu, hF.donor_eq]
    show _ = c.F.donor _ _ _ _
    rw [hF.donor_eq, ← g]
    congr 2
    exact Finset.sum_congr rfl fun d _ => by rw [q5 d _ (hb d).1, q5 d _ (hb d).2]
  · have hg' : isset c.o oIga = false := by simpa using hg
    have hgp : isset (parIn c).o oIga = false := hg'
    simp only [hg', hgp, Bool.not_false, Bool.false_eq_true, if_false, if_true]
    rw [asgN_in hx, hF.donor_eq]
    show _ = c.F.donor _ _ _ _
    rw [hF.donor_eq, ← g]
    congr 2
    refine Finset.sum_congr rfl fun d _ => ?_
    rw [asgN_in (hb d).1, asgN_in (hb d).2, hu]
    show makeFluxN c.o M.psi M.mono d _ - makeFluxN c.o M.psi M.mono d x = makeFluxN c.o M.psi _ d _ - makeFluxN c.o M.psi _ d x
    unfold makeFluxN
    rw [q5 d _ (hb d).1, q5 d _ (hb d).2]

theorem advIter_keep (k : Nat) (m : MemN n K) : (advIterN c k m).psiMin = m.psiMin ∧ (advIterN c k m).psiMax = m.psiMax := by
  have hfa : ∀ (m : MemN n K), (fctAdjustN c k m).psiMin = m.psiMin ∧ (fctAdjustN c k m).psiMax = m.psiMax := by
    intro m; unfold fctAdjustN; split
    · split <;> simp
    · exact ⟨rfl, rfl⟩
  have hco : (corrIterN c k m).psiMin = m.psiMin ∧ (corrIterN c k m).psiMax = m.psiMax := by
    unfold corrIterN
    simp only
    rw [(hfa _).1, (hfa _).2]
    split
    · split <;> simp
    · simp
  unfold advIterN
  simp only
  split <;> split <;> first | exact hco | exact ⟨rfl, rfl⟩

/-- halo filling of scalars keeps values in `S` -/
def FillsIn (c : CfgN n K) (S : Set K) : Prop :=
  ∀ a : Sca n K, (∀ x, cellBox c.box x → a x ∈ S) → ∀ x, cellBox c.box x → ∀ d, ∀ k : Int, -1 ≤ k → k ≤ 1 → c.fillS a (stepIdx x d k) ∈ S

theorem foldl_max_mem {S : Set K} (psi : Sca n K) (x : Idx n) (l : List (Fin n)) (m : K) (hm : m ∈ S) (h : ∀ d ∈ l, psi (stepIdx x d 1) ∈ S ∧ psi (stepIdx x d (-1)) ∈ S) :
    l.foldl (fun m d => max (max m (psi (stepIdx x d 1))) (psi (stepIdx x d (-1)))) m ∈ S := by
  induction l generalizing m with
  | nil => exact hm
  | cons a l ih =>
    rw [List.foldl_cons]
    refine ih _ ?_ (fun d hd => h d (by simp [hd]))
    have := h a (by simp)
    rcases max_choice (max m (psi (stepIdx x a 1))) (psi (stepIdx x a (-1))) with e | e <;> rw [e]
    · rcases max_choice m (psi (stepIdx x a 1)) with e | e <;> rw [e]
      exacts [hm, this.1]
    · exact this.2
theorem foldl_min_mem {S : Set K} (psi : Sca n K) (x : Idx n) (l : List (Fin n)) (m : K) (hm : m ∈ S) (h : ∀ d ∈ l, psi (stepIdx x d 1) ∈ S ∧ psi (stepIdx x d (-1)) ∈ S) :
    l.foldl (fun m d => min (min m (psi (stepIdx x d 1))) (psi (stepIdx x d (-1)))) m ∈ S := by
  induction l generalizing m with
  | nil => exact hm
  | cons a l ih =>
    rw [List.foldl_cons]
    refine ih _ ?_ (fun d hd => h d (by simp [hd]))
    have := h a (by simp)
    rcases min_choice (min m (psi (stepIdx x a 1))) (psi (stepIdx x a (-1))) with e | e <;> rw [e]
    · rcases min_choice m (psi (stepIdx x a 1)) with e | e <;> rw [e]
      exacts [hm, this.1]
    · exact this.2

theorem nb_mem {S : Set K} (psi : Sca n K) (x : Idx n) (h0 : psi x ∈ S) (h : ∀ d, psi (stepIdx x d 1) ∈ S ∧ psi (stepIdx x d (-1)) ∈ S) :
    nbMax psi x ∈ S ∧ nbMin psi x ∈ S :=
  ⟨foldl_max_mem psi x _ _ h0 (fun d _ => h d), foldl_min_mem psi x _ _ h0 (fun d _ => h d)⟩

variable [NeZero n]

theorem fill_self {S : Set K} (hB : FillsIn c S) {a : Sca n K} (ha : ∀ x, cellBox c.box x → a x ∈ S) (x : Idx n) (hx : cellBox c.box x) : c.fillS a x ∈ S := by
  have := hB a ha x hx 0 0 (by omega) (by omega)
  rwa [stepIdx_zero] at this

/-- one limited pass keeps values in an interval `S` -/
theorem corrective_mem (hF : FGood c.o c.F) (hf : isset c.o oFct = true) (hg : ∀ x, cellBox1 c.box x → 0 < gFacN c.o c.st.G x) (he : 0 ≤ c.eps) {S : Set K} (hS : S.OrdConnected)
    (hs : ∀ v ∈ S, SignOk c.o v) (hB : FillsIn c S) (psi0 psi : Sca n K) (A : Vec n K) (h0 : ∀ x, cellBox c.box x → psi0 x ∈ S) (h1 : ∀ x, cellBox c.box x → psi x ∈ S)
    (x : Idx n) (hx : cellBox c.box x) : SpecN.corrective (parIn c) (c.fillS psi0) (c.fillS psi) A x ∈ S := by
  have m0 := nb_mem (S := S) (c.fillS psi0) x (fill_self hB h0 x hx) (fun d => ⟨hB _ h0 x hx d 1 (by omega) (by omega), hB _ h0 x hx d (-1) (by omega) (by omega)⟩)
  have n1 : ∀ d, c.fillS psi (stepIdx x d 1) ∈ S ∧ c.fillS psi (stepIdx x d (-1)) ∈ S := fun d =>
    ⟨hB _ h1 x hx d 1 (by omega) (by omega), hB _ h1 x hx d (-1) (by omega) (by omega)⟩
  have m1 := nb_mem (S := S) (c.fillS psi) x (fill_self hB h1 x hx) n1
  obtain ⟨a, b⟩ := fctN_bounds (parIn c) hF hf (parIn_pos hg) he (c.fillS psi0) (c.fillS psi) A x ⟨hs _ (fill_self hB h1 x hx), fun d => ⟨hs _ (n1 d).1, hs _ (n1 d).2⟩⟩
  have hmin : min (nbMin (c.fillS psi0) x) (nbMin (c.fillS psi) x) ∈ S := by
    rcases min_choice (nbMin (c.fillS psi0) x) (nbMin (c.fillS psi) x) with e | e <;> rw [e]
    exacts [m0.2, m1.2]
  have hmax : max (nbMax (c.fillS psi0) x) (nbMax (c.fillS psi) x) ∈ S := by
    rcases max_choice (nbMax (c.fillS psi0) x) (nbMax (c.fillS psi) x) with e | e <;> rw [e]
    exacts [m0.1, m1.1]
  exact hS.out hmin hmax ⟨a, b⟩

theorem advLoop_mem (hF : FGood c.o c.F) (hf : isset c.o oFct = true) (hg : ∀ x, cellBox1 c.box x → 0 < gFacN c.o c.st.G x) (he : 0 ≤ c.eps) {S : Set K} (hS : S.OrdConnected)
    (hs : ∀ v ∈ S, SignOk c.o v) (hB : FillsIn c S) (psi0 : Sca n K) (h0 : ∀ x, cellBox c.box x → psi0 x ∈ S) (k : Nat) :
    ∀ (iter : Nat) (m : MemN n K), iter ≠ 0 → ExtN c (c.fillS psi0) m → (∀ x, cellBox c.box x → m.psiN x ∈ S) → ∀ x, cellBox c.box x → (advLoopN c k iter m).psiN x ∈ S := by
  induction k with
  | zero => intro iter m _ _ h; exact h
  | succ k ih =>
    intro iter m hi hex hm
    obtain ⟨A, hA⟩ := advIter_corr hF iter hi m (c.fillS psi0) hf hex
    have h1 : ∀ x, cellBox c.box x → (advIterN c iter m).psiN x ∈ S := fun x hx => by
      rw [hA x hx]; exact corrective_mem hF hf hg he hS hs hB psi0 m.psiN A h0 hm x hx
    unfold advLoopN
    simp only
    split
    · exact h1
    · refine ih (iter + 1) _ (by omega) (fun h => ?_) h1
      rw [(advIter_keep iter m).1, (advIter_keep iter m).2]; exact hex h

/-- a whole step -/
theorem advance_mem (hF : FGood c.o c.F) (hf : isset c.o oFct = true) (hn : 1 ≤ c.nIters) (hg : ∀ x, cellBox1 c.box x → 0 < gFacN c.o c.st.G x) (he : 0 ≤ c.eps) {S : Set K}
    (hS : S.OrdConnected) (hs : ∀ v ∈ S, SignOk c.o v) (hB : FillsIn c S) (m : MemN n K) (h0 : ∀ x, cellBox c.box x → m.psi x ∈ S)
    (hup : ∀ psi : Sca n K, (∀ x, cellBox c.box x → psi x ∈ S) → ∀ x, cellBox c.box x → c.F.donor (c.fillS psi) (makeFluxN c.o (c.fillS psi) m.GC) (parIn c).st.G x ∈ S) :
    ∀ x, cellBox c.box x → (advanceN c m).psi x ∈ S := by
  unfold advanceN
  obtain ⟨k, hk⟩ : ∃ k, c.nIters = k + 1 := ⟨c.nIters - 1, by omega⟩
  simp only
  rw [hk]
  have key : ∀ M : MemN n K, M.psi = c.fillS m.psi → M.GC = m.GC → ExtN c (c.fillS m.psi) M → ∀ x, cellBox c.box x → (advLoopN c (k + 1) 0 M).psiN x ∈ S := by
    intro M hpsi hGC hex
    have h1 : ∀ x, cellBox c.box x → (advIterN c 0 M).psiN x ∈ S := fun x hx => by
      rw [advIter_first hF M x hx, hpsi, hGC]; exact hup m.psi h0 x hx
    unfold advLoopN
    simp only
    split
    · exact h1
    · refine advLoop_mem hF hf hg he hS hs hB m.psi h0 k _ _ (by omega) (fun h => ?_) h1
      rw [(advIter_keep 0 M).1, (advIter_keep 0 M).2]; exact hex h
  unfold fctInitN
  rw [if_pos hf]
  exact key _ rfl rfl (fun _ => ⟨fun x hx => asgN_in hx, fun x hx => asgN_in hx⟩)

theorem runProgN_mem (hF : FGood c.o c.F) (hf : isset c.o oFct = true) (hn : 1 ≤ c.nIters) (hg : ∀ x, cellBox1 c.box x → 0 < gFacN c.o c.st.G x) (he : 0 ≤ c.eps) {S : Set K}
    (hS : S.OrdConnected) (hs : ∀ v ∈ S, SignOk c.o v) (hB : FillsIn c S) (filt : Nat → Bool) (m : MemN n K) (h0 : ∀ x, cellBox c.box x → m.psi x ∈ S)
    (hup : ∀ psi : Sca n K, (∀ x, cellBox c.box x → psi x ∈ S) → ∀ x, cellBox c.box x → c.F.donor (c.fillS psi) (makeFluxN c.o (c.fillS psi) m.GC) (parIn c).st.G x ∈ S) (t : Nat) :
    ∀ x, cellBox c.box x → (runProgN c filt t m).psi x ∈ S := by
  induction t with
  | zero => exact h0
  | succ t ih =>
    unfold runProgN
    refine advance_mem (c := { c with filter := filt t }) hF hf hn hg he hS hs hB _ ih ?_
    rw [runProgN_GC]; exact hup
end

end Mpdata
