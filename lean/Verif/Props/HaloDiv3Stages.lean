import Verif.Props.HaloBc
/-! # C20: the stages of a three-pass infinite-gauge, flux-corrected step in 2-D, with tabulated arrays (helps for evaluation by the kernel) -/
namespace Mpdata

/-- indices of the tables -/
def tabIdx : List Int := [-3, -2, -1, 0, 1, 2, 3, 4, 5, 6]

/-- an entry of a table of fractions -/
def look (t : List (List (Int × Nat))) (i j : Int) : ℚ :=
  let q := (t.getD (i + 3).toNat []).getD (j + 3).toNat (0, 1)
  mkRat q.1 q.2

/-- the array `a`, its values near the domain taken from a table -/
def tab (t : List (List (Int × Nat))) (a : Sca 2 ℚ) : Sca 2 ℚ :=
  fun x => if -3 ≤ x 0 ∧ x 0 ≤ 6 ∧ -3 ≤ x 1 ∧ x 1 ≤ 6 then look t (x 0) (x 1) else a x

theorem mem_tabIdx {i : Int} (h1 : -3 ≤ i) (h2 : i ≤ 6) : i ∈ tabIdx := by
  have : i = -3 ∨ i = -2 ∨ i = -1 ∨ i = 0 ∨ i = 1 ∨ i = 2 ∨ i = 3 ∨ i = 4 ∨ i = 5 ∨ i = 6 := by omega
  simpa [tabIdx] using this

theorem tab_eq (t : List (List (Int × Nat))) (a : Sca 2 ℚ) (h : ∀ i ∈ tabIdx, ∀ j ∈ tabIdx, a ![i, j] = look t i j) : tab t a = a := by
  funext x
  unfold tab
  split_ifs with hx
  · obtain ⟨h1, h2, h3, h4⟩ := hx
    rw [← h (x 0) (mem_tabIdx h1 h2) (x 1) (mem_tabIdx h3 h4)]
    congr 1
    funext d
    match d with
    | 0 => rfl
    | 1 => rfl
  · rfl

def tabV (t s : List (List (Int × Nat))) (a : Vec 2 ℚ) : Vec 2 ℚ := fun d => if d = 0 then tab t (a 0) else tab s (a 1)

theorem tabV_eq (t s : List (List (Int × Nat))) (a : Vec 2 ℚ) (h : ∀ i ∈ tabIdx, ∀ j ∈ tabIdx, a 0 ![i, j] = look t i j)
    (h' : ∀ i ∈ tabIdx, ∀ j ∈ tabIdx, a 1 ![i, j] = look s i j) : tabV t s a = a := by
  funext d
  match d with
  | 0 => exact tab_eq t _ h
  | 1 => exact tab_eq s _ h'

/-- fields of a solver's memory -/
def sPsi (t : List (List (Int × Nat))) (m : MemN 2 ℚ) : MemN 2 ℚ := { m with psi := tab t m.psi }
def sPsiN (t : List (List (Int × Nat))) (m : MemN 2 ℚ) : MemN 2 ℚ := { m with psiN := tab t m.psiN }
def sMnMx (t s : List (List (Int × Nat))) (m : MemN 2 ℚ) : MemN 2 ℚ := { m with psiMin := tab t m.psiMin, psiMax := tab s m.psiMax }
def sBeta (t s : List (List (Int × Nat))) (m : MemN 2 ℚ) : MemN 2 ℚ := { m with bUp := tab t m.bUp, bDn := tab s m.bDn }
def sFlux (t s : List (List (Int × Nat))) (m : MemN 2 ℚ) : MemN 2 ℚ := { m with flux := tabV t s m.flux }
def sMono (t s : List (List (Int × Nat))) (m : MemN 2 ℚ) : MemN 2 ℚ := { m with mono := tabV t s m.mono }
def sTmp0 (t s : List (List (Int × Nat))) (m : MemN 2 ℚ) : MemN 2 ℚ := { m with tmp0 := tabV t s m.tmp0 }
def sTmp1 (t s : List (List (Int × Nat))) (m : MemN 2 ℚ) : MemN 2 ℚ := { m with tmp1 := tabV t s m.tmp1 }
def sGC (t s : List (List (Int × Nat))) (m : MemN 2 ℚ) : MemN 2 ℚ := { m with GC := tabV t s m.GC }

/-- the table `t` holds the values of `a` -/
abbrev Holds (t : List (List (Int × Nat))) (a : Sca 2 ℚ) : Prop := ∀ i ∈ tabIdx, ∀ j ∈ tabIdx, a ![i, j] = look t i j

theorem sPsi_eq {t m} (h : Holds t m.psi) : sPsi t m = m := by unfold sPsi; rw [tab_eq _ _ h]
theorem sPsiN_eq {t m} (h : Holds t m.psiN) : sPsiN t m = m := by unfold sPsiN; rw [tab_eq _ _ h]
theorem sMnMx_eq {t s m} (h : Holds t m.psiMin) (h' : Holds s m.psiMax) : sMnMx t s m = m := by unfold sMnMx; rw [tab_eq _ _ h, tab_eq _ _ h']
theorem sBeta_eq {t s m} (h : Holds t m.bUp) (h' : Holds s m.bDn) : sBeta t s m = m := by unfold sBeta; rw [tab_eq _ _ h, tab_eq _ _ h']
theorem sFlux_eq {t s m} (h : Holds t (m.flux 0)) (h' : Holds s (m.flux 1)) : sFlux t s m = m := by unfold sFlux; rw [tabV_eq _ _ _ h h']
theorem sMono_eq {t s m} (h : Holds t (m.mono 0)) (h' : Holds s (m.mono 1)) : sMono t s m = m := by unfold sMono; rw [tabV_eq _ _ _ h h']
theorem sTmp0_eq {t s m} (h : Holds t (m.tmp0 0)) (h' : Holds s (m.tmp0 1)) : sTmp0 t s m = m := by unfold sTmp0; rw [tabV_eq _ _ _ h h']
theorem sTmp1_eq {t s m} (h : Holds t (m.tmp1 0)) (h' : Holds s (m.tmp1 1)) : sTmp1 t s m = m := by unfold sTmp1; rw [tabV_eq _ _ _ h h']
theorem sGC_eq {t s m} (h : Holds t (m.GC 0)) (h' : Holds s (m.GC 1)) : sGC t s m = m := by unfold sGC; rw [tabV_eq _ _ _ h h']

/-! ## Stages of `advanceN` -/

variable (c : CfgN 2 ℚ) (it : Nat)
def gFill (m : MemN 2 ℚ) : MemN 2 ℚ := { m with psi := c.fillS m.psi }
def gFlux (m : MemN 2 ℚ) : MemN 2 ℚ := { m with flux := fun d => asgN (faceBox c.box d) (makeFluxN c.o m.psi (gcUsedN c.o 0 m) d) (m.flux d) }
def gDon0 (m : MemN 2 ℚ) : MemN 2 ℚ := { m with psiN := asgN (cellBox c.box) (c.F.donor m.psi m.flux c.st.G) m.psiN }
def gSwap (m : MemN 2 ℚ) : MemN 2 ℚ := { m with psi := c.fillS m.psiN, psiN := m.psi }
def gVel (m : MemN 2 ℚ) : MemN 2 ℚ := setCorrN it m (fun d => asgN (faceBox c.box d) (c.F.vel d c.st m.psi m.psiN (gcUncoN it m)) (gcCorrN it m d))
def gFilA (m : MemN 2 ℚ) : MemN 2 ℚ := setCorrN it m (c.fillA true (gcCorrN it m))
def gFilN (m : MemN 2 ℚ) : MemN 2 ℚ := setCorrN it m (c.fillN 0 (gcCorrN it m))
def gBeta (m : MemN 2 ℚ) : MemN 2 ℚ :=
  { m with bUp := asgN (cellBox1 c.box) (betaUpN c.o c.eps m.psi m.psiMax (gcCorrN it m) c.st.G) m.bUp
           bDn := asgN (cellBox1 c.box) (betaDnN c.o c.eps m.psi m.psiMin (gcCorrN it m) c.st.G) m.bDn }
def gMono (m : MemN 2 ℚ) : MemN 2 ℚ := { m with mono := fun d => asgN (faceBox c.box d) (gcMonoN c.o m.psi m.bUp m.bDn (gcCorrN it m) d) (m.mono d) }
def gDon (m : MemN 2 ℚ) : MemN 2 ℚ := { m with psiN := asgN (cellBox c.box) (c.F.donor m.psi m.mono c.st.G) m.psiN }

/-- a corrective pass -/
def gPass (m : MemN 2 ℚ) : MemN 2 ℚ := gDon c (gMono c it (gBeta c it (gFilN c it (gFilA c it (gVel c it (gSwap c m))))))

theorem setCorrN_fields (m : MemN 2 ℚ) (a : Vec 2 ℚ) : (setCorrN it m a).psi = m.psi ∧ (setCorrN it m a).psiN = m.psiN ∧ (setCorrN it m a).psiMax = m.psiMax
    ∧ (setCorrN it m a).psiMin = m.psiMin ∧ (setCorrN it m a).mono = m.mono := by
  unfold setCorrN; split_ifs <;> exact ⟨rfl, rfl, rfl, rfl, rfl⟩

theorem gPass_eq (m : MemN 2 ℚ) (hi : it ≠ 0) (hf : isset c.o oFct = true) (hg : isset c.o oIga = true) : advIterN c it m = gPass c it m := by
  have h0 : (it == 0) = false := by simpa using hi
  unfold advIterN corrIterN fctAdjustN gPass gDon gMono gBeta gFilN gFilA gVel gSwap gcUsedN
  simp only [hf, hg, h0, if_pos hi, if_neg hi, Bool.not_true, Bool.false_and, Bool.false_or, Bool.false_eq_true, if_false, if_true]

theorem stages_eq (m : MemN 2 ℚ) (h3 : c.nIters = 3) (hF : c.filter = false) (hf : isset c.o oFct = true) (hg : isset c.o oIga = true) :
    (advanceN c m).psi = (gPass c 2 (gPass c 1 (gDon0 c (gFlux c (fctInitN c (gFill c m)))))).psiN := by
  unfold advanceN
  simp only [h3, advLoopN, hF, Bool.false_eq_true, if_false]
  rw [gPass_eq c _ _ (by decide) hf hg, gPass_eq c _ _ (by decide) hf hg]
  unfold advIterN
  simp only [hg, Bool.not_true, Bool.false_or, ne_eq, not_true_eq_false, if_false, beq_self_eq_true, if_true]
  rfl

end Mpdata
