import Verif.Props.ConserveN
/-! # C14, C15, C16: the flux limiter in 2-D and 3-D -/
set_option linter.unusedSectionVars false
namespace Mpdata
variable {n : Nat} {K : Type} [Field K] [LinearOrder K] [IsStrictOrderedRing K]

/-- C16 in any number of dimensions: the limited antidiffusive velocity never changes sign and never grows. -/
theorem C16_limiter_weakens_nd (p : SpecN.Par n K) (hg : ∀ x, 0 < gFacN p.o p.st.G x) (he : 0 ≤ p.eps) (psi0 psi : Sca n K) (A : Vec n K) (d : Fin n) (x : Idx n) :
    |SpecN.limited p psi0 psi A d x| ≤ |A d x| ∧ 0 ≤ SpecN.limited p psi0 psi A d x * A d x := limitedN_weakens p hg he psi0 psi A d x

/-- `v` is at least every value of `a` in the cell and its face neighbours -/
def AboveNb (a : Sca n K) (x : Idx n) (v : K) : Prop := a x ≤ v ∧ ∀ d, a (stepIdx x d 1) ≤ v ∧ a (stepIdx x d (-1)) ≤ v
/-- `v` is at most every value of `a` in the cell and its face neighbours -/
def BelowNb (a : Sca n K) (x : Idx n) (v : K) : Prop := v ≤ a x ∧ ∀ d, v ≤ a (stepIdx x d 1) ∧ v ≤ a (stepIdx x d (-1))

theorem fct_local (p : SpecN.Par n K) (hF : FGood p.o p.F) (hf : isset p.o oFct = true) (hg : ∀ x, 0 < gFacN p.o p.st.G x) (he : 0 ≤ p.eps)
    (psi0 psi : Sca n K) (A : Vec n K) (x : Idx n) (hs : isset p.o oIga = true ∨ isset p.o oAbs = true ∨ ∀ y, 0 ≤ psi y) (lo hi : K)
    (l0 : BelowNb psi0 x lo) (l1 : BelowNb psi x lo) (h0 : AboveNb psi0 x hi) (h1 : AboveNb psi x hi) :
    lo ≤ SpecN.corrective p psi0 psi A x ∧ SpecN.corrective p psi0 psi A x ≤ hi := by
  have hs' : ∀ y, SignOk p.o (psi y) := fun y => by
    rcases hs with h | h | h
    · exact .inl h
    · exact .inr (.inl h)
    · exact .inr (.inr (h y))
  obtain ⟨a, b⟩ := fctN_bounds p hF hf hg he psi0 psi A x ⟨hs' _, fun d => ⟨hs' _, hs' _⟩⟩
  exact ⟨le_trans (le_min ((le_nbMin_iff _ _ _).2 l0) ((le_nbMin_iff _ _ _).2 l1)) a, le_trans b (max_le ((nbMax_le_iff _ _ _).2 h0) ((nbMax_le_iff _ _ _).2 h1))⟩

/-- C14, 2-D: whatever the antidiffusive velocity `A`, after a limited corrective pass every value lies within any bounds that hold for the step's initial field `psi0` and the
current iterate `psi` over the cell and its four neighbours. Standard version for non-negative fields; infinite-gauge and variable-sign versions for all fields. -/
theorem C14_fct_local_bounds_2d (p : SpecN.Par 2 K) (si : SptlIntrp) (te : TmprlExtrp) (tiny : K) (hF : p.F = formulae2 p.o si te tiny)
    (hfot : isset p.o oFot = true → isset p.o oTot = true ∨ isset p.o oDiv3 = true)
    (hf : isset p.o oFct = true) (hg : ∀ x, 0 < gFacN p.o p.st.G x) (he : 0 ≤ p.eps)
    (psi0 psi : Sca 2 K) (A : Vec 2 K) (x : Idx 2) (hs : isset p.o oIga = true ∨ isset p.o oAbs = true ∨ ∀ y, 0 ≤ psi y) (lo hi : K)
    (l0 : BelowNb psi0 x lo) (l1 : BelowNb psi x lo) (h0 : AboveNb psi0 x hi) (h1 : AboveNb psi x hi) :
    lo ≤ SpecN.corrective p psi0 psi A x ∧ SpecN.corrective p psi0 psi A x ≤ hi :=
  fct_local p (hF ▸ formulae2_good p.o si te tiny hfot) hf hg he psi0 psi A x hs lo hi l0 l1 h0 h1

/-- C14, 3-D -/
theorem C14_fct_local_bounds_3d (p : SpecN.Par 3 K) (si : SptlIntrp) (te : TmprlExtrp) (tiny : K) (hF : p.F = formulae3 p.o si te tiny)
    (hf : isset p.o oFct = true) (hg : ∀ x, 0 < gFacN p.o p.st.G x) (he : 0 ≤ p.eps)
    (psi0 psi : Sca 3 K) (A : Vec 3 K) (x : Idx 3) (hs : isset p.o oIga = true ∨ isset p.o oAbs = true ∨ ∀ y, 0 ≤ psi y) (lo hi : K)
    (l0 : BelowNb psi0 x lo) (l1 : BelowNb psi x lo) (h0 : AboveNb psi0 x hi) (h1 : AboveNb psi x hi) :
    lo ≤ SpecN.corrective p psi0 psi A x ∧ SpecN.corrective p psi0 psi A x ≤ hi :=
  fct_local p (hF ▸ formulae3_good p.o si te tiny) hf hg he psi0 psi A x hs lo hi l0 l1 h0 h1

theorem fct_range_cycN {c : CfgN n K} {p : SpecN.Par n K} {P : Fin n → Nat} {ds : List (Fin n)} (h : CyclicSetupN c p P ds) (hF : FGood p.o p.F) (hn : 1 ≤ c.nIters)
    (hf : isset c.o oFct = true) (hg : ∀ x, 0 < gFacN p.o p.st.G x) (he : 0 ≤ c.eps) (lo hi : K) (hs : isset c.o oIga = true ∨ isset c.o oAbs = true ∨ 0 ≤ lo)
    (filt : Nat → Bool) {psi0 : Sca n K} {GC : Vec n K} (h0 : PeriodicN P psi0)
    (hp : ∀ d, PeriodicN P (GC d)) (hdiv : ∀ x, divN GC x = 0) (hc : ∀ x, outflowN GC x ≤ gFacN p.o p.st.G x) (m : MemN n K)
    (hpsi : ∀ x, InGrid P x → m.psi x = psi0 x) (hGC : ∀ d x, InFaces P d x → m.GC d x = GC d x) (hr : ∀ x, lo ≤ psi0 x ∧ psi0 x ≤ hi) (t : Nat) (x : Idx n) (hx : InGrid P x) :
    lo ≤ (runProgN c filt t { m with GC := prepGC c (solverHalo c.o) m.GC }).psi x ∧ (runProgN c filt t { m with GC := prepGC c (solverHalo c.o) m.GC }).psi x ≤ hi := by
  rw [cycN_run h hF hn (.inr (.inl hf)) filt h0 hp m hpsi hGC t x hx]
  exact withinN_run hF (h.ho ▸ hf) hg (h.heps ▸ he) lo hi (h.ho ▸ hs) GC hdiv hc c.nIters filt psi0 hr t x

/-- C15, 2-D, about the program: with fct, cyclic boundaries, a non-divergent advector whose outflow from any cell does not exceed G, any other options, any number of passes and of time
steps, and any contents of the temporaries, the field never leaves the range `[lo, hi]` of its initial values. (Standard version: `lo ≥ 0`.) -/
theorem C15_fct_global_range_2d (c : CfgN 2 K) (p : SpecN.Par 2 K) (P : Fin 2 → Nat) (h : Solver2 c p P) (hn : 1 ≤ c.nIters)
    (hf : isset c.o oFct = true) (hg : ∀ x, 0 < gFacN p.o p.st.G x) (he : 0 ≤ c.eps) (lo hi : K) (hs : isset c.o oIga = true ∨ isset c.o oAbs = true ∨ 0 ≤ lo)
    (filt : Nat → Bool) (psi0 : Sca 2 K) (GC : Vec 2 K) (h0 : PeriodicN P psi0) (hp : ∀ d, PeriodicN P (GC d)) (hdiv : ∀ x, divN GC x = 0)
    (hc : ∀ x, outflowN GC x ≤ gFacN p.o p.st.G x) (m : MemN 2 K) (hpsi : ∀ x, InGrid P x → m.psi x = psi0 x) (hGC : ∀ d x, InFaces P d x → m.GC d x = GC d x)
    (hr : ∀ x, lo ≤ psi0 x ∧ psi0 x ≤ hi) (t : Nat) (x : Idx 2) (hx : InGrid P x) :
    lo ≤ (runProgN c filt t { m with GC := prepGC c (solverHalo c.o) m.GC }).psi x ∧ (runProgN c filt t { m with GC := prepGC c (solverHalo c.o) m.GC }).psi x ≤ hi :=
  fct_range_cycN h.setup h.good hn hf hg he lo hi hs filt h0 hp hdiv hc m hpsi hGC hr t x hx

/-- C15, 3-D, about the program: with fct, cyclic boundaries, a non-divergent advector whose outflow from any cell does not exceed G, any other options, any number of passes and of time
steps, and any contents of the temporaries, the field never leaves the range `[lo, hi]` of its initial values. (Standard version: `lo ≥ 0`.) -/
theorem C15_fct_global_range_3d (c : CfgN 3 K) (p : SpecN.Par 3 K) (P : Fin 3 → Nat) (h : Solver3 c p P) (hn : 1 ≤ c.nIters)
    (hf : isset c.o oFct = true) (hg : ∀ x, 0 < gFacN p.o p.st.G x) (he : 0 ≤ c.eps) (lo hi : K) (hs : isset c.o oIga = true ∨ isset c.o oAbs = true ∨ 0 ≤ lo)
    (filt : Nat → Bool) (psi0 : Sca 3 K) (GC : Vec 3 K) (h0 : PeriodicN P psi0) (hp : ∀ d, PeriodicN P (GC d)) (hdiv : ∀ x, divN GC x = 0)
    (hc : ∀ x, outflowN GC x ≤ gFacN p.o p.st.G x) (m : MemN 3 K) (hpsi : ∀ x, InGrid P x → m.psi x = psi0 x) (hGC : ∀ d x, InFaces P d x → m.GC d x = GC d x)
    (hr : ∀ x, lo ≤ psi0 x ∧ psi0 x ≤ hi) (t : Nat) (x : Idx 3) (hx : InGrid P x) :
    lo ≤ (runProgN c filt t { m with GC := prepGC c (solverHalo c.o) m.GC }).psi x ∧ (runProgN c filt t { m with GC := prepGC c (solverHalo c.o) m.GC }).psi x ≤ hi :=
  fct_range_cycN h.setup h.good hn hf hg he lo hi hs filt h0 hp hdiv hc m hpsi hGC hr t x hx

/-- hypotheses met: a shear flow (first component depending on the second coordinate) in the flux-corrected third-order demo solver -/
example : let GC : Vec 2 ℚ := fun d x => if d = 0 then (if x 1 % 4 = 0 then 1/2 else -1/4) else 1/8
    (∀ d, PeriodicN (fun _ => 4 : Fin 2 → Nat) (GC d)) ∧ (∀ x, divN GC x = 0) ∧ (∀ x, outflowN GC x ≤ gFacN (oFct ||| oTot) (fun _ => (1 : ℚ)) x) := by
  intro GC
  have hst : ∀ (x : Idx 2) (k : Int), (stepIdx x 0 k) 1 = x 1 := fun x k => by simp [stepIdx]
  refine ⟨fun d x e => ?_, fun x => ?_, fun x => ?_⟩
  · have : (stepIdx x e 4) 1 % 4 = x 1 % 4 := by unfold stepIdx; split <;> omega
    simp only [GC, Nat.cast_ofNat, this]
  · simp only [divN, Fin.sum_univ_two, GC, hst]; simp
  · simp only [outflowN, Fin.sum_univ_two, GC, hst, if_true, show (1 : Fin 2) ≠ 0 by decide, if_false, gFacN, show isset (oFct ||| oTot) oNug = false by decide, Bool.false_eq_true]
    split <;> norm_num

end Mpdata
