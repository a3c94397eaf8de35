import Verif.Lemmas.FctProg
import Verif.Model.BcKinds
import Verif.Props.FctN
import Verif.Props.WallN
/-! # C13, C14, C15 with any boundary conditions: what the limiter guarantees does not depend on how halos of velocities are filled -/
set_option linter.unusedSectionVars false
namespace Mpdata
variable {n : Nat} {K : Type} [Field K] [LinearOrder K] [IsStrictOrderedRing K]

/-- the formulae of the 2-D and of the 3-D solvers -/
def IsFormulae2 (c : CfgN 2 K) : Prop := (∃ si te tiny, c.F = formulae2 c.o si te tiny) ∧ (isset c.o oFot = true → isset c.o oTot = true ∨ isset c.o oDiv3 = true)
def IsFormulae3 (c : CfgN 3 K) : Prop := ∃ si te tiny, c.F = formulae3 c.o si te tiny

theorem IsFormulae2.good {c : CfgN 2 K} (h : IsFormulae2 c) : FGood c.o c.F := by
  obtain ⟨⟨si, te, tiny, hF⟩, hf⟩ := h
  rw [hF]; exact formulae2_good c.o si te tiny hf
theorem IsFormulae3.good {c : CfgN 3 K} (h : IsFormulae3 c) : FGood c.o c.F := by
  obtain ⟨si, te, tiny, hF⟩ := h
  rw [hF]; exact formulae3_good c.o si te tiny

section
variable [NeZero n]

theorem fct_range_anyN (c : CfgN n K) (hF : FGood c.o c.F) (hn : 1 ≤ c.nIters) (hf : isset c.o oFct = true) (hg : ∀ x, cellBox1 c.box x → 0 < gFacN c.o c.st.G x)
    (he : 0 ≤ c.eps) (lo hi : K) (hs : isset c.o oIga = true ∨ isset c.o oAbs = true ∨ 0 ≤ lo) (hB : FillsIn c (Set.Icc lo hi)) (filt : Nat → Bool) (m : MemN n K)
    (hdiv : ∀ x, cellBox c.box x → divN m.GC x = 0) (hc : ∀ x, cellBox c.box x → outflowN m.GC x ≤ gFacN c.o c.st.G x)
    (h0 : ∀ x, cellBox c.box x → lo ≤ m.psi x ∧ m.psi x ≤ hi) (t : Nat) (x : Idx n) (hx : cellBox c.box x) :
    lo ≤ (runProgN c filt t m).psi x ∧ (runProgN c filt t m).psi x ≤ hi := by
  refine runProgN_mem (S := Set.Icc lo hi) hF hf hn hg he Set.ordConnected_Icc (fun v hv => ?_) hB filt m h0 ?_ t x hx
  · rcases hs with h | h | h
    · exact .inl h
    · exact .inr (.inl h)
    · exact .inr (.inr (h.trans hv.1))
  · intro psi hpsi y hy
    have e0 := fill_self hB hpsi y hy
    have e1 : ∀ d, c.fillS psi (stepIdx y d (-1)) ∈ Set.Icc lo hi := fun d => hB psi hpsi y hy d (-1) (by omega) (by omega)
    have e2 : ∀ d, c.fillS psi (stepIdx y d 1) ∈ Set.Icc lo hi := fun d => hB psi hpsi y hy d 1 (by omega) (by omega)
    have hcy : outflowN m.GC y ≤ gFacN c.o (parIn c).st.G y := by
      have := hc y hy
      unfold gFacN at *
      rwa [parIn_G0 hy]
    exact ⟨upwindN_ge hF _ _ m.GC y lo (parIn_pos hg y) (by rw [hdiv y hy]; simp) hcy e0.1 (fun d => (e1 d).1) (fun d => (e2 d).1),
      upwindN_le hF _ _ m.GC y hi (parIn_pos hg y) (by rw [hdiv y hy]; simp) hcy e0.2 (fun d => (e1 d).2) (fun d => (e2 d).2)⟩

theorem fct_positive_anyN (c : CfgN n K) (hF : FGood c.o c.F) (hn : 1 ≤ c.nIters) (hf : isset c.o oFct = true) (hg : ∀ x, cellBox1 c.box x → 0 < gFacN c.o c.st.G x)
    (he : 0 ≤ c.eps) (hB : FillsIn c (Set.Ici 0)) (filt : Nat → Bool) (m : MemN n K) (hc : ∀ x, cellBox c.box x → outflowN m.GC x ≤ gFacN c.o c.st.G x)
    (h0 : ∀ x, cellBox c.box x → 0 ≤ m.psi x) (t : Nat) (x : Idx n) (hx : cellBox c.box x) : 0 ≤ (runProgN c filt t m).psi x := by
  refine runProgN_mem (S := Set.Ici 0) hF hf hn hg he Set.ordConnected_Ici (fun v hv => .inr (.inr hv)) hB filt m h0 ?_ t x hx
  intro psi hpsi y hy
  have hcy : outflowN m.GC y ≤ gFacN c.o (parIn c).st.G y := by
    have := hc y hy
    unfold gFacN at *
    rwa [parIn_G0 hy]
  exact upwindN_ge hF _ _ m.GC y 0 (parIn_pos hg y) (by simp) hcy (fill_self hB hpsi y hy) (fun d => hB psi hpsi y hy d (-1) (by omega) (by omega))
    (fun d => hB psi hpsi y hy d 1 (by omega) (by omega))

/-! ## the scalar fills copy interior values -/

theorem cellBox_mem (b : Fin n → Rng) (x : Idx n) : cellBox b x ↔ ∀ e, (b e).first ≤ x e ∧ x e ≤ (b e).last := by
  unfold cellBox Bx
  simp


theorem kindS_same (kl kr : Fin n → BcKind) (b : Fin n → Rng) (halo : Int) (d : Fin n) (lo hi : Fin n → Int) (a : Sca n K) (x : Idx n)
    (h : (b d).first ≤ x d ∧ x d ≤ (b d).last) : kindS kl kr b halo d lo hi a x = a x := by
  unfold kindS asgN
  simp only
  rw [if_neg (fun hc => by have := hc.1; omega), if_neg (fun hc => by have := hc.1; omega)]

/-- a point next to the box across dimension `d` receives the value of a point inside the box on the same grid line -/
theorem kindS_copy (kl kr : Fin n → BcKind) (b : Fin n → Rng) (halo : Int) (hh : 1 ≤ halo) (d : Fin n) (hb : (b d).first + 1 ≤ (b d).last) (lo hi : Fin n → Int) (a : Sca n K) (x : Idx n)
    (hO : Ot b d lo hi x) (h : (b d).first - 1 ≤ x d ∧ x d ≤ (b d).last + 1) :
    ∃ k : Int, (b d).first ≤ x d + k ∧ x d + k ≤ (b d).last ∧ kindS kl kr b halo d lo hi a x = a (stepIdx x d k) := by
  have hz : stepIdx x d 0 = x := stepIdx_zero x d
  unfold kindS asgN
  simp only
  by_cases hR : x d = (b d).last + 1
  · rw [if_pos ⟨⟨by omega, by omega⟩, hO⟩]
    unfold srcR
    cases kr d <;> simp only
    · refine ⟨-((b d).last - (b d).first), by omega, by omega, ?_⟩
      rw [if_neg (fun hc => by have := hc.1; rw [stepIdx_self] at this; omega)]
    · refine ⟨2 * ((b d).last - x d), by omega, by omega, ?_⟩
      rw [if_neg (fun hc => by have := hc.1; rw [stepIdx_self] at this; omega)]
    · refine ⟨(b d).last - x d, by omega, by omega, ?_⟩
      rw [if_neg (fun hc => by have := hc.1; rw [stepIdx_self] at this; omega)]
  · rw [if_neg (fun hc => by have := hc.1; omega)]
    by_cases hL : x d = (b d).first - 1
    · rw [if_pos ⟨⟨by omega, by omega⟩, hO⟩]
      unfold srcL
      cases kl d <;> simp only
      · exact ⟨(b d).last - (b d).first, by omega, by omega, rfl⟩
      · exact ⟨2 * ((b d).first - x d), by omega, by omega, rfl⟩
      · exact ⟨(b d).first - x d, by omega, by omega, rfl⟩
    · exact ⟨0, by omega, by omega, by rw [if_neg (fun hc => by have := hc.1; omega), hz]⟩

theorem kindXchng_mem (kl kr : Fin n → BcKind) (b : Fin n → Rng) (halo : Int) (hh : 1 ≤ halo) (hb : ∀ d, (b d).first + 1 ≤ (b d).last) (S : Set K) (d : Fin n) (ds : List (Fin n)) :
    ∀ (a : Sca n K), ((∀ x, cellBox b x → a x ∈ S) → d ∈ ds → ∀ x, (∀ e, e ≠ d → (b e).first ≤ x e ∧ x e ≤ (b e).last) → (b d).first - 1 ≤ x d → x d ≤ (b d).last + 1 →
      kindXchngS kl kr b halo ds a x ∈ S) ∧
    ((∀ x, (∀ e, e ≠ d → (b e).first ≤ x e ∧ x e ≤ (b e).last) → (b d).first - 1 ≤ x d → x d ≤ (b d).last + 1 → a x ∈ S) →
      ∀ x, (∀ e, e ≠ d → (b e).first ≤ x e ∧ x e ≤ (b e).last) → (b d).first - 1 ≤ x d → x d ≤ (b d).last + 1 → kindXchngS kl kr b halo ds a x ∈ S) := by
  have hot : ∀ (e : Fin n) (x : Idx n), (∀ e', e' ≠ e → (b e').first ≤ x e' ∧ x e' ≤ (b e').last) → Ot b e (fun _ => halo) (fun _ => halo) x := by
    intro e x hx e' he'; have := hx e' he'; dsimp only; omega
  have step_own : ∀ (a : Sca n K), (∀ x, cellBox b x → a x ∈ S) → ∀ x, (∀ e, e ≠ d → (b e).first ≤ x e ∧ x e ≤ (b e).last) → (b d).first - 1 ≤ x d → x d ≤ (b d).last + 1 →
      kindS kl kr b halo d (fun _ => halo) (fun _ => halo) a x ∈ S := by
    intro a ha x hx h1 h2
    obtain ⟨k, q1, q2, q3⟩ := kindS_copy kl kr b halo hh d (hb d) (fun _ => halo) (fun _ => halo) a x (hot d x hx) ⟨h1, h2⟩
    rw [q3]
    apply ha
    rw [cellBox_mem]
    intro e
    by_cases he : e = d
    · subst he; rw [stepIdx_self]; omega
    · rw [stepIdx_other _ he]; have := hx e he; omega
  induction ds with
  | nil => intro a; exact ⟨fun _ h => by simp at h, fun h => h⟩
  | cons e ds ih =>
    intro a
    constructor
    · intro ha hd x hx h1 h2
      show kindXchngS kl kr b halo ds (kindS kl kr b halo e (fun _ => halo) (fun _ => halo) a) x ∈ S
      by_cases hed : e = d
      · subst hed
        exact (ih _).2 (step_own a ha) x hx h1 h2
      · have hd' : d ∈ ds := by
          rcases List.mem_cons.1 hd with h | h
          · exact absurd h.symm hed
          · exact h
        refine (ih _).1 (fun y hy => ?_) hd' x hx h1 h2
        rw [kindS_same _ _ _ _ _ _ _ _ _ ((cellBox_mem b y).1 hy e)]
        exact ha y hy
    · intro ha x hx h1 h2
      show kindXchngS kl kr b halo ds (kindS kl kr b halo e (fun _ => halo) (fun _ => halo) a) x ∈ S
      refine (ih _).2 (fun y hy q1 q2 => ?_) x hx h1 h2
      by_cases hed : e = d
      · subst hed
        exact step_own a (fun z hz => ha z (fun f _ => (cellBox_mem b z).1 hz f) (by have := (cellBox_mem b z).1 hz e; omega) (by have := (cellBox_mem b z).1 hz e; omega)) y hy q1 q2
      · rw [kindS_same _ _ _ _ _ _ _ _ _ (hy e hed)]
        exact ha y hy q1 q2

/-- with any combination of cyclic, rigid and open boundaries, halos of scalars hold interior values -/
theorem kinds_fillsIn (c : CfgN n K) (kl kr : Fin n → BcKind) (halo : Int) (hh : 1 ≤ halo) (hb : ∀ d, (c.box d).first + 1 ≤ (c.box d).last) (ds : List (Fin n))
    (hall : ∀ d, d ∈ ds) (hS : c.fillS = kindXchngS kl kr c.box halo ds) (S : Set K) : FillsIn c S := by
  intro a ha x hx d k hk1 hk2
  rw [hS]
  rw [cellBox_mem] at hx
  refine (kindXchng_mem kl kr c.box halo hh hb S d ds a).1 ha (hall d) _ (fun e he => ?_) ?_ ?_
  · rw [stepIdx_other _ he]; have := hx e; omega
  · rw [stepIdx_self]; have := hx d; omega
  · rw [stepIdx_self]; have := hx d; omega
end

/-! ## the statements -/

/-- C15, 2-D, any boundary conditions: whatever is put into the halos of velocities, and with scalar halos that take interior values (cyclic, rigid, open boundaries in any
combination: `kinds_fillsIn`), the flux-corrected program never leaves the range `[lo, hi]` of the initial field, for every other option and number of passes and steps, as long as
the advector, as it stands when the time loop starts, is non-divergent in every cell of the domain and flows out of no cell faster than G. (Standard version: `lo ≥ 0`.) -/
theorem C15_fct_global_range_any_bc_2d (c : CfgN 2 K) (hF : IsFormulae2 c) (hn : 1 ≤ c.nIters) (hf : isset c.o oFct = true) (hg : ∀ x, cellBox1 c.box x → 0 < gFacN c.o c.st.G x)
    (he : 0 ≤ c.eps) (lo hi : K) (hs : isset c.o oIga = true ∨ isset c.o oAbs = true ∨ 0 ≤ lo) (hB : FillsIn c (Set.Icc lo hi)) (filt : Nat → Bool) (m : MemN 2 K)
    (hdiv : ∀ x, cellBox c.box x → divN m.GC x = 0) (hc : ∀ x, cellBox c.box x → outflowN m.GC x ≤ gFacN c.o c.st.G x)
    (h0 : ∀ x, cellBox c.box x → lo ≤ m.psi x ∧ m.psi x ≤ hi) (t : Nat) (x : Idx 2) (hx : cellBox c.box x) :
    lo ≤ (runProgN c filt t m).psi x ∧ (runProgN c filt t m).psi x ≤ hi :=
  fct_range_anyN c hF.good hn hf hg he lo hi hs hB filt m hdiv hc h0 t x hx

/-- C15, 3-D, any boundary conditions -/
theorem C15_fct_global_range_any_bc_3d (c : CfgN 3 K) (hF : IsFormulae3 c) (hn : 1 ≤ c.nIters) (hf : isset c.o oFct = true) (hg : ∀ x, cellBox1 c.box x → 0 < gFacN c.o c.st.G x)
    (he : 0 ≤ c.eps) (lo hi : K) (hs : isset c.o oIga = true ∨ isset c.o oAbs = true ∨ 0 ≤ lo) (hB : FillsIn c (Set.Icc lo hi)) (filt : Nat → Bool) (m : MemN 3 K)
    (hdiv : ∀ x, cellBox c.box x → divN m.GC x = 0) (hc : ∀ x, cellBox c.box x → outflowN m.GC x ≤ gFacN c.o c.st.G x)
    (h0 : ∀ x, cellBox c.box x → lo ≤ m.psi x ∧ m.psi x ≤ hi) (t : Nat) (x : Idx 3) (hx : cellBox c.box x) :
    lo ≤ (runProgN c filt t m).psi x ∧ (runProgN c filt t m).psi x ≤ hi :=
  fct_range_anyN c hF.good hn hf hg he lo hi hs hB filt m hdiv hc h0 t x hx

/-- C13 with fct, 2-D, any boundary conditions: non-negative fields stay non-negative, in divergent flow too. -/
theorem C13_fct_positive_any_bc_2d (c : CfgN 2 K) (hF : IsFormulae2 c) (hn : 1 ≤ c.nIters) (hf : isset c.o oFct = true) (hg : ∀ x, cellBox1 c.box x → 0 < gFacN c.o c.st.G x)
    (he : 0 ≤ c.eps) (hB : FillsIn c (Set.Ici 0)) (filt : Nat → Bool) (m : MemN 2 K) (hc : ∀ x, cellBox c.box x → outflowN m.GC x ≤ gFacN c.o c.st.G x)
    (h0 : ∀ x, cellBox c.box x → 0 ≤ m.psi x) (t : Nat) (x : Idx 2) (hx : cellBox c.box x) : 0 ≤ (runProgN c filt t m).psi x :=
  fct_positive_anyN c hF.good hn hf hg he hB filt m hc h0 t x hx

/-- C13 with fct, 3-D, any boundary conditions -/
theorem C13_fct_positive_any_bc_3d (c : CfgN 3 K) (hF : IsFormulae3 c) (hn : 1 ≤ c.nIters) (hf : isset c.o oFct = true) (hg : ∀ x, cellBox1 c.box x → 0 < gFacN c.o c.st.G x)
    (he : 0 ≤ c.eps) (hB : FillsIn c (Set.Ici 0)) (filt : Nat → Bool) (m : MemN 3 K) (hc : ∀ x, cellBox c.box x → outflowN m.GC x ≤ gFacN c.o c.st.G x)
    (h0 : ∀ x, cellBox c.box x → 0 ≤ m.psi x) (t : Nat) (x : Idx 3) (hx : cellBox c.box x) : 0 ≤ (runProgN c filt t m).psi x :=
  fct_positive_anyN c hF.good hn hf hg he hB filt m hc h0 t x hx

theorem fct_local_prog [NeZero n] (c : CfgN n K) (hF : FGood c.o c.F) (hf : isset c.o oFct = true) (hg : ∀ x, cellBox1 c.box x → 0 < gFacN c.o c.st.G x) (he : 0 ≤ c.eps)
    (k : Nat) (hk : k ≠ 0) (m : MemN n K) (psi0 : Sca n K) (hmx : ∀ x, cellBox1 c.box x → m.psiMax x = nbMax psi0 x) (hmn : ∀ x, cellBox1 c.box x → m.psiMin x = nbMin psi0 x)
    (hs : isset c.o oIga = true ∨ isset c.o oAbs = true ∨ ∀ y, 0 ≤ c.fillS m.psiN y) (lo hi : K) (x : Idx n) (hx : cellBox c.box x)
    (l0 : BelowNb psi0 x lo) (l1 : BelowNb (c.fillS m.psiN) x lo) (h0 : AboveNb psi0 x hi) (h1 : AboveNb (c.fillS m.psiN) x hi) :
    lo ≤ (advIterN c k m).psiN x ∧ (advIterN c k m).psiN x ≤ hi := by
  obtain ⟨A, hA⟩ := advIter_corr hF k hk m psi0 hf (fun _ => ⟨hmx, hmn⟩)
  rw [hA x hx]
  exact fct_local (parIn c) hF hf (parIn_pos hg) he psi0 _ A x hs lo hi l0 l1 h0 h1

/-- C14, 2-D, about the program with any boundary conditions: in a state where the stored extrema are those of the field `psi0` with which the step began, the field computed by
corrective pass `k` (any `k ≥ 1`) lies, in every cell of the domain, within any bounds that hold for `psi0` and for the current iterate (halos filled) over the cell and its neighbours. -/
theorem C14_fct_local_bounds_any_bc_2d (c : CfgN 2 K) (hF : IsFormulae2 c) (hf : isset c.o oFct = true) (hg : ∀ x, cellBox1 c.box x → 0 < gFacN c.o c.st.G x) (he : 0 ≤ c.eps)
    (k : Nat) (hk : k ≠ 0) (m : MemN 2 K) (psi0 : Sca 2 K) (hmx : ∀ x, cellBox1 c.box x → m.psiMax x = nbMax psi0 x) (hmn : ∀ x, cellBox1 c.box x → m.psiMin x = nbMin psi0 x)
    (hs : isset c.o oIga = true ∨ isset c.o oAbs = true ∨ ∀ y, 0 ≤ c.fillS m.psiN y) (lo hi : K) (x : Idx 2) (hx : cellBox c.box x)
    (l0 : BelowNb psi0 x lo) (l1 : BelowNb (c.fillS m.psiN) x lo) (h0 : AboveNb psi0 x hi) (h1 : AboveNb (c.fillS m.psiN) x hi) :
    lo ≤ (advIterN c k m).psiN x ∧ (advIterN c k m).psiN x ≤ hi :=
  fct_local_prog c hF.good hf hg he k hk m psi0 hmx hmn hs lo hi x hx l0 l1 h0 h1

/-- C14, 3-D, about the program with any boundary conditions -/
theorem C14_fct_local_bounds_any_bc_3d (c : CfgN 3 K) (hF : IsFormulae3 c) (hf : isset c.o oFct = true) (hg : ∀ x, cellBox1 c.box x → 0 < gFacN c.o c.st.G x) (he : 0 ≤ c.eps)
    (k : Nat) (hk : k ≠ 0) (m : MemN 3 K) (psi0 : Sca 3 K) (hmx : ∀ x, cellBox1 c.box x → m.psiMax x = nbMax psi0 x) (hmn : ∀ x, cellBox1 c.box x → m.psiMin x = nbMin psi0 x)
    (hs : isset c.o oIga = true ∨ isset c.o oAbs = true ∨ ∀ y, 0 ≤ c.fillS m.psiN y) (lo hi : K) (x : Idx 3) (hx : cellBox c.box x)
    (l0 : BelowNb psi0 x lo) (l1 : BelowNb (c.fillS m.psiN) x lo) (h0 : AboveNb psi0 x hi) (h1 : AboveNb (c.fillS m.psiN) x hi) :
    lo ≤ (advIterN c k m).psiN x ∧ (advIterN c k m).psiN x ≤ hi :=
  fct_local_prog c hF.good hf hg he k hk m psi0 hmx hmn hs lo hi x hx l0 l1 h0 h1

/-- hypotheses met: a 2-D box with an open left, a rigid right and cyclic lower and upper boundaries -/
example : let c : CfgN 2 ℚ := { wallCfg (fun _ => true) (formulae2 (oFct ||| oTot) .exact .noextrp (1/1000)) (oFct ||| oTot) 3 (fun _ => 4) [0, 1] with
      fillS := kindXchngS ![.opened, .cyclic] ![.rigid, .cyclic] (fun _ => ⟨0, 4⟩) 2 [0, 1] }
    IsFormulae2 c ∧ isset c.o oFct = true ∧ FillsIn c (Set.Icc 0 1) ∧ (∀ x, cellBox1 c.box x → 0 < gFacN c.o c.st.G x) ∧
      ∀ x, cellBox c.box x → divN (fun d _ => if d = 0 then 0 else (1/2 : ℚ)) x = 0 ∧ outflowN (fun d _ => if d = 0 then 0 else (1/2 : ℚ)) x ≤ gFacN c.o c.st.G x := by
  intro c
  refine ⟨⟨⟨_, _, _, rfl⟩, by decide⟩, by decide, kinds_fillsIn c ![.opened, .cyclic] ![.rigid, .cyclic] 2 (by omega) (fun d => show (0 : Int) + 1 ≤ 4 by omega) [0, 1] (by decide) rfl _,
    fun x _ => by simp [gFacN, c, wallCfg], fun x _ => ⟨by simp [divN], ?_⟩⟩
  have h1 : gFacN c.o c.st.G x = 1 := by simp [gFacN, c, wallCfg]
  rw [h1]
  simp only [outflowN, Fin.sum_univ_two]
  norm_num

end Mpdata
