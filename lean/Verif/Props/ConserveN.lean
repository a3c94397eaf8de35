import Verif.Props.HaloN
import Verif.Lemmas.BoundsN
/-! # C12 (conservation) and C17 (buffers) of the whole MPDATA step in 2-D and 3-D -/
set_option linter.unusedSectionVars false
namespace Mpdata
variable {n : Nat} {K : Type} [Field K] [LinearOrder K] [IsStrictOrderedRing K]

theorem gFac_cyc {c : CfgN n K} {p : SpecN.Par n K} {P : Fin n → Nat} {ds : List (Fin n)} (h : CyclicSetupN c p P ds) {x : Idx n} (hx : InGrid P x) :
    gFacN c.o c.st.G x = gFacN p.o p.st.G x := by
  unfold gFacN
  rw [h.ho, h.hG x (fun e => by have := hx e; rw [h.hbox]; constructor <;> simp <;> omega)]

theorem inGrid_of_period {P : Fin n → Nat} {x : Idx n} (h : x ∈ period P) : InGrid P x := fun d => by
  have := mem_period.1 h d; omega

theorem conserve_cycN {c : CfgN n K} {p : SpecN.Par n K} {P : Fin n → Nat} {ds : List (Fin n)} (h : CyclicSetupN c p P ds) (hF : FGood p.o p.F) (hn : 1 ≤ c.nIters)
    (hx : HaloCovered c.o c.nIters) (hG : ∀ x, gFacN p.o p.st.G x ≠ 0) (filt : Nat → Bool) {psi0 : Sca n K} {GC : Vec n K} (h0 : PeriodicN P psi0)
    (hg : ∀ d, PeriodicN P (GC d)) (m : MemN n K) (hpsi : ∀ x, InGrid P x → m.psi x = psi0 x) (hGC : ∀ d x, InFaces P d x → m.GC d x = GC d x) (t : Nat) :
    ∑ x ∈ period P, gFacN c.o c.st.G x * (runProgN c filt t { m with GC := prepGC c (solverHalo c.o) m.GC }).psi x = ∑ x ∈ period P, gFacN c.o c.st.G x * m.psi x := by
  have hr := cycN_run h hF hn hx filt h0 hg m hpsi hGC t
  have hP : ∀ d, 1 ≤ P d := fun d => by have := h.hhP d; have := (solverHalo_ge c.o).1; omega
  have ht := specN_run_total hF hP h.par hG h0 hg c.nIters filt t
  rw [Finset.sum_congr rfl (fun x hx => by rw [gFac_cyc h (inGrid_of_period hx), hr x (inGrid_of_period hx)]), ht]
  exact Finset.sum_congr rfl (fun x hx => by rw [gFac_cyc h (inGrid_of_period hx), hpsi x (inGrid_of_period hx)])

/-- C12, 2-D (partial: divergence-form options with three or more passes and no fct are excluded, where it fails already in 1-D). On a cyclic domain the program conserves the
G-weighted total over one period, for every option set, number of passes, pattern of upwind-filter steps, grid size, periodic field and advector (divergent or not), non-zero G,
contents of the temporaries and number of time steps. -/
theorem C12_conservation_2d_partial (c : CfgN 2 K) (p : SpecN.Par 2 K) (P : Fin 2 → Nat) (h : Solver2 c p P) (hn : 1 ≤ c.nIters)
    (hx : HaloCovered c.o c.nIters) (hG : ∀ x, gFacN p.o p.st.G x ≠ 0) (filt : Nat → Bool) (psi0 : Sca 2 K) (GC : Vec 2 K) (h0 : PeriodicN P psi0)
    (hg : ∀ d, PeriodicN P (GC d)) (m : MemN 2 K) (hpsi : ∀ x, InGrid P x → m.psi x = psi0 x) (hGC : ∀ d x, InFaces P d x → m.GC d x = GC d x) (t : Nat) :
    ∑ x ∈ period P, gFacN c.o c.st.G x * (runProgN c filt t { m with GC := prepGC c (solverHalo c.o) m.GC }).psi x = ∑ x ∈ period P, gFacN c.o c.st.G x * m.psi x :=
  conserve_cycN h.setup h.good hn hx hG filt h0 hg m hpsi hGC t

/-- C12, 3-D (partial: divergence-form options with three or more passes and no fct are excluded, where it fails already in 1-D). On a cyclic domain the program conserves the
G-weighted total over one period, for every option set, number of passes, pattern of upwind-filter steps, grid size, periodic field and advector (divergent or not), non-zero G,
contents of the temporaries and number of time steps. -/
theorem C12_conservation_3d_partial (c : CfgN 3 K) (p : SpecN.Par 3 K) (P : Fin 3 → Nat) (h : Solver3 c p P) (hn : 1 ≤ c.nIters)
    (hx : HaloCovered c.o c.nIters) (hG : ∀ x, gFacN p.o p.st.G x ≠ 0) (filt : Nat → Bool) (psi0 : Sca 3 K) (GC : Vec 3 K) (h0 : PeriodicN P psi0)
    (hg : ∀ d, PeriodicN P (GC d)) (m : MemN 3 K) (hpsi : ∀ x, InGrid P x → m.psi x = psi0 x) (hGC : ∀ d x, InFaces P d x → m.GC d x = GC d x) (t : Nat) :
    ∑ x ∈ period P, gFacN c.o c.st.G x * (runProgN c filt t { m with GC := prepGC c (solverHalo c.o) m.GC }).psi x = ∑ x ∈ period P, gFacN c.o c.st.G x * m.psi x :=
  conserve_cycN h.setup h.good hn hx hG filt h0 hg m hpsi hGC t

/-- hypotheses met: a varying periodic field and a divergent periodic advector, any of the demo solvers of `HaloN` -/
example : PeriodicN (fun _ => 4 : Fin 2 → Nat) (fun x => (((x 0) % 4 + (x 1) % 4 : Int) : ℚ)) ∧ ∀ x, gFacN (oFct ||| oTot ||| oDfl) (fun _ : Idx 2 => (1 : ℚ)) x ≠ 0 := by
  refine ⟨fun x d => ?_, fun x => by simp [gFacN]⟩
  have : ∀ e : Fin 2, (stepIdx x d 4) e % 4 = x e % 4 := by
    intro e; unfold stepIdx; split <;> omega
  simp only [Nat.cast_ofNat, this]

/-! ## C17: buffers in 2-D and 3-D -/

/-- C17: in every corrective iteration, storing the corrected velocity does not change the velocity being corrected, nor the user's advector. -/
theorem C17_corr_does_not_alias_unco_nd (iter : Nat) (h : 1 ≤ iter) (m : MemN n K) (a : Vec n K) :
    gcUncoN iter (setCorrN iter m a) = gcUncoN iter m ∧ (setCorrN iter m a).GC = m.GC ∧ gcCorrN iter (setCorrN iter m a) = a := by
  refine ⟨?_, setCorrN_GC iter m a, gcCorrN_set iter m a⟩
  unfold gcUncoN setCorrN
  by_cases h1 : iter = 1
  · subst h1; rfl
  · by_cases h2 : iter % 2 = 1 <;> simp [h1, h2]

/-- C17: the velocity corrected by iteration `k+1` is the one produced by iteration `k`; iteration 1 corrects the advector. -/
theorem C17_next_reads_previous_nd (iter : Nat) (m : MemN n K) : gcUncoN 1 m = m.GC ∧ (1 ≤ iter → gcUncoN (iter + 1) m = gcCorrN iter m) :=
  ⟨rfl, fun h => gcUncoN_succ iter h m⟩

/-- C17: the user's advector survives a whole step and a whole run, whatever the options and boundary conditions, in any number of dimensions. -/
theorem C17_advector_preserved_nd (c : CfgN n K) (filt : Nat → Bool) (t : Nat) (m : MemN n K) :
    (advanceN c m).GC = m.GC ∧ (runProgN c filt t m).GC = m.GC := ⟨advanceN_GC c m, runProgN_GC c filt t m⟩

end Mpdata
