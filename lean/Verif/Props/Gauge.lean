import Verif.Lemmas.Gauge1
import Verif.Lemmas.Gauge3
import Verif.Props.ConstN
import Verif.Props.Order1
/-! # C55: the infinite-gauge option is the limit of the basic scheme on a growing background -/
set_option linter.unusedSectionVars false
namespace Mpdata
open Filter Topology

section
variable {n : Nat}

/-- the fields `y a`, with the background `a` taken off, tend to `ψ` -/
def NearN (y : ℝ → Sca n ℝ) (ψ : Sca n ℝ) : Prop := ∀ x, Tendsto (fun a => y a x - a) atTop (𝓝 (ψ x))

theorem pos_neg_cont (o : OptsT) (C : ℝ) : pospart o C + negpart o C = C := pos_add_neg o C

theorem firstN_near {p p' : SpecN.Par n ℝ} (hF : FGood p.o p.F) (hF' : FGood p'.o p'.F) (hst : p'.st = p.st) (hnug : isset p'.o oNug = isset p.o oNug)
    (GC : Vec n ℝ) (hd : ∀ x, divN GC x = 0) {y : ℝ → Sca n ℝ} {ψ : Sca n ℝ} (hy : NearN y ψ) :
    NearN (fun a => SpecN.first p (y a) GC) (SpecN.first p' ψ GC) := by
  intro x
  have e : ∀ a, SpecN.first p (y a) GC x - a
      = (y a x - a) + (∑ d, ((pospart p.o (GC d (stepIdx x d (-1))) * (y a (stepIdx x d (-1)) - a) + negpart p.o (GC d (stepIdx x d (-1))) * (y a x - a))
        - (pospart p.o (GC d x) * (y a x - a) + negpart p.o (GC d x) * (y a (stepIdx x d 1) - a)))) / gFacN p.o p.st.G x := by
    intro a
    have h0 : ∑ d, (a * (GC d x - GC d (stepIdx x d (-1)))) = 0 := by rw [← Finset.mul_sum]; have := hd x; unfold divN at this; rw [this, mul_zero]
    have h1 : ∑ d, (makeFluxN p.o (y a) GC d (stepIdx x d (-1)) - makeFluxN p.o (y a) GC d x)
        = ∑ d, ((pospart p.o (GC d (stepIdx x d (-1))) * (y a (stepIdx x d (-1)) - a) + negpart p.o (GC d (stepIdx x d (-1))) * (y a x - a))
        - (pospart p.o (GC d x) * (y a x - a) + negpart p.o (GC d x) * (y a (stepIdx x d 1) - a))) - ∑ d, (a * (GC d x - GC d (stepIdx x d (-1)))) := by
      rw [← Finset.sum_sub_distrib]
      refine Finset.sum_congr rfl fun d _ => ?_
      unfold makeFluxN donorF
      rw [stepIdx_add, neg_add_cancel, stepIdx_zero]
      linear_combination a * pos_neg_cont p.o (GC d (stepIdx x d (-1))) - a * pos_neg_cont p.o (GC d x)
    unfold SpecN.first
    rw [hF.donor_eq, h1, h0, sub_zero]
    ring
  have e' : SpecN.first p' ψ GC x
      = ψ x + (∑ d, ((pospart p.o (GC d (stepIdx x d (-1))) * ψ (stepIdx x d (-1)) + negpart p.o (GC d (stepIdx x d (-1))) * ψ x)
        - (pospart p.o (GC d x) * ψ x + negpart p.o (GC d x) * ψ (stepIdx x d 1)))) / gFacN p.o p.st.G x := by
    unfold SpecN.first
    rw [hF'.donor_eq, hst]
    have : gFacN p'.o p.st.G x = gFacN p.o p.st.G x := by unfold gFacN; rw [hnug]
    rw [this]
    congr 2
    refine Finset.sum_congr rfl fun d _ => ?_
    unfold makeFluxN donorF
    rw [stepIdx_add, neg_add_cancel, stepIdx_zero]
    simp only [pospart_eq, negpart_eq]
  show Tendsto (fun a => SpecN.first p (y a) GC x - a) atTop (𝓝 _)
  simp only [e, e']
  exact (hy x).add ((tendsto_finsetSum _ fun d _ => (((hy _).const_mul _).add ((hy _).const_mul _)).sub (((hy _).const_mul _).add ((hy _).const_mul _))).div_const _)

theorem stepN_near {p p' : SpecN.Par n ℝ} (go : GaugeOpts p.o p'.o) (hF : FGood p.o p.F) (hF' : FGood p'.o p'.F) (hst : p'.st = p.st)
    (GC : Vec n ℝ) (hd : ∀ x, divN GC x = 0)
    (hv : ∀ (y w : ℝ → Sca n ℝ) (ψ ω : Sca n ℝ), NearN y ψ → NearN w ω → ∀ d x, Lim (fun a => p.F.vel d p.st (y a) (w a) GC x) (p'.F.vel d p.st ψ ω GC x))
    {k : Nat} (hk : k ≤ 2) {y : ℝ → Sca n ℝ} {ψ : Sca n ℝ} (hy : NearN y ψ) : NearN (fun a => SpecN.step p k (y a) GC) (SpecN.step p' k ψ GC) := by
  have h1 := firstN_near hF hF' hst go.nug GC hd hy
  have hk' : k - 1 = 0 ∨ k - 1 = 1 := by omega
  rcases hk' with hk' | hk'
  · simp only [SpecN.step, hk', SpecN.passes]; exact h1
  · simp only [SpecN.step, hk', SpecN.passes]
    have hl := hv _ _ _ _ h1 hy
    intro x
    show Tendsto (fun a => SpecN.corrective p (y a) (SpecN.first p (y a) GC) (SpecN.velocity p (SpecN.first p (y a) GC) (y a) GC) x - a) atTop
      (𝓝 (SpecN.corrective p' ψ (SpecN.first p' ψ GC) (SpecN.velocity p' (SpecN.first p' ψ GC) ψ GC) x))
    simp only [SpecN.corrective, go.fct, go.fct', go.iga, go.iga', Bool.false_eq_true, if_false, if_true, hF.donor_eq, hF'.donor_eq]
    have hg : gFacN p'.o p'.st.G x = gFacN p.o p.st.G x := by unfold gFacN; rw [go.nug, hst]
    rw [hg]
    have hs : Tendsto (fun a => ∑ d, (makeFluxN p.o (SpecN.first p (y a) GC) (SpecN.velocity p (SpecN.first p (y a) GC) (y a) GC) d (stepIdx x d (-1))
        - makeFluxN p.o (SpecN.first p (y a) GC) (SpecN.velocity p (SpecN.first p (y a) GC) (y a) GC) d x)) atTop
        (𝓝 (∑ d, (SpecN.velocity p' (SpecN.first p' ψ GC) ψ GC d (stepIdx x d (-1)) - SpecN.velocity p' (SpecN.first p' ψ GC) ψ GC d x))) := by
      refine tendsto_finsetSum _ fun d _ => Tendsto.sub ?_ ?_
      · refine flux_lim p.o ?_ (h1 _) (h1 _)
        simp only [SpecN.velocity, hst]; exact hl d _
      · refine flux_lim p.o ?_ (h1 _) (h1 _)
        simp only [SpecN.velocity, hst]; exact hl d _
    have := (h1 x).add (hs.div_const (gFacN p.o p.st.G x))
    refine this.congr fun a => ?_
    ring

theorem runN_near {p p' : SpecN.Par n ℝ} (go : GaugeOpts p.o p'.o) (hF : FGood p.o p.F) (hF' : FGood p'.o p'.F) (hst : p'.st = p.st)
    (GC : Vec n ℝ) (hd : ∀ x, divN GC x = 0)
    (hv : ∀ (y w : ℝ → Sca n ℝ) (ψ ω : Sca n ℝ), NearN y ψ → NearN w ω → ∀ d x, Lim (fun a => p.F.vel d p.st (y a) (w a) GC x) (p'.F.vel d p.st ψ ω GC x))
    {k : Nat} (hk : k ≤ 2) (filt : Nat → Bool) (ψ : Sca n ℝ) (t : Nat) :
    NearN (fun a => SpecN.run p k filt GC t (fun x => ψ x + a)) (SpecN.run p' k filt GC t ψ) := by
  induction t with
  | zero => intro x; simp only [SpecN.run]; simp
  | succ t ih => exact stepN_near go hF hF' hst GC hd hv (by split <;> omega) ih

theorem ThirdOrderOk.views2 {o : OptsT} {si : SptlIntrp} {st : Stat 2 ℝ} {GC : Vec 2 ℝ} (h3 : ThirdOrderOk o si st GC) (d : Fin 2) (x : Idx 2)
    (h : isset o oDiv3 = true ∨ isset o oDiv3dt = true) :
    DivFree2 (view2 d x (st.ndt d)) (view2 d x (st.ndt (d + 1))) ∧ (∀ i j, view2 d x (st.ndtt d) i j = 0)
      ∧ (si = .aver4 ∨ ∀ i j, view2 d x (GC d) (i + 1) j + view2 d x (GC d) (i - 1) j - 2 * view2 d x (GC d) i j = 0) := by
  obtain ⟨a, b, c⟩ := h3 h
  refine ⟨fun i j => by rw [view2_div]; exact a _, fun i j => b _ _, c.imp id fun c i j => ?_⟩
  have := c d (stepIdx (stepIdx x d i) (d + 1) j)
  rw [stepIdx_comm _ (d + 1) d, stepIdx_add, stepIdx_comm _ (d + 1) d, stepIdx_add] at this
  exact this

theorem ThirdOrderOk.views3 {o : OptsT} {si : SptlIntrp} {st : Stat 3 ℝ} {GC : Vec 3 ℝ} (h3 : ThirdOrderOk o si st GC) (d : Fin 3) (x : Idx 3)
    (h : isset o oDiv3 = true ∨ isset o oDiv3dt = true) :
    DivFree3 (view3 d x (st.ndt d)) (view3 d x (st.ndt (d + 1))) (view3 d x (st.ndt (d + 2))) ∧ (∀ i j k, view3 d x (st.ndtt d) i j k = 0)
      ∧ (si = .aver4 ∨ ∀ i j k, view3 d x (GC d) (i + 1) j k + view3 d x (GC d) (i - 1) j k - 2 * view3 d x (GC d) i j k = 0) := by
  obtain ⟨a, b, c⟩ := h3 h
  refine ⟨fun i j k => by rw [view3_div]; exact a _, fun i j k => b _ _, c.imp id fun c i j k => ?_⟩
  have := c d (stepIdx (stepIdx (stepIdx x d i) (d + 1) j) (d + 2) k)
  rw [stepIdx_comm _ (d + 2) d, stepIdx_comm _ (d + 1) d, stepIdx_add, stepIdx_comm _ (d + 2) d, stepIdx_comm _ (d + 1) d, stepIdx_add] at this
  exact this
end

/-- C55, 2-D. In a non-divergent flow on a cyclic domain, run the basic (or `abs`) scheme of up to two passes on the field plus a constant background `a`, and take the
background off again: as `a` grows, the result tends at every grid point to what the same solver with the infinite-gauge option computes from the field without background,
after any number of steps and for every other option (`tot`, `dfl`, the divergence forms, `khn`, `pfc`, `nug`, …) that both share. -/
theorem C55_infinite_gauge_is_the_limit_2d (c c' : CfgN 2 ℝ) (p p' : SpecN.Par 2 ℝ) (P : Fin 2 → Nat) (h : Solver2 c p P) (h' : Solver2 c' p' P) (si : SptlIntrp) (te : TmprlExtrp)
    (tiny tiny' : ℝ) (hform : p.F = formulae2 p.o si te tiny) (hform' : p'.F = formulae2 p'.o si te tiny') (hst : p'.st = p.st) (go : GaugeOpts p.o p'.o)
    (hn : 1 ≤ c.nIters) (hn2 : c.nIters ≤ 2) (hn' : c'.nIters = c.nIters)
    (hG : ∀ x, 0 < gFacN p.o p.st.G x) (filt : Nat → Bool) (ψ : Sca 2 ℝ) (GC : Vec 2 ℝ) (h0 : PeriodicN P ψ) (hg : ∀ d, PeriodicN P (GC d)) (hd : ∀ x, divN GC x = 0)
    (h3 : ThirdOrderOk p.o si p.st GC) (m : ℝ → MemN 2 ℝ) (m' : MemN 2 ℝ) (hpsi : ∀ a x, InGrid P x → (m a).psi x = ψ x + a)
    (hGC : ∀ a d x, InFaces P d x → (m a).GC d x = GC d x) (hGC' : ∀ d x, InFaces P d x → m'.GC d x = GC d x)
    (hpsi' : ∀ x, InGrid P x → m'.psi x = ψ x) (t : Nat) (x : Idx 2) (hx : InGrid P x) :
    Tendsto (fun a => (runProgN c filt t { m a with GC := prepGC c (solverHalo c.o) (m a).GC }).psi x - a) atTop
      (𝓝 ((runProgN c' filt t { m' with GC := prepGC c' (solverHalo c'.o) m'.GC }).psi x)) := by
  have hc : HaloCovered c.o c.nIters := by unfold HaloCovered; left; omega
  have hc' : HaloCovered c'.o c'.nIters := by unfold HaloCovered; left; omega
  have e : ∀ a : ℝ, (runProgN c filt t { m a with GC := prepGC c (solverHalo c.o) (m a).GC }).psi x
      = SpecN.run p c.nIters filt GC t (fun x => ψ x + a) x := fun a =>
    C21_cyclic_2d_is_periodic_partial c p P h hn hc filt (fun x => ψ x + a) GC (fun x d => congrArg (· + a) (h0 x d)) hg (m a) (hpsi a) (hGC a) t x hx
  simp only [e]
  rw [C21_cyclic_2d_is_periodic_partial c' p' P h' (by omega) hc' filt ψ GC h0 hg m' hpsi' hGC' t x hx, hn']
  refine runN_near go h.good h'.good hst GC hd ?_ hn2 filt ψ t x
  intro y w ψ ω hy hw d x
  rw [hform, hform']
  exact antidiff2_lim go tiny tiny' (fun k l => hy _) (fun k l => hw _) _ _ _ _ _ _ (fun i j => hG _) 0 0 si te
    (fun i j => by rw [view2_div]; exact hd _) (h3.views2 d x)

/-- C55, 3-D. -/
theorem C55_infinite_gauge_is_the_limit_3d (c c' : CfgN 3 ℝ) (p p' : SpecN.Par 3 ℝ) (P : Fin 3 → Nat) (h : Solver3 c p P) (h' : Solver3 c' p' P) (si : SptlIntrp) (te : TmprlExtrp)
    (tiny tiny' : ℝ) (hform : p.F = formulae3 p.o si te tiny) (hform' : p'.F = formulae3 p'.o si te tiny') (hst : p'.st = p.st) (go : GaugeOpts p.o p'.o)
    (hn : 1 ≤ c.nIters) (hn2 : c.nIters ≤ 2) (hn' : c'.nIters = c.nIters)
    (hG : ∀ x, 0 < gFacN p.o p.st.G x) (filt : Nat → Bool) (ψ : Sca 3 ℝ) (GC : Vec 3 ℝ) (h0 : PeriodicN P ψ) (hg : ∀ d, PeriodicN P (GC d)) (hd : ∀ x, divN GC x = 0)
    (h3 : ThirdOrderOk p.o si p.st GC) (m : ℝ → MemN 3 ℝ) (m' : MemN 3 ℝ) (hpsi : ∀ a x, InGrid P x → (m a).psi x = ψ x + a)
    (hGC : ∀ a d x, InFaces P d x → (m a).GC d x = GC d x) (hGC' : ∀ d x, InFaces P d x → m'.GC d x = GC d x)
    (hpsi' : ∀ x, InGrid P x → m'.psi x = ψ x) (t : Nat) (x : Idx 3) (hx : InGrid P x) :
    Tendsto (fun a => (runProgN c filt t { m a with GC := prepGC c (solverHalo c.o) (m a).GC }).psi x - a) atTop
      (𝓝 ((runProgN c' filt t { m' with GC := prepGC c' (solverHalo c'.o) m'.GC }).psi x)) := by
  have hc : HaloCovered c.o c.nIters := by unfold HaloCovered; left; omega
  have hc' : HaloCovered c'.o c'.nIters := by unfold HaloCovered; left; omega
  have e : ∀ a : ℝ, (runProgN c filt t { m a with GC := prepGC c (solverHalo c.o) (m a).GC }).psi x
      = SpecN.run p c.nIters filt GC t (fun x => ψ x + a) x := fun a =>
    C21_cyclic_3d_is_periodic_partial c p P h hn hc filt (fun x => ψ x + a) GC (fun x d => congrArg (· + a) (h0 x d)) hg (m a) (hpsi a) (hGC a) t x hx
  simp only [e]
  rw [C21_cyclic_3d_is_periodic_partial c' p' P h' (by omega) hc' filt ψ GC h0 hg m' hpsi' hGC' t x hx, hn']
  refine runN_near go h.good h'.good hst GC hd ?_ hn2 filt ψ t x
  intro y w ψ ω hy hw d x
  rw [hform, hform']
  exact antidiff3_lim go tiny tiny' (fun k l m => hy _) (fun k l m => hw _) _ _ _ _ _ _ _ _ (fun i j k => hG _) 0 0 0 si te
    (fun i j k => by rw [view3_div]; exact hd _) (h3.views3 d x)

/-! ## 1-D -/

section
open Spec1

/-- the fields `y a`, with the background `a` taken off, tend to `ψ` -/
def Near1 (y : ℝ → Int → ℝ) (ψ : Int → ℝ) : Prop := ∀ i, Tendsto (fun a => y a i - a) atTop (𝓝 (ψ i))

theorem first1_near {p p' : Par ℝ} (hG' : p'.G = p.G) (hnug : isset p'.o oNug = isset p.o oNug) (C : ℝ) {y : ℝ → Int → ℝ} {ψ : Int → ℝ} (hy : Near1 y ψ) :
    Near1 (fun a => first p (y a) (fun _ => C)) (first p' ψ (fun _ => C)) := by
  intro i
  have e : ∀ (p : Par ℝ) (f : Int → ℝ) (a : ℝ), first p f (fun _ => C) i - a
      = (f i - a) + (-(max 0 C * (f i - a) + min 0 C * (f (i + 1) - a)) + (max 0 C * (f (i - 1) - a) + min 0 C * (f i - a))) / gFac1 p.o p.G i := by
    intro p f a
    simp only [first, donorStep1, donorSum1_eq, makeFlux1, donorF, pospart_eq, negpart_eq, sub_add_cancel]
    ring
  have hg : gFac1 p'.o p'.G i = gFac1 p.o p.G i := by unfold gFac1; rw [hnug, hG']
  have e' := e p' ψ 0
  simp only [sub_zero, hg] at e'
  show Tendsto (fun a => first p (y a) (fun _ => C) i - a) atTop (𝓝 _)
  simp only [e, e']
  exact (hy i).add (((((hy _).const_mul _).add ((hy _).const_mul _)).neg.add (((hy _).const_mul _).add ((hy _).const_mul _))).div_const _)

theorem step1_near {p p' : Par ℝ} (go : GaugeOpts p.o p'.o) (hG' : p'.G = p.G) (hsi : p'.si = p.si) (hte : p'.te = p.te) (hn1 : p.ndtGC = fun _ => 0) (hn1' : p'.ndtGC = fun _ => 0)
    (hn2 : p.ndttGC = fun _ => 0) (hn2' : p'.ndttGC = fun _ => 0) (hG : ∀ i, 0 < gFac1 p.o p.G i) (C : ℝ)
    {k : Nat} (hk : k ≤ 2) {y : ℝ → Int → ℝ} {ψ : Int → ℝ} (hy : Near1 y ψ) : Near1 (fun a => step p k (y a) (fun _ => C)) (step p' k ψ (fun _ => C)) := by
  have h1 := first1_near hG' go.nug C hy
  have hk' : k - 1 = 0 ∨ k - 1 = 1 := by omega
  rcases hk' with hk' | hk'
  · simp only [step, hk', passes]; exact h1
  · simp only [step, hk', passes]
    have hl : ∀ i, Lim (fun a => velocity p (first p (y a) (fun _ => C)) (fun _ => C) i) (velocity p' (first p' ψ (fun _ => C)) (fun _ => C) i) := by
      intro i
      unfold velocity
      rw [hG', hsi, hte, hn1, hn1', hn2, hn2']
      exact antidiff1_lim go p.tiny p'.tiny h1 _ _ _ _ hG i p.si p.te (fun _ => rfl) (fun _ => ⟨fun _ => rfl, fun _ => rfl⟩)
    intro i
    show Tendsto (fun a => corrective p (y a) (first p (y a) (fun _ => C)) (velocity p (first p (y a) (fun _ => C)) (fun _ => C)) i - a) atTop
      (𝓝 (corrective p' ψ (first p' ψ (fun _ => C)) (velocity p' (first p' ψ (fun _ => C)) (fun _ => C)) i))
    simp only [corrective, go.fct, go.fct', go.iga, go.iga', Bool.false_eq_true, if_false, if_true, donorStep1, donorSum1_eq]
    have hg : gFac1 p'.o p'.G i = gFac1 p.o p.G i := by unfold gFac1; rw [go.nug, hG']
    rw [hg]
    have f1 := flux_lim p.o (hl i) (h1 i) (h1 (i + 1))
    have f2 := flux_lim p.o (hl (i - 1)) (h1 (i - 1)) (h1 (i - 1 + 1))
    have := (h1 i).add ((f1.neg.add f2).div_const (gFac1 p.o p.G i))
    refine this.congr fun a => ?_
    unfold makeFlux1; ring
end

/-- C55, 1-D. In a uniform flow (the only non-divergent one in 1-D) on a cyclic domain, run the basic (or `abs`) scheme of up to two passes on the field plus a constant background
`a`, and take the background off again: as `a` grows the result tends at every grid point to what the same solver with the infinite-gauge option computes from the
field without background, after any number of steps and for every other option that both share. -/
theorem C55_infinite_gauge_is_the_limit_1d (c c' : Cfg1 ℝ) (p p' : Spec1.Par ℝ) (N : Int) (h : CyclicSetup c p N) (h' : CyclicSetup c' p' N) (hr : c'.ijk = c.ijk)
    (go : GaugeOpts p.o p'.o) (hG' : p'.G = p.G) (hsi : p'.si = p.si) (hte : p'.te = p.te) (hn1 : p.ndtGC = fun _ => 0) (hn1' : p'.ndtGC = fun _ => 0)
    (hn2 : p.ndttGC = fun _ => 0) (hn2' : p'.ndttGC = fun _ => 0) (hG : ∀ i, 0 < gFac1 p.o p.G i)
    (hn : 1 ≤ c.nIters) (hk : c.nIters ≤ 2) (hn' : c'.nIters = c.nIters) (filt : Nat → Bool) (ψ : Int → ℝ) (h0 : Spec1.Periodic N ψ) (C : ℝ)
    (m : ℝ → Mem1 ℝ) (m' : Mem1 ℝ) (hpsi : ∀ a i, c.ijk.first ≤ i → i ≤ c.ijk.last → (m a).psi i = ψ i + a) (hpsi' : ∀ i, c.ijk.first ≤ i → i ≤ c.ijk.last → m'.psi i = ψ i)
    (hGC : ∀ a i, c.ijk.first ≤ i → i ≤ c.ijk.last - 1 → (m a).GC i = C) (hGC' : ∀ i, c.ijk.first ≤ i → i ≤ c.ijk.last - 1 → m'.GC i = C)
    (t : Nat) (i : Int) (h1 : c.ijk.first ≤ i) (h2 : i ≤ c.ijk.last) :
    Tendsto (fun a => (runProg1 c filt t { m a with GC := c.fillV false (m a).GC }).psi i - a) atTop
      (𝓝 ((runProg1 c' filt t { m' with GC := c'.fillV false m'.GC }).psi i)) := by
  have hc : HaloCovered c.o c.nIters := by unfold HaloCovered; left; omega
  have hc' : HaloCovered c'.o c'.nIters := by unfold HaloCovered; left; omega
  have e : ∀ a : ℝ, (runProg1 c filt t { m a with GC := c.fillV false (m a).GC }).psi i = Spec1.run p c.nIters filt (fun _ => C) t (fun i => ψ i + a) i := fun a =>
    cyc_run h hn hc filt (fun i => congrArg (· + a) (h0 i)) (fun _ => rfl) (m a) (fun i h1 h2 => hpsi a i h1 h2) (fun i h1 h2 => hGC a i h1 h2) t i h1 h2
  have e' := cyc_run h' (by omega) hc' filt h0 (fun _ => rfl) m' (fun i h1 h2 => hpsi' i (hr ▸ h1) (hr ▸ h2)) (fun i h1 h2 => hGC' i (hr ▸ h1) (hr ▸ h2) : Agree _ _ _ (fun _ => C)) t i
    (hr ▸ h1) (hr ▸ h2)
  simp only [e]
  rw [e', hn']
  have key : ∀ t, Near1 (fun a => Spec1.run p c.nIters filt (fun _ => C) t (fun i => ψ i + a)) (Spec1.run p' c.nIters filt (fun _ => C) t ψ) := by
    intro t
    induction t with
    | zero => intro x; simp only [Spec1.run]; simp
    | succ t ih => exact step1_near go hG' hsi hte hn1 hn1' hn2 hn2' hG C (by split <;> omega) ih
  exact key t i

/-! ## The hypotheses are satisfiable -/

/-- a cyclic solver over the reals with 5 points in each dimension, G = 2, steady advector -/
noncomputable def cycCfgR {n : Nat} (F : Formulae n ℝ) (o : OptsT) (k : Nat) (ds : List (Fin n)) : CfgN n ℝ :=
  { o := o, nIters := k, filter := false, eps := 1/1000, F := F, box := fun _ => ⟨0, 4⟩
    st := ⟨fun _ => 2, fun _ _ => 0, fun _ _ => 0⟩
    fillS := cycXchngS (fun _ => ⟨0, 4⟩) (solverHalo o) ds
    fillA := fun _ => cycXchngA (fun _ => ⟨0, 4⟩) (solverHalo o)
    fillN := fun ext => cycXchngN (fun _ => ⟨0, 4⟩) (solverHalo o) ext }

/-- a shear flow: to the right in even rows, to the left in odd rows, and upwards everywhere -/
noncomputable def shear2 : Vec 2 ℝ := fun d x => if d = 0 then (if x 1 % 2 = 0 then 1/4 else -1/8) else 1/8

example : ∃ (c c' : CfgN 2 ℝ) (p p' : SpecN.Par 2 ℝ), Solver2 c p (fun _ => 4) ∧ Solver2 c' p' (fun _ => 4) ∧ p'.st = p.st ∧ GaugeOpts p.o p'.o ∧ isset p.o oAbs = true ∧
    isset p.o oTot = true ∧ isset p.o oNug = true ∧ 1 ≤ c.nIters ∧ c.nIters ≤ 2 ∧ c'.nIters = c.nIters ∧ (∀ x, 0 < gFacN p.o p.st.G x) ∧
    (∀ d, PeriodicN (fun _ => 4) (shear2 d)) ∧ (∀ x, divN shear2 x = 0) ∧ ThirdOrderOk p.o .exact p.st shear2 := by
  refine ⟨cycCfgR (formulae2 (oAbs ||| oTot ||| oNug) .exact .noextrp (1/1000)) (oAbs ||| oTot ||| oNug) 2 [0, 1],
    cycCfgR (formulae2 (oIga ||| oTot ||| oNug) .exact .noextrp (1/1000)) (oIga ||| oTot ||| oNug) 2 [0, 1],
    ⟨oAbs ||| oTot ||| oNug, 1/1000, formulae2 (oAbs ||| oTot ||| oNug) .exact .noextrp (1/1000), ⟨fun _ => 2, fun _ _ => 0, fun _ _ => 0⟩⟩,
    ⟨oIga ||| oTot ||| oNug, 1/1000, formulae2 (oIga ||| oTot ||| oNug) .exact .noextrp (1/1000), ⟨fun _ => 2, fun _ _ => 0, fun _ _ => 0⟩⟩,
    ⟨⟨rfl, rfl, rfl, fun _ => rfl, fun d => by decide, by decide, rfl, fun _ => rfl, fun _ => rfl, fun _ _ => rfl, fun _ _ _ => rfl, fun _ _ _ => rfl, fun _ _ => rfl,
      fun _ _ _ => rfl, fun _ _ _ => rfl⟩, ⟨_, _, _, rfl⟩, by decide⟩,
    ⟨⟨rfl, rfl, rfl, fun _ => rfl, fun d => by decide, by decide, rfl, fun _ => rfl, fun _ => rfl, fun _ _ => rfl, fun _ _ _ => rfl, fun _ _ _ => rfl, fun _ _ => rfl,
      fun _ _ _ => rfl, fun _ _ _ => rfl⟩, ⟨_, _, _, rfl⟩, by decide⟩,
    rfl, ⟨by decide, by decide, by decide, by decide, by decide, by decide, by decide, by decide, by decide, by decide, by decide, by decide, by decide⟩,
    by decide, by decide, by decide, by decide, by decide, rfl, ?_, ?_, ?_, ?_⟩
  · intro x; unfold gFacN; split <;> norm_num
  · intro d x e
    have h : (stepIdx x e 4 1) % 2 = x 1 % 2 := by
      fin_cases e
      · rw [stepIdx_other _ (by decide)]
      · show (stepIdx x 1 4 1) % 2 = _; rw [stepIdx_self]; omega
    show shear2 d (stepIdx x e ((4 : Nat) : Int)) = _
    unfold shear2; rw [show ((4 : Nat) : Int) = 4 from rfl, h]
  · intro x
    unfold divN shear2
    rw [Fin.sum_univ_two, stepIdx_other x (show (1 : Fin 2) ≠ 0 by decide)]
    simp
  · intro h; exact absurd h (by decide)

example : GaugeOpts (oDiv2 ||| oDiv3) (oIga ||| oDiv2 ||| oDiv3) :=
  ⟨by decide, by decide, by decide, by decide, by decide, by decide, by decide, by decide, by decide, by decide, by decide, by decide, by decide⟩

end Mpdata
