import Verif.Lemmas.VipUniform
import Verif.Props.SwRun
import Verif.Props.SymmetryN
import Verif.Props.Symmetry1
/-! # C61, C43: uniform flow on cyclic domains
Nothing distinguishes one point of a uniform flow from another: without forces it stays exactly as it is, however fast it moves. -/
set_option linter.unusedSectionVars false
namespace Mpdata
namespace VP
variable {K X : Type} [Field K] [LinearOrder K] [IsStrictOrderedRing K] {n : Nat} {T : Type}

/-- no force acts on the uniform state `v`: no absorber, and on it the forcing makes zeros of zeros -/
structure FreeFlow (u : User K X n) (v : Nat → K) : Prop where
  vab : u.vab = .noab
  force : ∀ dt b psi z, (∀ e, e < u.nEqns → ∀ x, psi e x = v e) → (∀ e, e < u.nEqns → isset u.norhs (bit e) = false → ∀ x, z e x = 0) →
    ∀ e, e < u.nEqns → isset u.norhs (bit e) = false → ∀ x, u.force dt b psi z e x = 0

theorem FreeFlow.ok {c : Cfg K X n T} {adv : (GC ndt ndtt : Fin n → X → K) → Bool → (X → K) → (X → K)} {G : X → K} {v : Nat → K} (h : FreeFlow c.toUser v) (hG : ∃ g, ∀ x, G x = g)
    (ha : ∀ f (γ δ δ' : Fin n → K) (k : K), adv (fun d _ => γ d) (fun d _ => δ d) (fun d _ => δ' d) f (fun _ => k) = fun _ => k) : UnifOk c adv G v := by
  have hr : ∀ e, hasRhs c e = true ↔ e < c.nEqns ∧ isset c.norhs (bit e) = false := by intro e; unfold hasRhs; simp
  refine ⟨h.vab, hG, fun dt b psi z h1 h2 e he x => ?_, ha⟩
  exact h.force dt b psi z h1 (fun e a b => h2 e ((hr e).2 ⟨a, b⟩)) e ((hr e).1 he).1 ((hr e).1 he).2 x

/-- advection of a uniform field by a uniform advector on the unbounded 1-D grid -/
theorem passes_unif (p : Spec1.Par K) (hp : ∀ s, p.shift s = p) (v γ : K) (j : Nat) : (Spec1.passes p (fun _ => v) (fun _ => γ) j).1 = fun _ => v := by
  have dn : ∀ F : Int → K, (∀ s, sh s F = F) → donorStep1 p.o (fun _ => v) F p.G = fun _ => v := by
    intro F hF
    funext i
    have : F (i - 1) = F i := congrFun (hF (-1)) i
    unfold donorStep1; rw [donorSum1_eq, this]; simp
  have sU : ∀ j s, sh s (Spec1.passes p (fun _ => v) (fun _ => γ) j).2 = (Spec1.passes p (fun _ => v) (fun _ => γ) j).2 := by
    intro j s
    have := passes_sh p (fun _ => v) (fun _ => γ) s j
    rw [hp s] at this
    exact (congrArg Prod.snd this).symm
  have mk : ∀ C : Int → K, (∀ s, sh s C = C) → ∀ s, sh s (makeFlux1 p.o (fun _ => v) C) = makeFlux1 p.o (fun _ => v) C := by
    intro C hC s
    rw [← makeFlux1_sh, hC s]; rfl
  induction j with
  | zero => exact dn _ (mk _ fun _ => rfl)
  | succ j ih =>
    show Spec1.corrective p (fun _ => v) (Spec1.passes p (fun _ => v) (fun _ => γ) j).1 (Spec1.passes p (fun _ => v) (fun _ => γ) (j + 1)).2 = _
    have hA := sU (j + 1)
    rw [ih]
    generalize (Spec1.passes p (fun _ => v) (fun _ => γ) (j + 1)).2 = A at hA ⊢
    unfold Spec1.corrective
    have hC : ∀ s, sh s (if isset p.o oFct = true then Spec1.limited p (fun _ => v) (fun _ => v) A else A) = if isset p.o oFct = true then Spec1.limited p (fun _ => v) (fun _ => v) A else A := by
      intro s
      split_ifs
      · have := limited_sh p (fun _ => v) (fun _ => v) A s
        rw [hp s, hA s] at this
        exact this.symm
      · exact hA s
    simp only
    generalize (if isset p.o oFct = true then Spec1.limited p (fun _ => v) (fun _ => v) A else A) = C at hC ⊢
    by_cases h : isset p.o oIga = true
    · rw [if_pos h]; exact dn _ hC
    · rw [if_neg h]; exact dn _ (mk _ hC)

/-- the same in 2-D and 3-D -/
theorem passesN_unif {p : SpecN.Par n K} (hF : FGood p.o p.F) (hp : ∀ e k, p.sh e k = p) (v : K) (γ : Fin n → K) (j : Nat) : (SpecN.passes p (fun _ => v) (fun d _ => γ d) j).psi = fun _ => v := by
  have dn : ∀ F : Vec n K, (∀ e k d, shN e k (F d) = F d) → p.F.donor (fun _ => v) F p.st.G = fun _ => v := by
    intro F hh
    funext x
    rw [hF.donor_eq, Finset.sum_eq_zero (fun d _ => by rw [show F d (stepIdx x d (-1)) = F d x from congrFun (hh d (-1) d) x, sub_self])]
    simp
  have sU : ∀ j e k d, shN e k ((SpecN.passes p (fun _ => v) (fun d _ => γ d) j).U d) = (SpecN.passes p (fun _ => v) (fun d _ => γ d) j).U d := by
    intro j e k d
    have := (passesN_sh hF (fun _ => v) (fun d _ => γ d) e k j).2.2
    rw [hp e k] at this
    exact (congrFun this d).symm
  have mk : ∀ C : Vec n K, (∀ e k d, shN e k (C d) = C d) → ∀ e k d, shN e k (makeFluxN p.o (fun _ => v) C d) = makeFluxN p.o (fun _ => v) C d := by
    intro C hC e k d
    have := congrFun (makeFluxN_sh p.o (fun _ => v) C e k) d
    rw [show (fun d => shN e k (C d)) = C from funext fun d => hC e k d] at this
    exact this.symm
  induction j with
  | zero => exact dn _ (mk _ fun _ _ _ => rfl)
  | succ j ih =>
    show SpecN.corrective p (fun _ => v) (SpecN.passes p (fun _ => v) (fun d _ => γ d) j).psi (SpecN.passes p (fun _ => v) (fun d _ => γ d) (j + 1)).U = _
    have hA := sU (j + 1)
    rw [ih]
    generalize (SpecN.passes p (fun _ => v) (fun d _ => γ d) (j + 1)).U = A at hA ⊢
    unfold SpecN.corrective
    have hC : ∀ e k d, shN e k ((if isset p.o oFct = true then SpecN.limited p (fun _ => v) (fun _ => v) A else A) d) =
        (if isset p.o oFct = true then SpecN.limited p (fun _ => v) (fun _ => v) A else A) d := by
      intro e k d
      by_cases h : isset p.o oFct = true
      · rw [if_pos h]
        have := congrFun (limitedN_sh p (fun _ => v) (fun _ => v) A e k) d
        rw [hp e k, show (fun d => shN e k (A d)) = A from funext fun d => hA e k d] at this
        exact this.symm
      · rw [if_neg h]; exact hA e k d
    simp only
    generalize (if isset p.o oFct = true then SpecN.limited p (fun _ => v) (fun _ => v) A else A) = C at hC ⊢
    by_cases h : isset p.o oIga = true
    · rw [if_pos h]; exact dn _ hC
    · rw [if_neg h]; exact dn _ (mk _ hC)

/-- C61, 1-D (partial: the exclusions of `Prog1`): a uniform flow on which no force acts stays exactly as it is, for every speed, time steps and number of steps; with third-order time derivatives the G-factor has to be uniform. -/
theorem C61_uniform_flow_1d_partial (u : User K Int 1) (a : Cfg1 K) (p : Spec1.Par K) (N : Nat) (h : Prog1 u a p N) (hG : u.vc.div3 = false ∨ ∃ g, ∀ i, p.G i = g) (v : Nat → K) (hv : FreeFlow u v)
    (s : St K Int 1 (Mem1 K)) (hs : Begin (solver1 u a) (fun e _ => v e) s) (dt0 : K) (filt : Nat → Bool) (first : Nat → K) (more : Nat → List K) (t e : Nat) (he : e < u.nEqns)
    (x : Int) (hx : a.ijk.Mem x) :
    (run (solver1 u a) dt0 filt first more s t).psi e x = v e := by
  rw [C61_cyclic_is_periodic_1d_partial u a p N h _ (fun e _ => rfl) s hs dt0 filt first more t e he x hx]
  refine (run_unif (c := solver1 u a) h.wf (FreeFlow.ok (v := v) hv ⟨1, fun _ => rfl⟩ ?_) dt0 filt first more (fun _ _ _ => rfl) t).psi e he x
  intro f γ δ δ' k
  rcases hG with hd3 | ⟨g, hg⟩
  · exact (passes_constant (par1 p u.vc.div3 (fun d _ => δ d) (fun d _ => δ' d)) k (γ 0) 0 0 (fun i => by simp [par1, hd3]) (fun i => by simp [par1, hd3]) (fun _ => rfl) _).1
  refine passes_unif (par1 p u.vc.div3 (fun d _ => δ d) (fun d _ => δ' d)) (fun s => ?_) k (γ 0) _
  have e1 : p.G = fun _ => g := funext hg
  unfold Spec1.Par.shift par1
  rw [e1]
  cases u.vc.div3 <;> rfl

theorem unifN {S : Prop} {u : User K (Idx n) n} {a : CfgN n K} {p : SpecN.Par n K} {P : Fin n → Nat} {ds : List (Fin n)} (h : ProgN S u a P) (hc : CyclicSetupN a p P ds) (hF : FGood p.o p.F)
    (hG : ∃ g, ∀ x, p.st.G x = g)
    {v : Nat → K} (hv : FreeFlow u v) {s : St K (Idx n) n (MemN n K)} (hs : Begin (solverN u (solverHalo a.o) a) (fun e _ => v e) s)
    (dt0 : K) (filt : Nat → Bool) (first : Nat → K) (more : Nat → List K) (t e : Nat) (he : e < u.nEqns) {x : Idx n} (hx : InGrid P x) :
    (run (solverN u (solverHalo a.o) a) dt0 filt first more s t).psi e x = v e := by
  rw [cycN h hc hF (fun e x d => rfl) hs dt0 filt first more t e he hx]
  obtain ⟨g, hg⟩ := hG
  have e1 : p.st.G = fun _ => g := funext hg
  refine (run_unif (c := solverN u (solverHalo a.o) a) h.wf (FreeFlow.ok (v := v) hv ⟨if isset p.o oNug then g else 1, fun x => by unfold gFacN; rw [hg]⟩ ?_) dt0 filt first more (fun _ _ _ => rfl) t).psi e he x
  intro f γ δ δ' k
  refine passesN_unif (p := parN p u.vc.div3 (fun d _ => δ d) (fun d _ => δ' d)) hF (fun e k => ?_) k γ _
  unfold SpecN.Par.sh parN Stat.sh
  simp only [e1]
  cases u.vc.div3 <;> rfl

/-- C61, 2-D: uniform flow, as in 1-D, for every option set; uniform G-factor. -/
theorem C61_uniform_flow_2d_partial (u : User K (Idx 2) 2) (a : CfgN 2 K) (p : SpecN.Par 2 K) (P : Fin 2 → Nat) (h : Prog2 u a p P) (hG : ∃ g, ∀ x, p.st.G x = g)
    (v : Nat → K) (hv : FreeFlow u v) (s : St K (Idx 2) 2 (MemN 2 K)) (hs : Begin (solverN u (solverHalo a.o) a) (fun e _ => v e) s)
    (dt0 : K) (filt : Nat → Bool) (first : Nat → K) (more : Nat → List K) (t e : Nat) (he : e < u.nEqns) (x : Idx 2) (hx : InGrid P x) :
    (run (solverN u (solverHalo a.o) a) dt0 filt first more s t).psi e x = v e :=
  unifN h h.solver.setup h.solver.good hG hv hs dt0 filt first more t e he hx

/-- C61, 3-D: uniform flow, as in 2-D. -/
theorem C61_uniform_flow_3d_partial (u : User K (Idx 3) 3) (a : CfgN 3 K) (p : SpecN.Par 3 K) (P : Fin 3 → Nat) (h : Prog3 u a p P) (hG : ∃ g, ∀ x, p.st.G x = g)
    (v : Nat → K) (hv : FreeFlow u v) (s : St K (Idx 3) 3 (MemN 3 K)) (hs : Begin (solverN u (solverHalo a.o) a) (fun e _ => v e) s)
    (dt0 : K) (filt : Nat → Bool) (first : Nat → K) (more : Nat → List K) (t e : Nat) (he : e < u.nEqns) (x : Idx 3) (hx : InGrid P x) :
    (run (solverN u (solverHalo a.o) a) dt0 filt first more s t).psi e x = v e :=
  unifN h h.solver.setup h.solver.good hG hv hs dt0 filt first more t e he hx

/-- C43, 1-D, whole program: a current of uniform depth and momentum stays exactly as it is. -/
theorem C43_program_uniform_current_1d_partial (g : K) (u : User K Int 1) (a : Cfg1 K) (p : Spec1.Par K) (N : Nat) (h : Prog1 (swUser1 g u) a p N) (hv : u.vab = .noab) (hG : u.vc.div3 = false ∨ ∃ g, ∀ i, p.G i = g)
    (momentum depth : K) (s : St K Int 1 (Mem1 K)) (hs : Begin (solver1 (swUser1 g u) a) (fun e _ => if e = 1 then depth else momentum) s)
    (dt0 : K) (filt : Nat → Bool) (first : Nat → K) (more : Nat → List K) (t : Nat) (x : Int) (hx : a.ijk.Mem x) :
    (run (solver1 (swUser1 g u) a) dt0 filt first more s t).psi 0 x = momentum ∧ (run (solver1 (swUser1 g u) a) dt0 filt first more s t).psi 1 x = depth := by
  have hr : FreeFlow (swUser1 g u) (fun e => if e = 1 then depth else momentum) := by
    refine ⟨hv, fun dt b psi z h1 h2 e he hn x => ?_⟩
    show swForce1 g u.dx dt b psi z e x = 0
    unfold swForce1
    rw [h2 e he hn x, h1 1 (by simp [swUser1]), h1 1 (by simp [swUser1]), h1 1 (by simp [swUser1])]
    split_ifs <;> simp
  have := fun e he => C61_uniform_flow_1d_partial (swUser1 g u) a p N h hG (fun e => if e = 1 then depth else momentum) hr s hs dt0 filt first more t e he x hx
  exact ⟨by rw [this 0 (by simp [swUser1])]; simp, by rw [this 1 (by simp [swUser1])]; simp⟩

/-- C43, 2-D, whole program: uniform current, as in 1-D. -/
theorem C43_program_uniform_current_2d_partial (g : K) (u : User K (Idx 2) 2) (a : CfgN 2 K) (p : SpecN.Par 2 K) (P : Fin 2 → Nat) (h : Prog2 (swUserN g u) a p P) (hv : u.vab = .noab)
    (hG : ∃ g, ∀ x, p.st.G x = g) (momentum : Nat → K) (depth : K)
    (s : St K (Idx 2) 2 (MemN 2 K)) (hs : Begin (solverN (swUserN g u) (solverHalo a.o) a) (fun e _ => if e = 2 then depth else momentum e) s)
    (dt0 : K) (filt : Nat → Bool) (first : Nat → K) (more : Nat → List K) (t : Nat) (x : Idx 2) (hx : InGrid P x) :
    (∀ d : Fin 2, (run (solverN (swUserN g u) (solverHalo a.o) a) dt0 filt first more s t).psi d x = momentum d) ∧
      (run (solverN (swUserN g u) (solverHalo a.o) a) dt0 filt first more s t).psi 2 x = depth := by
  have hr : FreeFlow (swUserN g u) (fun e => if e = 2 then depth else momentum e) := by
    refine ⟨hv, fun dt b psi z h1 h2 e he hn x => ?_⟩
    show swForce g u.dx dt b psi z e x = 0
    have l : 2 < (swUserN g u).nEqns := by simp [swUserN]
    unfold swForce gradC
    rw [h2 e he hn x]
    split_ifs
    · rw [h1 2 l, h1 2 l, h1 2 l]; simp
    · rfl
  have := fun e he => C61_uniform_flow_2d_partial (swUserN g u) a p P h hG (fun e => if e = 2 then depth else momentum e) hr s hs dt0 filt first more t e he x hx
  refine ⟨fun d => ?_, by rw [this 2 (by simp [swUserN])]; simp⟩
  rw [this d (by simp only [swUserN]; omega)]
  exact if_neg (by omega)

/-! ### Concrete cases -/

/-- a current of depth 2 in 2-D, flux-corrected three-pass scheme with third-order terms, adaptive steps, junk in the halos -/
def ufU : User ℚ (Idx 2) 2 := demoUN 2
def ufP : SpecN.Par 2 ℚ := ⟨oFct ||| oTot ||| oDfl, 1/1000, formulae2 (oFct ||| oTot ||| oDfl) .exact .noextrp (1/1000), ⟨fun _ => 1, fun _ _ => 0, fun _ _ => 0⟩⟩
theorem ufProg : Prog2 (swUserN (10 : ℚ) ufU) (demo2 (oFct ||| oTot ||| oDfl) 3) ufP (fun _ => 4) := by
  have hc : CyclicSetupN (demo2 (oFct ||| oTot ||| oDfl) 3) ufP
      (fun _ => 4) [0, 1] := ⟨rfl, rfl, rfl, fun _ => rfl, fun d => by decide, by decide, rfl, fun _ => rfl, fun _ => rfl, fun _ _ => rfl, fun _ _ _ => rfl, fun _ _ _ => rfl, fun _ _ => rfl,
    fun _ _ _ => rfl, fun _ _ _ => rfl⟩
  exact swProgN ⟨hc, ⟨_, _, _, rfl⟩, by decide⟩ _ _ hc (by decide) (by unfold HaloCovered; decide) (fun _ _ => rfl) (fun _ _ _ => rfl)
/-- momenta 3 and -1 -/
def ufS : St ℚ (Idx 2) 2 (MemN 2 ℚ) :=
  { psi := fun e x => if 0 ≤ x 0 ∧ x 0 ≤ 4 ∧ 0 ≤ x 1 ∧ x 1 ≤ 4 then (if e = 2 then 2 else if e = 0 then 3 else -1) else 9, old := fun _ _ => 7, rhs := fun _ _ => 7, stash := fun _ _ _ => 7, vrhs := fun _ _ => 7
    GC := fun _ _ => 7, ndt := fun _ _ => 7, ndtt := fun _ _ => 7, tmp := demoMemN (fun _ => 7) (fun _ _ => 7) 7, timestep := 0, ds0 := 0, ds1 := 0 }
example (filt : Nat → Bool) (t : Nat) (x : Idx 2) (hx : InGrid (fun _ => 4) x) :
    let q := run (solverN (swUserN (10 : ℚ) ufU) (solverHalo (oFct ||| oTot ||| oDfl)) (demo2 (oFct ||| oTot ||| oDfl) 3)) (1/8) filt (fun t => 1 / (t + 8)) (fun _ => [1/16]) ufS t
    q.psi 0 x = 3 ∧ q.psi 1 x = -1 ∧ q.psi 2 x = 2 := by
  have := C43_program_uniform_current_2d_partial (10 : ℚ) ufU (demo2 (oFct ||| oTot ||| oDfl) 3) ufP (fun _ => 4) ufProg rfl ⟨1, fun _ => rfl⟩
    (fun e => if e = 0 then 3 else -1) 2 ufS ⟨rfl, rfl, rfl, fun e _ y hy => by
      have hb := of_decide_eq_true hy
      have h0 := hb 0
      have h1 := hb 1
      change (0 : Int) ≤ y 0 ∧ y 0 ≤ 4 at h0
      change (0 : Int) ≤ y 1 ∧ y 1 ≤ 4 at h1
      exact if_pos ⟨h0.1, h0.2, h1.1, h1.2⟩⟩ (1/8) filt (fun t => 1 / (t + 8)) (fun _ => [1/16]) t x hx
  exact ⟨this.1 0, this.1 1, this.2⟩

end VP
end Mpdata
