import Verif.Lemmas.ThreadGood
/-! # C26: results do not depend on the number of threads or on the interleaving -/
set_option linter.unusedSectionVars false
namespace Mpdata
namespace Threads
open Classical
variable {V : Type}

/-- **C26 (1-D)**: any number of time steps (each with its own right-hand sides and current time level) of 1-D MPDATA (any number of iterations, with or without
FCT, infinite gauge, divergent-flow option; any boundary conditions; arbitrary, e.g. non-associative, arithmetic) give the same memory whatever the numbers of threads
(at most one per grid point, as the constructor checks) and interleavings. -/
theorem C26_threads_1d (o : TOpts) (N T T' : Nat) (hT : 0 < T) (hT' : 0 < T') (hTN : T ≤ N) (hTN' : T' ≤ N) (steps : List (F1 V × Bool))
    (m m' m'' : A1 × Int × Unit → V) (h1 : PhasesExec (toPhases N T (steps.flatMap fun s => step1 s.1 o N s.2)) m m')
    (h2 : PhasesExec (toPhases N T' (steps.flatMap fun s => step1 s.1 o N s.2)) m m'') : m' = m'' := by
  funext l
  refine phases_indep_junk hT hT' hTN hTN' (J := fun _ => False) ?_ (fun _ _ => rfl) h1 h2 l id
  intro ss hs
  obtain ⟨s, -, hs⟩ := List.mem_flatMap.1 hs
  have g := fun T => step1_good s.1 o N T s.2 ss hs
  exact phaseIs_or (fun T => (g T).1) (g 0).2.1 (g 0).2.2

section
variable (F : F2 V) (o : TOpts) (N M : Nat) (hM : 0 < M) (n : Bool) (iter : Nat)
include hM

/-- the well-formedness half of race freedom -/
def Wf (ss : List (S A2 Int V)) : Prop := ss.Pairwise Sep ∧ ∀ s ∈ ss, s.ys.Nodup

theorem wf_bc0 (a r s lo hi f) : Wf (V := V) [bc0 o N a r s (rows lo hi) f] := by
  refine ⟨by simp, ?_⟩
  intro s' hs'
  rw [List.mem_singleton] at hs'; subst hs'
  unfold bc0; split_ifs <;> exact nodup_rows _ _

theorem wf_bc1 (a d ys f) (h : ys.Nodup) : Wf (V := V) [bc1 a d ys f] := by
  refine ⟨by simp, ?_⟩
  intro s' hs'
  rw [List.mem_singleton] at hs'; subst hs'
  exact h

theorem wf_xchng2 (a : A2) : ∀ ss ∈ xchng2 F o N M a, Wf ss := by
  intro ss h
  simp only [xchng2, List.mem_cons, List.not_mem_nil, or_false] at h
  rcases h with rfl | rfl | rfl
  · exact wf_bc0 o N M hM _ _ _ _ _ _
  · exact wf_bc0 o N M hM _ _ _ _ _ _
  · exact wf_bc1 M hM _ _ _ _ (nodup_haloRows o M)

theorem wf_alng2 (a : Bool → A2) (ha : a false ≠ a true) : ∀ ss ∈ alng2 F o N M a, Wf ss := by
  intro ss h
  simp only [alng2, List.mem_cons, List.not_mem_nil, or_false] at h
  rcases h with rfl | rfl | rfl
  · refine ⟨by simp [Sep, zero2, bc0, ha.symm], ?_⟩
    simp only [List.mem_cons, List.mem_nil_iff, or_false]
    rintro s (rfl | rfl)
    · exact nodup_edgeRows M hM
    · exact nodup_rows _ _
  · refine ⟨by simp [Sep, zero2, bc0, ha.symm], ?_⟩
    simp only [List.mem_cons, List.mem_nil_iff, or_false]
    rintro s (rfl | rfl)
    · exact nodup_edgeRows M hM
    · exact nodup_rows _ _
  · exact wf_bc1 M hM _ _ _ _ (nodup_haloFaceRows o M hM)

theorem wf_nrml2 (a : Bool → A2) (ha : a false ≠ a true) : ∀ ss ∈ nrml2 F o N M a, Wf ss := by
  intro ss h
  simp only [nrml2, List.mem_cons, List.not_mem_nil, or_false] at h
  rcases h with rfl | rfl
  · refine ⟨by simp [Sep, ha], ?_⟩
    intro s hs
    simp only [List.mem_cons, List.not_mem_nil, or_false] at hs
    rcases hs with rfl | rfl
    · exact nodup_haloRows o M
    · exact nodup_rows _ _
  · exact wf_bc0 o N M hM _ _ _ _ _ _

theorem wf_xflux2 (a : Bool → A2) : ∀ ss ∈ xflux2 F N M a, Wf ss := by
  intro ss h
  simp only [xflux2, List.mem_cons, List.not_mem_nil, or_false] at h
  rcases h with rfl | rfl | rfl
  · exact ⟨by simp, by simp [nodup_rows]⟩
  · exact ⟨by simp, by simp [nodup_rows]⟩
  · refine ⟨by simp, ?_⟩
    intro s hs; rw [List.mem_singleton] at hs; subst hs
    exact nodup_edgeRows M hM

omit hM in
theorem wf_compute (g : Bool → A2) (hg : g = corr2 iter ∨ g = .flux ∨ g = .mono) :
    Wf (anti2 F M n iter) ∧ Wf (flux2 F M n (corr2 iter) iter) ∧ Wf (anti2 F M n iter ++ flux2 F M n (corr2 iter) iter) ∧
    Wf (fctInit2 F o M n ++ flux2 F M n .gc 0) ∧ Wf (betas2 F M n (corr2 iter) iter ++ mono2 F M n iter) ∧
    Wf (flux2b F M n iter ++ betas2 F M n .flux iter) ∧ Wf (mono2 F M n iter ++ flux2 F M n .mono iter) ∧ Wf [donor2 F M n g iter] := by
  refine ⟨?_, ?_, ?_, ?_, ?_, ?_, ?_, ?_⟩
  · simp [Wf, Sep, anti2, corr2, nodup_rows]
  · simp [Wf, Sep, flux2, nodup_rows]
  · simp [Wf, Sep, anti2, flux2, corr2, nodup_rows]
  · unfold fctInit2; split_ifs <;> simp [Wf, Sep, flux2, nodup_rows]
  · simp [Wf, Sep, betas2, mono2, nodup_rows]
  · simp [Wf, Sep, betas2, flux2b, nodup_rows]
  · simp [Wf, Sep, mono2, flux2, nodup_rows]
  · simp [Wf, donor2, nodup_rows]

theorem iter2_wf : ∀ ss ∈ iter2 F o N M n iter, Wf ss := by
  intro ss h
  have hne : corr2 iter false ≠ corr2 iter true := by simp [corr2]
  have c1 := wf_compute F o M n iter (corr2 iter) (Or.inl rfl)
  have c2 := wf_compute F o M n iter .flux (Or.inr (Or.inl rfl))
  have c3 := wf_compute F o M n iter .mono (Or.inr (Or.inr rfl))
  have all : ∀ ss, (ss ∈ xchng2 F o N M (.psi n) ∨ ss ∈ alng2 F o N M (corr2 iter) ∨ ss ∈ nrml2 F o N M (corr2 iter) ∨
      ss ∈ xflux2 F N M (corr2 iter) ∨ ss ∈ xflux2 F N M .flux ∨ ss ∈ xflux2 F N M .mono ∨ ss = anti2 F M n iter ∨ ss = flux2 F M n (corr2 iter) iter ∨
      ss = anti2 F M n iter ++ flux2 F M n (corr2 iter) iter ∨ ss = betas2 F M n (corr2 iter) iter ++ mono2 F M n iter ∨
      ss = flux2b F M n iter ++ betas2 F M n .flux iter ∨ ss = mono2 F M n iter ++ flux2 F M n .mono iter ∨
      ss = [donor2 F M n (corr2 iter) iter] ∨ ss = [donor2 F M n .flux iter] ∨ ss = [donor2 F M n .mono iter]) → Wf ss := by
    rintro ss (h | h | h | h | h | h | rfl | rfl | rfl | rfl | rfl | rfl | rfl | rfl | rfl)
    · exact wf_xchng2 F o N M hM _ ss h
    · exact wf_alng2 F o N M hM _ hne ss h
    · exact wf_nrml2 F o N M hM _ hne ss h
    · exact wf_xflux2 F N M hM _ ss h
    · exact wf_xflux2 F N M hM _ ss h
    · exact wf_xflux2 F N M hM _ ss h
    · exact c1.1
    · exact c1.2.1
    · exact c1.2.2.1
    · exact c1.2.2.2.2.1
    · exact c1.2.2.2.2.2.1
    · exact c1.2.2.2.2.2.2.1
    · exact c1.2.2.2.2.2.2.2
    · exact c2.2.2.2.2.2.2.2
    · exact c3.2.2.2.2.2.2.2
  apply all
  clear all c1 c2 c3 hne
  unfold iter2 joinIf at h
  split_ifs at h <;> simp only [List.mem_append, List.mem_cons, List.not_mem_nil, or_false] at h <;> tauto

theorem iters2_all (hN : 0 < N) (T : Nat) (hno : o.fct = false ∨ o.iga = true) :
    ∀ k n iter, ∀ ss ∈ iters2 F o N M k n iter, (Good N T ss [] ss ∨ OwnPhase N ss) ∧ Wf ss := by
  intro k
  induction k with
  | zero => intro n iter ss h; simp [iters2] at h
  | succ k ih =>
    intro n iter ss h
    rw [iters2, List.mem_append] at h
    rcases h with h | h
    · exact ⟨iter2_good F o N M T n iter hN hM hno ss h, iter2_wf F o N M hM n iter ss h⟩
    · exact ih _ _ ss h

theorem step2_all (hN : 0 < N) (T : Nat) (hno : o.fct = false ∨ o.iga = true) : ∀ ss ∈ step2 F o N M n, (Good N T ss [] ss ∨ OwnPhase N ss) ∧ Wf ss := by
  intro ss h
  have c := wf_compute F o M n 0 .flux (Or.inr (Or.inl rfl))
  unfold step2 at h
  simp only [List.mem_append, List.mem_cons, List.not_mem_nil, or_false] at h
  rcases h with (((h | rfl) | h) | rfl) | h
  · exact ⟨Or.inr (xchng2_own F o N M _ ss h), wf_xchng2 F o N M hM _ ss h⟩
  · exact ⟨Or.inl (init_flux2_good F o N M T n), c.2.2.2.1⟩
  · exact ⟨Or.inr (xflux2_own F N M hM _ ss h), wf_xflux2 F N M hM _ ss h⟩
  · exact ⟨Or.inl (donor2_good F N M T n _ (by simp) _), c.2.2.2.2.2.2.2⟩
  · exact iters2_all F o N M hM hN T hno _ _ _ ss h

end

/-- **C26 (2-D)**: same for 2-D upwind/MPDATA, except for FCT without the infinite-gauge option: any number of iterations, any boundary
conditions, any arithmetic.  What is missing: the excluded combination, for which the statement is false (`C26_fails_fct_2d`). -/
theorem C26_threads_2d_partial (o : TOpts) (N M T T' : Nat) (hM : 0 < M) (hT : 0 < T) (hT' : 0 < T') (hTN : T ≤ N) (hTN' : T' ≤ N)
    (hno : o.fct = false ∨ o.iga = true) (steps : List (F2 V × Bool)) (m m' m'' : A2 × Int × Int → V)
    (h1 : PhasesExec (toPhases N T (steps.flatMap fun s => step2 s.1 o N M s.2)) m m')
    (h2 : PhasesExec (toPhases N T' (steps.flatMap fun s => step2 s.1 o N M s.2)) m m'') : m' = m'' := by
  funext l
  refine phases_indep_junk hT hT' hTN hTN' (J := fun _ => False) ?_ (fun _ _ => rfl) h1 h2 l id
  intro ss hs
  obtain ⟨s, -, hs⟩ := List.mem_flatMap.1 hs
  have g := fun T => step2_all s.1 o N M hM s.2 (by omega) T hno ss hs
  exact phaseIs_or (fun T => (g T).1) (g 0).2.1 (g 0).2.2

/-- every program can be executed: the hypotheses of the theorems above are met for any memory, thread count and options -/
theorem C26_executions_exist {A Y : Type} [DecidableEq A] [DecidableEq Y] (ps : List (List (S A Y V))) (N T : Nat) (m : A × Int × Y → V) :
    ∃ m', PhasesExec (toPhases N T ps) m m' := by
  induction ps generalizing m with
  | nil => exact ⟨m, PhasesExec.nil m⟩
  | cons ss ps ih =>
    obtain ⟨m1, h1⟩ := phase_exec_exists (progOf (ss.map fun s => s.toStmt N T)) m
    obtain ⟨m2, h2⟩ := ih m1
    exact ⟨m2, PhasesExec.cons _ _ m m1 m2 h1 h2⟩

/-- 1-D, FCT, three passes, two steps, one thread against three: both runs exist and end with the same memory -/
example (G H : F1 Int) (m : A1 × Int × Unit → Int) : ∃ m',
    PhasesExec (toPhases 4 1 ([(G, false), (H, true)].flatMap fun s => step1 s.1 ⟨true, false, false, false, 3, 2⟩ 4 s.2)) m m' ∧
    PhasesExec (toPhases 4 3 ([(G, false), (H, true)].flatMap fun s => step1 s.1 ⟨true, false, false, false, 3, 2⟩ 4 s.2)) m m' := by
  obtain ⟨m', h1⟩ := C26_executions_exist ([(G, false), (H, true)].flatMap fun s => step1 s.1 ⟨true, false, false, false, 3, 2⟩ 4 s.2) 4 1 m
  obtain ⟨m'', h2⟩ := C26_executions_exist ([(G, false), (H, true)].flatMap fun s => step1 s.1 ⟨true, false, false, false, 3, 2⟩ 4 s.2) 4 3 m
  have := C26_threads_1d _ 4 1 3 (by decide) (by decide) (by decide) (by decide) _ _ _ _ h1 h2
  exact ⟨m', h1, this ▸ h2⟩

/-- 2-D, FCT with infinite gauge -/
example (G H : F2 Int) (m : A2 × Int × Int → Int) : ∃ m',
    PhasesExec (toPhases 4 1 ([(G, false), (H, true)].flatMap fun s => step2 s.1 ⟨true, true, false, false, 3, 2⟩ 4 5 s.2)) m m' ∧
    PhasesExec (toPhases 4 3 ([(G, false), (H, true)].flatMap fun s => step2 s.1 ⟨true, true, false, false, 3, 2⟩ 4 5 s.2)) m m' := by
  obtain ⟨m', h1⟩ := C26_executions_exist ([(G, false), (H, true)].flatMap fun s => step2 s.1 ⟨true, true, false, false, 3, 2⟩ 4 5 s.2) 4 1 m
  obtain ⟨m'', h2⟩ := C26_executions_exist ([(G, false), (H, true)].flatMap fun s => step2 s.1 ⟨true, true, false, false, 3, 2⟩ 4 5 s.2) 4 3 m
  have := C26_threads_2d_partial _ 4 5 1 3 (by decide) (by decide) (by decide) (by decide) (by decide) (Or.inr rfl) _ _ _ _ h1 h2
  exact ⟨m', h1, this ▸ h2⟩

end Threads
end Mpdata
