import Verif.Lemmas.ThreadGood3
import Verif.Props.Threads
/-! # C26 in three dimensions: results do not depend on the number of threads or on the interleaving -/
namespace Mpdata
namespace Threads
variable {V : Type}

/-- a run: `hook_ante_loop`, then time steps; each step has its own right-hand sides (which may thus depend on time) and its own current time level -/
def run3 (o : TOpts) (div3 : Bool) (L N M : Nat) (F0 : F3 V) (steps : List (F3 V × Bool)) : List (List (S A3 IK V)) :=
  anteLoop3 F0 o div3 L N M ++ steps.flatMap fun s => step3 s.1 o div3 L N M s.2

/-- **C26 (3-D)**: a run of 3-D upwind/MPDATA of any number of steps and corrective iterations, any boundary conditions in the scope of the model, any (also
non-associative) arithmetic, gives the same memory whatever the numbers of threads (at most one per point of the split dimension) and interleavings, except for
values of component 0 of the antidiffusive velocity in those corners of the halo which lie more than one column outside in dimension 1 and outside in dimension 2
(without `div_3rd`, which adds a barrier).  Two threads may write these corners in either order.
What is missing: FCT without the infinite-gauge option, for which the statement is false (`C26_fails_fct_3d`). -/
theorem C26_threads_3d_partial (o : TOpts) (div3 : Bool) (L N M T T' : Nat) (hM : 0 < M) (hT : 0 < T) (hT' : 0 < T') (hTN : T ≤ N) (hTN' : T' ≤ N)
    (hh : 1 ≤ o.halo) (hno : o.fct = false ∨ o.iga = true) (F0 : F3 V) (steps : List (F3 V × Bool)) (m m' m'' : A3 × Int × IK → V)
    (h1 : PhasesExec (toPhases N T (run3 o div3 L N M F0 steps)) m m') (h2 : PhasesExec (toPhases N T' (run3 o div3 L N M F0 steps)) m m'')
    (a : A3) (j i k : Int) (hne : m' (a, j, (i, k)) ≠ m'' (a, j, (i, k))) :
    div3 = false ∧ (∃ b, a = .tmp b 0) ∧ ¬ (-1 ≤ j ∧ j ≤ N) ∧ ¬ (0 ≤ k ∧ k ≤ M - 1) := by
  by_contra hJ
  refine hne (phases_indep_junk hT hT' hTN hTN' (J := Junk3 div3 N M) ?_ (fun _ _ => rfl) h1 h2 _ hJ)
  intro ss hs
  rcases List.mem_append.1 hs with hs | hs
  · exact anteLoop3_ok F0 o div3 L N M (by omega) hh ss hs
  · obtain ⟨s, -, hs⟩ := List.mem_flatMap.1 hs
    exact step3_ok s.1 o div3 L N M (by omega) hM hh hno s.2 ss hs

/-- **C26 (3-D), what a user sees**: the advected field, at both time levels, is exactly the same -/
theorem C26_threads_3d_psi_partial (o : TOpts) (div3 : Bool) (L N M T T' : Nat) (hM : 0 < M) (hT : 0 < T) (hT' : 0 < T') (hTN : T ≤ N) (hTN' : T' ≤ N)
    (hh : 1 ≤ o.halo) (hno : o.fct = false ∨ o.iga = true) (F0 : F3 V) (steps : List (F3 V × Bool)) (m m' m'' : A3 × Int × IK → V)
    (h1 : PhasesExec (toPhases N T (run3 o div3 L N M F0 steps)) m m') (h2 : PhasesExec (toPhases N T' (run3 o div3 L N M F0 steps)) m m'')
    (b : Bool) (j i k : Int) : m' (.psi b, j, (i, k)) = m'' (.psi b, j, (i, k)) := by
  by_contra hne
  obtain ⟨-, ⟨b', hb⟩, -⟩ := C26_threads_3d_partial o div3 L N M T T' hM hT hT' hTN hTN' hh hno F0 steps m m' m'' h1 h2 (.psi b) j i k hne
  cases hb

/-- two runs of FCT with the infinite-gauge option, three passes and two steps, one thread against four: both exist, and end with the same field -/
example (F G H : F3 Int) (m : A3 × Int × IK → Int) : ∃ m' m'',
    PhasesExec (toPhases 4 1 (run3 ⟨true, true, false, false, 3, 2⟩ false 5 4 6 F [(G, false), (H, true)])) m m' ∧
    PhasesExec (toPhases 4 4 (run3 ⟨true, true, false, false, 3, 2⟩ false 5 4 6 F [(G, false), (H, true)])) m m'' ∧
    ∀ b j i k, m' (.psi b, j, (i, k)) = m'' (.psi b, j, (i, k)) := by
  obtain ⟨m', h1⟩ := C26_executions_exist (run3 ⟨true, true, false, false, 3, 2⟩ false 5 4 6 F [(G, false), (H, true)]) 4 1 m
  obtain ⟨m'', h2⟩ := C26_executions_exist (run3 ⟨true, true, false, false, 3, 2⟩ false 5 4 6 F [(G, false), (H, true)]) 4 4 m
  exact ⟨m', m'', h1, h2, C26_threads_3d_psi_partial _ _ _ _ _ _ _ (by decide) (by decide) (by decide) (by decide) (by decide) (by decide) (Or.inr rfl) _ _ _ _ _ h1 h2⟩

end Threads
end Mpdata
