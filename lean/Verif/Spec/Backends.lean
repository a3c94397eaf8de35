import Verif.Model.Backends
/-! # Specification for C69: what advancing a solver has to do to its domain -/
namespace Mpdata
namespace Backend

/-- The subdomains run are pairwise distinct subdomains of the solver, and every point of the divided dimension belongs to exactly one of them. -/
def WholeDomain (o : Solver) (ran : List Nat) : Prop :=
  ran.Nodup ∧ (∀ t ∈ ran, t < o.algos) ∧ ∀ x : Int, 0 ≤ x → x < o.grid (splitDim o.nDims) → ∃! t, t ∈ ran ∧ (o.range t).Mem x

/-- operations that leave the number of OpenMP threads of the process alone -/
def Op.quiet : Op → Prop
  | .construct _ k _ _ => k ≠ .openmp
  | .advance _ => True
  | .setNumThreads _ => False

/-- operations that construct OpenMP solvers only on grids with at least `T` points along x and along the divided dimension -/
def Op.roomy (T : Nat) : Op → Prop
  | .construct _ k nDims grid => k = .openmp → T ≤ grid 0 ∧ T ≤ grid (splitDim nDims)
  | .advance _ => True
  | .setNumThreads _ => False

end Backend
end Mpdata
