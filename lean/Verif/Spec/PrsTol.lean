import Verif.Model.PrsProg
import Mathlib.Tactic.Positivity
/-! # How divergence-free a pressure scheme leaves the flow -/
namespace Mpdata
namespace PP
variable {K : Type} [Field K] [LinearOrder K] {n : Nat}

/-- the bound `b` on the divergence at any grid point that goes with the tolerance `tol`: the tolerance itself for the minimal-residual and the conjugate-residual scheme, the square root of the number of
grid points times the tolerance for `gcrk` with several search directions -/
def Guarantees (prs : Scheme) (N : Fin n → Nat) (tol b : K) : Prop :=
  match prs with
  | .mr => tol ≤ b
  | .gcr 0 => tol ≤ b
  | .gcr (_ + 1) => 0 ≤ b ∧ (Fintype.card (Prs.Pts N) : K) * tol ^ 2 ≤ b ^ 2

theorem Guarantees.div [IsStrictOrderedRing K] {prs : Scheme} {N : Fin n → Nat} {tol b : K} (h : Guarantees prs N tol b) {dt : K} (hdt : 0 < dt) : Guarantees prs N (tol / dt) (b / dt) := by
  match prs, h with
  | .mr, h => exact div_le_div_of_nonneg_right (show tol ≤ b from h) hdt.le
  | .gcr 0, h => exact div_le_div_of_nonneg_right (show tol ≤ b from h) hdt.le
  | .gcr (_ + 1), ⟨h1, h2⟩ =>
    refine ⟨div_nonneg h1 hdt.le, ?_⟩
    rw [div_pow, div_pow, ← mul_div_assoc]
    exact div_le_div_of_nonneg_right h2 (by positivity)

end PP
end Mpdata
