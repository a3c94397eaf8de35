import Verif.Spec.Taylor
import Verif.Spec.SchemeN
import Mathlib.RingTheory.MvPowerSeries.Derivative
/-! # Specification: solutions of the advection equation in any dimension and how they are sampled on the grid
Positions and times are measured from the grid point and the time level at which the accuracy is assessed. -/
namespace Mpdata
variable {n : Nat} {K : Type} [Field K] [LinearOrder K]

/-- Taylor series in the position (`some d`) and in time (`none`) -/
abbrev TS (n : Nat) (K : Type) := MvPowerSeries (Option (Fin n)) K

namespace TS
/-- time derivative -/
noncomputable def dt (p : TS n K) : TS n K := MvPowerSeries.pderiv K none p
/-- derivative in space -/
noncomputable def dx (d : Fin n) (p : TS n K) : TS n K := MvPowerSeries.pderiv K (some d) p
/-- value at the origin -/
noncomputable def val (p : TS n K) : K := MvPowerSeries.constantCoeff p
/-- derivative in the direction `(x, t)` of space-time -/
noncomputable def along (x : Fin n → K) (t : K) (p : TS n K) : TS n K := t • dt p + ∑ d, x d • dx d p
/-- Taylor polynomial of the third degree at the position `x` and the time `t` -/
noncomputable def poly3 (p : TS n K) (x : Fin n → K) (t : K) : K :=
  val p + val (along x t p) + val (along x t (along x t p)) / 2 + val (along x t (along x t (along x t p))) / 6
/-- equality at time zero: of all coefficients that do not involve time -/
def EqAt0 (p q : TS n K) : Prop := ∀ m : Option (Fin n) →₀ ℕ, m none = 0 → MvPowerSeries.coeff m p = MvPowerSeries.coeff m q
end TS
open TS

/-- near the origin `f` agrees with the Taylor polynomial of the third degree up to terms of the fourth order -/
def TaylorN (f : (Fin n → K) → K → K) (p : TS n K) : Prop :=
  ∃ M r : K, 0 < r ∧ ∀ x t, (∀ d, |x d| ≤ r) → |t| ≤ r → |f x t - p.poly3 x t| ≤ M * ((∑ d, |x d|) + |t|) ^ 4

/-- `psi` solves `G ∂ψ/∂t + Σ_d ∂(U_d ψ)/∂x_d = 0`, `U_d = G u_d` being the flux velocities; `p`, `u d`, `g` are the Taylor series of the smooth functions `psi`, `U d`, `G` -/
structure AdvectsN (psi : (Fin n → K) → K → K) (U : Fin n → (Fin n → K) → K → K) (G : (Fin n → K) → K) (p : TS n K) (u : Fin n → TS n K) (g : TS n K) : Prop where
  hp : TaylorN psi p
  hu : ∀ d, TaylorN (U d) (u d)
  hg : TaylorN (fun x _ => G x) g
  hg0 : g.val ≠ 0
  hgt : g.dt = 0
  pde : g * p.dt + ∑ d, (u d * p).dx d = 0

/-- the location `x`, displaced by `s` in dimension `d`, for grid spacing `h` -/
def place (h : K) (d : Fin n) (s : K) (x : Idx n) : Fin n → K := fun e => ((x e : K) + if e = d then s else 0) * h

/-- the Courant number at the face of dimension `d` between the grid point `x` and its upper neighbour, for grid spacing `h` (in all dimensions) and time step `lam * h`, computed
from the flux velocity `U` by one of the announced interpolations in space (values at the face, averages of two or of four neighbours) and in time (values in the middle of the
step, or extrapolated from the beginnings of this and the previous step) -/
def gcSampleN (si : SptlIntrp) (te : TmprlExtrp) (U : (Fin n → K) → K → K) (lam h : K) (d : Fin n) (x : Idx n) : K :=
  let face : K → K := fun t =>
    match si with
    | .exact => U (place h d (1 / 2) x) t
    | .aver2 => (U (place h d 0 x) t + U (place h d 1 x) t) / 2
    | .aver4 => (7 * (U (place h d 0 x) t + U (place h d 1 x) t) - (U (place h d (-1) x) t + U (place h d 2 x) t)) / 12
  match te with
  | .noextrp => lam * face (1 / 2 * lam * h)
  | .linear2 => lam * ((3 * face (0 * h) - face (-1 * lam * h)) / 2)

/-- the values `w h x` that are supplied at the faces of dimension `d` for grid spacing `h` depend smoothly on the position and on the spacing (which takes the place of time in the
series `a`), and to leading order in the spacing they are the time step times the time derivative of the Courant numbers -/
def NdtSampledN (d : Fin n) (u : TS n K) (lam : K) (w : K → Idx n → K) : Prop :=
  ∃ (W : (Fin n → K) → K → K) (a : TS n K), TaylorN W a ∧ (∀ h x, w h x = W (place h d (1 / 2) x) h) ∧ EqAt0 a 0 ∧ EqAt0 a.dt (lam • lam • u.dt)

/-- the same for the squared time step times the second time derivative of the Courant numbers -/
def NdttSampledN (d : Fin n) (u : TS n K) (lam : K) (w : K → Idx n → K) : Prop :=
  ∃ (W : (Fin n → K) → K → K) (a : TS n K), TaylorN W a ∧ (∀ h x, w h x = W (place h d (1 / 2) x) h) ∧ EqAt0 a 0 ∧ EqAt0 a.dt 0 ∧ EqAt0 ((1 / 2 : K) • a.dt.dt) (lam ^ 2 • lam • u.dt.dt)

/-- the grid points at most three points away in every dimension -/
def Window (k : Idx n) : Prop := ∀ e, -3 ≤ k e ∧ k e ≤ 3

/-- around the grid point `i`, three points to each side in every dimension and inside the domain, the field, the Courant numbers and the G-factor that are handed to the program
are samples of `psi` at time zero, of the velocities `U` and of `G`, with grid spacing `h` and time step `lam * h` -/
structure OnGridN (P : Fin n → Nat) (i : Idx n) (field : Sca n K) (gc : Vec n K) (gfac : Sca n K) (si : SptlIntrp) (te : TmprlExtrp)
    (psi : (Fin n → K) → K → K) (U : Fin n → (Fin n → K) → K → K) (G : (Fin n → K) → K) (lam h : K) : Prop where
  inside : ∀ d, 0 ≤ i d - 3 ∧ i d + 3 ≤ P d
  field : ∀ k, Window k → field (i + k) = psi (fun d => k d * h) 0
  gc : ∀ d k, Window k → k d ≤ 2 → gc d (i + k) = gcSampleN si te (U d) lam h d k
  gfac : ∀ k, Window k → gfac (i + k) = G (fun d => k d * h)

end Mpdata
