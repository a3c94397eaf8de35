import Verif.Spec.Taylor
import Verif.Spec.Periodic1
/-! # Specification: solutions of the 1-D advection equation and how they are sampled on the grid
Positions and times are measured from the grid point and the time level at which the accuracy is assessed. -/
namespace Mpdata
variable {K : Type} [Field K] [LinearOrder K]

/-- `psi` solves `G ∂ψ/∂t + ∂(Uψ)/∂x = 0` near the origin, `U = G u` being the flux velocity; `p`, `u`, `g` are the Taylor coefficients of `psi`, `U`, `G`
(up to third order, so that the equation and its first two derivatives hold at the origin) -/
structure Advects1 (psi U : K → K → K) (G : K → K) (p u g : Ser2 K) : Prop where
  hp : Taylor2 psi p
  hu : Taylor2 U u
  hg : Taylor2 (fun x _ => G x) g
  hg0 : g 0 0 ≠ 0
  hgt : ∀ m n, m + n ≤ 2 → g m (n + 1) = 0
  pde : ∀ m n, m + n ≤ 2 → Ser2.mul g p.dt m n + (Ser2.mul u p).dx m n = 0

/-- the Courant number at the face `k + 1/2` for grid spacing `h` and time step `lam * h`, computed from the velocity `U` by one of the announced interpolations in space
(values at the face, averages of two or of four neighbours) and in time (values in the middle of the step, or extrapolated from the beginnings of this and the previous step) -/
def gcSample1 (si : SptlIntrp) (te : TmprlExtrp) (U : K → K → K) (lam h : K) (k : Int) : K :=
  let face : K → K := fun t =>
    match si with
    | .exact => U ((k + 1 / 2) * h) t
    | .aver2 => (U (k * h) t + U ((k + 1) * h) t) / 2
    | .aver4 => (7 * (U (k * h) t + U ((k + 1) * h) t) - (U ((k - 1) * h) t + U ((k + 2) * h) t)) / 12
  match te with
  | .noextrp => lam * face (1 / 2 * lam * h)
  | .linear2 => lam * ((3 * face (0 * h) - face (-1 * lam * h)) / 2)

/-- the values `w h k` that are supplied at the faces `k + 1/2` for grid spacing `h` depend smoothly on the position and on the spacing, and to leading order in the spacing they are
the time step times the time derivative of the Courant numbers (so the derivative may be taken at another instant within the step, or averaged over neighbouring points) -/
def NdtSampled1 (u : Ser2 K) (lam : K) (w : K → Int → K) : Prop :=
  ∃ (W : K → K → K) (a : Ser2 K), Taylor2 W a ∧ (∀ h (k : Int), w h k = W ((k + 1 / 2) * h) h) ∧ ∀ m, a m 0 = 0 ∧ a m 1 = lam * (lam * u.dt m 0)

/-- the same for the squared time step times the second time derivative of the Courant numbers -/
def NdttSampled1 (u : Ser2 K) (lam : K) (w : K → Int → K) : Prop :=
  ∃ (W : K → K → K) (a : Ser2 K), Taylor2 W a ∧ (∀ h (k : Int), w h k = W ((k + 1 / 2) * h) h) ∧ ∀ m, a m 0 = 0 ∧ a m 1 = 0 ∧ a m 2 = lam ^ 2 * (lam * u.dt.dt m 0)

/-- around the grid point `i`, three points to each side and inside the domain, the field, the Courant numbers and the G-factor that are handed to the program are samples of
`psi` at time zero, of the velocity `U` and of `G`, with grid spacing `h` and time step `lam * h` -/
structure OnGrid1 (first last i : Int) (field gc gfac : Int → K) (si : SptlIntrp) (te : TmprlExtrp) (psi U : K → K → K) (G : K → K) (lam h : K) : Prop where
  left : first ≤ i - 3
  right : i + 3 ≤ last
  field : ∀ k : Int, -3 ≤ k → k ≤ 3 → field (i + k) = psi (k * h) 0
  gc : ∀ k : Int, -3 ≤ k → k ≤ 2 → gc (i + k) = gcSample1 si te U lam h k
  gfac : ∀ k : Int, -3 ≤ k → k ≤ 3 → gfac (i + k) = G (k * h)

end Mpdata
