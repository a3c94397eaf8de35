import Verif.Model.Nabla
import Mathlib.Data.Finset.Lattice.Fold
import Mathlib.Algebra.Order.Group.Abs
import Mathlib.Data.Fintype.Pi
import Mathlib.Data.Int.Interval
/-! # Pressure solver

Models `solvers/detail/mpdata_rhs_vip_prs_common.hpp` (`lap`, `pressure_solver_update`, `pressure_solver_apply`), the minimal-residual solver
`mpdata_rhs_vip_prs_mr.hpp` and the conjugate-residual solver `mpdata_rhs_vip_prs_gcrk.hpp`.

Simplifications: fields live on the interior points `X` of the whole domain (one thread; the reductions `prs_sum`, `min`, `max` are the exact sums and extrema,
see C27); halo contents are produced by the fill operators whenever they are read, as the code refills them in every `lap`. -/
namespace Mpdata
namespace Prs

/-! ## The iterations, for any operator -/
section solver
variable {K X : Type} [Field K] [LinearOrder K] [Fintype X] [Nonempty X]

/-- `mem->max` / `mem->min` over the interior (C27) -/
def maxF (f : X → K) : K := Finset.univ.sup' Finset.univ_nonempty f
def minF (f : X → K) : K := Finset.univ.inf' Finset.univ_nonempty f

/-- `prs_sum(a, b)` (mpdata_rhs_vip_prs_common.hpp:45-48) -/
def dot (a b : X → K) : K := ∑ x, a x * b x

/-- `error` (mpdata_rhs_vip_prs_mr.hpp:50-53) -/
def maxAbs (f : X → K) : K := max |maxF f| |minF f|

/-- state of the minimal-residual solver: potential, residual, last `beta`, `converged` -/
structure MrSt (K X : Type) where
  Phi : X → K
  err : X → K
  beta : K
  conv : Bool

/-- `pressure_solver_loop_body` (mpdata_rhs_vip_prs_mr.hpp:40-56); `L` is `lap(.., false, simple)` -/
def mrBody (L : (X → K) → (X → K)) (tol : K) (s : MrSt K X) : MrSt K X :=
  let lapErr := L s.err
  let den := dot lapErr lapErr
  let beta := if den ≠ 0 then - dot s.err lapErr / den else s.beta
  let Phi := fun x => s.Phi x + beta * s.err x
  let err := fun x => s.err x + beta * lapErr x
  ⟨Phi, err, beta, if maxAbs err ≤ tol then true else s.conv⟩

/-- the pseudo-time loop (mpdata_rhs_vip_prs_common.hpp:115-126) for a body and a convergence flag: `none` is the exception
"stuck in pressure solver"; `fuel` counts down from the cap (10000), the exception being raised in iteration cap + 1 -/
def prsLoop {S : Type} (body : S → S) (conv : S → Bool) : Nat → S → Option S
  | 0, _ => none
  | fuel + 1, s => if conv (body s) then some (body s) else prsLoop body conv fuel (body s)

/-- `pressure_solver_update` (mpdata_rhs_vip_prs_common.hpp:101-131) with the minimal-residual body; `LE` is `lap(Phi, .., true, simple)` -/
def mrUpdate (LE L : (X → K) → (X → K)) (tol : K) (cap : Nat) (Phi : X → K) (beta0 : K) : Option (MrSt K X) :=
  prsLoop (mrBody L tol) MrSt.conv cap ⟨Phi, LE Phi, beta0, false⟩

/-- state of the generalised conjugate-residual solver -/
structure GcrSt (K X : Type) where
  Phi : X → K
  err : X → K
  beta : K
  alpha : Nat → K
  den : Nat → K
  p : Nat → X → K
  lp : Nat → X → K
  conv : Bool

/-- replace one entry -/
def setN {V : Type} (f : Nat → V) (i : Nat) (v : V) : Nat → V := fun j => if j = i then v else f j

/-- first half of inner iteration `v` (mpdata_rhs_vip_prs_gcrk.hpp:49-61) -/
def gcrStep (tol : K) (v : Nat) (s : GcrSt K X) : GcrSt K X :=
  let den := dot (s.lp v) (s.lp v)
  let beta := if den ≠ 0 then - dot s.err (s.lp v) / den else s.beta
  let Phi := fun x => s.Phi x + beta * s.p v x
  let err := fun x => s.err x + beta * s.lp v x
  { s with Phi := Phi, err := err, beta := beta, den := setN s.den v den, conv := if maxAbs err ≤ tol then true else s.conv }

/-- second half of inner iteration `v` (mpdata_rhs_vip_prs_gcrk.hpp:63-90): new search direction -/
def gcrDir (L : (X → K) → (X → K)) (k v : Nat) (s : GcrSt K X) : GcrSt K X :=
  let lapErr := L s.err
  let alpha := fun l => if l ≤ v ∧ s.den l ≠ 0 then - dot lapErr (s.lp l) / s.den l else s.alpha l
  let i := if v < k - 1 then v + 1 else 0
  { s with
    alpha := alpha
    p := setN s.p i fun x => s.err x + ∑ l ∈ Finset.range (v + 1), alpha l * s.p l x
    lp := setN s.lp i fun x => lapErr x + ∑ l ∈ Finset.range (v + 1), alpha l * s.lp l x }

/-- one inner iteration -/
def gcrInner (L : (X → K) → (X → K)) (tol : K) (k v : Nat) (s : GcrSt K X) : GcrSt K X := gcrDir L k v (gcrStep tol v s)

/-- `pressure_solver_loop_body` (mpdata_rhs_vip_prs_gcrk.hpp:45-93): `k` inner iterations -/
def gcrBody (L : (X → K) → (X → K)) (tol : K) (k : Nat) (s : GcrSt K X) : GcrSt K X :=
  (List.range k).foldl (fun s v => gcrInner L tol k v s) s

/-- `pressure_solver_update` with the conjugate-residual body and its `loop_init` (mpdata_rhs_vip_prs_gcrk.hpp:39-43) -/
def gcrUpdate (LE L : (X → K) → (X → K)) (tol : K) (k cap : Nat) (s0 : GcrSt K X) (Phi : X → K) : Option (GcrSt K X) :=
  prsLoop (gcrBody L tol k) GcrSt.conv cap
    { s0 with Phi := Phi, err := LE Phi, p := setN s0.p 0 (LE Phi), lp := setN s0.lp 0 (L (LE Phi)), conv := false }
end solver

/-! ## The operator -/

section lap
variable {K : Type} [Field K] {n : Nat}

/-- boundary condition in one dimension -/
inductive Bc | cyclic | wall
deriving DecidableEq

/-- interior points of an `N`-point grid -/
def inBox (N : Fin n → Nat) (x : Fin n → Int) : Prop := ∀ d, 0 ≤ x d ∧ x d ≤ (N d : Int) - 1
instance (N : Fin n → Nat) (x : Fin n → Int) : Decidable (inBox N x) := by unfold inBox; infer_instance

/-- replace the index in one dimension -/
def setIdx (x : Fin n → Int) (d : Fin n) (i : Int) : Fin n → Int := fun e => if e = d then i else x e

/-- `xchng_pres` (solver_2d.hpp:204-220): the interior and the first halo layer. `cyclic` (cyclic_2d.hpp:35-38, 127-130) copies from the other end;
`wall` stands for open and rigid boundaries (open_2d.hpp:44-50, 137-149, rigid_2d.hpp:39-48, 135-144), which extrapolate linearly.
Simplifications: only the halo layer next to the interior, the only one `lap` reads; corners, never read, are 0. -/
def presFill (N : Fin n → Nat) (bc : Fin n → Bc) (a : (Fin n → Int) → K) (x : Fin n → Int) : K :=
  let val := fun y => if inBox N y then a y else 0
  val x + ∑ d, (
    if x d = -1 then (match bc d with
      | .cyclic => val (setIdx x d ((N d : Int) - 2))
      | .wall => 2 * val (setIdx x d 0) - val (setIdx x d 1))
    else if x d = N d then (match bc d with
      | .cyclic => val (setIdx x d 1)
      | .wall => 2 * val (setIdx x d ((N d : Int) - 1)) - val (setIdx x d ((N d : Int) - 2)))
    else 0)

/-- parameters of the operator: grid, spacings, density-Jacobian `G`, the factors `normalize_vip` multiplies the velocity components with
(mpdata_rhs_vip_common.hpp:238-247, boussinesq_impl.hpp:63-82), and the saved normal velocities on open boundaries (`edge_velocity`; 0 on rigid ones) -/
structure Cfg (K : Type) (n : Nat) where
  N : Fin n → Nat
  bc : Fin n → Bc
  dx : Fin n → K
  G : (Fin n → Int) → K
  nrm : Fin n → (Fin n → Int) → K
  edge : Fin n → (Fin n → Int) → K

/-- points where `set_edges` prescribes component `d` -/
def Cfg.isEdge (c : Cfg K n) (d : Fin n) (x : Fin n → Int) : Bool := (c.bc d == .wall) && (decide (x d = 0) || decide (x d = (c.N d : Int) - 1))

/-- `set_edges(v, ijk, sign)` (solver_2d.hpp:222-237, open_2d.hpp:62-65, 161-165, rigid_2d.hpp:52-56) -/
def Cfg.setEdges (c : Cfg K n) (sign : K) (v : Fin n → (Fin n → Int) → K) : Fin n → (Fin n → Int) → K := fun d x =>
  if c.isEdge d x then sign * c.edge d x else v d x

/-- `normalize_vip` unless `simple` -/
def Cfg.normalize (c : Cfg K n) (simple : Bool) (v : Fin n → (Fin n → Int) → K) : Fin n → (Fin n → Int) → K := fun d x =>
  if simple then v d x else c.nrm d x * v d x

/-- divergence of a velocity field given in the interior: weighted with `G`, halos filled, divided by `G` (end of `lap`) -/
def Cfg.divG (c : Cfg K n) (v : Fin n → (Fin n → Int) → K) (x : Fin n → Int) : K :=
  divC c.dx (fun d => presFill c.N c.bc (v d)) x / c.G x

/-- `lap` (mpdata_rhs_vip_prs_common.hpp:50-82); `u` is `tmp_uvw` -/
def Cfg.lap (c : Cfg K n) (errInit simple : Bool) (u : Fin n → (Fin n → Int) → K) (phi : (Fin n → Int) → K) : (Fin n → Int) → K :=
  let g := calcGrad c.dx (presFill c.N c.bc phi)
  let g := if errInit then fun d x => g d x - u d x else g
  let g := c.setEdges (if errInit then -1 else 0) g
  let g := fun d x => g d x * c.G x
  let g := c.normalize simple g
  c.divG g

/-- velocity after `pressure_solver_apply`, `normalize_vip` and `set_edges(.., 1)` (mpdata_rhs_vip_prs_common.hpp:133-139, 180-182; `simple`: 149-155) -/
def Cfg.newVel (c : Cfg K n) (simple : Bool) (u : Fin n → (Fin n → Int) → K) (phi : (Fin n → Int) → K) : Fin n → (Fin n → Int) → K :=
  c.setEdges 1 (c.normalize simple fun d x => u d x - calcGrad c.dx (presFill c.N c.bc phi) d x)

/-- grid points as a finite type -/
abbrev Pts (N : Fin n → Nat) : Type := {x : Fin n → Int // inBox N x}

instance (N : Fin n → Nat) : Fintype (Pts N) := Fintype.subtype (Fintype.piFinset fun d => Finset.Icc 0 ((N d : Int) - 1)) (by
  intro x; simp only [Fintype.mem_piFinset, Finset.mem_Icc, inBox])

/-- a field on the grid, extended arbitrarily (by 0) -/
def extend (N : Fin n → Nat) (f : Pts N → K) : (Fin n → Int) → K := fun y => if h : inBox N y then f ⟨y, h⟩ else 0

/-- `lap` as an operator on grid fields -/
def Cfg.lapG (c : Cfg K n) (e simple : Bool) (u : Fin n → (Fin n → Int) → K) (f : Pts c.N → K) : Pts c.N → K := fun x => c.lap e simple u (extend c.N f) x.1
end lap
end Prs
end Mpdata
