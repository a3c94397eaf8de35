import Verif.Model.AdvopN
import Verif.Spec.PeriodicN
/-! # Specification: MPDATA on an unbounded grid of any dimension
The scheme written as plain recursion on fields over all of `ℤⁿ`: no memory, no halos, no buffers, no boundary conditions. A cyclic domain is the special case of
periodic fields. The dimension-specific formulae (antidiffusive velocity, donor-cell sum) are parameters. -/
namespace Mpdata.SpecN
variable {n : Nat} {K : Type} [Field K] [LinearOrder K]

/-- parameters that do not change during a step -/
structure Par (n : Nat) (K : Type) where
  o : OptsT
  eps : K
  F : Formulae n K
  st : Stat n K

/-- flux-corrected velocity: limiter of velocity `A` for field `psi`, extrema from `psi0` (the field at the beginning of the step) and `psi` -/
def limited (p : Par n K) (psi0 psi : Sca n K) (A : Vec n K) : Vec n K :=
  let flx := if isset p.o oIga then A else makeFluxN p.o psi A
  let bUp := betaUpN p.o p.eps psi (nbMax psi0) flx p.st.G
  let bDn := betaDnN p.o p.eps psi (nbMin psi0) flx p.st.G
  gcMonoN p.o psi bUp bDn A

/-- first pass: upwind with the physical Courant numbers -/
def first (p : Par n K) (psi0 : Sca n K) (GC : Vec n K) : Sca n K := p.F.donor psi0 (makeFluxN p.o psi0 GC) p.st.G

/-- antidiffusive velocity of a corrective pass: `psi` the field to be corrected, `old` the input of the previous pass -/
def velocity (p : Par n K) (psi old : Sca n K) (U : Vec n K) : Vec n K := fun d => p.F.vel d p.st psi old U

/-- corrective pass given its antidiffusive velocity `A` -/
def corrective (p : Par n K) (psi0 psi : Sca n K) (A : Vec n K) : Sca n K :=
  let C := if isset p.o oFct then limited p psi0 psi A else A
  p.F.donor psi (if isset p.o oIga then C else makeFluxN p.o psi C) p.st.G

/-- field, input of the last pass and velocity to be corrected -/
structure State (n : Nat) (K : Type) where
  psi : Sca n K
  old : Sca n K
  U : Vec n K

/-- state after pass `k`: `k = 0` the first pass, then corrective passes -/
def passes (p : Par n K) (psi0 : Sca n K) (GC : Vec n K) : Nat → State n K
  | 0 => ⟨first p psi0 GC, psi0, GC⟩
  | k + 1 =>
    let s := passes p psi0 GC k
    let A := velocity p s.psi s.old s.U
    ⟨corrective p psi0 s.psi A, s.psi, A⟩

/-- a whole advection step of `k ≥ 1` passes -/
def step (p : Par n K) (k : Nat) (psi0 : Sca n K) (GC : Vec n K) : Sca n K := (passes p psi0 GC (k - 1)).psi

/-- `t` steps, `k` passes each, upwind only in filter steps -/
def run (p : Par n K) (k : Nat) (filt : Nat → Bool) (GC : Vec n K) : Nat → Sca n K → Sca n K
  | 0, psi => psi
  | t + 1, psi => step p (if filt t then 1 else k) (run p k filt GC t psi) GC

end Mpdata.SpecN

namespace Mpdata
variable {n : Nat} {K : Type} [Field K] [LinearOrder K]

/-- `t` time steps of the program on one equation (solver_common.hpp:270-358 with a time-independent advector); `filt t` tells whether step `t` is an upwind-filter step -/
def runProgN (c : CfgN n K) (filt : Nat → Bool) : Nat → MemN n K → MemN n K
  | 0, m => m
  | t + 1, m => advanceN { c with filter := filt t } (runProgN c filt t m)

/-- the grid points of a domain with `P d + 1` points in dimension `d` -/
def InGrid (P : Fin n → Nat) (x : Idx n) : Prop := ∀ d, 0 ≤ x d ∧ x d ≤ P d

/-- the faces of dimension `d` between grid points -/
def InFaces (P : Fin n → Nat) (d : Fin n) (x : Idx n) : Prop := InGrid P x ∧ x d < P d

/-- flow divergence of a cell -/
def divN (GC : Vec n K) (x : Idx n) : K := ∑ d, (GC d x - GC d (stepIdx x d (-1)))

/-- total outflow of a cell: through its upper faces where the flow is upwards, through its lower faces where the flow is downwards -/
def outflowN (GC : Vec n K) (x : Idx n) : K := ∑ d, (max 0 (GC d x) - min 0 (GC d (stepIdx x d (-1))))

/-- a solver with cyclic boundary conditions in all dimensions on a grid of `P d + 1` points in dimension `d`, the first and the last being the same location;
`p` holds its parameters as periodic fields on the unbounded grid, `ds` is the order in which the scalar exchange treats the dimensions -/
structure CyclicSetupN (c : CfgN n K) (p : SpecN.Par n K) (P : Fin n → Nat) (ds : List (Fin n)) : Prop where
  ho : c.o = p.o
  heps : c.eps = p.eps
  hF : c.F = p.F
  hbox : ∀ d, c.box d = ⟨0, P d⟩
  hhP : ∀ d, solverHalo c.o ≤ P d
  hds : ds.Nodup ∧ ∀ d, d ∈ ds
  hS : c.fillS = cycXchngS c.box (solverHalo c.o) ds
  hA : ∀ ad, c.fillA ad = cycXchngA c.box (solverHalo c.o)
  hN : ∀ ext, c.fillN ext = cycXchngN c.box (solverHalo c.o) ext
  perG : PeriodicN P p.st.G
  perNdt : ∀ d, PeriodicN P (p.st.ndt d)
  perNdtt : ∀ d, PeriodicN P (p.st.ndtt d)
  hG : ∀ x, Bx c.box (fun _ => solverHalo c.o) (fun _ => solverHalo c.o) x → c.st.G x = p.st.G x
  hndt : ∀ d x, Bx c.box (fun _ => solverHalo c.o) (fun e => if e = d then (solverHalo c.o : Int) - 1 else solverHalo c.o) x → c.st.ndt d x = p.st.ndt d x
  hndtt : ∀ d x, Bx c.box (fun _ => solverHalo c.o) (fun e => if e = d then (solverHalo c.o : Int) - 1 else solverHalo c.o) x → c.st.ndtt d x = p.st.ndtt d x

end Mpdata
