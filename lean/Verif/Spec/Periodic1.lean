import Verif.Model.Antidiff1
/-! # Specification: MPDATA on an unbounded 1-D grid
The scheme written as plain recursion on fields over all integers: no memory, no halos, no buffers and no
boundary conditions. A cyclic domain is the special case of periodic fields. -/
namespace Mpdata.Spec1
variable {K : Type} [Field K] [LinearOrder K]

/-- parameters that do not change during a step -/
structure Par (K : Type) where
  o : OptsT
  si : SptlIntrp
  te : TmprlExtrp
  tiny : K
  eps : K
  G : Int → K
  ndtGC : Int → K
  ndttGC : Int → K

/-- flux-corrected velocity: limiter of velocity `A` for field `psi`, extrema from `psi0` (the field at
the beginning of the step) and `psi` -/
def limited (p : Par K) (psi0 psi A : Int → K) : Int → K :=
  let flx := if isset p.o oIga then A else makeFlux1 p.o psi A
  let bUp := betaUp1 p.o p.eps psi (fun i => max (max (psi0 (i - 1)) (psi0 i)) (psi0 (i + 1))) flx p.G
  let bDn := betaDn1 p.o p.eps psi (fun i => min (min (psi0 (i - 1)) (psi0 i)) (psi0 (i + 1))) flx p.G
  gcMono1 p.o psi bUp bDn A

/-- first pass: upwind with the physical Courant numbers -/
def first (p : Par K) (psi0 GC : Int → K) : Int → K :=
  donorStep1 p.o psi0 (makeFlux1 p.o psi0 GC) p.G

/-- antidiffusive velocity of a corrective pass -/
def velocity (p : Par K) (psi U : Int → K) : Int → K :=
  antidiff1 p.o p.si p.te p.tiny psi U p.ndtGC p.ndttGC p.G

/-- corrective pass given its antidiffusive velocity `A` -/
def corrective (p : Par K) (psi0 psi A : Int → K) : Int → K :=
  let C := if isset p.o oFct then limited p psi0 psi A else A
  donorStep1 p.o psi (if isset p.o oIga then C else makeFlux1 p.o psi C) p.G

/-- field and velocity to be corrected after pass `k`: `k = 0` the first pass, then corrective passes -/
def passes (p : Par K) (psi0 GC : Int → K) : Nat → (Int → K) × (Int → K)
  | 0 => (first p psi0 GC, GC)
  | k + 1 =>
    let s := passes p psi0 GC k
    let A := velocity p s.1 s.2
    (corrective p psi0 s.1 A, A)

/-- a whole advection step of `n ≥ 1` passes -/
def step (p : Par K) (n : Nat) (psi0 GC : Int → K) : Int → K := (passes p psi0 GC (n - 1)).1

/-- periodicity -/
def Periodic (N : Int) (a : Int → K) : Prop := ∀ i, a (i + N) = a i

end Mpdata.Spec1
