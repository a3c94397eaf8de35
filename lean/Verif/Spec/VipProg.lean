import Verif.Model.VipProg
import Verif.Spec.Periodic1
import Verif.Spec.SchemeN
/-! # Specification for solvers with prognosed velocities

The same time loop on the unbounded grid: no halos, no exchanges, every assignment everywhere, advection by the plain scheme of `Spec1` or `SpecN`. -/
namespace Mpdata.VP
variable {K X : Type} [Field K] [LinearOrder K] {n : Nat} {T I : Type}

/-- invariance under a family of translations -/
def PerT (tr : I → X → X) (f : X → K) : Prop := ∀ i x, f (tr i x) = f x

/-- the same solver on the unbounded grid: no halos; `adv` is the advection scheme there -/
def ideal (c : Cfg K X n T) (G coeff : X → K) (relax : Fin n → X → K)
    (adv : (GC ndt ndtt : Fin n → X → K) → Bool → (X → K) → (X → K)) : Cfg K X n Unit where
  nEqns := c.nEqns
  norhs := c.norhs
  delayed := c.delayed
  vip := c.vip
  den := c.den
  veps := c.veps
  dx := c.dx
  sch := c.sch
  vc := c.vc
  vab := c.vab
  coeff := coeff
  relax := relax
  force := c.force
  grid _ := true
  sh := c.sh
  G := G
  xchng := id
  xchngP := id
  face _ _ := true
  fillGC := id
  zeroNdt _ := fun _ _ => 0
  advop GC ndt ndtt f t psi _ := (t, adv GC ndt ndtt f psi, psi)

/-- what a forcing may do: the right-hand sides it sets at grid points depend on the state within the halo region `H` only, and on periodic data they are periodic
(the same code is used on the unbounded grid) -/
def ForceOk (c : Cfg K X n T) (tr : I → X → X) (H : X → Prop) : Prop :=
  ∀ dt b psi psi' r r', (∀ e, PerT tr (psi' e)) → (∀ e, e < c.nEqns → ∀ x, H x → psi e x = psi' e x) →
    (∀ e, hasRhs c e = true → PerT tr (r' e)) → (∀ e, hasRhs c e = true → ∀ x, c.grid x = true → r e x = r' e x) →
    ∀ e, hasRhs c e = true → PerT tr (c.force dt b psi' r' e) ∧ ∀ x, c.grid x = true → c.force dt b psi r e x = c.force dt b psi' r' e x

/-- velocity variables and density are among the advected equations -/
structure Wf (c : User K X n) : Prop where
  vip : ∀ d, c.vip d < c.nEqns
  den : ∀ e, c.den = some e → e < c.nEqns

/-- the state on the unbounded grid at the beginning -/
def start (psi0 : Nat → X → K) : St K X n Unit where
  psi := psi0
  old _ _ := 0
  rhs _ _ := 0
  stash _ _ _ := 0
  vrhs _ _ := 0
  GC _ _ := 0
  ndt _ _ := 0
  ndtt _ _ := 0
  tmp := ()
  timestep := 0
  ds0 := 0
  ds1 := 0

/-- the 1-D scheme with the given time derivatives of the advector -/
def par1 (p : Spec1.Par K) (d3 : Bool) (ndt ndtt : Fin 1 → Int → K) : Spec1.Par K :=
  { p with ndtGC := if d3 then ndt 0 else fun _ => 0, ndttGC := if d3 then ndtt 0 else fun _ => 0 }

/-- advection on the unbounded 1-D grid -/
def adv1 (u : User K Int 1) (p : Spec1.Par K) (nIters : Nat) : (GC ndt ndtt : Fin 1 → Int → K) → Bool → (Int → K) → (Int → K) :=
  fun GC ndt ndtt f psi => Spec1.step (par1 p u.vc.div3 ndt ndtt) (if f then 1 else nIters) psi (GC 0)

/-- the 2-D or 3-D scheme with the given time derivatives of the advector -/
def parN (p : SpecN.Par n K) (d3 : Bool) (ndt ndtt : Vec n K) : SpecN.Par n K :=
  { p with st := { p.st with ndt := if d3 then ndt else fun _ _ => 0, ndtt := if d3 then ndtt else fun _ _ => 0 } }

/-- advection on the unbounded 2-D or 3-D grid -/
def advN (u : User K (Idx n) n) (p : SpecN.Par n K) (nIters : Nat) : (GC ndt ndtt : Vec n K) → Bool → Sca n K → Sca n K :=
  fun GC ndt ndtt f psi => SpecN.step (parN p u.vc.div3 ndt ndtt) (if f then 1 else nIters) psi GC

end Mpdata.VP
