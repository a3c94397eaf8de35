import Verif.Model.VipProg
/-! # The scheme that solvers with forced equations and prognosed velocities are meant to compute

One step written as formulae on the unbounded grid, from the fields at the beginning of the step, the velocities one and two steps earlier and the lengths of the last two steps. Nothing here refers to
hooks, to the order in which they are called, to storage of earlier velocities or to the order of equations. -/
namespace Mpdata.VP
variable {K X : Type} [Field K] [LinearOrder K] {n : Nat}

/-- what a step needs to know -/
structure Past (K X : Type) (n : Nat) where
  /-- the fields -/
  now : Nat → X → K
  /-- velocities one and two steps earlier -/
  v1 : Fin n → X → K
  v2 : Fin n → X → K
  /-- lengths of the last step and of the one before, 0 if there was none -/
  d1 : K
  d2 : K
  /-- right-hand sides found at the end of the last step (at the beginning for the first step) -/
  R : Nat → X → K

section
variable (u : User K X n) (sh : X → Fin n → Int → X) (G : X → K) (adv : (GC ndt ndtt : Fin n → X → K) → Bool → (X → K) → (X → K))

/-- velocity: the variable itself, or momentum divided by density, taken as zero where density does not exceed a given threshold -/
def speed (psi : Nat → X → K) (d : Fin n) (x : X) : K :=
  match u.den with
  | none => psi (u.vip d) x
  | some e => if u.veps = 0 ∨ psi e x > u.veps then psi (u.vip d) x / psi e x else 0

/-- equation `e` has a right-hand side -/
def forced (e : Nat) : Prop := e < u.nEqns ∧ isset u.norhs (bit e) = false

instance (e : Nat) : Decidable (forced u e) := by unfold forced; infer_instance

/-- the user's right-hand sides of given fields -/
def forces (dt : K) (next : Bool) (psi : Nat → X → K) : Nat → X → K := u.force dt next psi fun _ _ => 0

/-- the sum of fields and a multiple of right-hand sides -/
def addForces (k : K) (psi R : Nat → X → K) : Nat → X → K := fun e x => if forced u e then psi e x + k * R e x else psi e x

/-- Courant numbers at faces, from values of the quantity `w` at the adjacent points: dt / dx times the mean of `G w` -/
def atFaces (dt : K) (w : Fin n → X → K) (d : Fin n) (x : X) : K := dt / u.dx d * ((G x * w d x + G (sh x d 1) * w d (sh x d 1)) / 2)

/-- a change of the velocity variables only -/
def onVel (f : Fin n → X → K → K) (psi : Nat → X → K) : Nat → X → K := fun e x =>
  match (List.finRange n).find? (fun d => u.vip d == e) with
  | some d => f d x (psi e x)
  | none => psi e x

/-- advection of all fields `psi` over a step of length `dt` with the velocity half a step ahead -/
def transport (filt : Bool) (dt : K) (p : Past K X n) (psi : Nat → X → K) : Nat → X → K :=
  let V := speed u p.now
  -- the velocity half a step ahead, by linear extrapolation
  let E : Fin n → X → K := fun d x => if p.d1 > 0 then V d x + dt / (2 * p.d1) * (V d x - p.v1 d x) else V d x
  -- first and second time derivative of the advector times dt, dt squared
  let A1 : Fin n → X → K := if u.vc.div3 = true ∧ p.d1 > 0 then atFaces u sh G dt (fun d x => dt * ((p.now (u.vip d) x - p.v1 d x) / p.d1)) else fun _ _ => 0
  let A2 : Fin n → X → K := if u.vc.div3 = true ∧ p.d1 > 0 ∧ p.d2 > 0 then
    atFaces u sh G dt (fun d x => dt ^ 2 * (2 * ((p.now (u.vip d) x - p.v1 d x) / p.d1 - (p.v1 d x - p.v2 d x) / p.d2) / (p.d1 + p.d2))) else fun _ _ => 0
  fun e => if e < u.nEqns then adv (atFaces u sh G dt E) A1 A2 filt (psi e) else psi e

/-- one step of length `dt` -/
def schemeStep (filt : Bool) (dt : K) (p : Past K X n) : Past K X n :=
  let advect := transport u sh G adv filt dt p
  -- absorber before advection: the whole of it if explicit, half of it if implicit
  let damp (psi : Nat → X → K) : Nat → X → K := match u.vab with
    | .noab => psi
    | .expl => onVel u (fun d x v => v - dt * u.coeff x * (p.now (u.vip d) x - u.relax d x)) psi
    | .impl => onVel u (fun d x v => v - dt / 2 * u.coeff x * (p.now (u.vip d) x - u.relax d x)) psi
  -- and after advection: v' = v - dt / 2 c (v' - r)
  let damp' (psi : Nat → X → K) : Nat → X → K := match u.vab with
    | .noab => psi
    | .expl => psi
    | .impl => onVel u (fun d x v => (v + dt / 2 * u.coeff x * u.relax d x) / (1 + dt / 2 * u.coeff x)) psi
  let Rn := forces u dt false p.now
  let end' : (Nat → X → K) × (Nat → X → K) := match u.sch with
    | .eulerA => (addForces u dt (advect (damp p.now)) Rn, Rn)
    | .eulerB => (advect (damp (addForces u dt p.now Rn)), Rn)
    | .trapez =>
      let a := advect (damp (addForces u (dt / 2) p.now p.R))
      let R := forces u (dt / 2) true a
      (addForces u (dt / 2) a R, R)
  ⟨damp' end'.1, speed u p.now, p.v1, dt, p.d1, end'.2⟩

/-- `t` steps; `dt0` is the step length before the first step is begun -/
def scheme (dt0 : K) (filt : Nat → Bool) (dt : Nat → K) (psi0 : Nat → X → K) : Nat → Past K X n
  | 0 => ⟨psi0, fun _ _ => 0, fun _ _ => 0, 0, 0, forces u (dt0 / 2) false psi0⟩
  | t + 1 => schemeStep u sh G adv (filt t) (dt t) (scheme dt0 filt dt psi0 t)

end
end Mpdata.VP
