import Verif.Spec.VipScheme
import Verif.Spec.SchemeN
/-! # The scheme that incompressible solvers are meant to compute on periodic domains

Fields follow a semi-implicit scheme: half of the pressure and absorber force acts before advection, half of the new one after it; the new force contains the gradient of a potential chosen so that the
velocity at the end of the step is non-divergent within a tolerance. Which potential the iterative solver finds is left open. -/
namespace Mpdata.PP
open VP (User Past forces addForces onVel transport speed)
variable {K : Type} [Field K] [LinearOrder K] {n : Nat}

/-- centred derivative -/
def ddx (dx : Fin n → K) (f : Idx n → K) (d : Fin n) (x : Idx n) : K := (f (stepIdx x d 1) - f (stepIdx x d (-1))) / (2 * dx d)

/-- the velocity has no divergence weighted with `G`, up to `tol` -/
def NonDivergent (dx : Fin n → K) (G : Idx n → K) (tol : K) (v : Fin n → Idx n → K) : Prop :=
  ∀ x, |(∑ d, ddx dx (fun y => G y * v d y) d x) / G x| ≤ tol

section
variable (u : User K (Idx n) n) (P : Fin n → Nat) (G : Idx n → K) (adv : (GC ndt ndtt : Fin n → Idx n → K) → Bool → (Idx n → K) → (Idx n → K))

/-- relaxation of the velocity by the implicit absorber -/
def drag (psi : Nat → Idx n → K) (d : Fin n) (x : Idx n) : K := if u.vab = .impl then - u.coeff x * (psi (u.vip d) x - u.relax d x) else 0

/-- one step of length `dt` under the forces `F` (kept from the previous step) and `F'` on the velocities -/
def flowStep (filt : Bool) (dt : K) (F F' : Fin n → Idx n → K) (p : Past K (Idx n) n) : Past K (Idx n) n :=
  let push (f : Fin n → Idx n → K) (psi : Nat → Idx n → K) := onVel u (fun d x v => v + dt / 2 * f d x) psi
  -- the explicit absorber acts before advection only, with twice the strength
  let push0 := push fun d x => F d x + if u.vab = .expl then - 2 * u.coeff x * (p.now (u.vip d) x - u.relax d x) else 0
  let advect := transport u stepIdx G adv filt dt p
  let Rn := forces u dt false p.now
  let end' : (Nat → Idx n → K) × (Nat → Idx n → K) := match u.sch with
    | .eulerA => (addForces u dt (advect (push0 p.now)) Rn, Rn)
    | .eulerB => (advect (push0 (addForces u dt p.now Rn)), Rn)
    | .trapez =>
      let a := advect (push0 (addForces u (dt / 2) p.now p.R))
      let R := forces u (dt / 2) true a
      (addForces u (dt / 2) a R, R)
  ⟨push F' end'.1, speed u p.now, p.v1, dt, p.d1, end'.2⟩

/-- `Flow t p F Phi`: a history of `t` steps can end with the fields `p`, the force `F` on the velocities and the potential `Phi` -/
inductive Flow (tol dt0 : K) (filt : Nat → Bool) (dt : Nat → K) (psi0 : Nat → Idx n → K) : Nat → Past K (Idx n) n → (Fin n → Idx n → K) → (Idx n → K) → Prop
  /-- the initial velocities are made non-divergent by subtraction of a gradient; the potential for the first step is minus kinetic energy, up to a constant -/
  | start (Psi Phi : Idx n → K) (k : K) (p : Past K (Idx n) n) (F : Fin n → Idx n → K) (per : PeriodicN P Psi)
      (ini : p.now = onVel u (fun d x v => v - ddx u.dx Psi d x) psi0) (rhs : p.R = forces u (dt0 / 2) false p.now) (d1 : p.d1 = 0) (d2 : p.d2 = 0) (v1 : p.v1 = fun _ _ => 0) (v2 : p.v2 = fun _ _ => 0)
      (div : NonDivergent u.dx G tol fun d => p.now (u.vip d)) (pot : ∀ x, Phi x = k - ∑ d, 1 / 2 * (p.now (u.vip d) x) ^ 2)
      (force : ∀ d x, F d x = drag u p.now d x - ddx u.dx Phi d x) : Flow tol dt0 filt dt psi0 0 p F Phi
  /-- in a step the new force is that of the new potential and of the absorber on the new velocity -/
  | step (t : Nat) (p p' : Past K (Idx n) n) (F F' : Fin n → Idx n → K) (Phi Phi' : Idx n → K) (before : Flow tol dt0 filt dt psi0 t p F Phi) (per : PeriodicN P Phi')
      (new : p' = flowStep u G adv (filt t) (dt t) F F' p) (force : ∀ d x, F' d x = drag u p'.now d x - ddx u.dx Phi' d x / (dt t / 2))
      (div : NonDivergent u.dx G tol fun d => p'.now (u.vip d)) : Flow tol dt0 filt dt psi0 (t + 1) p' F' Phi'

end
end Mpdata.PP
