import Verif.Model.VipProg
/-! What the forcing supplies to an equation (for C61, budgets). -/
namespace Mpdata.VP
variable {K X : Type} [Field K] [LinearOrder K] {n : Nat} {T : Type}

/-- the advected fields with filled halos -/
def full (c : Cfg K X n T) (psi : Nat → X → K) : Nat → X → K := fun e => if e < c.nEqns then c.xchng (psi e) else psi e

/-- the right-hand sides the forcing makes of zeros -/
def source (c : Cfg K X n T) (dt : K) (b : Bool) (psi : Nat → X → K) (e : Nat) : X → K := if hasRhs c e then c.force dt b (full c psi) (fun _ _ => 0) e else fun _ => 0

/-- no absorber acts on equation `e` -/
def NoAbs (c : User K X n) (e : Nat) : Prop := c.vab = .noab ∨ ∀ d, c.vip d ≠ e

end Mpdata.VP
