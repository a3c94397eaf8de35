import Verif.Model.Threads
import Verif.Model.Range
/-!
# The advection operator as a multi-threaded program

Arrays are indexed by a coordinate `x` along the dimension that is split among threads (concurr/detail/concurr_common.hpp:255-374: dimension 0
in 1-D and 2-D, dimension 1 in 3-D) and a transverse index `y : Y` (`Unit` in 1-D, the other coordinates otherwise).
Right-hand sides are arbitrary functions of the locations they read (their "footprint"), so all formulae/options with that footprint are covered.
Arrays that no statement of the operator writes (`G`, `ndt_GC`, ...) are part of those functions.
-/
namespace Mpdata
namespace Threads

variable {A Y V : Type}

/-- range of `x` a thread works on, relative to its slab `[first, last]` -/
inductive Dom
  /-- `[first - p, last + q]`, e.g. `i^1` -/
  | ext (p q : Nat)
  /-- `im^k` in 2-D (mpdata_osc_2d.hpp:233): `im = [first - 1, last]` for rank 0 and `[first, last]` for other ranks -/
  | face (k : Nat)
  /-- `extend_range` (solver_common.hpp:138-153): the first (last) thread extends its slab by `p` (`q`) -/
  | extR (p q : Nat)
  /-- statement of the left boundary condition: only the first thread has one, others have `bcond::shared` which does nothing
  (concurr_common.hpp:255-330) -/
  | left (lo hi : Int)
  /-- same for the right boundary condition and the last thread -/
  | right (lo hi : Int)
deriving DecidableEq

/-- the thread's slab (formulae/domain_decomposition.hpp:18-39) -/
def slabOf (N T : Nat) (t : Fin T) : Rng := slab ⟨0, (N : Int) - 1⟩ (t.1 : Int) T

/-- range of the thread -/
def Dom.rng (d : Dom) (N T : Nat) (t : Fin T) : Rng :=
  let r := slabOf N T t
  match d with
  | .ext p q => ⟨r.first - p, r.last + q⟩
  | .face k => ⟨r.first - (if t.1 = 0 then 1 else 0) - k, r.last + k⟩
  | .extR p q => ⟨r.first - (if t.1 = 0 then (p : Int) else 0), r.last + (if t.1 + 1 = T then (q : Int) else 0)⟩
  | .left lo hi => if t.1 = 0 then ⟨lo, hi⟩ else ⟨1, 0⟩
  | .right lo hi => if t.1 + 1 = T then ⟨lo, hi⟩ else ⟨1, 0⟩

/-- what a right-hand side sees: the values of the locations it reads -/
abbrev View (A Y V : Type) := A → Int → Y → Option V

/-- an array statement `dst(range, ys) = f(...)`, with the footprint of `f` -/
structure S (A Y V : Type) where
  dst : A
  dom : Dom
  ys : List Y
  rd : Int → Y → A → Int → Y → Prop
  f : View A Y V → Int → Y → V

/-- all integers of a range, ascending -/
def irange (r : Rng) : List Int := (List.range (r.last - r.first + 1).toNat).map fun k : Nat => r.first + (k : Int)

open Classical in
/-- the statement as executed by `T` threads on `N` points along the split dimension -/
noncomputable def S.toStmt (s : S A Y V) (N T : Nat) : Stmt (Fin T) (A × Int × Y) V where
  dom t := (irange (s.dom.rng N T t)).flatMap fun x => s.ys.map fun y => (s.dst, x, y)
  rd l l' := s.rd l.2.1 l.2.2 l'.1 l'.2.1 l'.2.2
  f m l := s.f (fun a x y => if s.rd l.2.1 l.2.2 a x y then some (m (a, x, y)) else none) l.2.1 l.2.2

/-- a sequence of phases as executed by `T` threads -/
noncomputable def toPhases (N T : Nat) (ps : List (List (S A Y V))) : List (List (Stmt (Fin T) (A × Int × Y) V)) :=
  ps.map fun ss => ss.map fun s => s.toStmt N T

/-! ## One-dimensional MPDATA -/

/-- arrays of the 1-D solver: two time levels, Courant numbers, two corrective buffers, fluxes, limited velocity, extrema, betas -/
inductive A1 | psi (b : Bool) | gc | tmp (b : Bool) | flux | mono | pmin | pmax | bup | bdn
deriving DecidableEq

/-- options that shape the sequence of statements -/
structure TOpts where
  fct : Bool
  iga : Bool
  dfl : Bool
  div3dt : Bool
  n_iters : Nat
  halo : Nat

/-- `GC_unco(iter)` (mpdata_common.hpp:38-45) -/
def unco1 (iter : Nat) : A1 := if iter = 1 then .gc else .tmp (iter % 2 == 1)
/-- `GC_corr(iter)` (mpdata_common.hpp:47-52) -/
def corr1 (iter : Nat) : A1 := .tmp (iter % 2 == 0)

/-- the right-hand sides: any functions of what they read -/
structure F1 (V : Type) where
  pmin : View A1 Unit V → Int → Unit → V
  pmax : View A1 Unit V → Int → Unit → V
  flx0 : View A1 Unit V → Int → Unit → V
  flx : Nat → View A1 Unit V → Int → Unit → V
  flx1 : Nat → View A1 Unit V → Int → Unit → V
  anti : Nat → View A1 Unit V → Int → Unit → V
  bup : Nat → View A1 Unit V → Int → Unit → V
  bdn : Nat → View A1 Unit V → Int → Unit → V
  mono : Nat → View A1 Unit V → Int → Unit → V
  donor : Nat → View A1 Unit V → Int → Unit → V
  fillL : View A1 Unit V → Int → Unit → V
  fillR : View A1 Unit V → Int → Unit → V
  fillVL : View A1 Unit V → Int → Unit → V
  fillVR : View A1 Unit V → Int → Unit → V

variable (F : F1 V) (o : TOpts) (N : Nat)

/-- `bcs[0]` scalar fill, right boundary (swapped to be first, solver_common.hpp:102-114): any function of the points it does not write
(cyclic, open, ... `fill_halos_sclr`) -/
def fillR1 (a : A1) : S A1 Unit V :=
  ⟨a, .right N (N - 1 + o.halo), [()], fun _ _ a' x' _ => a' = a ∧ ¬ (N ≤ x' ∧ x' ≤ N - 1 + o.halo), F.fillR⟩
/-- same, left boundary -/
def fillL1 (a : A1) : S A1 Unit V :=
  ⟨a, .left (-o.halo) (-1), [()], fun _ _ a' x' _ => a' = a ∧ ¬ (-o.halo ≤ x' ∧ x' ≤ -1), F.fillL⟩
/-- `fill_halos_vctr_alng`, right: faces `N-1 ...`; a face may be left as it is (`ad` fills skip the one on the domain edge, rigid_1d.hpp, open_1d.hpp), so the
location assigned may be read -/
def fillVR1 (a : A1) : S A1 Unit V :=
  ⟨a, .right (N - 1) (N - 2 + o.halo), [()], fun x _ a' x' _ => a' = a ∧ (¬ (N - 1 ≤ x' ∧ x' ≤ N - 2 + o.halo) ∨ x' = x), F.fillVR⟩
/-- same, left: faces up to `-1` -/
def fillVL1 (a : A1) : S A1 Unit V :=
  ⟨a, .left (-o.halo) (-1), [()], fun x _ a' x' _ => a' = a ∧ (¬ (-o.halo ≤ x' ∧ x' ≤ -1) ∨ x' = x), F.fillVL⟩

/-- `xchng_sclr` (solver_1d.hpp:39-49): barrier; right, barrier; left, barrier -/
def xchng1 (a : A1) : List (List (S A1 Unit V)) := [[fillR1 F o N a], [fillL1 F o a]]
/-- `xchng_vctr_alng` (solver_1d.hpp:63-85) -/
def xchngV1 (a : A1) : List (List (S A1 Unit V)) := [[fillVR1 F o N a], [fillVL1 F o a]]

/-- `fct_init` (mpdata_fct_1d.hpp:31-42): extrema of the field on `i^1` -/
def fctInit1 (n : Bool) : List (S A1 Unit V) :=
  if o.fct then
    [⟨.pmin, .ext 1 1, [()], fun _ _ a' _ _ => a' = .psi n, F.pmin⟩, ⟨.pmax, .ext 1 1, [()], fun _ _ a' _ _ => a' = .psi n, F.pmax⟩]
  else []

/-- `flux[0](im+h) = make_flux(psi[n], GC, im)` (mpdata_osc_1d.hpp:92-99); `im = [first-1, last]` (1-D: every thread); the velocity is read
at the face itself -/
def flux1 (n : Bool) (g : A1) (f : View A1 Unit V → Int → Unit → V) : S A1 Unit V :=
  ⟨.flux, .ext 1 0, [()], fun x _ a' x' _ => a' = .psi n ∨ (a' = g ∧ x' = x), f⟩

/-- `psi[n+1](i) = donorcell_sum(psi[n], flx(i+h), flx(i-h))` (mpdata_osc_1d.hpp:111-119); `psi[n]` is read at the point itself only, but may
be read anywhere for what follows.  Simplification: the Kahan temporaries are part of the statement. -/
def donor1 (n : Bool) (flx : A1) (f : View A1 Unit V → Int → Unit → V) : S A1 Unit V :=
  ⟨.psi !n, .ext 0 0, [()], fun x _ a' x' _ => a' = .psi n ∨ (a' = flx ∧ (x' = x ∨ x' = x - 1)), f⟩

/-- `antidiff(GC_corr, psi[n], GC_unco, ...)` on `im` (mpdata_osc_1d.hpp:69-80) -/
def anti1 (n : Bool) (iter : Nat) : S A1 Unit V :=
  ⟨corr1 iter, .ext 1 0, [()], fun _ _ a' _ _ => a' = .psi n ∨ a' = unco1 iter, F.anti iter⟩

/-- fluxes for the betas on `im^1` (mpdata_fct_1d.hpp:60-69) -/
def flux1b (n : Bool) (iter : Nat) : S A1 Unit V :=
  ⟨.flux, .ext 2 1, [()], fun _ _ a' _ _ => a' = .psi n ∨ a' = corr1 iter, F.flx1 iter⟩
/-- `beta_up` on `i^1` (mpdata_fct_1d.hpp:77): reads the field, the extrema and the fluxes at both faces of the cell -/
def bup1 (n : Bool) (flx : A1) (iter : Nat) : S A1 Unit V :=
  ⟨.bup, .ext 1 1, [()], fun x _ a' x' _ => a' = .psi n ∨ a' = .pmax ∨ (a' = flx ∧ (x' = x ∨ x' = x - 1)), F.bup iter⟩
/-- `beta_dn` on `i^1` (mpdata_fct_1d.hpp:78) -/
def bdn1 (n : Bool) (flx : A1) (iter : Nat) : S A1 Unit V :=
  ⟨.bdn, .ext 1 1, [()], fun x _ a' x' _ => a' = .psi n ∨ a' = .pmin ∨ (a' = flx ∧ (x' = x ∨ x' = x - 1)), F.bdn iter⟩
/-- `GC_mono` on `im` (mpdata_fct_1d.hpp:84): reads betas of the two cells next to the face -/
def mono1 (n : Bool) (iter : Nat) : S A1 Unit V :=
  ⟨.mono, .ext 1 0, [()],
    fun x _ a' x' _ => a' = .psi n ∨ a' = corr1 iter ∨ ((a' = .bup ∨ a' = .bdn) ∧ (x' = x ∨ x' = x + 1)), F.mono iter⟩

/-- one corrective iteration (mpdata_osc_1d.hpp:64-119, mpdata_fct_1d.hpp:44-86), `n` the current time level after `cycle`, as phases
separated by barriers: `xchng` contains barriers around and between the fills, `beta_barrier` is a barrier unless `iga`
(mpdata_fct_common.hpp:38-42) -/
def iter1 (n : Bool) (iter : Nat) : List (List (S A1 Unit V)) :=
  xchng1 F o N (.psi n) ++
  if o.fct then
    [[anti1 F n iter]] ++ xchngV1 F o N (corr1 iter) ++
    (if o.iga then
      [[bup1 F n (corr1 iter) iter, bdn1 F n (corr1 iter) iter, mono1 F n iter, donor1 n .mono (F.donor iter)]]
    else
      [[flux1b F n iter, bup1 F n .flux iter, bdn1 F n .flux iter],
       [mono1 F n iter, flux1 n .mono (F.flx iter), donor1 n .flux (F.donor iter)]])
  else if o.dfl ∧ iter ≠ o.n_iters - 1 then
    [[anti1 F n iter]] ++ xchngV1 F o N (corr1 iter) ++
    (if o.iga then [[donor1 n (corr1 iter) (F.donor iter)]] else [[flux1 n (corr1 iter) (F.flx iter), donor1 n .flux (F.donor iter)]])
  else
    (if o.iga then [[anti1 F n iter, donor1 n (corr1 iter) (F.donor iter)]]
    else [[anti1 F n iter, flux1 n (corr1 iter) (F.flx iter), donor1 n .flux (F.donor iter)]])

/-- corrective iterations `iter, iter+1, ...` (`k` of them), alternating the time levels -/
def iters1 : Nat → Bool → Nat → List (List (S A1 Unit V))
  | 0, _, _ => []
  | k + 1, n, iter => iter1 F o N n iter ++ iters1 k (!n) (iter + 1)

/-- one time step of one equation (solver_common.hpp:127-136 and mpdata_osc_1d.hpp:58-132): `xchng`, `advop` -/
def step1 (n : Bool) : List (List (S A1 Unit V)) :=
  xchng1 F o N (.psi n) ++ [fctInit1 F o n ++ [flux1 n .gc F.flx0, donor1 n .flux (F.donor 0)]] ++ iters1 F o N (o.n_iters - 1) (!n) 1

end Threads
end Mpdata
