import Verif.Model.Opts
/-! # The time-stepping skeleton
Models `solvers/detail/solver_common.hpp` (time levels, equation loop, `solve`), the
iteration loop of `advop` (`solvers/detail/mpdata_osc_{1,2,3}d.hpp`) and
`sharedmem_common::cycle/advectee` (`concurr/detail/sharedmem.hpp`), over an arbitrary type `X`
of field contents (one value = one whole array, halo included) and arbitrary numerical
kernels and hooks. One thread's view is modelled; every thread executes the same code on its own
copy of `n`, and thread 0 updates the shared `n`. -/
namespace Mpdata

/-- events of one time step, in program order -/
inductive Ev
  | anteStep
  | body (e : Nat)     -- solve_loop_body(e)
  | anteDelayed
  | postStep
deriving DecidableEq, Repr

/-- `solve`, the body of one time step (solver_common.hpp:331-351): hooks and the two equation loops. -/
def stepEvents (nEqns : Nat) (delayed : OptsT) : List Ev :=
  [.anteStep]
  ++ (List.range nEqns).filterMap (fun e => if isset delayed (bit e) then none else some (.body e))
  ++ [.anteDelayed]
  ++ (List.range nEqns).filterMap (fun e => if !isset delayed (bit e) then none else some (.body e))
  ++ [.postStep]

/-- everything that is a parameter of the skeleton -/
structure Cfg (X : Type) where
  nEqns : Nat
  delayed : OptsT
  nIters : Nat
  filterFreq : Nat
  hintScale : Nat → Int
  /-- `scale(e, exp)` on a field (solver_common.hpp:374-379) -/
  scale : Int → X → X
  /-- halo exchange of a field -/
  xchng : X → X
  /-- first (upwind) pass of equation `e` in step `ts` -/
  pass0 : (ts e : Nat) → X → X
  /-- corrective pass `iter` ≥ 1, given psi[n] and psi[n-1] (the latter used by div_3rd in 2-D/3-D) -/
  pass : (ts e iter : Nat) → X → X → X
  hookAnteStep : (ts : Nat) → (Nat → X) → (Nat → X)
  hookAnteDelayed : (ts : Nat) → (Nat → X) → (Nat → X)
  hookPostStep : (ts : Nat) → (Nat → X) → (Nat → X)

/-- solver memory: `mem->psi[e][slot]` (two slots), per-equation `n[e]`, shared `mem->n`, step counter -/
structure St (X : Type) where
  psi : Nat → Nat → X
  n : Nat → Int
  memN : Int
  timestep : Nat

/-- `n_tlev` (formulae/mpdata/formulae_mpdata_common.hpp:48) -/
def nTlev : Nat := 2

/-- slot selected by `psi[e][i]` (blitz.hpp:89-101) -/
def slot (i : Int) : Nat := arrvecIdx nTlev i

/-- `state(e)` (solver_common.hpp:365-368) -/
def St.state {X} (s : St X) (e : Nat) : X := s.psi e (slot (s.n e))

/-- assignment to `psi[e][i]` -/
def St.write {X} (s : St X) (e : Nat) (i : Int) (x : X) : St X :=
  { s with psi := fun e' k => if e' = e ∧ k = slot i then x else s.psi e' k }

/-- `sharedmem::advectee(e)` (concurr/detail/sharedmem.hpp:332-341, 411-419, 502-513): what the user reads -/
def St.advectee {X} (s : St X) (e : Nat) : X := s.psi e (slot s.memN)

/-- `is_last_eqn` (solver_common.hpp:84-89) -/
def isLastEqn {X} (c : Cfg X) (e : Nat) : Bool :=
  (mostSignificant c.delayed == 0 && (e : Int) == (c.nEqns : Int) - 1) ||
  ((e : Int) == (mostSignificant c.delayed : Int) - 1)

/-- `(n + 1) % n_tlev - n_tlev` with C++ remainder (solver_common.hpp:93, sharedmem.hpp:85) -/
def cycN (n : Int) : Int := Int.tmod (n + 1) nTlev - nTlev

/-- `cycle(e)` (solver_common.hpp:91-95) with `mem->cycle` (sharedmem.hpp:82-87) -/
def cycle {X} (c : Cfg X) (e : Nat) (s : St X) : St X :=
  { s with
    n := fun e' => if e' = e then cycN (s.n e) else s.n e'
    memN := if isLastEqn c e then cycN s.memN else s.memN }

/-- `upwind_filter_freq > 0 && timestep % upwind_filter_freq == 0` (mpdata_osc_1d.hpp:125) -/
def filterStep {X} (c : Cfg X) (ts : Nat) : Bool := c.filterFreq > 0 && ts % c.filterFreq == 0

/-- the iteration loop of `advop(e)` (mpdata_osc_1d.hpp:62-131, mpdata_osc_2d.hpp:70-183, mpdata_osc_3d.hpp:73-202);
`k` iterations left, `iter` the current one -/
def advIters {X} (c : Cfg X) (e : Nat) : (k iter : Nat) → St X → St X
  | 0, _, s => s
  | k + 1, iter, s =>
    let s := if iter ≠ 0 then
        let s := cycle c e s
        s.write e (s.n e) (c.xchng (s.state e))
      else s
    let new := if iter = 0 then c.pass0 s.timestep e (s.state e)
      else c.pass s.timestep e iter (s.state e) (s.psi e (slot (s.n e - 1)))
    let s := s.write e (s.n e + 1) new
    if filterStep c s.timestep then s else advIters c e k (iter + 1) s

/-- `solve_loop_body(e)` (solver_common.hpp:127-136) -/
def solveLoopBody {X} (c : Cfg X) (e : Nat) (s : St X) : St X :=
  let s := s.write e (s.n e) (c.scale (c.hintScale e) (s.state e))
  let s := s.write e (s.n e) (c.xchng (s.state e))
  let s := advIters c e c.nIters 0 s
  let s := cycle c e s
  s.write e (s.n e) (c.scale (-(c.hintScale e)) (s.state e))

/-- a hook that modifies the current fields in place -/
def applyHook {X} (c : Cfg X) (h : (Nat → X) → (Nat → X)) (s : St X) : St X :=
  let new := h (fun e => s.state e)
  { s with psi := fun e k => if e < c.nEqns ∧ k = slot (s.n e) then new e else s.psi e k }

/-- effect of an event on the memory; `timestep++` (line 347) happens just before the post-step hook -/
def doEvent {X} (c : Cfg X) (s : St X) : Ev → St X
  | .anteStep => applyHook c (c.hookAnteStep s.timestep) s
  | .body e => solveLoopBody c e s
  | .anteDelayed => applyHook c (c.hookAnteDelayed s.timestep) s
  | .postStep => applyHook c (c.hookPostStep (s.timestep + 1)) { s with timestep := s.timestep + 1 }

/-- one time step -/
def oneStep {X} (c : Cfg X) (s : St X) : St X :=
  (stepEvents c.nEqns c.delayed).foldl (doEvent c) s

/-- the `while` loop of `solve` for fixed dt (solver_common.hpp:295-354): up to `k` more steps;
`panic ts` is the value of `mem->panic` observed at the boundary before step `ts` (line 302) -/
def solveLoop {S : Type} (timestep : S → Nat) (step : S → S) (panic : Nat → Bool) : Nat → S → S
  | 0, s => s
  | k + 1, s => if panic (timestep s) then s else solveLoop timestep step panic k (step s)

/-- `solve(nt)` for fixed dt (solver_common.hpp:270-358): `nt += timestep`; `hook_ante_loop` if
`timestep == 0`; loop while `timestep < nt` -/
def solveFixed {S : Type} (timestep : S → Nat) (anteLoop step : S → S) (panic : Nat → Bool)
    (nt : Nat) (s : S) : S :=
  let target := nt + timestep s
  let s := if timestep s = 0 then anteLoop s else s
  solveLoop timestep step panic (target - timestep s) s

/-- initial memory: `n(n_eqns, 0)` (solver_common.hpp:238), `n = 0` (sharedmem.hpp:46), user's initial fields in slot 0 -/
def initSt {X} (init : Nat → Nat → X) : St X :=
  { psi := init, n := fun _ => 0, memN := 0, timestep := 0 }

end Mpdata
