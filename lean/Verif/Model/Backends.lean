import Verif.Model.Range
/-!
# The four ways of running subdomains concurrently

Models `concurr/serial.hpp`, `concurr/openmp.hpp`, `concurr/boost_thread.hpp`, `concurr/cxx11_thread.hpp` (constructors, `mem_t::size`, `solve`; `concurr/threads.hpp` is an alias
of the second or the third), and of `concurr/detail/concurr_common.hpp` the construction of the subdomains and `advance`: a program that constructs any number of solvers one
after the other and advances them in any order, from one thread.

Simplifications: what `atoi` makes of `OMP_NUM_THREADS` is given; grid sizes are below `2^31`; the OpenMP runtime grants the number of threads requested (`nthreads-var`), also
if it is 0; no MPI.
-/
namespace Mpdata
namespace Backend

/-- the concurrency classes -/
inductive Kind | serial | openmp | boost | cxx11
deriving DecidableEq, Repr

/-- what the process is started with: `atoi(getenv("OMP_NUM_THREADS"))` if the variable is set, and the number of hardware threads as given by `hardware_concurrency()` -/
structure Env where
  var : Option Int
  hw : Nat

/-- conversion of an `int` to `unsigned` (32 bits) -/
def toUnsigned (v : Int) : Nat := (v % 4294967296).toNat

/-- the requested number of threads: the variable or else the given default (openmp.hpp:42-44, boost_thread.hpp:43-45, cxx11_thread.hpp:85-87) -/
def Env.asked (e : Env) (dflt : Nat) : Nat := match e.var with
  | some v => toUnsigned v
  | none => dflt

/-- `mem_t::size(max_threads)`: value returned and new `nthreads-var` of the OpenMP runtime, given the old one (serial.hpp:31, openmp.hpp:37-52, boost_thread.hpp:39-50,
cxx11_thread.hpp:81-92) -/
def sizeOf (k : Kind) (e : Env) (icv maxThreads : Nat) : Nat × Nat := match k with
  | .serial => (1, icv)
  | .openmp => (min maxThreads (e.asked icv), min maxThreads (e.asked icv))
  | .boost => (min (e.asked e.hw) maxThreads, icv)
  | .cxx11 => (min (e.asked e.hw) maxThreads, icv)

/-- dimension in which the domain is divided among threads (openmp.hpp:80, boost_thread.hpp:84, cxx11_thread.hpp:122) -/
def splitDim (nDims : Nat) : Nat := if nDims < 3 then 0 else 1

/-- a solver object: its class, number of dimensions, grid, number of threads its shared memory has been made for (the threshold of the barrier of boost_thread.hpp:54,
cxx11_thread.hpp:96 and the length of `xtmtmp`, sharedmem.hpp:111), number of subdomains (`algos.size()`) -/
structure Solver where
  kind : Kind
  nDims : Nat
  grid : Nat → Nat
  memSize : Nat
  algos : Nat

/-- state of the program: OpenMP's `nthreads-var`, the solver objects, and for each call of `advance` so far the number of the solver and the subdomains that were run -/
structure Sys where
  icv : Nat
  objs : List Solver
  log : List (Nat × List Nat)

/-- what the program does next: construct a solver (`memFirst`: the compiler evaluates `new mem_t` before the other `size` in the call of the base-class constructor, an order C++ leaves
open); advance solver number `i`; call `omp_set_num_threads` -/
inductive Op
  | construct (memFirst : Bool) (k : Kind) (nDims : Nat) (grid : Nat → Nat)
  | advance (i : Nat)
  | setNumThreads (n : Nat)

/-- the subdomains run by `solve` (serial.hpp:41-44, openmp.hpp:64-74, boost_thread.hpp:68-81, cxx11_thread.hpp:108-119) -/
def launched (icv : Nat) (s : Solver) : List Nat := match s.kind with
  | .serial => [0]
  | .openmp => List.range icv
  | .boost => List.range s.algos
  | .cxx11 => List.range s.algos

/-- one operation; `none`: the exception of sharedmem.hpp:106-107, or no such solver -/
def step (e : Env) (s : Sys) : Op → Option Sys
  | .construct memFirst k nDims grid =>
    let first := if memFirst then sizeOf k e s.icv (grid 0) else sizeOf k e s.icv (grid (splitDim nDims))
    let second := if memFirst then sizeOf k e first.2 (grid (splitDim nDims)) else sizeOf k e first.2 (grid 0)
    let m := if memFirst then first.1 else second.1
    let a := if memFirst then second.1 else first.1
    match sharedmemCtor (grid 0) m with
    | none => none
    | some _ => some { s with icv := second.2, objs := s.objs ++ [⟨k, nDims, grid, m, a⟩] }
  | .advance i => match s.objs[i]? with
    | none => none
    | some o => some { s with log := s.log ++ [(i, launched s.icv o)] }
  | .setNumThreads n => some { s with icv := n }

/-- a whole program -/
def run (e : Env) (s : Sys) : List Op → Option Sys
  | [] => some s
  | o :: os => (step e s o).bind fun s' => run e s' os

/-- at program start the OpenMP runtime takes `nthreads-var` from the environment or the hardware -/
def start (e : Env) : Sys := ⟨e.asked e.hw, [], []⟩

/-- indices of subdomain `t` in the divided dimension (concurr_common.hpp:278, 317, 365) -/
def Solver.range (s : Solver) (t : Nat) : Rng := slab ⟨0, (s.grid (splitDim s.nDims) : Int) - 1⟩ t s.algos

/-- whether subdomain `t` is given the physical condition at the left and at the right end of the divided dimension; otherwise it is given `bcond::shared`, which does nothing
(concurr_common.hpp:276-277, 314-315, 361-362; bcond/shared.hpp) -/
def Solver.physical (s : Solver) (t : Nat) : Bool × Bool := (t == 0, t == s.algos - 1)

/-- the entries of `xtmtmp` when it is read in `min` or `max` (sharedmem.hpp:201-247): threads of the subdomains run have each stored a value, other entries are as allocated -/
def slots {V : Type} (s : Solver) (ran : List Nat) (alloc val : Nat → V) : List V :=
  (List.range s.memSize).map fun j => if j ∈ ran then val j else alloc j

end Backend
end Mpdata
