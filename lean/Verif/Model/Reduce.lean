import Verif.Model.ThreadProg
import Verif.Model.Donor
/-!
# Concurrency-aware reductions and in-place face updates

Models `sharedmem_common::sum/min/max` (concurr/detail/sharedmem.hpp:115-265), `kahan_sum` (kahan_reduction.hpp:30-60),
`solver::scale_gc` (solvers/detail/solver_1d.hpp:117-123, solver_2d.hpp:313-322, solver_3d.hpp:411-421) and the thread-dependent face ranges of the
subgrid-scale model (solvers/detail/mpdata_rhs_vip_prs_sgs_common.hpp:199-226).
-/
namespace Mpdata
namespace Threads

/-- locations used by a reduction: the reduced array (`x` along the split dimension, `y` across), `sumtmp`, `xtmtmp`, and the value each thread returns -/
inductive RL (Y : Type) | arr (x : Int) (y : Y) | sumtmp (c : Int) | xtmtmp (t : Nat) | res (t : Nat)
deriving DecidableEq

variable {Y V : Type}

/-- first loop of `sum` (sharedmem.hpp:119-129): `sumtmp(c)` = reduction of slice `c`, for the slices of the thread's slab.
`red` is `blitz::sum` or `blitz::kahan_sum` of the elements in storage order `ys`; it is arbitrary here. -/
def sumSlices (red : List V → V) (ys : List Y) (N T : Nat) : Stmt (Fin T) (RL Y) V where
  dom t := (irange (slabOf N T t)).map .sumtmp
  rd l l' := ∃ c y, l = .sumtmp c ∧ l' = .arr c y
  f m l := match l with
    | .sumtmp c => red (ys.map fun y => m (.arr c y))
    | _ => red []

/-- second part without MPI (sharedmem.hpp:132-138): every thread reduces the whole `sumtmp` -/
def sumFinal (red : List V → V) (N T : Nat) : Stmt (Fin T) (RL Y) V where
  dom t := [.res t.1]
  rd _ l' := ∃ c, l' = .sumtmp c
  f m _ := red ((irange ⟨0, (N : Int) - 1⟩).map fun c => m (.sumtmp c))

/-- `sum` without MPI: two phases separated by a barrier -/
def sumProg (red : List V → V) (ys : List Y) (N T : Nat) : List (List (Stmt (Fin T) (RL Y) V)) :=
  [[sumSlices red ys N T], [sumFinal red N T]]

/-- with MPI (sharedmem.hpp:140-153): thread 0 reduces `sumtmp` in place into its first element, then across processes.
Simplification: the cross-process reduction is a function `g` of the local value (the other processes' values are fixed), and the two assignments to the
same element by thread 0 are one. -/
def sumLocalMpi (red : List V → V) (g : V → V) (N T : Nat) : Stmt (Fin T) (RL Y) V where
  dom t := if t.1 = 0 then [.sumtmp 0] else []
  rd _ l' := ∃ c, l' = .sumtmp c
  f m _ := g (red ((irange ⟨0, (N : Int) - 1⟩).map fun c => m (.sumtmp c)))

/-- (sharedmem.hpp:155) every thread reads the result -/
def sumReadMpi (T : Nat) : Stmt (Fin T) (RL Y) V where
  dom t := [.res t.1]
  rd _ l' := l' = .sumtmp 0
  f m _ := m (.sumtmp 0)

/-- `sum` with MPI -/
def sumProgMpi (red : List V → V) (g : V → V) (ys : List Y) (N T : Nat) : List (List (Stmt (Fin T) (RL Y) V)) :=
  [[sumSlices red ys N T], [sumLocalMpi red g N T], [sumReadMpi T]]

/-- first statement of `min`/`max` (sharedmem.hpp:201-204, 224-227): `xtmtmp(rank)` = reduction of the thread's own part of the array -/
def extrParts (red : List V → V) (ys : List Y) (N T : Nat) : Stmt (Fin T) (RL Y) V where
  dom t := [.xtmtmp t.1]
  rd l l' := ∃ x y, l' = .arr x y
  f m l := match l with
    | .xtmtmp t => red ((irange (slab ⟨0, (N : Int) - 1⟩ t T)).flatMap fun x => ys.map fun y => m (.arr x y))
    | _ => red []

/-- second part of `min`/`max` without MPI (sharedmem.hpp:207-209) -/
def extrFinal (red : List V → V) (T : Nat) : Stmt (Fin T) (RL Y) V where
  dom t := [.res t.1]
  rd _ l' := ∃ t, l' = .xtmtmp t
  f m _ := red ((List.range T).map fun t => m (.xtmtmp t))

/-- `min`/`max` without MPI -/
def extrProg (red : List V → V) (ys : List Y) (N T : Nat) : List (List (Stmt (Fin T) (RL Y) V)) :=
  [[extrParts red ys N T], [extrFinal red T]]

/-- `blitz::min` (blitz ReduceMin: starts from `huge(T)`, replaces when smaller) -/
def redMin {K : Type} [LinearOrder K] (hugeV : K) (xs : List K) : K := xs.foldl (fun m x => if x < m then x else m) hugeV

/-- `blitz::max` (blitz ReduceMax: starts from the lowest number, replaces when larger) -/
def redMax {K : Type} [LinearOrder K] (lowest : K) (xs : List K) : K := xs.foldl (fun m x => if x > m then x else m) lowest

/-- `blitz::sum` -/
def redSum (add : V → V → V) (zero : V) (xs : List V) : V := xs.foldl add zero

/-! ## In-place updates of face values -/

/-- faces of a thread in `scale_gc` along the split dimension: `rng_t(first, last - 1)^h` -/
def scaleRng (r : Rng) : Rng := (Rng.mk r.first (r.last - 1)).extH

/-- in-place update `GC(range, y) *= factor` of the faces of each thread; `mul` is the multiplication by the factor, arbitrary here -/
def scaleGc (mul : V → V) (ys : List Y) (N T : Nat) : Stmt (Fin T) (Int × Y) V where
  dom t := (irange (scaleRng (slabOf N T t))).flatMap fun x => ys.map fun y => (x, y)
  rd l l' := l' = l
  f m l := mul (m l)

/-- in-place multiplication of face values by a viscosity interpolated to the face, over `ijkm_sep` (formulae/stress_formulae.hpp:430-715 with the range
set in mpdata_rhs_vip_prs_sgs_common.hpp:213-226): faces `[first - 1, last]` for rank 0 and `[first, last]` for the others.
`mul` receives the face index, so the viscosity field may vary. -/
def multFaces (mul : Int → Y → V → V) (ys : List Y) (N T : Nat) : Stmt (Fin T) (Int × Y) V where
  dom t := (irange ((Dom.face 0).rng N T t)).flatMap fun x => ys.map fun y => (x, y)
  rd l l' := l' = l
  f m l := mul l.1 l.2 (m l)

end Threads
end Mpdata
