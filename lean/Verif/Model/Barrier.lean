import Verif.Basic
/-! # The C++11 thread barrier
Models `concurr::detail::barrier` (concurr/cxx11_thread.hpp:27-59) used by `n` threads.
The mutex makes each segment between lock acquisition and `m_cond.wait`/return atomic, so a
segment is one transition. A waiting thread is asleep inside `m_cond.wait` or awake (notified or
spuriously woken) and about to re-test its loop condition. -/
namespace Mpdata.Barrier

/-- where a thread is: outside `wait()`, or inside its `while` loop with the recorded
local `gen` (line 45), asleep or awake -/
inductive PC
  | out
  | wait (gen : Nat) (awake : Bool)
deriving DecidableEq, Repr

/-- per-thread state; `entered`/`left` are history counters (not in the code): calls of
`wait()` started / returned. -/
structure Thr where
  pc : PC
  entered : Nat
  left : Nat
deriving DecidableEq, Repr

/-- barrier object (lines 29-32) plus the threads using it. -/
structure State (n : Nat) where
  generation : Nat     -- m_generation : size_t
  count : Nat          -- m_count : size_t
  threshold : Nat      -- m_threshold
  th : Fin n → Thr

/-- constructor (lines 36-40); all threads start outside. -/
def init (n threshold : Nat) : State n :=
  { generation := 0, count := threshold, threshold := threshold, th := fun _ => ⟨.out, 0, 0⟩ }

/-- set thread `t` -/
def setThr {n : Nat} (f : Fin n → Thr) (t : Fin n) (x : Thr) : Fin n → Thr :=
  fun u => if u = t then x else f u

/-- `m_cond.notify_all()` (line 51): every sleeper becomes awake. -/
def notifyAll {n : Nat} (f : Fin n → Thr) : Fin n → Thr := fun u =>
  match (f u).pc with
  | .out => f u
  | .wait g _ => { f u with pc := .wait g true }

inductive Op (n : Nat)
  | enter (t : Fin n)     -- thread calls wait() (lines 44-53, and first test of line 55)
  | spurious (t : Fin n)  -- spurious wake-up of a sleeper
  | check (t : Fin n)     -- an awake thread re-tests `gen == m_generation` (line 55)

/-- one atomic transition; `none` = not enabled.
`size_t` arithmetic is modulo 2^64 and the local `unsigned int gen` is the generation modulo 2^32. -/
def step {n : Nat} (s : State n) : Op n → Option (State n)
  | .enter t =>
    match (s.th t).pc with
    | .wait _ _ => none
    | .out =>
      let gen := s.generation % 2 ^ 32                       -- line 45
      let c := (s.count + (2 ^ 64 - 1)) % 2 ^ 64             -- --m_count, line 47
      if c = 0 then
        some { s with
          generation := (s.generation + 1) % 2 ^ 64           -- line 49
          count := s.threshold                                 -- line 50
          th := notifyAll (setThr s.th t ⟨.out, (s.th t).entered + 1, (s.th t).left + 1⟩) } -- 51-52
      else if gen = s.generation then
        some { s with count := c, th := setThr s.th t ⟨.wait gen false, (s.th t).entered + 1, (s.th t).left⟩ }
      else
        some { s with count := c, th := setThr s.th t ⟨.out, (s.th t).entered + 1, (s.th t).left + 1⟩ }
  | .spurious t =>
    match (s.th t).pc with
    | .wait g false => some { s with th := setThr s.th t { s.th t with pc := .wait g true } }
    | _ => none
  | .check t =>
    match (s.th t).pc with
    | .wait g true =>
      if g = s.generation then
        some { s with th := setThr s.th t { s.th t with pc := .wait g false } }
      else
        some { s with th := setThr s.th t { s.th t with pc := .out, left := (s.th t).left + 1 } }
    | _ => none

/-- run a schedule -/
def run {n : Nat} (s : State n) : List (Op n) → Option (State n)
  | [] => some s
  | op :: ops => match step s op with
    | none => none
    | some s' => run s' ops

/-- number of threads launched and barrier threshold as set up by the `cxx11_thread`
constructor (concurr/cxx11_thread.hpp:95-98, 121-123); `hw` is the requested thread number
(`OMP_NUM_THREADS` or hardware concurrency), `min(hw, extent)` the result of `size(max_threads)` (81-92).
The same pattern is in `boost_thread` and `openmp`. -/
def threadSetup (nDims : Nat) (gridSize : Nat → Nat) (hw : Nat) : Nat × Nat :=
  (min hw (gridSize (if nDims < 3 then 0 else 1)), min hw (gridSize 0))

end Mpdata.Barrier
