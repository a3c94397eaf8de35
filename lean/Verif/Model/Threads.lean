import Verif.Basic
/-!
# Shared-memory execution

Each solver thread executes the same sequence of array statements `A(range) = expression` (Blitz++ array assignments and explicit loops over a
range, e.g. solvers/detail/mpdata_osc_1d.hpp:58-132) on its own sub-range; barriers (concurr/detail/sharedmem.hpp `barrier()`) separate phases.
Within a phase threads interleave freely.  An element assignment is two atomic steps: evaluating the right-hand side, and storing the value.
Simplification: evaluating the right-hand side of one element reads all its operands at one instant; the memory is sequentially consistent.
The arithmetic is arbitrary (`V` is any type, the formulae any functions), so that results hold bit for bit for floating point.
That barriers separate phases is property C25.
-/
namespace Mpdata
namespace Threads

variable {ι L V : Type}

/-- one element assignment: location written, locations read, value as a function of memory -/
structure Act (L V : Type) where
  wr : L
  rd : L → Prop
  f : (L → V) → V

/-- the value depends only on the locations declared as read -/
def Act.Ok (a : Act L V) : Prop := ∀ m m' : L → V, (∀ l, a.rd l → m l = m' l) → a.f m = a.f m'

/-- state within a phase: memory, remaining actions of each thread, value each thread has evaluated but not stored yet -/
structure PSt (ι L V : Type) where
  mem : L → V
  rem : ι → List (Act L V)
  reg : ι → Option V

/-- replace the value of a function at one point -/
def upd {α β : Type} [DecidableEq α] (f : α → β) (a : α) (b : β) : α → β := fun x => if x = a then b else f x

variable [DecidableEq ι] [DecidableEq L]

/-- a step of some thread: evaluate the next element, or store it -/
inductive Step : PSt ι L V → PSt ι L V → Prop
  | load (s : PSt ι L V) (t : ι) (a : Act L V) (as : List (Act L V)) (h : s.rem t = a :: as) (hr : s.reg t = none) :
      Step s { s with reg := upd s.reg t (some (a.f s.mem)) }
  | store (s : PSt ι L V) (t : ι) (a : Act L V) (as : List (Act L V)) (v : V) (h : s.rem t = a :: as) (hr : s.reg t = some v) :
      Step s { mem := upd s.mem a.wr v, rem := upd s.rem t as, reg := upd s.reg t none }

/-- any finite sequence of steps: any interleaving -/
inductive Steps : PSt ι L V → PSt ι L V → Prop
  | refl (s) : Steps s s
  | tail (s u w) : Steps s u → Step u w → Steps s w

/-- a complete execution of a phase: all threads run their program to the end, in some interleaving -/
def PhaseExec (prog : ι → List (Act L V)) (m m' : L → V) : Prop :=
  ∃ w : PSt ι L V, Steps ⟨m, prog, fun _ => none⟩ w ∧ (∀ t, w.rem t = []) ∧ w.mem = m'

/-- an array statement executed by all threads: the elements each thread assigns (in its own order), the locations read for an element, the
expression -/
structure Stmt (ι L V : Type) where
  dom : ι → List L
  rd : L → L → Prop
  f : (L → V) → L → V

/-- the element assignment of location `l` by statement `s` -/
def Stmt.act (s : Stmt ι L V) (l : L) : Act L V := ⟨l, s.rd l, fun m => s.f m l⟩

/-- the program of a thread in a phase: its elements of each statement, statement after statement -/
def progOf (ss : List (Stmt ι L V)) (t : ι) : List (Act L V) := ss.flatMap fun s => (s.dom t).map s.act

/-- executions of several phases separated by barriers -/
inductive PhasesExec : List (List (Stmt ι L V)) → (L → V) → (L → V) → Prop
  | nil (m) : PhasesExec [] m m
  | cons (ss rest m m' m'') : PhaseExec (progOf ss) m m' → PhasesExec rest m' m'' → PhasesExec (ss :: rest) m m''

end Threads
end Mpdata
