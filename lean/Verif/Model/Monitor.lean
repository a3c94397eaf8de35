import Verif.Model.VarDt
import Mathlib.Data.Nat.Digits.Defs
import Mathlib.Algebra.Order.Floor.Defs
import Mathlib.Data.Rat.Floor
/-! # Progress shown in the thread name
Models `solvers/detail/monitor.hpp` and its only call, in the time loop of `solve`
(`solvers/detail/solver_common.hpp:295-298`). Names are lists of characters, the local buffer
`char name[17]` is memory indexed from its first byte. Not modelled: the `pthread` variant (its macros are
never defined), negative percentages. -/
namespace Mpdata.Mon

/-- the string terminator -/
def nul : Char := Char.ofNat 0

/-- `%d` of a non-negative number -/
def dec (k : Nat) : List Char := if k = 0 then ['0'] else (Nat.digits 10 k).reverse.map Nat.digitChar

/-- `" %3d%%"` (monitor.hpp:34): blank, number right-aligned in three places, percent sign -/
def text (k : Nat) : List Char := ' ' :: (List.replicate (3 - (dec k).length) ' ' ++ dec k ++ ['%'])

/-- size of `char name[17]` (monitor.hpp:21) -/
def bufSize : Nat := 17

/-- contents of the buffer after `name[16] = '\0'` and `prctl(PR_GET_NAME, name)` (monitor.hpp:23-24): the kernel
copies its 16-byte name, padded with zeros -/
def getName (comm : List Char) : Nat → Char := fun i => if i < 16 then comm.getD i nul else nul

/-- where the text is written: `std::min(len, 10)` (monitor.hpp:32); `len` is the length of the name in the first call of
the program, a `static` (monitor.hpp:28) -/
def place (len : Nat) : Nat := min len 10

/-- bytes of the buffer written by `sprintf` (monitor.hpp:31-35), the terminator included -/
def footprint (len k : Nat) : List Nat := (List.range ((text k).length + 1)).map (place len + ·)

/-- the memory after `sprintf` at `p` -/
def sprintf (b : Nat → Char) (p : Nat) (s : List Char) : Nat → Char :=
  fun i => if i < p then b i else if i < p + s.length then s.getD (i - p) nul else if i = p + s.length then nul else b i

/-- `prctl(PR_SET_NAME, name)` (monitor.hpp:37): up to the terminator, at most 15 characters -/
def setName (b : Nat → Char) : List Char := ((List.range 15).map b).takeWhile (· ≠ nul)

/-- `monitor` (monitor.hpp:19-42): name of the thread before and after the call -/
def monitor (len : Nat) (comm : List Char) (k : Nat) : List Char :=
  setName (sprintf (getName comm) (place len) (text k))

/-- the names of all threads and the static `len` -/
structure St where
  len : Option Nat
  comm : Nat → List Char

/-- a call by thread `t` (monitor.hpp:28: `len` is set in the first call) -/
def call (s : St) (t k : Nat) : St :=
  let len := s.len.getD (s.comm t).length
  { len := some len, comm := fun u => if u = t then monitor len (s.comm t) k else s.comm u }

/-- `int(frac * 100)` with fixed dt: `frac = float(timestep) / nt` (solver_common.hpp:298, monitor.hpp:35); `rnd` is rounding to
`float` -/
def pctFixed (rnd : ℚ → ℚ) (timestep nt : Nat) : Nat := ⌊rnd (rnd (rnd timestep / rnd nt) * 100)⌋₊

/-- the same with var_dt: `frac = float(time) / nt` with `nt` of type `real_t`. Simplification: rounding of the quotient
first to `real_t` and then to `float` is one rounding -/
def pctVar (rnd : ℚ → ℚ) (time nt : ℚ) : Nat := ⌊rnd (rnd (rnd time / nt) * 100)⌋₊

/-- the calls of `monitor` in the time loop with fixed dt (solver_common.hpp:295-303), up to `k` more steps: before the look at
`panic` in each step -/
def loopFixed (rnd : ℚ → ℚ) (panic : Nat → Bool) (nt : Nat) : Nat → Nat → List Nat
  | 0, _ => []
  | k + 1, t => pctFixed rnd t nt :: if panic t then [] else loopFixed rnd panic nt k (t + 1)

/-- the calls in `solve(nt)` from step `t` (solver_common.hpp:270-303) -/
def advFixed (rnd : ℚ → ℚ) (panic : Nat → Bool) (nt t : Nat) : List Nat := loopFixed rnd panic (nt + t) nt t

/-- the calls in the time loop with var_dt (solver_common.hpp:294-353), as long as it runs within `fuel` steps -/
def loopVar (rnd : ℚ → ℚ) (dt : Nat → ℚ) (nt : ℚ) : Nat → VSt ℚ → List Nat
  | 0, _ => []
  | f + 1, s => if s.time < nt ∨ s.additional > 0 then pctVar rnd s.time nt :: loopVar rnd dt nt f (vBody dt nt s) else []

/-- the calls in `solve(nt)` with var_dt, `additional_steps = out_intrp_ord` (solver_common.hpp:293) -/
def advVar (rnd : ℚ → ℚ) (dt : Nat → ℚ) (ord fuel : Nat) (nt time : ℚ) (steps : Nat) : List Nat :=
  loopVar rnd dt (nt + time) fuel ⟨time, steps, ord⟩

end Mpdata.Mon
