import Verif.Model.ThreadProg
/-!
# MPI halo exchange and gathering

Models `bcond/detail/remote_common.hpp` (peer, tags, send/recv/xchng), `bcond/remote_1d.hpp`, `remote_2d.hpp` (index ranges), the order of exchanges set in
`solvers/detail/solver_common.hpp:102-114` (`set_bcs`) and `concurr/detail/distmem.hpp:110-160` (`get_global_array`).

The domain is split among `P ≥ 2` processes along x only (concurr/detail/sharedmem.hpp:94-104).  `W` is the value stored at one x: a number in 1-D, a row of
numbers in 2-D/3-D (a message carries whole rows; simplification: the same transverse range at both ends, one communicating thread per side).
Messages are buffered copies (`buf_send`), delivered in order per (sender, receiver, tag), after any delay (MPI's non-overtaking rule).
-/
namespace Mpdata
namespace Mpi
open Threads (irange)

/-- `drctn_e` (bcond/detail/bcond_common.hpp) -/
inductive Dir | left | rght
deriving DecidableEq, Repr

/-- opposite direction -/
def Dir.opp : Dir → Dir | .left => .rght | .rght => .left

/-- global grid size, number of processes, halo width -/
structure Par where
  N : Nat
  P : Nat
  halo : Nat
deriving DecidableEq

/-- x-range of process `p` in global indices (sharedmem.hpp:94-104) -/
def Par.rng (c : Par) (p : Nat) : Rng := slab ⟨0, (c.N : Int) - 1⟩ p c.P

/-- `peer` (remote_common.hpp:52-54) -/
def Par.peer (c : Par) (p : Nat) : Dir → Nat
  | .left => (p + c.P - 1) % c.P
  | .rght => (p + 1) % c.P

/-- `is_cyclic` (remote_common.hpp:62-68): the exchange closes the ring -/
def Par.isCyclic (c : Par) (p : Nat) : Dir → Bool
  | .left => p == 0
  | .rght => p == c.P - 1

/-- index range sent by process `p` in direction `d` for a scalar (`v = false`: `left_intr_sclr + off`, `rght_intr_sclr + off`, remote_1d.hpp:31-35, 139-143)
or a face field (`v = true`: remote_1d.hpp:46-59, 155-166); the ranges of bcond_common.hpp:225-275 are
`left_intr_sclr = [first+1, first+halo]`, `rght_intr_sclr = [last-halo, last-1]`, `left_intr_vctr = [first, first+halo-1]`, `rght_intr_vctr = [last-halo, last-1]`.
An empty range stands for no message (`halo == 1`: `send` only / `recv` only). -/
def Par.sendRng (c : Par) (v : Bool) (p : Nat) (d : Dir) : Rng :=
  let r := c.rng p
  let h : Int := c.halo
  match v, d with
  | false, .left => (Rng.mk (r.first + 1) (r.first + h)).shift (if c.isCyclic p .left then 0 else -1)
  | false, .rght => (Rng.mk (r.last - h) (r.last - 1)).shift (if c.isCyclic p .rght then 0 else 1)
  | true, .left => (Rng.mk r.first (r.first + h - 1)).shift (if c.isCyclic p .left then 0 else -1)
  | true, .rght =>
    if c.isCyclic p .rght then Rng.mk (r.last - h) (r.last - 1)
    else if c.halo = 1 then ⟨0, -1⟩
    else (((Rng.mk (r.last - h) (r.last - 1)).shift 1).extH).ext (-1)

/-- index range received by process `p` in direction `d`; `left_halo_sclr = [first-halo, first-1]`, `rght_halo_sclr = [last+1, last+halo]`,
`left_halo_vctr = [first-halo, first-1]`, `rght_halo_vctr = [last, last+halo-1]` -/
def Par.recvRng (c : Par) (v : Bool) (p : Nat) (d : Dir) : Rng :=
  let r := c.rng p
  let h : Int := c.halo
  match v, d with
  | false, .left => Rng.mk (r.first - h) (r.first - 1)
  | false, .rght => Rng.mk (r.last + 1) (r.last + h)
  | true, .left =>
    if c.isCyclic p .left then Rng.mk (r.first - h) (r.first - 1)
    else if c.halo = 1 then ⟨0, -1⟩
    else ((Rng.mk (r.first - h) (r.first - 1)).extH).ext (-1)
  | true, .rght => Rng.mk r.last (r.last + h - 1)

/-- direction of the `k`-th exchange of process `p` (k even: first of a call, k odd: second): left first, but right first on even ranks
(solver_common.hpp:102-114 and the loops `for (auto &bc : bcs[0])` of solver_1d.hpp:39-85) -/
def dirOf (p k : Nat) : Dir := if p % 2 = k % 2 then .rght else .left

/-- payload of a message: the values of the range, in index order (`arr_send = a(idx_send)`, remote_common.hpp:87-90) -/
def payload {W : Type} (r : Rng) (m : Int → W) : List W := (irange r).map m

/-- storing a received message: `a(idx_recv) = arr_recv` (remote_common.hpp:203-213) -/
def unpack {W : Type} (r : Rng) (msg : List W) (m : Int → W) : Int → W := fun x =>
  if r.first ≤ x ∧ x ≤ r.last then (msg[(x - r.first).toNat]?).getD (m x) else m x

/-- state of the system: arrays of each process, number of exchanges each has completed, whether it has posted the next one, and the messages under way
from each sender with each tag (the tag is the direction the sender sends to, remote_common.hpp:78-80) -/
structure St (P : Nat) (A W : Type) where
  mem : Fin P → A → Int → W
  cnt : Fin P → Nat
  posted : Fin P → Bool
  chan : Fin P → Dir → List (List W)

/-- replace one value of a function -/
def upd {α β : Type} [DecidableEq α] (f : α → β) (a : α) (b : β) : α → β := fun x => if x = a then b else f x

/-- what the processes run: `rounds` calls of an exchange; call `r` exchanges array `arr r`, a face field if `vec r`; `comp p r` is whatever process `p` computes on
its own arrays between call `r` and the next -/
structure Prog (P : Nat) (A W : Type) where
  rounds : Nat
  arr : Nat → A
  vec : Nat → Bool
  comp : Fin P → Nat → (A → Int → W) → (A → Int → W)

variable {A W : Type} [DecidableEq A]

/-- peer as an index -/
def Par.peerF (c : Par) (p : Fin c.P) (d : Dir) : Fin c.P := ⟨c.peer p d, by
  have := p.pos
  cases d <;> exact Nat.mod_lt _ this⟩

/-- posting an exchange: `isend` and `irecv` (remote_common.hpp:70-147); nothing is sent for an empty range -/
def St.post (c : Par) (g : Prog c.P A W) (s : St c.P A W) (p : Fin c.P) : St c.P A W :=
  let k := s.cnt p
  let d := dirOf p k
  let r := c.sendRng (g.vec (k / 2)) p d
  { s with
    posted := upd s.posted p true
    chan := if r.first ≤ r.last then upd s.chan p (upd (s.chan p) d (s.chan p d ++ [payload r (s.mem p (g.arr (k / 2)))])) else s.chan }

/-- replace the contents of one channel -/
def St.setChan {P : Nat} (s : St P A W) (p : Fin P) (d : Dir) (l : List (List W)) : St P A W := { s with chan := upd s.chan p (upd (s.chan p) d l) }

/-- memory and counters after completing an exchange, given the array contents `m` after the reception -/
def St.finish (c : Par) (g : Prog c.P A W) (s : St c.P A W) (p : Fin c.P) (m : A → Int → W) : St c.P A W :=
  let k := s.cnt p
  { s with
    mem := upd s.mem p (if k % 2 = 1 then g.comp p (k / 2) m else m)
    cnt := upd s.cnt p (k + 1)
    posted := upd s.posted p false }

/-- one step of one process: post its next exchange; or complete the posted one, for which the message must have arrived (`wait_all`,
remote_common.hpp:187-215), the message being taken from the channel of the peer with the opposite tag. -/
inductive Step (c : Par) (g : Prog c.P A W) : St c.P A W → St c.P A W → Prop
  | post (s : St c.P A W) (p : Fin c.P) (hk : s.cnt p < 2 * g.rounds) (hp : s.posted p = false) : Step c g s (s.post c g p)
  | recv (s : St c.P A W) (p : Fin c.P) (msg : List W) (rest : List (List W)) (hp : s.posted p = true)
      (hr : (c.recvRng (g.vec (s.cnt p / 2)) p (dirOf p (s.cnt p))).first ≤ (c.recvRng (g.vec (s.cnt p / 2)) p (dirOf p (s.cnt p))).last)
      (hc : s.chan (c.peerF p (dirOf p (s.cnt p))) (dirOf p (s.cnt p)).opp = msg :: rest) :
      Step c g s (St.finish c g (s.setChan (c.peerF p (dirOf p (s.cnt p))) (dirOf p (s.cnt p)).opp rest) p
        (upd (s.mem p) (g.arr (s.cnt p / 2)) (unpack (c.recvRng (g.vec (s.cnt p / 2)) p (dirOf p (s.cnt p))) msg (s.mem p (g.arr (s.cnt p / 2))))))
  | skip (s : St c.P A W) (p : Fin c.P) (hp : s.posted p = true)
      (hr : ¬ (c.recvRng (g.vec (s.cnt p / 2)) p (dirOf p (s.cnt p))).first ≤ (c.recvRng (g.vec (s.cnt p / 2)) p (dirOf p (s.cnt p))).last) :
      Step c g s (s.finish c g p (s.mem p))

/-- any finite sequence of steps -/
inductive Steps (c : Par) (g : Prog c.P A W) : St c.P A W → St c.P A W → Prop
  | refl (s) : Steps c g s s
  | tail (s u w) : Steps c g s u → Step c g u w → Steps c g s w

/-- initial state -/
def St.init (c : Par) (m : Fin c.P → A → Int → W) : St c.P A W := ⟨m, fun _ => 0, fun _ => false, fun _ _ => []⟩

/-! ## Gathering the global field -/

/-- `sizes` (distmem.hpp:115-123): elements owned by process `p`, `M` elements per x -/
def gatherSize (N P M p : Nat) : Nat := (slab ⟨0, (N : Int) - 1⟩ p P).length.toNat * M

/-- `displ` (distmem.hpp:126-128): partial sums minus own size -/
def gatherDispl (N P M p : Nat) : Nat := ((List.range (p + 1)).map (gatherSize N P M)).sum - gatherSize N P M p

/-- contents sent by a process: its interior in C order, `a(x, y)` for `x` in its range (distmem.hpp:134-148) -/
def gatherIn {V : Type} (N P M : Nat) (a : Int → Nat → V) (p k : Nat) : V := a ((slab ⟨0, (N : Int) - 1⟩ p P).first + (k / M : Nat)) (k % M)

/-- `gatherv` (distmem.hpp:151): block `p` is stored from `displ p` on, for `sizes p` elements, process after process -/
def gatherv {V : Type} (N P M : Nat) (loc : Nat → Int → Nat → V) (out0 : Nat → V) : Nat → V :=
  (List.range P).foldl (fun out p => fun k =>
    if gatherDispl N P M p ≤ k ∧ k < gatherDispl N P M p + gatherSize N P M p then gatherIn N P M (loc p) p (k - gatherDispl N P M p) else out k) out0

/-- `get_global_array` (distmem.hpp:155): the gathered buffer read as an `N × M` array in C order -/
def globalArray {V : Type} (N P M : Nat) (loc : Nat → Int → Nat → V) (out0 : Nat → V) (x y : Nat) : V := gatherv N P M loc out0 (x * M + y)

/-- `advectee_global_set` (sharedmem.hpp:298-308): process `p` takes its slab of the given array (other elements unchanged) -/
def globalSet {V : Type} (N P p : Nat) (arr : Int → Nat → V) (own : Int → Nat → V) : Int → Nat → V := fun x y =>
  if (slab ⟨0, (N : Int) - 1⟩ p P).Mem x then arr x y else own x y

end Mpi
end Mpdata
