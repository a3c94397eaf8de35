import Verif.Model.Mpi
/-!
# MPI halo exchange by several threads of each process

Models `bcond/remote_3d.hpp`, `bcond/detail/remote_3d_common.hpp` and the loops over `bcs[0]` in `solvers/detail/solver_3d.hpp:47-325` (and, with the same
division of work, of solver_2d.hpp and solver_1d.hpp): the exchange with the left neighbour is done by the thread with rank 0, the one with the right neighbour by
the thread with the highest rank (remote_3d.hpp:40, 50, 60, 192, 203, 214).  Between two barriers of the process the two threads proceed independently if
`LIBMPDATAXX_MPI_THREAD_MULTIPLE` is defined, and one after the other otherwise (solver_3d.hpp:60-62) or if the process has one thread only.

`W` is the value stored at one x, as in `Model/Mpi.lean`: in 3-D a plane of numbers, the extent of which is the subject of `extendIdx` below.
Packing and unpacking of one message are single steps (simplification: justified as what one thread packs is never unpacked by the other, `Par.send_recv_far`).
-/
namespace Mpdata
namespace Mpi

/-- what the processes run: exchanges number `0, 1, …, rounds - 1`; exchange `k` is of array `arr k`; `kind a` tells face fields from scalars; `last k` tells that
exchange `k` is the last one of a call, i.e. of the exchanges between two barriers (one, except for the two of `xchng_sgs_tnsr_offdiag`, solver_3d.hpp:183-190);
`comp p k` is whatever the threads of process `p` compute on its arrays after that barrier and before the next call. -/
structure CallProg (P : Nat) (A W : Type) where
  rounds : Nat
  arr : Nat → A
  kind : A → Bool
  last : Nat → Bool
  comp : Fin P → Nat → (A → Int → W) → (A → Int → W)

/-- state: arrays of each process, number of exchanges completed at the last barrier of the process, number of exchanges completed by each of its two
communicating threads, whether the thread has posted the next one, messages under way -/
structure StT (P : Nat) (A W : Type) where
  mem : Fin P → A → Int → W
  base : Fin P → Nat
  cnt : Fin P → Dir → Nat
  posted : Fin P → Dir → Bool
  chan : Fin P → Dir → List (List W)

variable {A W : Type} [DecidableEq A]

/-- replace one value of a function of process and direction -/
def upd2 {P : Nat} {β : Type} (f : Fin P → Dir → β) (p : Fin P) (d : Dir) (b : β) : Fin P → Dir → β := upd f p (upd (f p) d b)

/-- the thread for direction `d` has done all exchanges of the current call of its process and waits at the barrier -/
def StT.callDone {P : Nat} (g : CallProg P A W) (s : StT P A W) (p : Fin P) (d : Dir) : Prop := s.base p < s.cnt p d ∧ g.last (s.cnt p d - 1) = true

/-- the thread for direction `d` may begin its next exchange: it has one left in this call; and, unless the two threads may communicate at the same time (`mult`),
the other direction comes later in the list `bcs[0]` (solver_common.hpp:102-114) or is completed (solver_3d.hpp:57-63) -/
def StT.mayPost {P : Nat} (g : CallProg P A W) (mult : Bool) (s : StT P A W) (p : Fin P) (d : Dir) : Prop :=
  s.cnt p d < g.rounds ∧ s.posted p d = false ∧ (s.cnt p d = s.base p ∨ g.last (s.cnt p d - 1) = false) ∧
    (mult = true ∨ d = dirOf p 0 ∨ s.callDone g p (dirOf p 0))

/-- index range sent in exchange `k` -/
def CallProg.snd (c : Par) (g : CallProg c.P A W) (k : Nat) (p : Fin c.P) (d : Dir) : Rng := c.sendRng (g.kind (g.arr k)) p d
/-- index range received in exchange `k` -/
def CallProg.rcv (c : Par) (g : CallProg c.P A W) (k : Nat) (p : Fin c.P) (d : Dir) : Rng := c.recvRng (g.kind (g.arr k)) p d

/-- `send_hlpr`, `recv_hlpr` (remote_common.hpp:70-147) -/
def StT.post (c : Par) (g : CallProg c.P A W) (s : StT c.P A W) (p : Fin c.P) (d : Dir) : StT c.P A W :=
  let k := s.cnt p d
  { s with
    posted := upd2 s.posted p d true
    chan := if (g.snd c k p d).first ≤ (g.snd c k p d).last then upd2 s.chan p d (s.chan p d ++ [payload (g.snd c k p d) (s.mem p (g.arr k))]) else s.chan }

/-- completing an exchange (`wait_all`, `a(idx_recv) = arr_recv`, remote_common.hpp:187-215) with array contents `m` afterwards -/
def StT.finish (c : Par) (s : StT c.P A W) (p : Fin c.P) (d : Dir) (m : A → Int → W) (ch : Fin c.P → Dir → List (List W)) : StT c.P A W :=
  { s with
    mem := upd s.mem p m
    cnt := upd2 s.cnt p d (s.cnt p d + 1)
    posted := upd2 s.posted p d false
    chan := ch }

/-- barrier of all threads of process `p` after a call (solver_3d.hpp:64, 66) and the computations up to the next call -/
def StT.sync (c : Par) (g : CallProg c.P A W) (s : StT c.P A W) (p : Fin c.P) : StT c.P A W :=
  { s with
    mem := upd s.mem p (g.comp p (s.cnt p .left - 1) (s.mem p))
    base := upd s.base p (s.cnt p .left) }

/-- one step of one thread -/
inductive StepT (c : Par) (g : CallProg c.P A W) (mult : Bool) : StT c.P A W → StT c.P A W → Prop
  | post (s : StT c.P A W) (p : Fin c.P) (d : Dir) (h : s.mayPost g mult p d) : StepT c g mult s (s.post c g p d)
  | recv (s : StT c.P A W) (p : Fin c.P) (d : Dir) (msg : List W) (rest : List (List W)) (hp : s.posted p d = true)
      (hr : (g.rcv c (s.cnt p d) p d).first ≤ (g.rcv c (s.cnt p d) p d).last)
      (hc : s.chan (c.peerF p d) d.opp = msg :: rest) :
      StepT c g mult s (s.finish c p d
        (upd (s.mem p) (g.arr (s.cnt p d)) (unpack (g.rcv c (s.cnt p d) p d) msg (s.mem p (g.arr (s.cnt p d)))))
        (upd2 s.chan (c.peerF p d) d.opp rest))
  | skip (s : StT c.P A W) (p : Fin c.P) (d : Dir) (hp : s.posted p d = true)
      (hr : ¬ (g.rcv c (s.cnt p d) p d).first ≤ (g.rcv c (s.cnt p d) p d).last) :
      StepT c g mult s (s.finish c p d (s.mem p) s.chan)
  | sync (s : StT c.P A W) (p : Fin c.P) (hl : s.callDone g p .left) (hr : s.callDone g p .rght) : StepT c g mult s (s.sync c g p)

/-- executions of a given number of steps -/
inductive StepsT (c : Par) (g : CallProg c.P A W) (mult : Bool) : Nat → StT c.P A W → StT c.P A W → Prop
  | refl (s) : StepsT c g mult 0 s s
  | tail (n s u w) : StepsT c g mult n s u → StepT c g mult u w → StepsT c g mult (n + 1) s w

/-- initial state -/
def StT.init (c : Par) (m : Fin c.P → A → Int → W) : StT c.P A W := ⟨m, fun _ => 0, fun _ _ => 0, fun _ _ => false, fun _ _ => []⟩

/-- the same exchanges done one after the other by one thread, as in `Model/Mpi.lean` (no code of its own: what solver_3d.hpp:57-63 amounts to with one thread) -/
def CallProg.seq {P : Nat} (g : CallProg P A W) : Prog P A W :=
  ⟨g.rounds, g.arr, fun k => g.kind (g.arr k), fun p k m => if g.last k then g.comp p k m else m⟩

/-! ## Extent of the messages across x -/

/-- y-range a thread with y-range `j` passes for a boundary condition handled by a single thread (solver_3d.hpp): `range_ijk[1]^ext` for scalars and pressure (:59,
:299), `range_ijk[1]^ext^h` and `^ext^1` for advectors (:235, :247), `range_ijk[1]`, `range_ijk[1]^1` and `range_ijkm[1]` for stresses (:147, :185-186;
`ijkm = [first - 1, last]`, mpdata_rhs_vip_prs_sgs_common.hpp:201-202); the z-ranges are made in the same ways -/
inductive Across
  | ext (e : Nat) | extH (e : Nat) | ext1 (e : Nat) | m
deriving DecidableEq

/-- the range -/
def Across.rng (a : Across) (j : Rng) : Rng :=
  match a with
  | .ext e => j.ext e
  | .extH e => (j.ext e).extH
  | .ext1 e => (j.ext e).ext 1
  | .m => ⟨j.first - 1, j.last⟩

/-- `extend_idx` (remote_3d_common.hpp:33-41): `thread_j` is the y-range of the thread (concurr_common.hpp:95) -/
def extendIdx (ny : Int) (threadJ r : Rng) : Rng := ⟨0 + r.first - threadJ.first, (ny - 1) + r.last - threadJ.last⟩

/-- `extend_range` (solver_common.hpp:139-147), used for conditions handled by all threads -/
def extendRange (t T : Nat) (r : Rng) (e : Int) : Rng :=
  if T = 1 then r.ext e else if t = 0 then ⟨r.first - e, r.last⟩ else if t = T - 1 then ⟨r.first, r.last + e⟩ else r

/-- y-range of the messages exchanged by thread `t` of `T` -/
def msgRngY (ny T t : Nat) (a : Across) : Rng :=
  let j := slab ⟨0, (ny : Int) - 1⟩ t T
  extendIdx ny j (a.rng j)

/-- extensions used with halo `h`: scalars and pressure by up to `h` (solver_3d.hpp:70), advectors by up to `h - 1` (mpdata_osc_3d.hpp:49), plus `h` or 1 -/
def Across.used (h : Nat) : Across → Prop
  | .ext e => e ≤ max h 1
  | .extH e => e + 1 ≤ h
  | .ext1 e => e + 1 ≤ h
  | .m => True

/-- number of reals `malloc`ed for each of `buf_send`, `buf_recv` in 3-D (remote_common.hpp:231-242) -/
def bufSize (halo ny nz : Nat) : Nat := halo * ((ny + 6) * (nz + 6))

/-- number of reals in a message: `a(idx).size()` -/
def msgSize (x y z : Rng) : Nat := x.length.toNat * y.length.toNat * z.length.toNat

/-- how often the buffers of a boundary-condition object of thread `t` of `T` are freed: constructor and destructor of `remote_3d_common`
(remote_3d_common.hpp:84-111); the destructor of `remote_common` (remote_common.hpp:246-252) frees null pointers -/
def frees (t T : Nat) : Nat := (if t ≠ 0 ∧ t ≠ T - 1 then 1 else 0) + (if t = 0 ∨ t = T - 1 then 1 else 0)

end Mpi
end Mpdata
