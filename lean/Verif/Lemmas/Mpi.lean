import Verif.Model.Mpi
import Verif.Lemmas.ThreadProg
/-! # Index arithmetic and invariant of the MPI exchange -/
set_option linter.unusedSectionVars false
namespace Mpdata
namespace Mpi
open Threads (irange mem_irange)

/-! ## Index arithmetic -/

theorem Par.peer_peer (c : Par) (p : Fin c.P) (d : Dir) : c.peerF (c.peerF p d) d.opp = p := by
  have hp := p.2
  apply Fin.ext
  cases d
  · show ((p.1 + c.P - 1) % c.P + 1) % c.P = p.1
    rcases Nat.eq_zero_or_pos p.1 with h | h
    · rw [h, Nat.zero_add, Nat.mod_eq_of_lt (show c.P - 1 < c.P by omega)]
      have : c.P - 1 + 1 = c.P := by omega
      rw [this, Nat.mod_self]
    · have : p.1 + c.P - 1 = (p.1 - 1) + c.P := by omega
      rw [this, Nat.add_mod_right, Nat.mod_eq_of_lt (show p.1 - 1 < c.P by omega),
        Nat.mod_eq_of_lt (show p.1 - 1 + 1 < c.P by omega)]; omega
  · show ((p.1 + 1) % c.P + c.P - 1) % c.P = p.1
    rcases Nat.lt_or_ge (p.1 + 1) c.P with h | h
    · rw [Nat.mod_eq_of_lt h]
      have : p.1 + 1 + c.P - 1 = p.1 + c.P := by omega
      rw [this, Nat.add_mod_right, Nat.mod_eq_of_lt (by omega)]
    · have : p.1 + 1 = c.P := by omega
      rw [this, Nat.mod_self, Nat.mod_eq_of_lt (by omega)]; omega

theorem Par.rng_first (c : Par) (p : Nat) : (c.rng p).first = slabMin c.N p c.P := by
  simp [Par.rng, slab, Rng.length]
theorem Par.rng_last (c : Par) (p : Nat) : (c.rng p).last = slabMin c.N (p + 1) c.P - 1 := by
  simp [Par.rng, slab, Rng.length, slabMax]

theorem Par.rng_zero (c : Par) : (c.rng 0).first = 0 := by rw [c.rng_first]; exact slabMin_zero _ _

theorem Par.rng_end (c : Par) (hP : 0 < c.P) : (c.rng (c.P - 1)).last = c.N - 1 := by
  rw [c.rng_last]
  have : ((c.P - 1 : Nat) : Int) + 1 = c.P := by omega
  rw [this, slabMin_size (by omega)]

theorem Par.rng_next (c : Par) (p : Nat) : (c.rng (p + 1)).first = (c.rng p).last + 1 := by
  rw [c.rng_first, c.rng_last]; push_cast; ring

theorem Par.rng_bounds (c : Par) (p : Fin c.P) : 0 ≤ (c.rng p).first ∧ (c.rng p).last ≤ c.N - 1 := by
  have h := Threads.slabOf_bounds c.N c.P p
  exact ⟨h.1, h.2.1⟩

/-- displacement between the global index of a halo point and the index it is a copy of: the period where the exchange closes the ring -/
def Par.wrap (c : Par) (p : Nat) (d : Dir) : Int :=
  if c.isCyclic p d then (match d with | .left => (c.N : Int) - 1 | .rght => -((c.N : Int) - 1)) else 0

theorem Par.peer_left (c : Par) (p : Fin c.P) : c.peer p .left = if p.1 = 0 then c.P - 1 else p.1 - 1 := by
  have := p.2
  unfold Par.peer
  split_ifs with h
  · rw [h, Nat.zero_add, Nat.mod_eq_of_lt (by omega)]
  · have e : p.1 + c.P - 1 = (p.1 - 1) + c.P := by omega
    simp only [e, Nat.add_mod_right]
    exact Nat.mod_eq_of_lt (by omega)

theorem Par.peer_rght (c : Par) (p : Fin c.P) : c.peer p .rght = if p.1 = c.P - 1 then 0 else p.1 + 1 := by
  have := p.2
  unfold Par.peer
  split_ifs with h
  · have e : p.1 + 1 = c.P := by omega
    simp only [e, Nat.mod_self]
  · simp only [Nat.mod_eq_of_lt (show p.1 + 1 < c.P by omega)]

/-- the range a process receives is, shifted by the period where needed, the range its peer sends -/
theorem Par.matched (c : Par) (hP : 2 ≤ c.P) (v : Bool) (p : Fin c.P) (d : Dir) :
    c.sendRng v (c.peer p d) d.opp = (c.recvRng v p d).shift (c.wrap p d) := by
  have hp := p.2
  have hz := c.rng_zero
  have he := c.rng_end (by omega)
  cases d
  · rw [c.peer_left]
    by_cases h0 : p.1 = 0
    · rw [if_pos h0]
      cases v <;> simp only [Par.sendRng, Par.recvRng, Par.wrap, Par.isCyclic, Dir.opp, h0, beq_self_eq_true, if_true, Rng.shift, hz, he] <;>
        congr 1 <;> ring
    · rw [if_neg h0]
      have hn := c.rng_next (p.1 - 1)
      have e : p.1 - 1 + 1 = p.1 := by omega
      rw [e] at hn
      have g1 : (p.1 - 1 == c.P - 1) = false := by simp; omega
      have g2 : (p.1 == 0) = false := by simp [h0]
      cases v <;> simp only [Par.sendRng, Par.recvRng, Par.wrap, Par.isCyclic, Dir.opp, g1, g2, if_false, Rng.shift, hn, Rng.extH, Rng.ext,
        Bool.false_eq_true] <;> (try split_ifs) <;> (try rfl) <;> congr 1 <;> ring
  · rw [c.peer_rght]
    by_cases h0 : p.1 = c.P - 1
    · rw [if_pos h0]
      cases v <;> simp only [Par.sendRng, Par.recvRng, Par.wrap, Par.isCyclic, Dir.opp, h0, beq_self_eq_true, if_true, Rng.shift, hz, he] <;>
        congr 1 <;> ring
    · rw [if_neg h0]
      have hn := c.rng_next p.1
      have g1 : (p.1 + 1 == 0) = false := by simp
      have g2 : (p.1 == c.P - 1) = false := by simp [h0]
      cases v <;> simp only [Par.sendRng, Par.recvRng, Par.wrap, Par.isCyclic, Dir.opp, g1, g2, if_false, Rng.shift, hn, Rng.extH, Rng.ext,
        Bool.false_eq_true] <;> congr 1 <;> ring

/-- every process is at least as wide as the halo, and the first and the last one are wider -/
def Par.Wide (c : Par) : Prop := ∀ p : Fin c.P, (c.halo : Int) ≤ (c.rng p).length ∧ (p.1 = 0 ∨ p.1 = c.P - 1 → (c.halo : Int) + 1 ≤ (c.rng p).length)

/-- what a process sends is not what it receives in the other exchange of the same call -/
theorem Par.send_recv_disjoint (c : Par) (hw : c.Wide) (hh : 1 ≤ c.halo) (v : Bool) (p : Fin c.P) (d : Dir) (x : Int) (h1 : (c.sendRng v p d).Mem x)
    (h2 : (c.recvRng v p d.opp).Mem x) : False := by
  obtain ⟨w1, w2⟩ := hw p
  simp only [Rng.length] at w1 w2
  have hp := p.2
  have hh' : (1 : Int) ≤ c.halo := by omega
  cases d <;> cases v <;> simp only [Par.sendRng, Par.recvRng, Par.isCyclic, Dir.opp, Rng.shift, Rng.Mem, Rng.extH, Rng.ext, beq_iff_eq] at h1 h2 <;>
    split_ifs at h1 h2 <;> (try simp only [] at h1 h2) <;> omega

/-! ## Payloads -/

variable {A W : Type} [DecidableEq A]

theorem payload_length (r : Rng) (m : Int → W) : (payload r m).length = (r.last - r.first + 1).toNat := by simp [payload, irange]

theorem payload_get (r : Rng) (m : Int → W) (k : Nat) (h : r.first + (k : Int) ≤ r.last) : (payload r m)[k]? = some (m (r.first + k)) := by
  unfold payload irange
  rw [List.map_map, List.getElem?_map, List.getElem?_range (by omega)]
  rfl

/-- receiving the peer's message: a shifted copy -/
theorem unpack_payload (r : Rng) (s : Int) (m m' : Int → W) (x : Int) :
    unpack r (payload (r.shift s) m') m x = if r.first ≤ x ∧ x ≤ r.last then m' (x + s) else m x := by
  unfold unpack
  split_ifs with h
  · rw [payload_get]
    · simp only [Rng.shift, Option.getD_some]
      congr 1; omega
    · simp only [Rng.shift]; omega
  · rfl

theorem unpack_empty (r : Rng) (msg : List W) (m : Int → W) (h : ¬ r.first ≤ r.last) : unpack r msg m = m := by
  funext x; unfold unpack; rw [if_neg]; omega

theorem payload_congr (r : Rng) (m m' : Int → W) (h : ∀ x, r.Mem x → m x = m' x) : payload r m = payload r m' := by
  unfold payload
  refine List.map_congr_left fun x hx => h x ?_
  rwa [mem_irange] at hx

end Mpi
end Mpdata
