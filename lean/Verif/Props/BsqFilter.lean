import Verif.Props.BsqRun
import Verif.Props.Fills
/-! # C44: the buoyancy filter over whole columns, lowest and highest points included -/
set_option linter.unusedSectionVars false
namespace Mpdata
namespace PP
open Prs (inBox)
variable {K : Type} [Field K] [LinearOrder K] [IsStrictOrderedRing K]

section lemmas
variable {n : Nat} [NeZero n] {N : Fin n → Nat} {kind : Fin n → BcKind} {halo : Int}

/-- the point at height `k` of the column of `x` -/
def atHeight (x : Idx n) (k : Int) : Idx n := Function.update x (vert n) k

theorem atHeight_vert (x : Idx n) (k : Int) : atHeight x k (vert n) = k := by simp [atHeight]
theorem atHeight_of_ne (x : Idx n) (k : Int) {e : Fin n} (h : e ≠ vert n) : atHeight x k e = x e := by simp [atHeight, h]

theorem step_atHeight (x : Idx n) (k j : Int) : stepIdx (atHeight x k) (vert n) j = atHeight x (k + j) := by
  funext e
  unfold stepIdx
  by_cases h : e = vert n
  · subst h; rw [if_pos rfl, atHeight_vert, atHeight_vert]
  · rw [if_neg h, atHeight_of_ne x _ h, atHeight_of_ne x _ h]

theorem atHeight_box {x : Idx n} (hx : inBox N x) {k : Int} (h0 : 0 ≤ k) (h1 : k < N (vert n)) : inBox N (atHeight x k) := by
  intro e
  by_cases h : e = vert n
  · subst h; rw [atHeight_vert]; exact ⟨h0, by omega⟩
  · rw [atHeight_of_ne x _ h]; exact hx e

/-- where the exchange takes the value just below the lowest point from -/
def belowSrc (N : Fin n → Nat) (kind : Fin n → BcKind) : Int :=
  match kind (vert n) with | .cyclic => (N (vert n) : Int) - 2 | .rigid => 1 | .opened => 0
/-- where the exchange takes the value just above the highest point from -/
def aboveSrc (N : Fin n → Nat) (kind : Fin n → BcKind) : Int :=
  match kind (vert n) with | .cyclic => 1 | .rigid => (N (vert n) : Int) - 2 | .opened => (N (vert n) : Int) - 1

theorem fillS_below (hh : 1 ≤ halo) (hN : 2 ≤ N (vert n)) (ext : Int) (he : 0 ≤ ext) {x : Idx n} (hx : inBox N x) (a : Sca n K) :
    fillS (bnd N kind halo) (vert n) (fun _ => ext) (fun _ => ext) false a (atHeight x (-1)) = a (atHeight x (belowSrc N kind)) := by
  have ot : Ot (bnd N kind halo).b (vert n) (fun _ => ext) (fun _ => ext) (atHeight x (-1)) := by
    intro e h
    rw [atHeight_of_ne x _ h]
    have := hx e
    show (0 : Int) - ext ≤ x e ∧ x e ≤ (N e : Int) - 1 + ext
    omega
  have f0 : (bnd N kind halo).f (vert n) = 0 := rfl
  have l0 : (bnd N kind halo).l (vert n) = (N (vert n) : Int) - 1 := rfl
  have h0 : (bnd N kind halo).halo = halo := rfl
  unfold fillS
  rw [asgN_of_not (by rintro ⟨h, -⟩; rw [atHeight_vert, l0] at h; omega), asgN_of ⟨by rw [atHeight_vert, f0, h0]; omega, ot⟩]
  unfold valSL belowSrc
  show (match (match kind (vert n) with | .cyclic => BcAll.cyclic | .rigid => .rigid | .opened => .opened) with
    | .cyclic => _ | .rigid | .gndsky => _ | .opened => _ | .polar => _) = _
  cases kind (vert n) with
  | cyclic => show a (stepIdx _ _ _) = _; rw [step_atHeight, f0, l0]; congr 2; ring
  | rigid => show a (stepIdx _ _ _) = _; rw [step_atHeight, f0, atHeight_vert]; rfl
  | opened => show a (stepIdx _ _ _) = _; rw [step_atHeight, f0, atHeight_vert]; rfl

theorem fillS_above (hh : 1 ≤ halo) (hN : 2 ≤ N (vert n)) (ext : Int) (he : 0 ≤ ext) {x : Idx n} (hx : inBox N x) (a : Sca n K) :
    fillS (bnd N kind halo) (vert n) (fun _ => ext) (fun _ => ext) false a (atHeight x (N (vert n))) = a (atHeight x (aboveSrc N kind)) := by
  have ot : Ot (bnd N kind halo).b (vert n) (fun _ => ext) (fun _ => ext) (atHeight x (N (vert n))) := by
    intro e h
    rw [atHeight_of_ne x _ h]
    have := hx e
    show (0 : Int) - ext ≤ x e ∧ x e ≤ (N e : Int) - 1 + ext
    omega
  have f0 : (bnd N kind halo).f (vert n) = 0 := rfl
  have l0 : (bnd N kind halo).l (vert n) = (N (vert n) : Int) - 1 := rfl
  have h0 : (bnd N kind halo).halo = halo := rfl
  obtain ⟨a1, h1, hk⟩ : ∃ a1 : Sca n K, fillS (bnd N kind halo) (vert n) (fun _ => ext) (fun _ => ext) false a (atHeight x (N (vert n))) =
      valSR (bnd N kind halo) (vert n) false a1 (atHeight x (N (vert n))) ∧ ∀ k : Int, 0 ≤ k → a1 (atHeight x k) = a (atHeight x k) := by
    refine ⟨asgN (fun x => ((bnd N kind halo).f (vert n) - (bnd N kind halo).halo ≤ x (vert n) ∧ x (vert n) ≤ (bnd N kind halo).f (vert n) - 1) ∧
      Ot (bnd N kind halo).b (vert n) (fun _ => ext) (fun _ => ext) x) (valSL (bnd N kind halo) (vert n) false a) a, ?_, fun k hk => asgN_of_not ?_⟩
    · unfold fillS
      exact asgN_of ⟨by rw [atHeight_vert, l0, h0]; omega, ot⟩
    rintro ⟨⟨-, h⟩, -⟩
    rw [atHeight_vert, f0] at h; omega
  rw [h1]
  unfold valSR aboveSrc
  show (match (match kind (vert n) with | .cyclic => BcAll.cyclic | .rigid => .rigid | .opened => .opened) with
    | .cyclic => _ | .rigid | .gndsky => _ | .opened => _ | .polar => _) = _
  cases kind (vert n) with
  | cyclic =>
    show a1 (stepIdx _ _ _) = _
    rw [step_atHeight, f0, l0, show (N (vert n) : Int) + -((N (vert n) : Int) - 1 - 0) = 1 by ring]; exact hk _ (by omega)
  | rigid =>
    show a1 (stepIdx _ _ _) = _
    rw [step_atHeight, l0, atHeight_vert, show (N (vert n) : Int) + 2 * ((N (vert n) : Int) - 1 - N (vert n)) = (N (vert n) : Int) - 2 by ring]; exact hk _ (by omega)
  | opened =>
    show a1 (stepIdx _ _ _) = _
    rw [step_atHeight, l0, atHeight_vert, show (N (vert n) : Int) + ((N (vert n) : Int) - 1 - N (vert n)) = (N (vert n) : Int) - 1 by ring]; exact hk _ (by omega)

/-- the exchange over all dimensions, at a point outside the domain in the vertical only -/
theorem xchng_outside (ext : Int) {x : Idx n} (hx : inBox N x) (k k' : Int) (hk' : 0 ≤ k' ∧ k' < N (vert n))
    (hv : ∀ a : Sca n K, fillS (bnd N kind halo) (vert n) (fun _ => ext) (fun _ => ext) false a (atHeight x k) = a (atHeight x k')) :
    ∀ (ds : List (Fin n)), vert n ∈ ds → ∀ a : Sca n K, xchngSclr (bnd N kind halo) ds ext false a (atHeight x k) = a (atHeight x k') := by
  have oth : ∀ (e : Fin n), e ≠ vert n → ∀ a : Sca n K, fillS (bnd N kind halo) e (fun _ => ext) (fun _ => ext) false a (atHeight x k) = a (atHeight x k) := by
    intro e he a
    refine fillS_keeps _ _ _ _ _ _ _ ?_
    rw [atHeight_of_ne x _ he]
    have := hx e
    show (0 : Int) ≤ x e ∧ x e ≤ (N e : Int) - 1
    omega
  have ins : ∀ (e : Fin n) (a : Sca n K), fillS (bnd N kind halo) e (fun _ => ext) (fun _ => ext) false a (atHeight x k') = a (atHeight x k') := by
    intro e a
    refine fillS_keeps _ _ _ _ _ _ _ ?_
    have := atHeight_box hx hk'.1 hk'.2 e
    show (0 : Int) ≤ atHeight x k' e ∧ atHeight x k' e ≤ (N e : Int) - 1
    omega
  have out : ∀ (ds : List (Fin n)), vert n ∉ ds → ∀ a : Sca n K, xchngSclr (bnd N kind halo) ds ext false a (atHeight x k) = a (atHeight x k) := by
    intro ds
    induction ds with
    | nil => intro _ a; rfl
    | cons e ds ih =>
      intro h a
      show xchngSclr (bnd N kind halo) ds ext false (fillS (bnd N kind halo) e _ _ false a) _ = _
      rw [ih (fun h' => h (List.mem_cons_of_mem _ h')), oth e (fun h' => h (h' ▸ List.mem_cons_self))]
  intro ds
  induction ds with
  | nil => intro h; exact absurd h (by simp)
  | cons e ds ih =>
    intro h a
    show xchngSclr (bnd N kind halo) ds ext false (fillS (bnd N kind halo) e _ _ false a) _ = _
    by_cases hm : vert n ∈ ds
    · rw [ih hm, ins]
    · have he : e = vert n := by
        rcases List.mem_cons.1 h with h' | h'
        · exact h'.symm
        · exact absurd h' hm
      subst he
      rw [out ds hm, hv]

omit [LinearOrder K] [IsStrictOrderedRing K] in
/-- second differences of a column add up to the first differences at its ends -/
theorem sum_second_diff (c : Int → K) (m : Nat) :
    ∑ k ∈ Finset.range m, (c ((k : Int) + 1) + 2 * c k + c ((k : Int) - 1)) = 4 * ∑ k ∈ Finset.range m, c k + (c m - c ((m : Int) - 1)) - (c 0 - c (-1)) := by
  induction m with
  | zero => simp
  | succ m ih =>
    rw [Finset.sum_range_succ, Finset.sum_range_succ, ih]
    push_cast
    rw [show ((m : Int) + 1 - 1) = m by ring]
    ring
end lemmas

section main
variable {n : Nat} [NeZero n]

/-- the filtered buoyancy, by height: at every grid point a 1-2-1 average, where below the lowest and above the highest point the boundary conditions supply the value -/
theorem filt_column {u : VP.User K (Idx n) n} {N : Fin n → Nat} {kind : Fin n → BcKind} {a : CfgN n K} {ds : List (Fin n)} (h : BsqSetup u a N kind ds)
    (tmp f : Idx n → K) {x : Idx n} (hx : inBox N x) :
    ∃ c : Int → K, (∀ k : Int, 0 ≤ k → k < N (vert n) → c k = f (atHeight x k)) ∧ c (-1) = c (belowSrc N kind) ∧ c (N (vert n)) = c (aboveSrc N kind) ∧
      ∀ k : Int, buoyFilt (fun x => decide (cellBox a.box x)) a.fillS tmp f (atHeight x k) = 1 / 4 * (c (k + 1) + 2 * c k + c (k - 1)) := by
  have hh : (1 : Int) ≤ solverHalo a.o := VP.one_le_haloI _
  have hN : 2 ≤ N (vert n) := by have := h.wide (vert n); omega
  have gr : ∀ y, inBox N y → decide (cellBox a.box y) = true := by
    intro y hy
    rw [decide_eq_true_iff, ← h.bc.box]
    intro e
    have := hy e
    show (0 : Int) - 0 ≤ y e ∧ y e ≤ (N e : Int) - 1 + 0
    omega
  set g : Sca n K := fun y => if decide (cellBox a.box y) = true then f y else tmp y with hg
  have B : 0 ≤ belowSrc N kind ∧ belowSrc N kind < N (vert n) := by unfold belowSrc; cases kind (vert n) <;> simp only <;> omega
  have A : 0 ≤ aboveSrc N kind ∧ aboveSrc N kind < N (vert n) := by unfold aboveSrc; cases kind (vert n) <;> simp only <;> omega
  have dom : ∀ k : Int, 0 ≤ k → k < N (vert n) → a.fillS g (atHeight x k) = g (atHeight x k) := by
    intro k k0 k1
    rw [h.bc.s]
    refine C60_sclr_keeps_domain _ _ _ _ _ ?_
    intro e
    have := atHeight_box hx k0 k1 e
    show (0 : Int) ≤ atHeight x k e ∧ atHeight x k e ≤ (N e : Int) - 1
    omega
  refine ⟨fun k => a.fillS g (atHeight x k), fun k k0 k1 => ?_, ?_, ?_, fun k => ?_⟩
  · beta_reduce
    rw [dom k k0 k1, hg]; exact if_pos (gr _ (atHeight_box hx k0 k1))
  · beta_reduce
    rw [dom _ B.1 B.2, h.bc.s]
    exact xchng_outside _ hx _ _ B (fun a => fillS_below hh hN _ (by show (0 : Int) ≤ solverHalo _; omega) hx a) ds (h.bc.all _) g
  · beta_reduce
    rw [dom _ A.1 A.2, h.bc.s]
    exact xchng_outside _ hx _ _ A (fun a => fillS_above hh hN _ (by show (0 : Int) ≤ solverHalo _; omega) hx a) ds (h.bc.all _) g
  · show 1 / 4 * (a.fillS g (stepIdx (atHeight x k) (vert n) 1) + 2 * a.fillS g (atHeight x k) + a.fillS g (stepIdx (atHeight x k) (vert n) (-1))) = _
    rw [step_atHeight, step_atHeight, ← sub_eq_add_neg k 1]

variable (u : VP.User K (Idx n) n) (b : Bous K n) (N : Fin n → Nat) (kind : Fin n → BcKind) (a : CfgN n K) (ds : List (Fin n)) (tol : K) (cap : Nat) (prs : Scheme)

/-- C44: in every step of every run of the explicit solver with the buoyancy filter the filter creates no new extrema of the buoyancy, at the lowest and highest points either, and moves buoyancy up
and down without creating any: in every column the total of the forces on the vertical velocity is the total of the buoyancy of the new temperature, where with rigid walls at the bottom and top the
lowest and highest points count half, and in a vertically cyclic domain the points of one period count (if the buoyancies of the two points that represent the same place agree). -/
theorem C44_run_filter (h : BsqSetup u a N kind ds) (hf : b.filter = true)
    (hs : u.sch = .trapez) (ht : b.tht < u.nEqns) (htv : ∀ d, u.vip d ≠ b.tht) (hno : isset u.norhs (bit b.tht) = false) (hnw : isset u.norhs (bit (u.vip (vert n))) = false)
    (ne : Nonempty (Prs.Pts N)) (dt0 : K) (filt : Nat → Bool) (first : Nat → K) (more : Nat → List K) (s p : St K n (MemN n K)) (t : Nat)
    (hdt : dtOf first more t ≠ 0) (ha : ∀ x, inBox N x → 1 + 1 / 2 * dtOf first more t * b.thtAbs x ≠ 0)
    (hr : run (bsqExpl u b N kind (solverHalo a.o) a tol cap prs) ne dt0 filt first more s (t + 1) = some p) :
    let buoy : Idx n → K := fun x => b.g * (p.psi b.tht x - b.thtE x) / b.Tref
    let force : Idx n → K := p.rhs (u.vip (vert n))
    (∀ lo hi : K, (∀ x, inBox N x → lo ≤ buoy x ∧ buoy x ≤ hi) → ∀ x, inBox N x → lo ≤ force x ∧ force x ≤ hi) ∧
    ∀ x, inBox N x →
      (kind (vert n) = .opened → ∑ k ∈ Finset.range (N (vert n)), force (Function.update x (vert n) k) = ∑ k ∈ Finset.range (N (vert n)), buoy (Function.update x (vert n) k)) ∧
      (kind (vert n) = .rigid →
        ∑ k ∈ Finset.range (N (vert n)), (if (k : Int) = 0 ∨ (k : Int) = N (vert n) - 1 then 1 / 2 else 1) * force (Function.update x (vert n) k) =
        ∑ k ∈ Finset.range (N (vert n)), (if (k : Int) = 0 ∨ (k : Int) = N (vert n) - 1 then 1 / 2 else 1) * buoy (Function.update x (vert n) k)) ∧
      (kind (vert n) = .cyclic → buoy (Function.update x (vert n) 0) = buoy (Function.update x (vert n) (N (vert n) - 1)) →
        ∑ k ∈ Finset.range (N (vert n) - 1), force (Function.update x (vert n) k) = ∑ k ∈ Finset.range (N (vert n) - 1), buoy (Function.update x (vert n) k)) := by
  intro buoy force
  have hN : 2 ≤ N (vert n) := by have := h.wide (vert n); have := VP.one_le_haloI (a.o); omega
  obtain ⟨q, -, hq⟩ := C44_run_explicit u b N kind (solverHalo a.o) a tol cap prs h.setup hs ht htv h.vip hno hnw ne dt0 filt first more s p t hdt ha hr
  have F : ∀ x, inBox N x → force x = buoyFilt (fun x => decide (cellBox a.box x)) a.fillS b.tmp buoy x := fun x hx => (hq x hx).2.2.2.2 hf
  have self : ∀ x : Idx n, atHeight x (x (vert n)) = x := fun x => Function.update_eq_self _ _
  constructor
  · intro lo hi hb x hx
    obtain ⟨c, c1, c2, c3, c4⟩ := filt_column h b.tmp buoy hx
    have bd : ∀ k : Int, 0 ≤ k → k < N (vert n) → lo ≤ c k ∧ c k ≤ hi := fun k k0 k1 => by rw [c1 k k0 k1]; exact hb _ (atHeight_box hx k0 k1)
    have B : lo ≤ c (-1) ∧ c (-1) ≤ hi := by rw [c2]; apply bd <;> (unfold belowSrc; cases kind (vert n) <;> simp only <;> omega)
    have A : lo ≤ c (N (vert n)) ∧ c (N (vert n)) ≤ hi := by rw [c3]; apply bd <;> (unfold aboveSrc; cases kind (vert n) <;> simp only <;> omega)
    have hv := hx (vert n)
    have all : ∀ k : Int, -1 ≤ k → k ≤ N (vert n) → lo ≤ c k ∧ c k ≤ hi := by
      intro k k0 k1
      by_cases e0 : k = -1
      · rw [e0]; exact B
      · by_cases e1 : k = N (vert n)
        · rw [e1]; exact A
        · exact bd k (by omega) (by omega)
    rw [F x hx, ← self x, c4]
    obtain ⟨l1, u1⟩ := all (x (vert n) + 1) (by omega) (by omega)
    obtain ⟨l2, u2⟩ := all (x (vert n)) (by omega) (by omega)
    obtain ⟨l3, u3⟩ := all (x (vert n) - 1) (by omega) (by omega)
    constructor <;> linarith
  · intro x hx
    obtain ⟨c, c1, c2, c3, c4⟩ := filt_column h b.tmp buoy hx
    have Fk : ∀ k : Int, 0 ≤ k → k < N (vert n) → force (Function.update x (vert n) k) = 1 / 4 * (c (k + 1) + 2 * c k + c (k - 1)) := fun k k0 k1 => by
      rw [← c4]; exact F _ (atHeight_box hx k0 k1)
    have Bk : ∀ k : Int, 0 ≤ k → k < N (vert n) → buoy (Function.update x (vert n) k) = c k := fun k k0 k1 => (c1 k k0 k1).symm
    have sumF : ∀ m : Nat, m ≤ N (vert n) → ∑ k ∈ Finset.range m, force (Function.update x (vert n) (k : Int)) = ∑ k ∈ Finset.range m, c k + 1 / 4 * ((c m - c ((m : Int) - 1)) - (c 0 - c (-1))) := by
      intro m hm
      rw [Finset.sum_congr rfl (fun (k : Nat) hk => Fk (k : Int) (by omega) (by have := Finset.mem_range.1 hk; omega)), ← Finset.mul_sum, sum_second_diff]
      ring
    have sumB : ∀ m : Nat, m ≤ N (vert n) → ∑ k ∈ Finset.range m, buoy (Function.update x (vert n) (k : Int)) = ∑ k ∈ Finset.range m, c k := by
      intro m hm
      exact Finset.sum_congr rfl (fun (k : Nat) hk => Bk (k : Int) (by omega) (by have := Finset.mem_range.1 hk; omega))
    refine ⟨fun hk => ?_, fun hk => ?_, fun hk he => ?_⟩
    · rw [sumF _ (le_refl _), sumB _ (le_refl _), c2, c3]
      simp only [belowSrc, aboveSrc, hk]
      ring
    · have half : ∀ g : Int → K, ∑ k ∈ Finset.range (N (vert n)), (if (k : Int) = 0 ∨ (k : Int) = N (vert n) - 1 then 1 / 2 else 1) * g k =
          ∑ k ∈ Finset.range (N (vert n)), g k - 1 / 2 * g 0 - 1 / 2 * g ((N (vert n) : Int) - 1) := by
        intro g
        obtain ⟨m, hm⟩ : ∃ m, N (vert n) = m + 2 := ⟨N (vert n) - 2, by omega⟩
        rw [hm, Finset.sum_range_succ, Finset.sum_range_succ', Finset.sum_range_succ (fun k : Nat => g k), Finset.sum_range_succ' (fun k : Nat => g k)]
        have : ∀ k ∈ Finset.range m, (if (((k + 1 : Nat) : Int) = 0 ∨ ((k + 1 : Nat) : Int) = ((m + 2 : Nat) : Int) - 1) then (1 / 2 : K) else 1) * g ((k + 1 : Nat) : Int) = g ((k + 1 : Nat) : Int) := by
          intro k hk
          have := Finset.mem_range.1 hk
          rw [if_neg (by push_cast; omega), one_mul]
        rw [Finset.sum_congr rfl this, if_pos (Or.inl (by simp)), if_pos (Or.inr (by push_cast; omega)), show ((m + 2 : Nat) : Int) - 1 = ((m + 1 : Nat) : Int) by push_cast; ring]
        push_cast
        ring
      rw [half (fun k => force (Function.update x (vert n) k)), half (fun k => buoy (Function.update x (vert n) k))]
      beta_reduce
      rw [sumF _ (le_refl _), sumB _ (le_refl _), Fk 0 (by omega) (by omega), Fk _ (by omega) (by omega), Bk 0 (by omega) (by omega), Bk _ (by omega) (by omega)]
      have e1 : c (-1) = c 1 := by rw [c2]; simp only [belowSrc, hk]
      have e2 : c (N (vert n)) = c ((N (vert n) : Int) - 2) := by rw [c3]; simp only [aboveSrc, hk]
      rw [show (N (vert n) : Int) - 1 + 1 = N (vert n) by ring, show (N (vert n) : Int) - 1 - 1 = (N (vert n) : Int) - 2 by ring, zero_add, zero_sub, e1, e2]
      ring
    · rw [sumF _ (by omega), sumB _ (by omega)]
      have e1 : c (-1) = c ((N (vert n) : Int) - 2) := by rw [c2]; simp only [belowSrc, hk]
      rw [Bk 0 (by omega) (by omega), Bk _ (by omega) (by omega)] at he
      rw [show ((N (vert n) - 1 : Nat) : Int) = (N (vert n) : Int) - 1 by omega, show (N (vert n) : Int) - 1 - 1 = (N (vert n) : Int) - 2 by ring, e1, he]
      ring
end main

/-- hypotheses of `C44_run_filter`: the channel of Props/PrsRun.lean (rigid walls at bottom and top), filter switched on -/
example : BsqSetup chU chA chN chK [0, 1] ∧ chB.filter = true ∧ chK (vert 2) = .rigid ∧ chU.sch = .trapez := ⟨chSetup, rfl, rfl, rfl⟩

/-- the filter is not the identity there, at the lowest point either: a warm lowest point loses half of its buoyancy -/
example : buoyFilt (fun x => decide (cellBox chA.box x)) chA.fillS (fun x => x 0) (fun x => if x 1 = 0 then (1 : ℚ) else 0) ![2, 0] = 1 / 2 := by decide +kernel

end PP
end Mpdata
