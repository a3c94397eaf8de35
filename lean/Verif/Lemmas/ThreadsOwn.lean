import Verif.Lemmas.ThreadsErase
/-! # Phases in which each column belongs to one thread -/
set_option linter.unusedSectionVars false
set_option linter.unusedSimpArgs false
set_option linter.unusedVariables false
namespace Mpdata
namespace Threads
open Classical

section general
variable {A Y V : Type}

/-- the thread that works on column `x`: the first one left of the domain, the last one right of it -/
def Owner (N T : Nat) (t : Fin T) (x : Int) : Prop :=
  (x ≤ 0 → t.1 = 0) ∧ ((N : Int) - 1 ≤ x → t.1 + 1 = T) ∧ (0 ≤ x ∧ x ≤ N - 1 → (slabOf N T t).Mem x)

/-- ranges that give each column to its owner -/
def Dom.Own (N : Nat) : Dom → Prop
  | .ext p q => p = 0 ∧ q = 0
  | .face k => k = 0
  | .extR _ _ => True
  | .left _ hi => hi ≤ 0
  | .right lo _ => (N : Int) - 1 ≤ lo

theorem slab_nonempty {N T : Nat} (h : T ≤ N) (t : Fin T) : (slabOf N T t).first ≤ (slabOf N T t).last := by
  have hT : (0 : Int) < T := by have := t.2; omega
  rw [slabOf_first, slabOf_last]
  unfold slabMin
  have h1 : ((t.1 : Int) + 1) * N = t.1 * N + N := by ring
  have h2 : Int.tdiv ((t.1 : Int) * N) T + 1 ≤ Int.tdiv (((t.1 : Int) + 1) * N) T := by
    have a1 : (0 : Int) ≤ (t.1 : Int) * N := by positivity
    rw [Int.tdiv_eq_ediv_of_nonneg a1, Int.tdiv_eq_ediv_of_nonneg (by positivity), h1]
    have : (t.1 : Int) * N / T + 1 = ((t.1 : Int) * N + 1 * T) / T := by rw [Int.add_mul_ediv_right _ _ (by omega)]
    rw [this]
    exact Int.ediv_le_ediv hT (by omega)
  omega

theorem owner_of {N T : Nat} (hTN : T ≤ N) {d : Dom} (hd : d.Own N) {t : Fin T} {x : Int} (h : (d.rng N T t).Mem x) : Owner N T t x := by
  have b := slabOf_bounds N T t
  have ne := slab_nonempty hTN t
  have hT := t.2
  -- position of the slab relative to the first and the last one
  have first : t.1 ≠ 0 → 0 < (slabOf N T t).first := by
    intro h0
    have h1 := slab_lt N T ⟨0, by omega⟩ t (by simp only; omega)
    have h2 := slab_nonempty hTN ⟨0, by omega⟩
    have h3 := slabOf_bounds N T ⟨0, by omega⟩
    omega
  have last : t.1 + 1 ≠ T → (slabOf N T t).last < N - 1 := by
    intro h0
    have h1 := slab_lt N T t ⟨T - 1, by omega⟩ (by simp only; omega)
    have h2 := slab_nonempty hTN ⟨T - 1, by omega⟩
    have h3 := slabOf_bounds N T ⟨T - 1, by omega⟩
    omega
  have b1 := b.1
  have b2 := b.2.1
  have b3 := b.2.2.2.1
  have b4 := b.2.2.2.2
  clear b
  unfold Owner Rng.Mem
  cases d <;> simp only [Dom.Own] at hd <;> simp only [Dom.rng] at h <;> unfold Rng.Mem at h <;> (try split_ifs at h) <;> simp only at h <;> refine ⟨?_, ?_, ?_⟩ <;> intro hx <;>
    by_cases e0 : t.1 = 0 <;> by_cases e1 : t.1 + 1 = T <;> omega

theorem owner_unique {N T : Nat} (hTN : T ≤ N) {t t' : Fin T} {x : Int} (h : Owner N T t x) (h' : Owner N T t' x) : t' = t := by
  obtain ⟨a, b, c⟩ := h
  obtain ⟨a', b', c'⟩ := h'
  apply Fin.ext
  by_cases h0 : x ≤ 0
  · rw [a h0, a' h0]
  · by_cases h1 : (N : Int) - 1 ≤ x
    · have := b h1; have := b' h1; omega
    · have hc := c (by omega)
      have hc' := c' (by omega)
      unfold Rng.Mem at hc hc'
      rcases lt_trichotomy t.1 t'.1 with h2 | h2 | h2
      · have := slab_lt N T t t' h2; omega
      · exact h2.symm
      · have := slab_lt N T t' t h2; omega

/-- columns with the same owner whatever the number of threads -/
def SameCol (N : Nat) (x x' : Int) : Prop := x' = x ∨ (x ≤ 0 ∧ x' ≤ 0) ∨ ((N : Int) - 1 ≤ x ∧ (N : Int) - 1 ≤ x') ∨ N = 1

theorem owner_same {N T : Nat} (hTN : T ≤ N) {t t' : Fin T} {x x' : Int} (hs : SameCol N x x') (h : Owner N T t x) (h' : Owner N T t' x') : t' = t := by
  rcases hs with rfl | ⟨h1, h2⟩ | ⟨h1, h2⟩ | h1
  · exact owner_unique hTN h h'
  · exact Fin.ext (by rw [h.1 h1, h'.1 h2])
  · exact Fin.ext (by have := h.2.1 h1; have := h'.2.1 h2; omega)
  · have := t.2; have := t'.2
    exact Fin.ext (by omega)

/-- a phase in which every location has one owner, in terms of footprints -/
structure OwnPhase (N : Nat) (ss : List (S A Y V)) : Prop where
  own : ∀ s ∈ ss, s.dom.Own N
  nodup : ∀ s ∈ ss, s.ys.Nodup
  reads : ∀ s ∈ ss, ∀ x, (s.dom.glob N).Mem x → ∀ y ∈ s.ys, ∀ a' x' y', s.rd x y a' x' y' → ∀ s' ∈ ss, s'.dst = a' → y' ∈ s'.ys → (s'.dom.glob N).Mem x' → SameCol N x x'
  self : ∀ s ∈ ss, ∀ x y x' y', (s.dom.glob N).Mem x → y ∈ s.ys → s.rd x y s.dst x' y' → (s.dom.glob N).Mem x' → y' ∈ s.ys → x' = x ∧ y' = y

theorem own_stmts [DecidableEq A] [DecidableEq Y] {N T : Nat} (hT : 0 < T) (hTN : T ≤ N) {ss : List (S A Y V)} (h : OwnPhase N ss) :
    StmtsOwned (ss.map fun s => s.toStmt N T) := by
  have g : ∀ (d : Dom) (t : Fin T) x, (d.rng N T t).Mem x → (d.glob N).Mem x := fun d t x hx => (cover d N T hT (by omega) x).1 ⟨t, hx⟩
  refine owned_of h.nodup ?_ ?_ ?_
  · intro s hs s' hs' _ y _ _ t t' x hx hx'
    exact owner_unique hTN (owner_of hTN (h.own s hs) hx) (owner_of hTN (h.own s' hs') hx')
  · intro s hs t x hx y hy a' x' y' hr s' hs' hd hy' t' hx'
    exact owner_same hTN (h.reads s hs x (g _ _ _ hx) y hy a' x' y' hr s' hs' hd hy' (g _ _ _ hx')) (owner_of hTN (h.own s hs) hx) (owner_of hTN (h.own s' hs') hx')
  · intro s hs t x y x' y' hx hy hr hx' hy'
    exact h.self s hs x y x' y' (g _ _ _ hx) hy hr (g _ _ _ hx') hy'

theorem phaseIs_own [DecidableEq A] [DecidableEq Y] {N : Nat} {J : A × Int × Y → Prop} {ss : List (S A Y V)} (h : OwnPhase N ss) (hc : CleanReads N J ss) : PhaseIs N J ss := by
  refine ⟨ss, hc, ?_⟩
  intro T hT hTN m m' he l _
  have : Inhabited (Fin T) := ⟨⟨0, hT⟩⟩
  rw [phase_serial_owned (own_stmts hT hTN h) he]

theorem phaseIs_good [DecidableEq A] [DecidableEq Y] {N : Nat} {J : A × Int × Y → Prop} {ss : List (S A Y V)} (hg : ∀ T, Good N T ss [] ss)
    (hp : ss.Pairwise Sep) (hn : ∀ s ∈ ss, s.ys.Nodup) (hc : CleanReads N J ss) : PhaseIs N J ss := by
  refine ⟨ss, hc, ?_⟩
  intro T hT hTN m m' he l _
  rw [phase_serial (good_safe (hg T) hp hn) he]

/-- a phase `P ++ Q` in which what `P` assigns where `p` fails is assigned again by `Q`, or junk -/
theorem phaseIs_erase [DecidableEq A] [DecidableEq Y] {N : Nat} {J : A × Int × Y → Prop} {P Q : List (S A Y V)} (p : Y → Bool)
    (own : ∀ s, s ∈ P ∨ s ∈ Q → s.dom.Own N)
    (reads : ∀ s, s ∈ P ∨ s ∈ Q → ∀ x, (s.dom.glob N).Mem x → ∀ y ∈ s.ys, (s ∈ P → p y = true ∨ s ∈ Q) → ∀ a' x' y', s.rd x y a' x' y' →
      p y' = false → ∀ s' ∈ P, s'.dst = a' → y' ∈ s'.ys → ¬ (s'.dom.glob N).Mem x')
    (again : ∀ s ∈ P, ∀ x, (s.dom.glob N).Mem x → ∀ y ∈ s.ys, p y = false → ¬ J (s.dst, x, y) → ∃ s' ∈ Q, s'.dst = s.dst ∧ y ∈ s'.ys ∧ (s'.dom.glob N).Mem x)
    (h : OwnPhase N (P.map (S.only p) ++ Q)) (hc : CleanReads N J (P.map (S.only p) ++ Q)) : PhaseIs N J (P ++ Q) := by
  refine ⟨_, hc, ?_⟩
  intro T hT hTN m m' he l hl
  have g : ∀ (d : Dom) (t : Fin T) x, (d.rng N T t).Mem x → (d.glob N).Mem x := fun d t x hx => (cover d N T hT (by omega) x).1 ⟨t, hx⟩
  have hE : EraseOk N T p P Q := by
    refine ⟨?_, ?_⟩
    · intro s hs t x hx y hy hk a' x' y' hr hp s' hs' hd hy' t' hx'
      exact reads s hs x (g _ _ _ hx) y hy hk a' x' y' hr hp s' hs' hd hy' (g _ _ _ hx')
    · intro s hs s' hs' _ y _ _ _ t t' x hx hx'
      exact owner_unique hTN (owner_of hTN (own s (Or.inl hs)) hx) (owner_of hTN (own s' (Or.inr hs')) hx')
  obtain ⟨m'', h1, h2⟩ := erase_phase hE he
  have : Inhabited (Fin T) := ⟨⟨0, hT⟩⟩
  rw [← phase_serial_owned (own_stmts hT hTN h) h1]
  apply h2
  by_cases hw : ∃ s ∈ P, s.dst = l.1 ∧ p l.2.2 = false ∧ l.2.2 ∈ s.ys ∧ (s.dom.glob N).Mem l.2.1
  · right
    obtain ⟨s, hs, e1, e2, e3, e4⟩ := hw
    obtain ⟨s', hs', k1, k2, k3⟩ := again s hs _ e4 _ e3 e2 (by rw [e1]; exact hl)
    exact ⟨s', hs', by rw [k1, e1], k2, (cover s'.dom N T hT (by omega) _).2 k3⟩
  · left
    intro s hs e1 e2 e3 t e4
    exact hw ⟨s, hs, e1, e2, e3, g _ _ _ e4⟩

/-- a phase that is deterministic for either of the two reasons, whatever the number of threads -/
theorem phaseIs_or [DecidableEq A] [DecidableEq Y] {N : Nat} {ss : List (S A Y V)} (h : ∀ T, Good N T ss [] ss ∨ OwnPhase N ss)
    (hp : ss.Pairwise Sep) (hn : ∀ s ∈ ss, s.ys.Nodup) : PhaseIs N (fun _ => False) ss := by
  by_cases ho : OwnPhase N ss
  · exact phaseIs_own ho (fun _ _ _ _ _ _ _ _ _ _ _ => id)
  · exact phaseIs_good (fun T => (h T).resolve_right ho) hp hn (fun _ _ _ _ _ _ _ _ _ _ _ => id)

end general

end Threads
end Mpdata
