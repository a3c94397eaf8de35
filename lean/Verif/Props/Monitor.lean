import Verif.Model.Monitor
import Mathlib.Data.Nat.Digits.Lemmas
import Mathlib.Data.List.GetD
import Mathlib.Tactic.Linarith
import Mathlib.Tactic.Positivity
import Mathlib.Tactic.NormNum
/-! # C72: the progress shown in the thread names -/
namespace Mpdata.Mon

/-- what is assumed of rounding to `float`: it keeps the order and stays within a factor of two -/
structure Rounding (rnd : ℚ → ℚ) : Prop where
  mono : Monotone rnd
  lo : ∀ x, 0 ≤ x → x / 2 ≤ rnd x
  hi : ∀ x, 0 ≤ x → rnd x ≤ 2 * x

/-- all bytes written are inside `name` -/
def InBounds (len k : Nat) : Prop := ∀ a ∈ footprint len k, a < bufSize

/-- names a thread can have: at most 15 characters, no terminator among them -/
def IsName (s : List Char) : Prop := s.length ≤ 15 ∧ nul ∉ s

theorem dec_len {k m : Nat} (hm : 1 ≤ m) (hk : k < 10 ^ m) : (dec k).length ≤ m := by
  unfold dec
  split_ifs with h
  · simpa using hm
  · rw [List.length_map, List.length_reverse, Nat.digits_length_le_iff (by norm_num)]
    exact hk

theorem text_len {k : Nat} (hk : k < 1000) : (text k).length = 5 := by
  have := dec_len (m := 3) (by norm_num) (by simpa using hk)
  simp only [text, List.length_cons, List.length_append, List.length_replicate, List.length_nil]
  omega

theorem inBounds_of_lt (len : Nat) {k : Nat} (hk : k < 1000) : InBounds len k := by
  intro a ha
  simp only [footprint, text_len hk, List.mem_map, List.mem_range] at ha
  obtain ⟨i, hi, rfl⟩ := ha
  have : place len ≤ 10 := min_le_right _ _
  unfold bufSize; omega

theorem digitChar_ne {d : Nat} (h : d < 10) : Nat.digitChar d ≠ nul := by
  have : ∀ d < 10, Nat.digitChar d ≠ nul := by decide
  exact this d h

theorem text_no_nul (k : Nat) : nul ∉ text k := by
  have hd : nul ∉ dec k := by
    unfold dec
    split_ifs
    · decide
    · rw [List.mem_map]
      rintro ⟨d, h, e⟩
      exact digitChar_ne (Nat.digits_lt_base (by norm_num) (List.mem_reverse.1 h)) e
  intro h
  simp only [text, List.mem_cons, List.mem_append, List.mem_replicate, List.not_mem_nil, or_false] at h
  rcases h with h | (⟨-, h⟩ | h) | h
  · exact absurd h (by decide)
  · exact absurd h (by decide)
  · exact hd h
  · exact absurd h (by decide)

theorem monitor_eq {len : Nat} {comm : List Char} {k : Nat} (hc : IsName comm) (hl : place len ≤ comm.length) (hk : k < 1000) :
    monitor len comm k = comm.take (place len) ++ text k := by
  have hp : place len ≤ 10 := min_le_right _ _
  have ht := text_len hk
  have hn := text_no_nul k
  have hL : (comm.take (place len) ++ text k).length = place len + 5 := by
    rw [List.length_append, List.length_take, ht]; omega
  have hno : nul ∉ comm.take (place len) ++ text k := by
    intro h
    rcases List.mem_append.1 h with h | h
    · exact hc.2 (List.mem_of_mem_take h)
    · exact hn h
  set r := comm.take (place len) ++ text k with hr
  have hb : ∀ i, i < r.length → sprintf (getName comm) (place len) (text k) i = r.getD i nul := by
    intro i hi
    rw [hL] at hi
    unfold sprintf
    split_ifs with h1 h2 h3
    · rw [getName, if_pos (by omega), hr, List.getD_append _ _ _ _ (by rw [List.length_take]; omega)]
      simp only [List.getD_eq_getElem?_getD, List.getElem?_take, if_pos h1]
    · rw [hr, List.getD_append_right _ _ _ _ (by rw [List.length_take]; omega), List.length_take, min_eq_left hl]
    · omega
    · omega
  have hend : sprintf (getName comm) (place len) (text k) r.length = nul := by
    unfold sprintf
    rw [if_neg (by omega), if_neg (by omega), if_pos (by omega)]
  unfold monitor setName
  have hsplit : (List.range 15).map (sprintf (getName comm) (place len) (text k))
      = r ++ ((List.range (15 - r.length)).map fun i => sprintf (getName comm) (place len) (text k) (r.length + i)) := by
    apply List.ext_getElem
    · simp; omega
    · intro i h1 h2
      simp only [List.getElem_map, List.getElem_range]
      by_cases hi : i < r.length
      · rw [List.getElem_append_left hi, hb i hi, List.getD_eq_getElem _ _ hi]
      · rw [List.getElem_append_right (by omega)]
        simp only [List.getElem_map, List.getElem_range]
        congr 1; omega
  rw [hsplit, List.takeWhile_append_of_pos (by
    intro a ha
    have : a ≠ nul := fun h => hno (h ▸ ha)
    simpa using this)]
  rcases Nat.eq_zero_or_pos (15 - r.length) with h | h
  · rw [h]; simp
  · obtain ⟨m, hm⟩ : ∃ m, 15 - r.length = m + 1 := ⟨15 - r.length - 1, by omega⟩
    rw [hm, List.range_succ_eq_map, List.map_cons]
    simp [hend]

/-- a percentage computed from a part that is not more than the whole has at most three digits -/
theorem pct_lt {rnd : ℚ → ℚ} (hr : Rounding rnd) {q : ℚ} (h0 : 0 ≤ q) (h2 : q ≤ 2) : ⌊rnd (rnd q * 100)⌋₊ < 1000 := by
  have a1 := hr.hi q h0
  have a0 := hr.lo q h0
  have b1 := hr.hi (rnd q * 100) (by linarith)
  have b0 := hr.lo (rnd q * 100) (by linarith)
  rw [Nat.floor_lt (by linarith)]
  push_cast
  linarith

/-- **C72 (progress text, fixed time step).** In any call of `advance(nt)`, made after any number `t` of steps, with any
requests to stop: each call of `monitor` writes inside its buffer, for every length of thread name. -/
theorem C72_in_bounds (rnd : ℚ → ℚ) (hr : Rounding rnd) (panic : Nat → Bool) (nt t len : Nat) :
    ∀ k ∈ advFixed rnd panic nt t, k < 1000 ∧ InBounds len k := by
  have key : ∀ j u, u + j = nt + t → ∀ k ∈ loopFixed rnd panic (nt + t) j u, k < 1000 := by
    intro j
    induction j with
    | zero => intro u _ k hk; simp [loopFixed] at hk
    | succ j ih =>
      intro u hu k hk
      simp only [loopFixed, List.mem_cons] at hk
      rcases hk with rfl | hk
      · have hle : ((u : Nat) : ℚ) ≤ ((nt + t : Nat) : ℚ) := by exact_mod_cast (by omega : u ≤ nt + t)
        have hpos : (0 : ℚ) < ((nt + t : Nat) : ℚ) := by exact_mod_cast (by omega : 0 < nt + t)
        have h1 := hr.mono hle
        have h2 := hr.lo _ hpos.le
        have h3 := hr.lo (u : ℚ) (Nat.cast_nonneg _)
        have hu0 : (0 : ℚ) ≤ (u : ℚ) := Nat.cast_nonneg _
        have hp : 0 < rnd ((nt + t : Nat) : ℚ) := by linarith
        refine pct_lt hr (div_nonneg (by linarith) hp.le) ?_
        rw [div_le_iff₀ hp]; linarith
      · split_ifs at hk with hpn
        · simp at hk
        · exact ih (u + 1) (by omega) k hk
  intro k hk
  have := key nt t (by omega) k hk
  exact ⟨this, inBounds_of_lt len this⟩

/-- **C72 (progress text, adaptive time step).** The same for `advance(t)`, `t > 0`, with adaptive time steps when output is
interpolated in time to first order (the default, `out_intrp_ord = 1`) or not at all. -/
theorem C72_in_bounds_var (rnd : ℚ → ℚ) (hr : Rounding rnd) (dt : Nat → ℚ) (hdt : ∀ s, 0 ≤ dt s) (ord : Nat) (ho : ord ≤ 1)
    (fuel : Nat) (nt time : ℚ) (hnt : 0 < nt) (ht : 0 ≤ time) (steps len : Nat) :
    ∀ k ∈ advVar rnd dt ord fuel nt time steps, k < 1000 ∧ InBounds len k := by
  have key : ∀ f (s : VSt ℚ), 0 ≤ s.time → s.additional ≤ 1 → (nt + time ≤ s.time → s.additional ≤ 0) →
      ∀ k ∈ loopVar rnd dt (nt + time) f s, k < 1000 := by
    intro f
    induction f with
    | zero => intro s _ _ _ k hk; simp [loopVar] at hk
    | succ f ih =>
      intro s h0 ha hb k hk
      unfold loopVar at hk
      split_ifs at hk with hc
      · rcases List.mem_cons.1 hk with rfl | hk
        · have hlt : s.time < nt + time := by
            rcases hc with h | h
            · exact h
            · by_contra hge
              have := hb (not_lt.1 hge)
              omega
          have h2 := hr.lo _ h0
          have h3 := hr.hi _ h0
          have hp : 0 < nt + time := by linarith
          refine pct_lt hr (div_nonneg (by linarith) hp.le) ?_
          rw [div_le_iff₀ hp]; linarith
        · refine ih _ (add_nonneg h0 (hdt _)) ?_ ?_ k hk
          · simp only [vBody]; split_ifs <;> omega
          · intro hge
            simp only [vBody] at hge ⊢
            rw [if_pos hge]; omega
      · simp at hk
  intro k hk
  have := key fuel ⟨time, steps, ord⟩ ht (by simpa using ho) (fun h => by simp only at h; linarith) k hk
  exact ⟨this, inBounds_of_lt len this⟩

/-- calls by threads, one after another -/
def calls (s : St) (l : List (Nat × Nat)) : St := l.foldl (fun s c => call s c.1 c.2) s

/-- the last percentage announced by thread `t` -/
def lastOf (t : Nat) (l : List (Nat × Nat)) : Option Nat := ((l.filter (·.1 = t)).getLast?).map (·.2)

/-- **C72 (name shown).** Threads with the name `nm` of the program (threads inherit it), any calls by any of them in any
order: each thread that has called shows the first ten characters of the name and its own last percentage, the others the
name as it was; the text is complete. -/
theorem C72_shows_progress (nm : List Char) (hnm : IsName nm) (s : St) (hs : s.len = none) (hc : ∀ t, s.comm t = nm)
    (l : List (Nat × Nat)) (hl : ∀ c ∈ l, c.2 < 1000) (t : Nat) :
    (calls s l).comm t = (match lastOf t l with | none => nm | some k => nm.take 10 ++ text k) := by
  have htk : nm.take (place nm.length) = nm.take 10 := by
    unfold place
    rcases le_total nm.length 10 with h | h
    · rw [min_eq_left h, List.take_of_length_le (le_refl _), List.take_of_length_le h]
    · rw [min_eq_right h]
  have inv : ∀ l : List (Nat × Nat), (∀ c ∈ l, c.2 < 1000) →
      ((calls s l).len = none ∧ l = [] ∨ (calls s l).len = some nm.length) ∧
      ∀ t, (calls s l).comm t = (match lastOf t l with | none => nm | some k => nm.take 10 ++ text k) := by
    intro l
    induction l using List.reverseRecOn with
    | nil => intro _; exact ⟨Or.inl ⟨hs, rfl⟩, fun t => hc t⟩
    | append_singleton l c ih =>
      intro h
      obtain ⟨i1, i2⟩ := ih (fun c hc => h c (List.mem_append_left _ hc))
      have hck : c.2 < 1000 := h c (by simp)
      have hlen : (calls s l).len.getD ((calls s l).comm c.1).length = nm.length := by
        rcases i1 with ⟨e, rfl⟩ | e
        · rw [e]; show ((calls s []).comm c.1).length = _
          rw [show (calls s []).comm c.1 = nm from hc c.1]
        · rw [e]; rfl
      have hstep : calls s (l ++ [c]) = call (calls s l) c.1 c.2 := by simp [calls, List.foldl_append]
      have hlast : ∀ t, lastOf t (l ++ [c]) = if c.1 = t then some c.2 else lastOf t l := by
        intro t
        unfold lastOf
        rw [List.filter_append]
        by_cases e : c.1 = t
        · simp [e]
        · simp [e]
      refine ⟨Or.inr ?_, fun t => ?_⟩
      · rw [hstep]; show some _ = _; rw [hlen]
      · rw [hstep, hlast t]
        show (if t = c.1 then monitor _ _ _ else _) = _
        rw [hlen]
        by_cases e : c.1 = t
        · rw [if_pos e.symm, if_pos e, i2 c.1]
          have hp : place nm.length ≤ nm.length := min_le_left _ _
          cases hlo : lastOf c.1 l with
          | none =>
            show monitor _ nm _ = _
            rw [monitor_eq hnm hp hck, htk]
          | some k =>
            have hk : k < 1000 := by
              unfold lastOf at hlo
              rw [Option.map_eq_some_iff] at hlo
              obtain ⟨x, hx, rfl⟩ := hlo
              exact h x (List.mem_append_left _ (List.mem_of_mem_filter (List.mem_of_getLast? hx)))
            have hn' : IsName (nm.take 10 ++ text k) := by
              refine ⟨?_, ?_⟩
              · rw [List.length_append, text_len hk, List.length_take]; omega
              · intro hh
                rcases List.mem_append.1 hh with hh | hh
                · exact hnm.2 (List.mem_of_mem_take hh)
                · exact text_no_nul k hh
            show monitor _ (nm.take 10 ++ text k) _ = _
            have hL : (nm.take 10).length = place nm.length := by
              rw [List.length_take]; unfold place; omega
            rw [monitor_eq hn' (by rw [List.length_append]; omega) hck, ← hL, List.take_left]
        · rw [if_neg (fun h => e h.symm), if_neg e]
          exact i2 t
  exact (inv l hl).2 t

/-- **C72 fails with adaptive time steps and output interpolated in time (order 2).** The steps made after the requested time are
counted in the percentage: `advance(1/100)` with time step 1 announces 10000 %, and a byte past the end of the buffer is
written when the name of the program has ten characters or more. -/
theorem C72_fails_interpolated :
    ∃ (dt : Nat → ℚ) (fuel : Nat) (nt : ℚ), (∀ s, 0 < dt s) ∧ 0 < nt ∧
      ∃ k ∈ advVar id dt 2 fuel nt 0 0, ∀ len ≥ 10, ¬ InBounds len k := by
  refine ⟨fun _ => 1, 3, 1 / 100, fun _ => one_pos, by norm_num, 10000, ?_, ?_⟩
  · have h1 : (vBody (fun _ => (1 : ℚ)) (1 / 100) ⟨0, 0, 2⟩) = ⟨1, 1, 1⟩ := by
      simp only [vBody]; norm_num
    have h2 : pctVar id 1 (1 / 100) = 10000 := by
      unfold pctVar; norm_num
    simp only [advVar, loopVar, add_zero, Nat.cast_ofNat, h1, h2]
    norm_num
  · intro len hl h
    have := h 17 ?_
    · exact absurd this (by decide)
    · have hp : place len = 10 := min_eq_right hl
      rw [footprint, hp]
      decide +kernel

/-! ## The hypotheses are met -/

/-- rounding to whole multiples is too coarse, exact arithmetic is allowed -/
example : Rounding id :=
  ⟨monotone_id, fun x h => by simp only [id]; linarith, fun x h => by simp only [id]; linarith⟩

/-- a second call of `advance`, stopped by a panic before step 7 -/
example : advFixed id (fun t => t == 7) 4 4 = [50, 62, 75, 87] ∧ advFixed id (fun t => t == 5) 4 4 = [50, 62] := by
  decide +kernel

/-- two threads of a program with a long name -/
example : let nm := "advection_solver".toList.take 15
    IsName nm ∧ String.ofList ((calls ⟨none, fun _ => nm⟩ [(0, 0), (1, 0), (0, 50)]).comm 0) = "advection_  50%" ∧
      String.ofList ((calls ⟨none, fun _ => nm⟩ [(0, 0), (1, 0), (0, 50)]).comm 2) = "advection_solve" := by
  refine ⟨⟨by decide, by decide⟩, by decide +kernel, by decide +kernel⟩

end Mpdata.Mon
