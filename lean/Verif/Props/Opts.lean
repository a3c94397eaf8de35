import Verif.Lemmas.Opts
/-! # C45 (option codes and names), C46 (direction addressing) -/
namespace Mpdata

/-- C45 (codes): a flag test sees exactly the flags that were combined, for any set of flags. -/
theorem C45_isset_combine (ks : List Nat) (k : Nat) :
    isset (combine ks) (bit k) = true ↔ k ∈ ks := by
  rw [isset_bit, combine, testBit_combine_aux]
  simp

/-- C45 (names, partial): the recorded name determines every option flag that has a name
(all flags except `div_3rd_dt`). Full statement: it determines the whole option set — false, see
`C45_opts_string_not_injective`. -/
theorem C45_opts_string_determines_partial (o o' : OptsT) (h : optsString o = optsString o')
    (k : Nat) (hk : k < 13) (h11 : k ≠ 11) : isset o (bit k) = isset o' (bit k) := by
  have hacc : optsStringAcc o optOrder = optsStringAcc o' optOrder := by
    have key : ∀ a b : OptsT, optsStringAcc a optOrder = [] →
        (∃ t, optsStringAcc b optOrder = '|' :: t) → optsString a ≠ optsString b := by
      rintro a b ha ⟨t, hb⟩ e
      simp only [optsString, ha, hb] at e
      simp at e
      -- the word would have to be "0"
      have h1 := acc_eq_flatten b optOrder
      rw [hb] at h1
      have hn : ∀ n ∈ named b optOrder, ∃ c m, n = c :: m ∧ c ≠ '0' := by
        intro n hn
        obtain ⟨k, hk, _⟩ := (mem_named b optOrder n).1 hn
        have : ∀ p ∈ optOrder, ∃ c m, p.2 = c :: m ∧ c ≠ '0' := by
          intro p hp
          have : p.2.head? ≠ none ∧ p.2.head? ≠ some '0' := by revert p; decide
          cases hp2 : p.2 with
          | nil => simp [hp2] at this
          | cons c m => exact ⟨c, m, rfl, by simpa [hp2] using this⟩
        exact this _ hk
      cases hh : named b optOrder with
      | nil => simp [hh] at h1
      | cons n ns =>
        obtain ⟨c, m, rfl, hc⟩ := hn n (by simp [hh])
        simp [hh] at h1
        rw [← e] at h1
        simp at h1
        exact hc h1.1.symm
    rcases acc_shape o optOrder with ha | ⟨t, ha⟩ <;> rcases acc_shape o' optOrder with hb | ⟨s, hb⟩
    · rw [ha, hb]
    · exact absurd h (key o o' ha ⟨s, hb⟩)
    · exact absurd h.symm (key o' o hb ⟨t, ha⟩)
    · simp only [optsString, ha, hb] at h
      simp at h
      rw [ha, hb, h]
  rw [acc_eq_flatten, acc_eq_flatten] at hacc
  have nb : ∀ a : OptsT, ∀ n ∈ named a optOrder, '|' ∉ n := by
    intro a n hn
    obtain ⟨k, hk, _⟩ := (mem_named a optOrder n).1 hn
    exact optOrder_noBar _ hk
  have hnm := flatten_bar_inj _ _ (nb o) (nb o') hacc
  have hin : ∃ n, (k, n) ∈ optOrder := by
    have : ∀ k < 13, k ≠ 11 → ∃ p ∈ optOrder, p.1 = k := by decide
    obtain ⟨p, hp, rfl⟩ := this k hk h11
    exact ⟨p.2, hp⟩
  obtain ⟨n, hn⟩ := hin
  have char : ∀ a : OptsT, isset a (bit k) = true ↔ n ∈ named a optOrder := by
    intro a
    rw [mem_named]
    constructor
    · intro h; exact ⟨k, hn, h⟩
    · rintro ⟨k', h1, h2⟩
      have : k' = k := optOrder_name_inj _ h1 _ hn rfl
      rwa [← this]
  rw [Bool.eq_iff_iff, char o, char o', hnm]

/-- C45 is false at full strength: the sets {} and {div_3rd_dt} are both recorded as "0". -/
theorem C45_opts_string_not_injective :
    optsString 0 = optsString oDiv3dt ∧ isset 0 oDiv3dt ≠ isset oDiv3dt oDiv3dt := by decide

example : optsString (combine [0, 5]) = "iga|fct".toList := by decide
example : optsString 0 = "0".toList := by decide

/-- C45: `most_significant` is one plus the position of the highest set flag. -/
theorem C45_most_significant (x : OptsT) (hx : x ≠ 0) :
    isset x (bit (mostSignificant x - 1)) = true ∧
    ∀ k, isset x (bit k) = true → k ≤ mostSignificant x - 1 := by
  have h1 : mostSignificant x - 1 = x.log2 := by simp [mostSignificant, hx]
  rw [h1]
  constructor
  · rw [isset_bit]; exact Nat.testBit_log2 hx
  · intro k hk
    rw [isset_bit] at hk
    have := Nat.ge_two_pow_of_testBit hk
    exact (Nat.le_log2 hx).2 this

example : mostSignificant 0b1010 = 4 := by decide

/-! ## C46 -/

/-- component `c` of a 2-D / 3-D index -/
def comp2 (p : Int × Int) (c : Nat) : Int := if c = 0 then p.1 else p.2
def comp3 (p : Int × Int × Int) (c : Nat) : Int := if c = 0 then p.1 else if c = 1 then p.2.1 else p.2.2

/-- C46: the `m`-th argument of `pi<d>` addresses dimension `(d + m) mod n_dims` (2-D). -/
theorem C46_pi2_addresses (d : Nat) (hd : d < 2) (a : Nat → Int) (m : Nat) (hm : m < 2) :
    comp2 (pi2 d (a 0) (a 1)) ((d + m) % 2) = a m := by
  interval_cases d <;> interval_cases m <;> simp [pi2, comp2]

/-- C46: the `m`-th argument of `pi<d>` addresses dimension `(d + m) mod n_dims` (3-D). -/
theorem C46_pi3_addresses (d : Nat) (hd : d < 3) (a : Nat → Int) (m : Nat) (hm : m < 3) :
    comp3 (pi3 d (a 0) (a 1) (a 2)) ((d + m) % 3) = a m := by
  interval_cases d <;> interval_cases m <;> simp [pi3, comp3]

/-- C46: permutations are bijections of index tuples. -/
theorem C46_pi2_bijective (d : Nat) :
    Function.Bijective (fun p : Int × Int => pi2 d p.1 p.2) := by
  unfold pi2
  by_cases h : d = 0
  · simp [h]; exact Function.bijective_id
  · simp [h]
    exact ⟨fun a b e => by simp at e; ext <;> simp [e], fun b => ⟨(b.2, b.1), rfl⟩⟩

theorem C46_pi3_bijective (d : Nat) :
    Function.Bijective (fun p : Int × Int × Int => pi3 d p.1 p.2.1 p.2.2) := by
  unfold pi3
  by_cases h : d = 0
  · simp [h]; exact Function.bijective_id
  · by_cases h1 : d = 1
    · simp [h1]
      exact ⟨fun a b e => by simp at e; ext <;> simp [e], fun b => ⟨(b.2.1, b.2.2, b.1), rfl⟩⟩
    · simp [h, h1]
      exact ⟨fun a b e => by simp at e; ext <;> simp [e], fun b => ⟨(b.2.2, b.1, b.2.1), rfl⟩⟩

/-- C46: vector components wrap around cyclically for every offset down to `-size`
and up to anything representable (2- and 3-component vectors, and time levels). -/
theorem C46_arrvec_wrap (size : Nat) (i : Int) (hi : -(size : Int) ≤ i)
    (hi' : i + size < 2 ^ 64) : (arrvecIdx size i : Int) = i % size := by
  unfold arrvecIdx
  have h1 : (i + size) % (2 ^ 64 : Int) = i + size := Int.emod_eq_of_lt (by omega) (by omega)
  rw [h1]
  push_cast
  rw [Int.toNat_of_nonneg (by omega)]
  simp

/-- below `-size` the 64-bit wrap-around still gives the cyclic component when the vector
length divides 2^64, in particular for two time levels -/
theorem C46_arrvec_wrap_pow2 (size : Nat) (hd : (size : Int) ∣ 2 ^ 64) (i : Int) :
    (arrvecIdx size i : Int) = i % size := by
  unfold arrvecIdx
  have h2 := Int.emod_nonneg (i + size) (show (2:Int)^64 ≠ 0 by norm_num)
  rw [Int.natCast_mod, Int.toNat_of_nonneg h2, Int.emod_emod_of_dvd _ hd]
  simp

/-- ... but not for three components: component -4 of a 3-vector is not component 2. -/
theorem C46_arrvec_wrap_fails_below_minus_size : (arrvecIdx 3 (-4) : Int) ≠ (-4) % 3 := by decide

example : arrvecIdx 3 (-1) = 2 ∧ arrvecIdx 2 (-1) = 1 ∧ arrvecIdx 3 3 = 0 := by decide

end Mpdata
