import Verif.Model.Opts
import Mathlib.Data.Nat.Bitwise
import Mathlib.Tactic.IntervalCases
/-! Helper lemmas on option masks and the option string. -/
namespace Mpdata

theorem isset_bit (x k : Nat) : isset x (bit k) = x.testBit k := by
  simp only [isset, bit, Nat.one_shiftLeft, Nat.and_two_pow]
  cases h : x.testBit k <;> simp

/-- combining options with `|` -/
def combine (ks : List Nat) : OptsT := ks.foldl (fun acc k => acc ||| bit k) 0

theorem testBit_combine_aux (ks : List Nat) (acc k : Nat) :
    (ks.foldl (fun acc k => acc ||| bit k) acc).testBit k = (acc.testBit k || decide (k ∈ ks)) := by
  induction ks generalizing acc with
  | nil => simp
  | cons a t ih =>
    rw [List.foldl_cons, ih, Nat.testBit_or]
    have : (bit a).testBit k = decide (k = a) := by
      simp only [bit, Nat.one_shiftLeft, Nat.testBit_two_pow, eq_comm]
    rw [this]
    by_cases h : k = a <;> simp [h]

/-- a name without the separator -/
def NoBar (n : List Char) : Prop := '|' ∉ n

theorem optOrder_noBar : ∀ p ∈ optOrder, NoBar p.2 := by
  unfold NoBar; decide

theorem append_inj_bar (n m r s : List Char) (hn : '|' ∉ n) (hm : '|' ∉ m)
    (hr : r = [] ∨ ∃ t, r = '|' :: t) (hs : s = [] ∨ ∃ t, s = '|' :: t) (h : n ++ r = m ++ s) :
    n = m ∧ r = s := by
  induction n generalizing m with
  | nil =>
    cases m with
    | nil => exact ⟨rfl, by simpa using h⟩
    | cons b m =>
      exfalso
      rcases hr with rfl | ⟨t, rfl⟩
      · simp at h
      · simp at h hm; exact hm.1 h.1
  | cons a n ih =>
    cases m with
    | nil =>
      exfalso
      rcases hs with rfl | ⟨t, rfl⟩
      · simp at h
      · simp at h hn; exact hn.1 h.1.symm
    | cons b m =>
      simp at h hn hm
      obtain ⟨e, h⟩ := h
      obtain ⟨e1, e2⟩ := ih m hn.2 hm.2 h
      exact ⟨by rw [e, e1], e2⟩

theorem acc_shape (o : OptsT) (l : List (Nat × List Char)) :
    optsStringAcc o l = [] ∨ ∃ t, optsStringAcc o l = '|' :: t := by
  induction l with
  | nil => simp [optsStringAcc]
  | cons p l ih =>
    unfold optsStringAcc
    split
    · simp
    · simpa using ih

/-- the names listed, as a list of words -/
def named (o : OptsT) (l : List (Nat × List Char)) : List (List Char) :=
  (l.filter (fun p => isset o (bit p.1))).map (·.2)

theorem acc_eq_flatten (o : OptsT) (l : List (Nat × List Char)) :
    optsStringAcc o l = ((named o l).map (fun n => '|' :: n)).flatten := by
  induction l with
  | nil => rfl
  | cons p l ih =>
    unfold optsStringAcc
    cases h : isset o (bit p.1) <;> simp [named, h] at * <;> exact ih

theorem flatten_bar_inj (a b : List (List Char)) (ha : ∀ n ∈ a, '|' ∉ n) (hb : ∀ n ∈ b, '|' ∉ n)
    (h : (a.map (fun n => '|' :: n)).flatten = (b.map (fun n => '|' :: n)).flatten) : a = b := by
  induction a generalizing b with
  | nil => cases b with
    | nil => rfl
    | cons x b => simp at h
  | cons x a ih =>
    cases b with
    | nil => simp at h
    | cons y b =>
      simp only [List.map_cons, List.flatten_cons, List.cons_append, List.cons.injEq, true_and] at h
      have sh : ∀ l : List (List Char), (l.map (fun n => '|' :: n)).flatten = [] ∨
          ∃ t, (l.map (fun n => '|' :: n)).flatten = '|' :: t := by
        intro l; cases l <;> simp
      obtain ⟨e1, e2⟩ := append_inj_bar x y _ _ (ha x (by simp)) (hb y (by simp)) (sh a) (sh b) h
      rw [e1, ih b (fun n hn => ha n (by simp [hn])) (fun n hn => hb n (by simp [hn])) e2]

theorem mem_named (o : OptsT) (l : List (Nat × List Char)) (n : List Char) :
    n ∈ named o l ↔ ∃ k, (k, n) ∈ l ∧ isset o (bit k) = true := by
  simp [named, and_comm]

theorem optOrder_name_inj : ∀ p ∈ optOrder, ∀ q ∈ optOrder, p.2 = q.2 → p.1 = q.1 := by decide

end Mpdata
