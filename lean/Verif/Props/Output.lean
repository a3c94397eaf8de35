import Verif.Model.Output
import Verif.Props.Decomp
import Mathlib.Data.List.Sort
import Mathlib.Data.Nat.Digits.Lemmas
import Mathlib.Algebra.Order.Floor.Ring
import Mathlib.Data.Rat.Floor
/-!
# C36–C40, C48: output
-/
set_option linter.unusedSectionVars false
namespace Mpdata

/-! ## Fixed time step (C36) -/

theorem lt_list_ext {l l' : List Nat} (h : l.Pairwise (· < ·)) (h' : l'.Pairwise (· < ·)) (hm : ∀ x, x ∈ l ↔ x ∈ l') : l = l' :=
  List.Pairwise.eq_of_mem_iff h h' (fun {a} => hm a)

theorem pairwise_range' (a n : Nat) : (List.range' a n).Pairwise (· < ·) := by
  rw [List.range'_eq_map_range]
  exact List.pairwise_lt_range.map _ (fun _ _ h => Nat.add_lt_add_left h a)

theorem recCount_eq (p : OutPar) (hf : 0 < p.freq) (hw : p.window ≤ p.freq) (s : Nat) :
    recCount p s = if s % p.freq < p.window ∧ p.start ≤ s - s % p.freq then 1 else 0 := by
  unfold recCount
  have key : (List.range p.window).filter (fun t : Nat =>
      decide (((s : Int) - t).tmod p.freq = 0) && decide (((s : Int) - t) ≥ p.start))
      = if s % p.freq < p.window ∧ p.start ≤ s - s % p.freq then [s % p.freq] else [] := by
    apply lt_list_ext
    · exact List.Pairwise.filter _ List.pairwise_lt_range
    · split_ifs <;> simp
    · intro t
      have hmod : ∀ t, t < p.window → (((s : Int) - t).tmod p.freq = 0 ∧ ((s : Int) - t) ≥ p.start ↔ t = s % p.freq ∧ p.start ≤ s - s % p.freq) := by
        intro t ht
        rw [← Int.dvd_iff_tmod_eq_zero]
        have hlt : s % p.freq < p.freq := Nat.mod_lt _ hf
        have hle : s % p.freq ≤ s := Nat.mod_le _ _
        constructor
        · rintro ⟨hd, hge⟩
          have hts : t ≤ s := by omega
          have : p.freq ∣ s - t := by
            have : ((s - t : Nat) : Int) = (s : Int) - t := by omega
            rw [← this] at hd; exact_mod_cast hd
          have hmt : t = s % p.freq := by
            obtain ⟨q, hq⟩ := this
            have : s = t + p.freq * q := by omega
            rw [this, Nat.add_mul_mod_self_left, Nat.mod_eq_of_lt (by omega)]
          refine ⟨hmt, by omega⟩
        · rintro ⟨rfl, hge⟩
          refine ⟨?_, by omega⟩
          have : p.freq ∣ s - s % p.freq := Nat.dvd_sub_mod s
          have h2 : ((s - s % p.freq : Nat) : Int) = (s : Int) - (s % p.freq : Nat) := by omega
          rw [← h2]; exact_mod_cast this
      simp only [List.mem_filter, List.mem_range, Bool.and_eq_true, decide_eq_true_eq]
      split_ifs with hc
      · simp only [List.mem_singleton]
        constructor
        · rintro ⟨h1, h2⟩; exact ((hmod t h1).1 h2).1
        · rintro rfl; exact ⟨hc.1, (hmod _ hc.1).2 ⟨rfl, hc.2⟩⟩
      · simp only [List.not_mem_nil, iff_false]
        rintro ⟨h1, h2⟩
        obtain ⟨rfl, h3⟩ := (hmod t h1).1 h2
        exact hc ⟨h1, h3⟩
  rw [key]; split_ifs <;> rfl

theorem recSteps_append (p : OutPar) (s m n : Nat) : recSteps p s (m + n) = recSteps p s m ++ recSteps p (s + m) n := by
  unfold recSteps
  rw [List.range_add, List.flatMap_append]
  congr 1
  rw [List.flatMap_map]
  refine congrArg (fun f => List.flatMap f (List.range n)) ?_
  funext i; rw [show s + m + 1 + i = s + 1 + (m + i) by omega]

theorem recSteps_filter (p : OutPar) (hf : 0 < p.freq) (hw : p.window ≤ p.freq) (s n : Nat) :
    recSteps p s n = (List.range' (s + 1) n).filter (fun x => decide (x % p.freq < p.window ∧ p.start ≤ x - x % p.freq)) := by
  unfold recSteps
  rw [List.range'_eq_map_range]
  induction n with
  | zero => rfl
  | succ n ih =>
    rw [List.range_succ, List.flatMap_append, ih, List.map_append, List.filter_append]
    congr 1
    simp only [List.flatMap_cons, List.flatMap_nil, List.append_nil, List.map_cons, List.map_nil, recCount_eq p hf hw]
    split_ifs with h
    · simp only [List.replicate_one, List.filter_cons, h, List.filter_nil]; simp
    · simp only [List.replicate_zero, List.filter_cons, h, List.filter_nil]; simp

theorem outRun_eq (p : OutPar) (n : Nat) (hn : 0 < n) (rest : List Nat) :
    outRun p (n :: rest) = (n + rest.sum, 0 :: recSteps p 0 (n + rest.sum)) := by
  unfold outRun
  rw [List.foldl_cons]
  have h0 : outAdvance p (0, []) n = (n, 0 :: recSteps p 0 n) := by simp [outAdvance]
  rw [h0]
  clear h0
  induction rest generalizing n with
  | nil => simp
  | cons m rest ih =>
    rw [List.foldl_cons]
    have : outAdvance p (n, 0 :: recSteps p 0 n) m = (n + m, 0 :: recSteps p 0 (n + m)) := by
      simp only [outAdvance, if_neg hn.ne', recSteps_append p 0 n m, Nat.zero_add, List.cons_append]
    rw [this, ih (n + m) (by omega), List.sum_cons, Nat.add_assoc]

/-- C36: whatever the (non-empty) split of the run into `advance()` calls, the recorded steps are step 0 and then, each once and in increasing
order, exactly the steps `s >= 1` with `s >= outstart` and `(s mod outfreq) < outwindow`
(for `outwindow <= outfreq` and `outstart` a multiple of `outfreq`, as the constructor asserts). -/
theorem C36_recorded_steps (p : OutPar) (hf : 0 < p.freq) (hw : p.window ≤ p.freq) (hs : p.freq ∣ p.start) (n : Nat) (hn : 0 < n) (rest : List Nat) :
    (outRun p (n :: rest)).2
      = 0 :: (List.range' 1 (n + rest.sum)).filter (fun s => decide (p.start ≤ s ∧ s % p.freq < p.window)) := by
  rw [outRun_eq p n hn, recSteps_filter p hf hw]
  refine congrArg (List.cons 0) ?_
  apply List.filter_congr
  intro x _
  rw [decide_eq_decide]
  have hle : x % p.freq ≤ x := Nat.mod_le _ _
  constructor
  · rintro ⟨a, b⟩; exact ⟨by omega, a⟩
  · rintro ⟨a, b⟩
    refine ⟨b, ?_⟩
    obtain ⟨q, hq⟩ := hs
    have h1 := Nat.div_add_mod x p.freq
    have : q ≤ x / p.freq := by
      rw [Nat.le_div_iff_mul_le hf, Nat.mul_comm]; omega
    have := Nat.mul_le_mul_left p.freq this
    omega

/-- C36: splitting a run into several `advance()` calls does not change the records. -/
theorem C36_split_irrelevant (p : OutPar) (n : Nat) (hn : 0 < n) (rest : List Nat) :
    outRun p (n :: rest) = outRun p [n + rest.sum] := by
  rw [outRun_eq p n hn, outRun_eq p (n + rest.sum) (by omega)]; simp

example : (outRun ⟨5, 10, 2⟩ [7, 3, 9]).2 = [0, 10, 11, 15, 16] := by decide

/-- C36, negation for `outwindow > outfreq`: a step is recorded twice. -/
theorem C36_fails_window_beyond_freq : ∃ p : OutPar, 0 < p.freq ∧ p.freq ∣ p.start ∧ (outRun p [3]).2 = [0, 1, 2, 2, 3, 3] :=
  ⟨⟨1, 1, 2⟩, by decide, by decide, by decide⟩

/-- C36, negation when the first call is `advance(0)`: step 0 is recorded twice. -/
theorem C36_fails_after_advance_zero : (outRun ⟨1, 0, 1⟩ [0, 2]).2 = [0, 0, 1, 2] := by decide

/-! ## The HDF5 time axis (C37) -/

theorem tAxis_mono (f w : Nat) (hw0 : 0 < w) (hw : w ≤ f) {a b : Nat} (h : a < b) :
    a / w * f + a % w < b / w * f + b % w := by
  have ha := Nat.mod_lt a hw0
  rcases lt_or_eq_of_le (Nat.div_le_div_right (c := w) h.le) with h1 | h1
  · have : (a / w + 1) * f ≤ b / w * f := Nat.mul_le_mul_right f h1
    rw [Nat.add_mul] at this
    omega
  · have e1 := Nat.div_add_mod a w
    have e2 := Nat.div_add_mod b w
    rw [h1] at e1
    rw [h1]; omega

/-- membership: the `k < Q w + min w (R+1)` with `N = Q f + R` enumerate the `s <= N` with `s mod f < w` -/
theorem axis_mem (f w N : Nat) (hw0 : 0 < w) (hw : w ≤ f) (x : Nat) :
    (∃ k, k < N / f * w + min w (N % f + 1) ∧ k / w * f + k % w = x) ↔ x ≤ N ∧ x % f < w := by
  have hf : 0 < f := by omega
  have hN := Nat.div_add_mod N f
  have hR := Nat.mod_lt N hf
  constructor
  · rintro ⟨k, hk, rfl⟩
    have hr := Nat.mod_lt k hw0
    have ek := Nat.div_add_mod k w
    have hmod : (k / w * f + k % w) % f = k % w := by
      rw [Nat.mul_comm, Nat.mul_add_mod]; exact Nat.mod_eq_of_lt (by omega)
    refine ⟨?_, by rw [hmod]; exact hr⟩
    rcases Nat.lt_trichotomy (k / w) (N / f) with h | h | h
    · have : (k / w + 1) * f ≤ N / f * f := Nat.mul_le_mul_right f h
      rw [Nat.add_mul] at this
      rw [Nat.mul_comm f (N / f)] at hN
      omega
    · rw [h] at ek ⊢
      rw [Nat.mul_comm f (N / f)] at hN
      rw [Nat.mul_comm w (N / f)] at ek
      have := min_le_right w (N % f + 1)
      omega
    · have : (N / f + 1) * w ≤ k / w * w := Nat.mul_le_mul_right w h
      rw [Nat.add_mul] at this
      rw [Nat.mul_comm w] at ek
      have := min_le_left w (N % f + 1)
      omega
  · rintro ⟨h1, h2⟩
    refine ⟨x / f * w + x % f, ?_, ?_⟩
    · have ex := Nat.div_add_mod x f
      rcases lt_or_eq_of_le (Nat.div_le_div_right (c := f) h1) with h | h
      · have : (x / f + 1) * w ≤ N / f * w := Nat.mul_le_mul_right w h
        rw [Nat.add_mul] at this
        omega
      · rw [h] at ex ⊢
        have : x % f < min w (N % f + 1) := lt_min h2 (by omega)
        omega
    · have e1 : (x / f * w + x % f) / w = x / f := by
        rw [Nat.mul_comm, Nat.mul_add_div hw0, Nat.div_eq_of_lt h2, Nat.add_zero]
      have e2 : (x / f * w + x % f) % w = x % f := by
        rw [Nat.mul_comm, Nat.mul_add_mod, Nat.mod_eq_of_lt h2]
      rw [e1, e2, Nat.mul_comm]; exact Nat.div_add_mod x f

theorem axis_list (f w N : Nat) (hw0 : 0 < w) (hw : w ≤ f) :
    (List.range (N / f * w + min w (N % f + 1))).map (fun k => k / w * f + k % w)
      = (List.range (N + 1)).filter (fun x => decide (x % f < w)) := by
  apply lt_list_ext
  · exact List.pairwise_lt_range.map _ (fun a b h => tAxis_mono f w hw0 hw h)
  · exact List.pairwise_lt_range.filter _
  · intro x
    simp only [List.mem_map, List.mem_range, List.mem_filter, decide_eq_true_eq]
    rw [axis_mem f w N hw0 hw]; omega

theorem ntOut_eq (p : OutPar) (hf : 0 < p.freq) (hs : p.freq ∣ p.start) (nt : Nat) (hnt : p.start ≤ nt) :
    ntOut p nt = (((nt - p.start) / p.freq * p.window + min p.window ((nt - p.start) % p.freq + 1) + (if p.start = 0 then 0 else 1) : Nat) : Int) := by
  unfold ntOut
  have h1 : ((nt : Int) - p.start).tdiv p.freq = ((nt - p.start) / p.freq : Nat) := by
    have : (nt : Int) - p.start = ((nt - p.start : Nat) : Int) := by omega
    rw [this, ← Int.ofNat_tdiv]
  have h2 : nt % p.freq = (nt - p.start) % p.freq := by
    obtain ⟨q, hq⟩ := hs
    conv_lhs => rw [show nt = (nt - p.start) + p.freq * q by omega]
    rw [Nat.add_mul_mod_self_left]
  rw [h1, h2]
  generalize (nt - p.start) / p.freq = Q
  generalize (nt - p.start) % p.freq = R
  push_cast
  rw [add_mul, one_mul]
  have : (min (p.window : Int) ((R : Int) + 1)) = p.window - max 0 ((p.window : Int) - R - 1) := by omega
  rw [this]
  ring

/-- C37: for a single `advance(nt)` on a fresh solver with `outstart <= nt` and `outwindow <= outfreq`, the time axis written at start-up is, entry for
entry, the list of recorded steps (times `dt`). -/
theorem C37_time_axis (p : OutPar) (hf : 0 < p.freq) (hw0 : 0 < p.window) (hw : p.window ≤ p.freq) (hs : p.freq ∣ p.start)
    (nt : Nat) (hnt0 : 0 < nt) (hnt : p.start ≤ nt) :
    (List.range (ntOut p nt).toNat).map (tAxis p) = (outRun p [nt]).2 := by
  have hrec := C36_recorded_steps p hf hw hs nt hnt0 []
  rw [hrec, ntOut_eq p hf hs nt hnt, Int.toNat_natCast]
  simp only [List.sum_nil, Nat.add_zero]
  by_cases h0 : p.start = 0
  · simp only [h0, if_true, Nat.add_zero, Nat.sub_zero]
    have : tAxis p = fun k => k / p.window * p.freq + k % p.window := by funext k; simp [tAxis, h0]
    rw [this, axis_list p.freq p.window nt hw0 hw]
    rw [show nt + 1 = 1 + nt by omega, List.range_add]
    rw [List.filter_append]
    simp only [List.range_one, List.filter_cons, Nat.zero_mod, hw0, decide_true, if_true, List.filter_nil, List.singleton_append]
    congr 1
    rw [List.range'_eq_map_range]
    apply List.filter_congr
    intro x _; simp
  · simp only [h0, if_false]
    rw [Nat.add_comm _ 1, List.range_add, List.map_append, List.map_map]
    have h1 : List.map (tAxis p) (List.range 1) = [0] := by simp [tAxis, h0]
    rw [h1, List.singleton_append]
    congr 1
    have h2 : (tAxis p ∘ fun x => 1 + x) = (fun x => x + p.start) ∘ (fun k => k / p.window * p.freq + k % p.window) := by
      funext k; simp [tAxis, h0]
    rw [h2, ← List.map_map, axis_list p.freq p.window (nt - p.start) hw0 hw]
    apply lt_list_ext
    · exact (List.pairwise_lt_range.filter _).map _ (fun a b h => by omega)
    · exact (pairwise_range' _ _).filter _
    · intro x
      simp only [List.mem_map, List.mem_filter, List.mem_range, decide_eq_true_eq, List.mem_range'_1]
      obtain ⟨q, hq⟩ := hs
      constructor
      · rintro ⟨y, ⟨hy1, hy2⟩, rfl⟩
        refine ⟨by omega, by omega, ?_⟩
        rw [hq, Nat.add_mul_mod_self_left]; exact hy2
      · rintro ⟨hx1, hx2, hx3⟩
        refine ⟨x - p.start, ⟨by omega, ?_⟩, by omega⟩
        conv_rhs at hx3 => skip
        rw [show x = (x - p.start) + p.freq * q by omega, Nat.add_mul_mod_self_left] at hx3
        exact hx3

example : (List.range (ntOut ⟨5, 10, 2⟩ 21).toNat).map (tAxis ⟨5, 10, 2⟩) = [0, 10, 11, 15, 16, 20, 21] := by decide

/-- C37, negation for a run shorter than `outstart`: the axis has an entry that is never recorded. -/
theorem C37_fails_before_outstart : ntOut ⟨5, 10, 1⟩ 7 = 2 ∧ (outRun ⟨5, 10, 1⟩ [7]).2 = [0] := by decide

/-- C37, negation for a run made of two `advance()` calls: the axis covers the first call only. -/
theorem C37_fails_two_advances : (ntOut ⟨1, 0, 1⟩ 2).toNat = 3 ∧ (outRun ⟨1, 0, 1⟩ [2, 2]).2.length = 5 := by decide

/-! ## Gnuplot (C40) -/

/-- C40: for a single `advance(nt)` and `outwindow = 1` the plot elements announced are, in order, those of the records made (so with `k` variables both are
`k` times as many). -/
theorem C40_announced_equals_sent (p : OutPar) (hf : 0 < p.freq) (hw : p.window = 1) (nt : Nat) (hnt : 0 < nt) :
    gnuplotAnnounced p nt = (outRun p [nt]).2 := by
  rw [outRun_eq p nt hnt, recSteps_filter p hf (by omega)]
  simp only [List.sum_nil, Nat.add_zero]
  unfold gnuplotAnnounced
  apply lt_list_ext
  · exact (List.pairwise_lt_range.map _ (fun a b h => Nat.mul_lt_mul_of_pos_right h hf)).filter _
  · rw [List.pairwise_cons]
    refine ⟨fun a ha => ?_, (pairwise_range' _ _).filter _⟩
    have := (List.mem_filter.1 ha).1
    rw [List.mem_range'_1] at this; omega
  · intro x
    simp only [List.mem_filter, List.mem_map, List.mem_range, Bool.not_eq_true', Bool.and_eq_false_iff, decide_eq_false_iff_not, List.mem_cons,
      List.mem_range'_1, decide_eq_true_eq, hw]
    constructor
    · rintro ⟨⟨a, ha, rfl⟩, h⟩
      rcases Nat.eq_zero_or_pos a with rfl | hpos
      · left; omega
      · right
        have : 0 < a * p.freq := Nat.mul_pos hpos hf
        have h2 : a * p.freq ≤ nt := by
          have : a ≤ nt / p.freq := by omega
          exact (Nat.le_div_iff_mul_le hf).1 this
        have h3 : a * p.freq % p.freq = 0 := Nat.mul_mod_left _ _
        refine ⟨by omega, by omega, by omega⟩
    · rintro (rfl | ⟨⟨h1, h2⟩, h3, h4⟩)
      · exact ⟨⟨0, Nat.succ_pos _, by simp⟩, Or.inl (by omega)⟩
      · have h5 : x % p.freq = 0 := by omega
        refine ⟨⟨x / p.freq, ?_, ?_⟩, Or.inr (by omega)⟩
        · have : x / p.freq ≤ nt / p.freq := Nat.div_le_div_right (by omega)
          omega
        · exact Nat.div_mul_cancel (Nat.dvd_of_mod_eq_zero h5)

example : gnuplotAnnounced ⟨5, 10, 1⟩ 21 = [0, 10, 15, 20] := by decide

/-- C40, negations: with `outwindow > 1`, or with a second `advance()`, more data are sent than announced. -/
theorem C40_fails_window_or_second_advance :
    (gnuplotAnnounced ⟨5, 0, 2⟩ 5).length < (outRun ⟨5, 0, 2⟩ [5]).2.length ∧
    (gnuplotAnnounced ⟨5, 0, 1⟩ 5).length < (outRun ⟨5, 0, 1⟩ [5, 5]).2.length := by decide

/-! ## Hyperslabs and names (C39) -/

/-- the sub-domain of process `rank` (sharedmem.hpp:91-105): slab of `0 .. n-1` -/
def procRng (n : Nat) (size rank : Nat) : Rng := slab ⟨0, n - 1⟩ rank size

/-- consecutive intervals between the values of a monotone function tile -/
theorem tile_of_mono (g : Nat → Int) (size : Nat) (hm : ∀ a c, a ≤ c → c ≤ size → g a ≤ g c) (x : Int) (h0 : g 0 ≤ x) (h1 : x < g size) :
    ∃! r : Nat, r < size ∧ (g r ≤ x ∧ x < g (r + 1)) := by
  obtain ⟨r, hr, hx⟩ : ∃ r : Nat, r < size ∧ (g r ≤ x ∧ x < g (r + 1)) := by
    clear hm
    induction size with
    | zero => omega
    | succ m ih =>
      by_cases h : x < g m
      · obtain ⟨r, hr, hx⟩ := ih h; exact ⟨r, by omega, hx⟩
      · exact ⟨m, by omega, by omega, h1⟩
  refine ⟨r, ⟨hr, hx⟩, ?_⟩
  rintro r' ⟨hr', hx'⟩
  by_contra hne
  rcases lt_or_gt_of_ne hne with h | h
  · have := hm (r' + 1) r (by omega) (by omega); omega
  · have := hm (r + 1) r' (by omega) (by omega); omega

/-- C39: with two or more processes and at least one grid point per process, every index of the cell data set (`0 .. n-1`), of the coordinate data set
(`0 .. n`) and of the data set with halo (`0 .. n+2h-1`) is written by exactly one process; nothing outside is written; and index `x` of the data set with halo is filled with grid
point `x - h`. -/
theorem C39_hyperslabs_tile (n size : Nat) (hsz : 2 ≤ size) (hn : size ≤ n) (halo : Nat) :
    (∀ x : Int, 0 ≤ x → x < n → ∃! r : Nat, r < size ∧ (cellSlab (procRng n size r)).Has x) ∧
    (∀ x : Int, 0 ≤ x → x < n + 1 → ∃! r : Nat, r < size ∧ (coordSlab r size (procRng n size r)).Has x) ∧
    (∀ x : Int, 0 ≤ x → x < n + 2 * halo → ∃! r : Nat, r < size ∧ (haloSlab r size halo (procRng n size r)).Has x) ∧
    (∀ r : Nat, r < size → ∀ x : Int,
      ((cellSlab (procRng n size r)).Has x → 0 ≤ x ∧ x < n) ∧
      ((coordSlab r size (procRng n size r)).Has x → 0 ≤ x ∧ x < n + 1) ∧
      ((haloSlab r size halo (procRng n size r)).Has x → 0 ≤ x ∧ x < n + 2 * halo ∧ haloPoint r size halo (procRng n size r) x = x - halo)) := by
  have hs : (0 : Int) < size := by omega
  have hl : (0 : Int) ≤ (n : Int) := by omega
  have hlen : (⟨0, (n : Int) - 1⟩ : Rng).length = n := by simp [Rng.length]
  generalize hb : (fun r : Nat => slabMin (n : Int) r size) = b
  have hb0 : b 0 = 0 := by rw [← hb]; exact slabMin_zero _ _
  have hbs : b size = n := by rw [← hb]; exact slabMin_size hs
  have hmono : ∀ r r' : Nat, r ≤ r' → b r ≤ b r' := by
    intro r r' h; rw [← hb]; exact slabMin_mono hl hs (by omega) (by exact_mod_cast h)
  have hf : ∀ r : Nat, (procRng n size r).first = b r := by
    intro r; rw [← hb]; simp only [procRng, slab, hlen, zero_add]
  have hla : ∀ r : Nat, (procRng n size r).last = b (r + 1) - 1 := by
    intro r; rw [← hb]; simp only [procRng, slab, hlen, slabMax, zero_add]; push_cast; rfl
  have hr0 : ∀ r : Nat, 0 ≤ b r := fun r => hb0 ▸ hmono 0 r (Nat.zero_le r)
  have hrn : ∀ r : Nat, r ≤ size → b r ≤ n := fun r h => hbs ▸ hmono r size h
  have hcell : ∀ r x, (cellSlab (procRng n size r)).Has x ↔ b r ≤ x ∧ x < b (r + 1) := by
    intro r x; simp only [Hyperslab.Has, cellSlab, hf, hla]; omega
  have hcoord : ∀ r x, r < size → ((coordSlab r size (procRng n size r)).Has x ↔
      (fun r => if r = size then (n : Int) + 1 else b r) r ≤ x ∧ x < (fun r => if r = size then (n : Int) + 1 else b r) (r + 1)) := by
    intro r x hr
    simp only [Hyperslab.Has, coordSlab, hf, hla, if_neg hr.ne]
    by_cases h : r = size - 1
    · have h1 : r + 1 = size := by omega
      rw [if_pos h, if_pos h1, h1, hbs]; omega
    · have h1 : ¬ r + 1 = size := by omega
      rw [if_neg h, if_neg h1]; omega
  have hhalo : ∀ r x, r < size → ((haloSlab r size halo (procRng n size r)).Has x ↔
      (fun r => if r = 0 then (0 : Int) else if r = size then n + 2 * halo else b r + halo) r ≤ x ∧
      x < (fun r => if r = 0 then (0 : Int) else if r = size then n + 2 * halo else b r + halo) (r + 1)) := by
    intro r x hr
    simp only [Hyperslab.Has, haloSlab, hf, hla, if_neg hr.ne, Nat.add_eq_zero_iff, one_ne_zero, and_false, if_false]
    by_cases h0 : r = 0
    · subst h0
      have h1 : ¬ 0 + 1 = size := by omega
      simp only [if_true, true_or, if_neg h1, hb0]; omega
    · rw [if_neg h0]
      by_cases h : r = size - 1
      · have h1 : r + 1 = size := by omega
        rw [if_pos (Or.inr h), if_pos h1, h1, hbs]; omega
      · have h1 : ¬ r + 1 = size := by omega
        rw [if_neg (by omega), if_neg h1]; omega
  refine ⟨fun x h0 h1 => ?_, fun x h0 h1 => ?_, fun x h0 h1 => ?_, fun r hr x => ⟨fun h => ?_, fun h => ?_, fun h => ?_⟩⟩
  · obtain ⟨r, ⟨hr, hx⟩, hu⟩ := tile_of_mono b size (fun a c h _ => hmono a c h) x (by omega) (by omega)
    exact ⟨r, ⟨hr, (hcell r x).2 hx⟩, fun r' h' => hu r' ⟨h'.1, (hcell r' x).1 h'.2⟩⟩
  · obtain ⟨r, ⟨hr, hx⟩, hu⟩ := tile_of_mono (fun r => if r = size then (n : Int) + 1 else b r) size (by
      intro a c hac hcs
      have := hmono a c hac
      have := hrn a (by omega)
      split_ifs <;> omega) x (by rw [if_neg (by omega), hb0]; exact h0) (by rw [if_pos rfl]; exact h1)
    exact ⟨r, ⟨hr, (hcoord r x hr).2 hx⟩, fun r' h' => hu r' ⟨h'.1, (hcoord r' x h'.1).1 h'.2⟩⟩
  · obtain ⟨r, ⟨hr, hx⟩, hu⟩ := tile_of_mono (fun r => if r = 0 then (0 : Int) else if r = size then n + 2 * halo else b r + halo) size (by
      intro a c hac hcs
      have := hmono a c hac
      have := hrn a (by omega)
      have := hr0 c
      split_ifs <;> omega) x (by rw [if_pos rfl]; exact h0) (by rw [if_neg (by omega), if_pos rfl]; exact h1)
    exact ⟨r, ⟨hr, (hhalo r x hr).2 hx⟩, fun r' h' => hu r' ⟨h'.1, (hhalo r' x h'.1).1 h'.2⟩⟩
  · rw [hcell] at h
    have := hr0 r; have := hrn (r + 1) hr
    omega
  · rw [hcoord r x hr] at h
    have := hr0 r; have := hrn (r + 1) hr
    simp only [if_neg hr.ne] at h
    split_ifs at h <;> omega
  · have h' := h
    rw [hhalo r x hr] at h
    have := hr0 r; have := hrn (r + 1) hr
    refine ⟨?_, ?_, ?_⟩
    · simp only [if_neg hr.ne] at h; split_ifs at h <;> omega
    · simp only [if_neg hr.ne] at h; split_ifs at h <;> omega
    · simp only [haloPoint, haloMemOff, haloSlab, hf]
      by_cases h0 : r = 0
      · subst h0; rw [hb0]; simp; ring
      · rw [if_pos (by omega), if_neg h0]; ring

example : (haloSlab 1 3 2 (procRng 10 3 1)).Has 5 ∧ ¬ (haloSlab 0 3 2 (procRng 10 3 0)).Has 5 := by decide

/-- C39: names of the files of distinct timesteps are distinct. -/
theorem C39_file_names_injective (a b : Nat) (h : nameDigits a = nameDigits b) : a = b := by
  have key : ∀ n, Nat.ofDigits 10 (nameDigits n).reverse = n := by
    intro n
    simp only [nameDigits, List.reverse_append, List.reverse_reverse, List.reverse_replicate]
    rw [Nat.ofDigits_append, Nat.ofDigits_digits]
    suffices h : ∀ k, Nat.ofDigits 10 (List.replicate k 0) = 0 by rw [h]; simp
    intro k
    induction k with
    | zero => rfl
    | succ k ih => rw [List.replicate_succ, Nat.ofDigits_cons, ih]
  rw [← key a, h, key b]

example : nameDigits 123 = [0, 0, 0, 0, 0, 0, 0, 1, 2, 3] := by simp [nameDigits]

/-! ## XDMF (C48) -/

/-- C48: declared dimensions equal those of the data sets for coordinates, output variables and the G-factor. What is missing: auxiliary variables, see `C48_fails_aux`. -/
theorem C48_xdmf_dims_partial (n : Int) :
    xdmfCoordDim n = hdfCoordDim n ∧ xdmfVarDim n = hdfCellDim n ∧ xdmfConstDim n = hdfCellDim n := by
  refine ⟨rfl, ?_, ?_⟩ <;> simp [xdmfVarDim, xdmfConstDim, xdmfMakeAttr, hdfCellDim]

/-- C48, negation: auxiliary variables are declared with one point less in every direction than the data set has. -/
theorem C48_fails_aux (n : Int) : xdmfAuxDim n = hdfCellDim n - 1 ∧ xdmfAuxDim n ≠ hdfCellDim n := by
  simp [xdmfAuxDim, xdmfMakeAttr, hdfCellDim]

/-! ## Variable time step (C38) -/

section VarDt
variable {K : Type} [Field K] [LinearOrder K] [FloorRing K]

/-- step `k` reaches or passes a multiple of the output interval -/
def Crosses (freq : K) (t : Nat → K) (k : Nat) : Prop := ⌊t k / freq⌋ < ⌊t (k + 1) / freq⌋

instance (freq : K) (t : Nat → K) (k : Nat) : Decidable (Crosses freq t k) := inferInstanceAs (Decidable (_ < _))

/-- the last multiple reached in step `k` -/
def lastMult (freq : K) (t : Nat → K) (k : Nat) : K := ⌊t (k + 1) / freq⌋ * freq

/-- C38: with linear output interpolation the records of any run, for any sequence of time steps, are: the initial state, and one for each step that reaches
a multiple of `outfreq`, carrying the last such multiple as its time and the linear interpolation between the states before and after the step. -/
theorem C38_linear_records (freq : K) (t y t0 v0 : Nat → K) (n : Nat) :
    (voRun 1 freq t y t0 v0 n).log = (t 0, y 0) ::
      ((List.range n).filter (fun k => decide (Crosses freq t k))).map
        (fun k => (lastMult freq t k, intrp1 (t k) (t (k + 1)) (lastMult freq t k) (y k) (y (k + 1)))) := by
  suffices h : (voRun 1 freq t y t0 v0 n).cnt ≤ 1 ∧ (voRun 1 freq t y t0 v0 n).log = (t 0, y 0) ::
      ((List.range n).filter (fun k => decide (Crosses freq t k))).map
        (fun k => (lastMult freq t k, intrp1 (t k) (t (k + 1)) (lastMult freq t k) (y k) (y (k + 1)))) from h.2
  induction n with
  | zero => exact ⟨by simp [voRun], rfl⟩
  | succ n ih =>
    simp only [voRun]
    generalize voRun 1 freq t y t0 v0 n = s at ih
    obtain ⟨h1, h2⟩ := ih
    have hc : (if s.cnt > 0 then s.cnt - 1 else 0) = 0 := by split_ifs <;> omega
    have ht : t n + (t (n + 1) - t n) = t (n + 1) := by ring
    rw [List.range_succ, List.filter_append, List.map_append, ← List.cons_append, ← h2]
    by_cases hx : Crosses freq t n
    · have hx' : ⌊t (n + 1) / freq⌋ > ⌊t n / freq⌋ := hx
      simp only [voAnte, ht, hc, hx', true_or, if_true, voPost, Nat.sub_self]
      simp [hx, lastMult]
    · have hx' : ¬ ⌊t (n + 1) / freq⌋ > ⌊t n / freq⌋ := hx
      simp only [voAnte, ht, hc, hx', false_or, gt_iff_lt, lt_irrefl, if_false, voPost]
      simp [hx]

variable [IsStrictOrderedRing K]

theorem crosses_time (freq : K) (hf : 0 < freq) (t : Nat → K) (k : Nat) (h : Crosses freq t k) :
    t k < lastMult freq t k ∧ lastMult freq t k ≤ t (k + 1) := by
  unfold Crosses at h
  unfold lastMult
  constructor
  · have h1 : ((⌊t k / freq⌋ + 1 : Int) : K) ≤ ⌊t (k + 1) / freq⌋ := by exact_mod_cast h
    have h2 := Int.lt_floor_add_one (t k / freq)
    push_cast at h1
    rw [← div_lt_iff₀ hf]; linarith
  · rw [← le_div_iff₀ hf]; exact Int.floor_le _

/-- C38: if no step is longer than `outfreq`, every multiple of `outfreq` up to the time reached is recorded exactly once, in order. -/
theorem C38_every_multiple_once (freq : K) (hf : 0 < freq) (t y t0 v0 : Nat → K) (h0 : t 0 = 0)
    (hpos : ∀ k, t k ≤ t (k + 1)) (hle : ∀ k, t (k + 1) - t k ≤ freq) (n : Nat) :
    (voRun 1 freq t y t0 v0 n).log.map Prod.fst = (List.range (⌊t n / freq⌋.toNat + 1)).map (fun m : Nat => (m : K) * freq) := by
  rw [C38_linear_records]
  rw [List.map_cons, List.map_map, h0]
  have hge : ∀ n, 0 ≤ t n := by
    intro n; induction n with
    | zero => rw [h0]
    | succ n ih => exact ih.trans (hpos n)
  induction n with
  | zero => simp [h0]
  | succ n ih =>
    rw [List.range_succ, List.filter_append, List.map_append, ← List.cons_append, ih]
    have hn0 : 0 ≤ ⌊t n / freq⌋ := Int.floor_nonneg.2 (div_nonneg (hge n) hf.le)
    have hup : ⌊t (n + 1) / freq⌋ ≤ ⌊t n / freq⌋ + 1 := by
      rw [← Int.lt_add_one_iff, Int.floor_lt]
      have h1 := Int.lt_floor_add_one (t n / freq)
      have h2 : t (n + 1) / freq ≤ t n / freq + 1 := by
        rw [div_le_iff₀ hf, add_mul, one_mul, div_mul_cancel₀ _ hf.ne']; linarith [hle n]
      push_cast; linarith
    have hdn : ⌊t n / freq⌋ ≤ ⌊t (n + 1) / freq⌋ := Int.floor_le_floor (div_le_div_of_nonneg_right (hpos n) hf.le)
    by_cases hx : Crosses freq t n
    · have he : ⌊t (n + 1) / freq⌋ = ⌊t n / freq⌋ + 1 := le_antisymm hup hx
      have hT : ⌊t (n + 1) / freq⌋.toNat = ⌊t n / freq⌋.toNat + 1 := by omega
      rw [hT, List.range_succ (n := ⌊t n / freq⌋.toNat + 1), List.map_append]
      congr 1
      simp only [List.filter_cons, hx, decide_true, if_true, List.filter_nil, List.map_cons, List.map_nil, Function.comp, lastMult, he]
      congr 2
      have : ((⌊t n / freq⌋.toNat : Nat) : Int) = ⌊t n / freq⌋ := Int.toNat_of_nonneg hn0
      have h3 : (((⌊t n / freq⌋.toNat : Nat) : Int) : K) = (⌊t n / freq⌋ : K) := by rw [this]
      push_cast at h3 ⊢
      rw [h3]
    · have he : ⌊t (n + 1) / freq⌋ = ⌊t n / freq⌋ := le_antisymm (not_lt.1 hx) hdn
      rw [he]
      simp [hx]

/-- C38: a linearly interpolated record lies within the step it belongs to and its value is a convex combination of the states before and after that step. -/
theorem C38_linear_convex (freq : K) (hf : 0 < freq) (t y : Nat → K) (k : Nat) (h : Crosses freq t k) :
    ∃ w : K, 0 ≤ w ∧ w ≤ 1 ∧ intrp1 (t k) (t (k + 1)) (lastMult freq t k) (y k) (y (k + 1)) = (1 - w) * y k + w * y (k + 1) := by
  obtain ⟨h1, h2⟩ := crosses_time freq hf t k h
  have hp : 0 < t (k + 1) - t k := by linarith
  refine ⟨(lastMult freq t k - t k) / (t (k + 1) - t k), div_nonneg (by linarith) hp.le, ?_, ?_⟩
  · rw [div_le_one hp]; linarith
  · unfold intrp1; have := hp.ne'; field_simp; ring

/-- C38: hence exact for solutions linear in time. -/
theorem C38_linear_exact (freq : K) (hf : 0 < freq) (t y t0 v0 : Nat → K) (a b : K) (hy : ∀ k, y k = a + b * t k) (n : Nat) :
    ∀ r ∈ (voRun 1 freq t y t0 v0 n).log, r.2 = a + b * r.1 := by
  rw [C38_linear_records]
  intro r hr
  rcases List.mem_cons.1 hr with rfl | hr
  · exact hy 0
  · obtain ⟨k, hk, rfl⟩ := List.mem_map.1 hr
    have hx : Crosses freq t k := by simpa using (List.mem_filter.1 hk).2
    obtain ⟨h1, h2⟩ := crosses_time freq hf t k hx
    have hp : t (k + 1) - t k ≠ 0 := sub_ne_zero.2 (by linarith : t k < t (k + 1)).ne'
    simp only [hy, intrp1]
    field_simp; ring

/-- C38: with quadratic output interpolation, if no two consecutive steps reach a multiple of `outfreq`, the records after `n` steps are the initial state
and one for each step that reaches a multiple (delayed by one step), from the three surrounding states. -/
theorem C38_quadratic_records (freq : K) (t y t0 v0 : Nat → K) (hc : ∀ k, Crosses freq t k → ¬ Crosses freq t (k + 1)) (n : Nat) :
    (voRun 2 freq t y t0 v0 n).log = (t 0, y 0) ::
      ((List.range (n - 1)).filter (fun k => decide (Crosses freq t k))).map
        (fun k => (lastMult freq t k, intrp2 (t k) (t (k + 1)) (t (k + 2)) (lastMult freq t k) (y k) (y (k + 1)) (y (k + 2)))) := by
  suffices h : (let s := voRun 2 freq t y t0 v0 n
      (s.cnt ≤ 1 ∧ (∀ m, n = m + 1 → ¬ Crosses freq t m)
        ∨ s.cnt = 2 ∧ ∃ m, n = m + 1 ∧ Crosses freq t m ∧ s.recTime = lastMult freq t m ∧ s.times 0 = t m ∧ s.vars 0 = y m)
      ∧ s.log = (t 0, y 0) ::
      ((List.range (n - 1)).filter (fun k => decide (Crosses freq t k))).map
        (fun k => (lastMult freq t k, intrp2 (t k) (t (k + 1)) (t (k + 2)) (lastMult freq t k) (y k) (y (k + 1)) (y (k + 2))))) from h.2
  induction n with
  | zero => exact ⟨Or.inl ⟨by simp [voRun], by intro m h; omega⟩, rfl⟩
  | succ n ih =>
    simp only [voRun] at ih ⊢
    generalize voRun 2 freq t y t0 v0 n = s at ih
    obtain ⟨hs, hl⟩ := ih
    have ht : t n + (t (n + 1) - t n) = t (n + 1) := by ring
    rcases hs with ⟨h1, hno⟩ | ⟨h1, m, rfl, hcr, e1, e2, e3⟩
    · have hcz : (if s.cnt > 0 then s.cnt - 1 else 0) = 0 := by split_ifs <;> omega
      have hlog : ((List.range (n + 1 - 1)).filter (fun k => decide (Crosses freq t k))) = ((List.range (n - 1)).filter (fun k => decide (Crosses freq t k))) := by
        rcases n with _ | m
        · rfl
        · simp only [Nat.add_sub_cancel]
          rw [List.range_succ, List.filter_append]
          simp [hno m rfl]
      rw [hlog]
      by_cases hx : Crosses freq t n
      · have hx' : ⌊t (n + 1) / freq⌋ > ⌊t n / freq⌋ := hx
        simp only [voAnte, ht, hcz, hx', true_or, if_true, voPost, Nat.sub_self]
        refine ⟨Or.inr ⟨by simp, n, rfl, hx, by simp [lastMult], by simp, by simp⟩, by simpa using hl⟩
      · have hx' : ¬ ⌊t (n + 1) / freq⌋ > ⌊t n / freq⌋ := hx
        simp only [voAnte, ht, hcz, hx', false_or, gt_iff_lt, lt_irrefl, if_false, voPost]
        refine ⟨Or.inl ⟨by simp, fun m hm => ?_⟩, by simpa using hl⟩
        obtain rfl : m = n := by omega
        exact hx
    · have hcz : (if s.cnt > 0 then s.cnt - 1 else 0) = 1 := by rw [h1]; rfl
      have hx := hc m hcr
      simp only [voAnte, ht, hcz]
      rw [if_pos (Or.inr (by omega))]
      simp only [one_ne_zero, if_false, voPost, if_true]
      refine ⟨Or.inl ⟨le_rfl, fun m' hm => ?_⟩, ?_⟩
      · obtain rfl : m' = m + 1 := by omega
        exact hx
      · rw [hl]
        have : m + 1 + 1 - 1 = m + 1 := by omega
        rw [this, Nat.add_sub_cancel, List.range_succ, List.filter_append, List.map_append, List.cons_append]
        simp [hcr, e1, e2, e3]

/-- C38: steps not longer than half of `outfreq` meet the hypothesis of `C38_quadratic_records`. -/
theorem C38_half_interval_suffices (freq : K) (hf : 0 < freq) (t : Nat → K) (hle : ∀ k, t (k + 1) - t k ≤ freq / 2) (k : Nat)
    (h : Crosses freq t k) : ¬ Crosses freq t (k + 1) := by
  intro h'
  obtain ⟨a1, -⟩ := crosses_time freq hf t k h
  obtain ⟨-, b2⟩ := crosses_time freq hf t (k + 1) h'
  have h3 : (⌊t (k + 1) / freq⌋ : K) + 1 ≤ ⌊t (k + 1 + 1) / freq⌋ := by
    have : ⌊t (k + 1) / freq⌋ + 1 ≤ ⌊t (k + 1 + 1) / freq⌋ := h'
    exact_mod_cast this
  have h4 := mul_le_mul_of_nonneg_right h3 hf.le
  unfold lastMult at a1 b2
  have := hle k
  have := hle (k + 1)
  rw [add_mul, one_mul] at h4
  linarith

/-- C38: the quadratic option is exact for solutions quadratic in time. -/
theorem C38_quadratic_exact (freq : K) (t y t0 v0 : Nat → K) (hc : ∀ k, Crosses freq t k → ¬ Crosses freq t (k + 1))
    (hpos : ∀ k, t k < t (k + 1)) (a b c : K) (hy : ∀ k, y k = a + b * t k + c * t k ^ 2) (n : Nat) :
    ∀ r ∈ (voRun 2 freq t y t0 v0 n).log, r.2 = a + b * r.1 + c * r.1 ^ 2 := by
  rw [C38_quadratic_records freq t y t0 v0 hc]
  intro r hr
  rcases List.mem_cons.1 hr with rfl | hr
  · exact hy 0
  · obtain ⟨k, -, rfl⟩ := List.mem_map.1 hr
    have h1 := (sub_pos.2 (hpos k)).ne'
    have h2 := (sub_pos.2 (hpos (k + 1))).ne'
    have h3 := (sub_pos.2 ((hpos k).trans (hpos (k + 1)))).ne'
    simp only [hy, intrp2]
    generalize lastMult freq t k = τ
    field_simp
    ring

/-- a run with steps of 2/5, output interval 1, meets the hypotheses; the record at 1 falls in the third step -/
example : Crosses (1 : ℚ) (fun k => 2 / 5 * k) 2 ∧ ¬ Crosses (1 : ℚ) (fun k => 2 / 5 * k) 1 := by
  constructor
  · show ⌊_⌋ < ⌊_⌋
    norm_num
  · show ¬ ⌊_⌋ < ⌊_⌋
    norm_num
example : ∀ k : Nat, (2 / 5 * ((k + 1 : Nat) : ℚ)) - 2 / 5 * k ≤ 1 / 2 := by intro k; push_cast; linarith

/-- C38, negation: a step longer than `outfreq` leaves multiples out: from 0 to 2.5 with `outfreq = 1` only the time 2 is recorded. -/
theorem C38_fails_long_step : (voRun 1 (1 : ℚ) (fun k => 5 / 2 * k) (fun k => k) (fun _ => 0) (fun _ => 0) 1).log.map Prod.fst = [0, 2] := by
  decide +kernel

/-- C38, negation: with quadratic interpolation a multiple reached in the step right after one that reached a multiple is never recorded
(steps equal to `outfreq`: only every second multiple is). -/
theorem C38_fails_quadratic_consecutive :
    (voRun 2 (1 : ℚ) (fun k => k) (fun k => k) (fun _ => 0) (fun _ => 0) 4).log.map Prod.fst = [0, 1, 3] := by
  decide +kernel

end VarDt

end Mpdata
