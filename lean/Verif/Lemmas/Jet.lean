import Verif.Spec.Taylor
import Mathlib.Tactic.LinearCombination
import Mathlib.Tactic.FieldSimp
/-! # Expansions in powers of the grid spacing up to third order -/
set_option linter.unusedSectionVars false
namespace Mpdata
variable {K : Type} [Field K] [LinearOrder K]

/-- coefficients of `1, h, h², h³` -/
@[ext] structure J4 (K : Type) where
  a : K
  b : K
  c : K
  d : K

namespace J4
/-- constant -/
def C (x : K) : J4 K := ⟨x, 0, 0, 0⟩
instance : Add (J4 K) := ⟨fun x y => ⟨x.a + y.a, x.b + y.b, x.c + y.c, x.d + y.d⟩⟩
instance : Sub (J4 K) := ⟨fun x y => ⟨x.a - y.a, x.b - y.b, x.c - y.c, x.d - y.d⟩⟩
instance : Neg (J4 K) := ⟨fun x => ⟨-x.a, -x.b, -x.c, -x.d⟩⟩
instance : Mul (J4 K) := ⟨fun x y => ⟨x.a * y.a, x.a * y.b + x.b * y.a, x.a * y.c + x.b * y.b + x.c * y.a, x.a * y.d + x.b * y.c + x.c * y.b + x.d * y.a⟩⟩
/-- reciprocal -/
instance : Inv (J4 K) := ⟨fun x => ⟨x.a⁻¹, -x.b * x.a⁻¹ ^ 2, x.b ^ 2 * x.a⁻¹ ^ 3 - x.c * x.a⁻¹ ^ 2,
  -x.b ^ 3 * x.a⁻¹ ^ 4 + 2 * x.b * x.c * x.a⁻¹ ^ 3 - x.d * x.a⁻¹ ^ 2⟩⟩
/-- the polynomial -/
def ev (x : J4 K) (h : K) : K := x.a + x.b * h + x.c * h ^ 2 + x.d * h ^ 3

@[simp] theorem C_a (x : K) : (C x).a = x := rfl
@[simp] theorem C_b (x : K) : (C x).b = 0 := rfl
@[simp] theorem C_c (x : K) : (C x).c = 0 := rfl
@[simp] theorem C_d (x : K) : (C x).d = 0 := rfl
@[simp] theorem add_a (x y : J4 K) : (x + y).a = x.a + y.a := rfl
@[simp] theorem add_b (x y : J4 K) : (x + y).b = x.b + y.b := rfl
@[simp] theorem add_c (x y : J4 K) : (x + y).c = x.c + y.c := rfl
@[simp] theorem add_d (x y : J4 K) : (x + y).d = x.d + y.d := rfl
@[simp] theorem sub_a (x y : J4 K) : (x - y).a = x.a - y.a := rfl
@[simp] theorem sub_b (x y : J4 K) : (x - y).b = x.b - y.b := rfl
@[simp] theorem sub_c (x y : J4 K) : (x - y).c = x.c - y.c := rfl
@[simp] theorem sub_d (x y : J4 K) : (x - y).d = x.d - y.d := rfl
@[simp] theorem neg_a (x : J4 K) : (-x).a = -x.a := rfl
@[simp] theorem neg_b (x : J4 K) : (-x).b = -x.b := rfl
@[simp] theorem neg_c (x : J4 K) : (-x).c = -x.c := rfl
@[simp] theorem neg_d (x : J4 K) : (-x).d = -x.d := rfl
@[simp] theorem mul_a (x y : J4 K) : (x * y).a = x.a * y.a := rfl
@[simp] theorem mul_b (x y : J4 K) : (x * y).b = x.a * y.b + x.b * y.a := rfl
@[simp] theorem mul_c (x y : J4 K) : (x * y).c = x.a * y.c + x.b * y.b + x.c * y.a := rfl
@[simp] theorem mul_d (x y : J4 K) : (x * y).d = x.a * y.d + x.b * y.c + x.c * y.b + x.d * y.a := rfl
@[simp] theorem inv_a (x : J4 K) : (x⁻¹).a = x.a⁻¹ := rfl
@[simp] theorem inv_b (x : J4 K) : (x⁻¹).b = -x.b * x.a⁻¹ ^ 2 := rfl
@[simp] theorem inv_c (x : J4 K) : (x⁻¹).c = x.b ^ 2 * x.a⁻¹ ^ 3 - x.c * x.a⁻¹ ^ 2 := rfl
@[simp] theorem inv_d (x : J4 K) : (x⁻¹).d = -x.b ^ 3 * x.a⁻¹ ^ 4 + 2 * x.b * x.c * x.a⁻¹ ^ 3 - x.d * x.a⁻¹ ^ 2 := rfl
end J4

/-- `f h = j.a + j.b h + j.c h² + j.d h³ + O(h⁴)` -/
def Jet (f : K → K) (j : J4 K) : Prop := BigO 4 (fun h => f h - j.ev h)

variable [IsStrictOrderedRing K]

theorem BigO.add {n : Nat} {f g : K → K} (hf : BigO n f) (hg : BigO n g) : BigO n (fun h => f h + g h) := by
  obtain ⟨M, r, hr, hM⟩ := hf
  obtain ⟨N, s, hs, hN⟩ := hg
  refine ⟨M + N, min r s, lt_min hr hs, fun h h0 h1 => ?_⟩
  have := hM h h0 (h1.trans (min_le_left _ _))
  have := hN h h0 (h1.trans (min_le_right _ _))
  calc |f h + g h| ≤ |f h| + |g h| := abs_add_le _ _
    _ ≤ (M + N) * h ^ n := by linarith

theorem BigO.congr {n : Nat} {f g : K → K} (hf : BigO n f) {s : K} (hs : 0 < s) (e : ∀ h, 0 < h → h ≤ s → g h = f h) : BigO n g := by
  obtain ⟨M, r, hr, hM⟩ := hf
  exact ⟨M, min r s, lt_min hr hs, fun h h0 h1 => by rw [e h h0 (h1.trans (min_le_right _ _))]; exact hM h h0 (h1.trans (min_le_left _ _))⟩

theorem BigO.neg {n : Nat} {f : K → K} (hf : BigO n f) : BigO n (fun h => -f h) := by
  obtain ⟨M, r, hr, hM⟩ := hf
  exact ⟨M, r, hr, fun h h0 h1 => by rw [abs_neg]; exact hM h h0 h1⟩

/-- a product with a bounded factor -/
theorem BigO.mul_bdd {n m : Nat} {f g : K → K} (hf : BigO n f) (hg : BigO m g) : BigO (n + m) (fun h => f h * g h) := by
  obtain ⟨M, r, hr, hM⟩ := hf
  obtain ⟨N, s, hs, hN⟩ := hg
  refine ⟨M * N, min r s, lt_min hr hs, fun h h0 h1 => ?_⟩
  have h2 := hM h h0 (h1.trans (min_le_left _ _))
  have h3 := hN h h0 (h1.trans (min_le_right _ _))
  rw [abs_mul]
  calc |f h| * |g h| ≤ (M * h ^ n) * (N * h ^ m) := mul_le_mul h2 h3 (abs_nonneg _) ((abs_nonneg _).trans h2)
    _ = M * N * h ^ (n + m) := by rw [pow_add]; ring

theorem BigO.mono {n m : Nat} {f : K → K} (hf : BigO n f) (h : m ≤ n) : BigO m f := by
  obtain ⟨M, r, hr, hM⟩ := hf
  refine ⟨|M|, min r 1, lt_min hr one_pos, fun x h0 h1 => (hM x h0 (h1.trans (min_le_left _ _))).trans ?_⟩
  have : x ^ n ≤ x ^ m := pow_le_pow_of_le_one h0.le (h1.trans (min_le_right _ _)) h
  calc M * x ^ n ≤ |M| * x ^ n := mul_le_mul_of_nonneg_right (le_abs_self _) (pow_nonneg h0.le _)
    _ ≤ |M| * x ^ m := mul_le_mul_of_nonneg_left this (abs_nonneg _)

theorem bigO_mono (c : K) (n : Nat) : BigO n (fun h : K => c * h ^ n) :=
  ⟨|c|, 1, one_pos, fun h h0 _ => by rw [abs_mul, abs_of_nonneg (pow_nonneg h0.le n)]⟩

theorem bigO_ev (j : J4 K) : BigO 0 j.ev := by
  have h0 := bigO_mono j.a 0
  have h1 := (bigO_mono j.b 1).mono (Nat.zero_le 1)
  have h2 := (bigO_mono j.c 2).mono (Nat.zero_le 2)
  have h3 := (bigO_mono j.d 3).mono (Nat.zero_le 3)
  refine (((h0.add h1).add h2).add h3).congr (one_pos) fun h _ _ => ?_
  simp [J4.ev]

theorem bigO_mul_ev (j : J4 K) {n : Nat} {f : K → K} (hf : BigO n f) : BigO n (fun h => f h * j.ev h) := hf.mul_bdd (bigO_ev j)

namespace Jet
theorem congr {f g : K → K} {j : J4 K} (hf : Jet f j) {s : K} (hs : 0 < s) (e : ∀ h, 0 < h → h ≤ s → g h = f h) : Jet g j :=
  BigO.congr hf hs fun h h0 h1 => by rw [e h h0 h1]

theorem congr' {f g : K → K} {j : J4 K} (hf : Jet f j) (e : ∀ h, g h = f h) : Jet g j := hf.congr one_pos fun h _ _ => e h

theorem const (c : K) : Jet (fun _ => c) (J4.C c) := ⟨0, 1, one_pos, fun h _ _ => by simp [J4.ev]⟩

theorem self : Jet (fun h : K => h) ⟨0, 1, 0, 0⟩ := ⟨0, 1, one_pos, fun h _ _ => by simp [J4.ev]⟩

theorem add {f g : K → K} {x y : J4 K} (hf : Jet f x) (hg : Jet g y) : Jet (fun h => f h + g h) (x + y) :=
  (BigO.add hf hg).congr one_pos fun h _ _ => by simp only [J4.ev, J4.add_a, J4.add_b, J4.add_c, J4.add_d]; ring

theorem neg {f : K → K} {x : J4 K} (hf : Jet f x) : Jet (fun h => -f h) (-x) :=
  (BigO.neg hf).congr one_pos fun h _ _ => by simp only [J4.ev, J4.neg_a, J4.neg_b, J4.neg_c, J4.neg_d]; ring

theorem sub {f g : K → K} {x y : J4 K} (hf : Jet f x) (hg : Jet g y) : Jet (fun h => f h - g h) (x - y) := by
  have e : x + -y = x - y := by ext <;> simp <;> ring
  have h : Jet (fun h => f h - g h) (x + -y) := (hf.add hg.neg).congr' fun _ => sub_eq_add_neg _ _
  rwa [e] at h

theorem mul {f g : K → K} {x y : J4 K} (hf : Jet f x) (hg : Jet g y) : Jet (fun h => f h * g h) (x * y) := by
  have h1 : BigO 4 (fun h => (f h - x.ev h) * (g h - y.ev h)) := (BigO.mul_bdd hf hg).mono (by norm_num)
  have h2 := bigO_mul_ev y hf
  have h3 := bigO_mul_ev x hg
  have h4 := bigO_mono (x.b * y.d + x.c * y.c + x.d * y.b) 4
  have h5 := (bigO_mono (x.c * y.d + x.d * y.c) 5).mono (show 4 ≤ 5 by norm_num)
  have h6 := (bigO_mono (x.d * y.d) 6).mono (show 4 ≤ 6 by norm_num)
  refine (((((h1.add h2).add h3).add h4).add h5).add h6).congr one_pos fun h _ _ => ?_
  simp only [J4.ev, J4.mul_a, J4.mul_b, J4.mul_c, J4.mul_d]
  ring

theorem bdd {f : K → K} {x : J4 K} (hf : Jet f x) : BigO 0 f := by
  refine ((BigO.mono hf (Nat.zero_le 4)).add (bigO_ev x)).congr one_pos fun h _ _ => ?_
  ring

/-- close to its leading coefficient -/
theorem near {f : K → K} {x : J4 K} (hf : Jet f x) {e : K} (he : 0 < e) : ∃ s, 0 < s ∧ ∀ h, 0 < h → h ≤ s → |f h - x.a| ≤ e := by
  have h1 := (bigO_mono x.b 1)
  have h2 := (bigO_mono x.c 2).mono (show 1 ≤ 2 by norm_num)
  have h3 := (bigO_mono x.d 3).mono (show 1 ≤ 3 by norm_num)
  have h4 := BigO.mono hf (show 1 ≤ 4 by norm_num)
  have h5 : BigO 1 (fun h => f h - x.a) := (((h1.add h2).add h3).add h4).congr one_pos fun h _ _ => by simp only [J4.ev]; ring
  obtain ⟨M, r, hr, hM⟩ := h5
  refine ⟨min r (e / (|M| + 1)), lt_min hr (by positivity), fun h h0 h1 => ?_⟩
  have a1 := hM h h0 (h1.trans (min_le_left _ _))
  have a2 : h ≤ e / (|M| + 1) := h1.trans (min_le_right _ _)
  rw [le_div_iff₀ (by positivity)] at a2
  have a3 := le_abs_self M
  rw [pow_one] at a1
  nlinarith

theorem ne_zero {f : K → K} {x : J4 K} (hf : Jet f x) (hx : x.a ≠ 0) : ∃ s, 0 < s ∧ ∀ h, 0 < h → h ≤ s → f h ≠ 0 ∧ |x.a| / 2 ≤ |f h| := by
  obtain ⟨s, hs, h⟩ := hf.near (show 0 < |x.a| / 2 by positivity)
  refine ⟨s, hs, fun t h0 h1 => ?_⟩
  have h2 := h t h0 h1
  have h3 : |x.a| ≤ |f t - x.a| + |f t| := by
    have := abs_add_le (x.a - f t) (f t)
    rw [sub_add_cancel, abs_sub_comm] at this; exact this
  have h4 : |x.a| / 2 ≤ |f t| := by linarith
  have h5 : 0 < |x.a| := abs_pos.mpr hx
  exact ⟨fun e => by rw [e, abs_zero] at h4; linarith, h4⟩

theorem inv {f : K → K} {x : J4 K} (hf : Jet f x) (hx : x.a ≠ 0) : Jet (fun h => (f h)⁻¹) x⁻¹ := by
  obtain ⟨s, hs, h⟩ := hf.ne_zero hx
  have hb : BigO 0 (fun h => (f h)⁻¹) := by
    refine ⟨(|x.a| / 2)⁻¹, s, hs, fun t h0 h1 => ?_⟩
    rw [abs_inv, pow_zero, mul_one]
    exact inv_anti₀ (by positivity) (h t h0 h1).2
  have e : Jet (fun h => 1 - f h * x⁻¹.ev h) ⟨0, 0, 0, 0⟩ := by
    have e1 : Jet (fun h => x⁻¹.ev h) x⁻¹ := ⟨0, 1, one_pos, fun h _ _ => by simp⟩
    have e2 := (Jet.const (1 : K)).sub (hf.mul e1)
    have e3 : J4.C (1 : K) - x * x⁻¹ = ⟨0, 0, 0, 0⟩ := by
      ext <;> simp only [J4.C_a, J4.C_b, J4.C_c, J4.C_d, J4.sub_a, J4.sub_b, J4.sub_c, J4.sub_d, J4.mul_a, J4.mul_b, J4.mul_c, J4.mul_d, J4.inv_a, J4.inv_b, J4.inv_c, J4.inv_d] <;>
        field_simp <;> ring
    rwa [e3] at e2
  have e' : BigO 4 (fun h => 1 - f h * x⁻¹.ev h) := BigO.congr e one_pos fun h _ _ => by simp [J4.ev]
  refine (e'.mul_bdd hb).congr hs fun t h0 h1 => ?_
  have := (h t h0 h1).1
  field_simp

theorem div {f g : K → K} {x y : J4 K} (hf : Jet f x) (hg : Jet g y) (hy : y.a ≠ 0) : Jet (fun h => f h / g h) (x * y⁻¹) :=
  (hf.mul (hg.inv hy)).congr' fun _ => div_eq_mul_inv _ _

theorem pow {f : K → K} {x : J4 K} (hf : Jet f x) : Jet (fun h => f h ^ 2) (x * x) := (hf.mul hf).congr' fun _ => pow_two _

theorem abs_pos {f : K → K} {x : J4 K} (hf : Jet f x) (hx : 0 < x.a) : Jet (fun h => |f h|) x := by
  obtain ⟨s, hs, h⟩ := hf.near (show 0 < x.a / 2 by positivity)
  refine hf.congr hs fun t h0 h1 => abs_of_nonneg ?_
  have := (abs_le.mp (h t h0 h1)).1
  linarith

theorem abs_neg {f : K → K} {x : J4 K} (hf : Jet f x) (hx : x.a < 0) : Jet (fun h => |f h|) (-x) := by
  refine (abs_pos hf.neg (by simpa using hx)).congr' fun _ => (_root_.abs_neg _).symm

/-- absolute value, with `s` the sign of the leading coefficient -/
theorem abs_sgn {f : K → K} {x : J4 K} (hf : Jet f x) {s : K} (hs : (s = 1 ∧ 0 < x.a) ∨ (s = -1 ∧ x.a < 0)) : Jet (fun h => |f h|) (J4.C s * x) := by
  rcases hs with ⟨rfl, h⟩ | ⟨rfl, h⟩
  · have e : J4.C (1 : K) * x = x := by ext <;> simp
    rw [e]; exact abs_pos hf h
  · have e : J4.C (-1 : K) * x = -x := by ext <;> simp
    rw [e]; exact abs_neg hf h

theorem bigO1 {f : K → K} {x : J4 K} (hf : Jet f x) (ha : x.a = 0) : BigO 1 f :=
  ((((bigO_mono x.b 1).add ((bigO_mono x.c 2).mono (show 1 ≤ 2 by norm_num))).add ((bigO_mono x.d 3).mono (show 1 ≤ 3 by norm_num))).add (BigO.mono hf (show 1 ≤ 4 by norm_num))).congr one_pos
    fun h _ _ => by simp only [J4.ev, ha]; ring
theorem bigO2 {f : K → K} {x : J4 K} (hf : Jet f x) (ha : x.a = 0) (hb : x.b = 0) : BigO 2 f :=
  (((bigO_mono x.c 2).add ((bigO_mono x.d 3).mono (show 2 ≤ 3 by norm_num))).add (BigO.mono hf (show 2 ≤ 4 by norm_num))).congr one_pos
    fun h _ _ => by simp only [J4.ev, ha, hb]; ring

/-- absolute value of a function that vanishes like `h`, with `s` the sign of its slope -/
theorem abs_lead {f : K → K} {x : J4 K} (hf : Jet f x) (ha : x.a = 0) {s : K} (hs : (s = 1 ∧ 0 < x.b) ∨ (s = -1 ∧ x.b < 0)) : Jet (fun h => |f h|) (J4.C s * x) := by
  have key : ∀ {f : K → K} {x : J4 K}, Jet f x → x.a = 0 → 0 < x.b → Jet (fun h => |f h|) x := by
    intro f x hf ha hb
    have h5 : BigO 2 (fun h => f h - x.b * h) :=
      (((bigO_mono x.c 2).add ((bigO_mono x.d 3).mono (show 2 ≤ 3 by norm_num))).add (BigO.mono hf (show 2 ≤ 4 by norm_num))).congr one_pos
        fun h _ _ => by simp only [J4.ev, ha]; ring
    obtain ⟨M, r, hr, hM⟩ := h5
    have hpos : 0 < x.b / (|M| + 1) := by positivity
    refine hf.congr (lt_min hr hpos) fun h h0 h1 => abs_of_nonneg ?_
    have a1 := (abs_le.mp (hM h h0 (h1.trans (min_le_left _ _)))).1
    have a2 : h ≤ x.b / (|M| + 1) := h1.trans (min_le_right _ _)
    rw [le_div_iff₀ (by positivity)] at a2
    have a3 := le_abs_self M
    have a4 : M * h ^ 2 ≤ x.b * h := by
      have : M * h ≤ x.b := by nlinarith
      nlinarith
    linarith
  rcases hs with ⟨rfl, h⟩ | ⟨rfl, h⟩
  · have e : J4.C (1 : K) * x = x := by ext <;> simp
    rw [e]; exact key hf ha h
  · have e : J4.C (-1 : K) * x = -x := by ext <;> simp
    rw [e]
    exact (key hf.neg (by simpa using ha) (by simpa using h)).congr' fun _ => (_root_.abs_neg _).symm

theorem rfl' {f : K → K} {x y : J4 K} (hf : Jet f x) (e : x = y) : Jet f y := e ▸ hf

/-- what a third-order expansion says about the function -/
theorem order4 {f : K → K} {x : J4 K} (hf : Jet f x) : BigO 4 (fun h => f h - (x.a + x.b * h + x.c * h ^ 2 + x.d * h ^ 3)) := hf

/-- and a second-order one -/
theorem order3 {f : K → K} {x : J4 K} (hf : Jet f x) : BigO 3 (fun h => f h - (x.a + x.b * h + x.c * h ^ 2)) :=
  ((BigO.mono hf (show 3 ≤ 4 by norm_num)).add (bigO_mono x.d 3)).congr one_pos fun h _ _ => by simp only [J4.ev]; ring

end Jet

/-- samples of a smooth function at a distance proportional to the grid spacing -/
theorem Taylor2.jet {f : K → K → K} {p : Ser2 K} (hf : Taylor2 f p) (x t : K) :
    Jet (fun h => f (x * h) (t * h)) ⟨p 0 0, p 1 0 * x + p 0 1 * t, p 2 0 * x ^ 2 + p 1 1 * x * t + p 0 2 * t ^ 2,
      p 3 0 * x ^ 3 + p 2 1 * x ^ 2 * t + p 1 2 * x * t ^ 2 + p 0 3 * t ^ 3⟩ := by
  obtain ⟨M, r, hr, hM⟩ := hf
  have hp : 0 < |x| + |t| + 1 := by positivity
  refine ⟨M * (|x| + |t|) ^ 4, r / (|x| + |t| + 1), by positivity, fun h h0 h1 => ?_⟩
  rw [le_div_iff₀ hp] at h1
  have a1 : |x * h| ≤ r := by rw [abs_mul, abs_of_pos h0]; nlinarith [abs_nonneg x, abs_nonneg t]
  have a2 : |t * h| ≤ r := by rw [abs_mul, abs_of_pos h0]; nlinarith [abs_nonneg x, abs_nonneg t]
  have := hM _ _ a1 a2
  have e1 : (|x * h| + |t * h|) ^ 4 = (|x| + |t|) ^ 4 * h ^ 4 := by rw [abs_mul, abs_mul, abs_of_pos h0]; ring
  rw [e1, ← mul_assoc] at this
  refine le_of_eq_of_le (congrArg abs ?_) this
  simp only [J4.ev, Ser2.poly]; ring

end Mpdata
