import Verif.Lemmas.Jet
import Mathlib.Tactic.Algebra.Basic
import Mathlib.Tactic.Module
import Mathlib.RingTheory.Derivation.Basic
/-! # Expansions of grid functions whose coefficients are smooth functions
Smooth functions are elements of a differential algebra `R` over `K`: commuting derivations (the partial derivatives) and evaluation at the origin. -/
set_option linter.unusedSectionVars false
namespace Mpdata
variable {n : Nat} {K R : Type} [Field K] [LinearOrder K] [IsStrictOrderedRing K] [CommRing R] [Algebra K R]

/-- partial derivatives with respect to the position and evaluation at the origin -/
structure DAlg (n : Nat) (K R : Type) [Field K] [CommRing R] [Algebra K R] where
  D : Fin n → Derivation K R R
  T : Derivation K R R
  comm : ∀ a b F, D a (D b F) = D b (D a F)
  commT : ∀ a F, D a (T F) = T (D a F)
  ε : R →ₐ[K] K

namespace DAlg
variable (A : DAlg n K R)
/-- derivative in the direction `x` -/
def dir (x : Fin n → K) : Derivation K R R := ∑ a, x a • A.D a
theorem dir_apply (x : Fin n → K) (F : R) : A.dir x F = ∑ a, x a • A.D a F := by
  unfold dir
  rw [← Derivation.coeFnAddMonoidHom_apply, map_sum]
  simp
theorem dir_add (x y : Fin n → K) : A.dir (x + y) = A.dir x + A.dir y := by
  ext F; simp [dir_apply, add_smul, Finset.sum_add_distrib]
theorem dir_smul (s : K) (x : Fin n → K) : A.dir (s • x) = s • A.dir x := by
  ext F; simp [dir_apply, mul_smul, Finset.smul_sum]
theorem dir_comm (x y : Fin n → K) (F : R) : A.dir x (A.dir y F) = A.dir y (A.dir x F) := by
  simp only [dir_apply, map_sum, Derivation.map_smul, Finset.smul_sum]
  rw [Finset.sum_comm]
  refine Finset.sum_congr rfl fun a _ => Finset.sum_congr rfl fun b _ => ?_
  rw [A.comm, smul_comm]
theorem dir_T (x : Fin n → K) (F : R) : A.dir x (A.T F) = A.T (A.dir x F) := by
  simp only [dir_apply, map_sum, Derivation.map_smul, A.commT]
theorem dir_single (d : Fin n) : A.dir (Pi.single d 1) = A.D d := by
  ext F; rw [dir_apply, Finset.sum_eq_single d] <;> simp +contextual
end DAlg

/-- expansion in powers of the grid spacing, with functions as coefficients -/
@[ext] structure HX (R : Type) where
  a : R
  b : R
  c : R
  d : R

namespace HX
def C (x : R) : HX R := ⟨x, 0, 0, 0⟩
instance : Add (HX R) := ⟨fun x y => ⟨x.a + y.a, x.b + y.b, x.c + y.c, x.d + y.d⟩⟩
instance : Sub (HX R) := ⟨fun x y => ⟨x.a - y.a, x.b - y.b, x.c - y.c, x.d - y.d⟩⟩
instance : Mul (HX R) := ⟨fun x y => ⟨x.a * y.a, x.a * y.b + x.b * y.a, x.a * y.c + x.b * y.b + x.c * y.a, x.a * y.d + x.b * y.c + x.c * y.b + x.d * y.a⟩⟩
instance : SMul K (HX R) := ⟨fun k x => ⟨k • x.a, k • x.b, k • x.c, k • x.d⟩⟩
/-- reciprocal, given the reciprocal of the leading coefficient -/
def inv (ι : R) (x : HX R) : HX R := ⟨ι, -x.b * ι ^ 2, x.b ^ 2 * ι ^ 3 - x.c * ι ^ 2, -x.b ^ 3 * ι ^ 4 + 2 * x.b * x.c * ι ^ 3 - x.d * ι ^ 2⟩
/-- values at a distance of `s` grid spacings in the direction of the derivation `D` -/
def shift (s : K) (D : Derivation K R R) (x : HX R) : HX R :=
  ⟨x.a, x.b + s • D x.a, x.c + s • D x.b + (s ^ 2 / 2) • D (D x.a), x.d + s • D x.c + (s ^ 2 / 2) • D (D x.b) + (s ^ 3 / 6) • D (D (D x.a))⟩
/-- mean of the values half a spacing to either side -/
def av (D : Derivation K R R) (x : HX R) : HX R := ⟨x.a, x.b, x.c + (1 / 8 : K) • D (D x.a), x.d + (1 / 8 : K) • D (D x.b)⟩
/-- difference of the values half a spacing to either side -/
def dif (D : Derivation K R R) (x : HX R) : HX R := ⟨0, D x.a, D x.b, D x.c + (1 / 24 : K) • D (D (D x.a))⟩

@[simp] theorem C_a (x : R) : (C x).a = x := rfl
@[simp] theorem C_b (x : R) : (C x).b = 0 := rfl
@[simp] theorem C_c (x : R) : (C x).c = 0 := rfl
@[simp] theorem C_d (x : R) : (C x).d = 0 := rfl
@[simp] theorem add_a (x y : HX R) : (x + y).a = x.a + y.a := rfl
@[simp] theorem add_b (x y : HX R) : (x + y).b = x.b + y.b := rfl
@[simp] theorem add_c (x y : HX R) : (x + y).c = x.c + y.c := rfl
@[simp] theorem add_d (x y : HX R) : (x + y).d = x.d + y.d := rfl
@[simp] theorem sub_a (x y : HX R) : (x - y).a = x.a - y.a := rfl
@[simp] theorem sub_b (x y : HX R) : (x - y).b = x.b - y.b := rfl
@[simp] theorem sub_c (x y : HX R) : (x - y).c = x.c - y.c := rfl
@[simp] theorem sub_d (x y : HX R) : (x - y).d = x.d - y.d := rfl
@[simp] theorem mul_a (x y : HX R) : (x * y).a = x.a * y.a := rfl
@[simp] theorem mul_b (x y : HX R) : (x * y).b = x.a * y.b + x.b * y.a := rfl
@[simp] theorem mul_c (x y : HX R) : (x * y).c = x.a * y.c + x.b * y.b + x.c * y.a := rfl
@[simp] theorem mul_d (x y : HX R) : (x * y).d = x.a * y.d + x.b * y.c + x.c * y.b + x.d * y.a := rfl
@[simp] theorem smul_a (k : K) (x : HX R) : (k • x).a = k • x.a := rfl
@[simp] theorem smul_b (k : K) (x : HX R) : (k • x).b = k • x.b := rfl
@[simp] theorem smul_c (k : K) (x : HX R) : (k • x).c = k • x.c := rfl
@[simp] theorem smul_d (k : K) (x : HX R) : (k • x).d = k • x.d := rfl
@[simp] theorem inv_a (ι : R) (x : HX R) : (inv ι x).a = ι := rfl
@[simp] theorem inv_b (ι : R) (x : HX R) : (inv ι x).b = -x.b * ι ^ 2 := rfl
@[simp] theorem inv_c (ι : R) (x : HX R) : (inv ι x).c = x.b ^ 2 * ι ^ 3 - x.c * ι ^ 2 := rfl
@[simp] theorem inv_d (ι : R) (x : HX R) : (inv ι x).d = -x.b ^ 3 * ι ^ 4 + 2 * x.b * x.c * ι ^ 3 - x.d * ι ^ 2 := rfl
@[simp] theorem av_a (D : Derivation K R R) (x : HX R) : (av D x).a = x.a := rfl
@[simp] theorem av_b (D : Derivation K R R) (x : HX R) : (av D x).b = x.b := rfl
@[simp] theorem av_c (D : Derivation K R R) (x : HX R) : (av D x).c = x.c + (1 / 8 : K) • D (D x.a) := rfl
@[simp] theorem dif_a (D : Derivation K R R) (x : HX R) : (dif D x).a = 0 := rfl
@[simp] theorem dif_b (D : Derivation K R R) (x : HX R) : (dif D x).b = D x.a := rfl
@[simp] theorem dif_c (D : Derivation K R R) (x : HX R) : (dif D x).c = D x.b := rfl
@[simp] theorem dif_d (D : Derivation K R R) (x : HX R) : (dif D x).d = D x.c + (1 / 24 : K) • D (D (D x.a)) := rfl
end HX

namespace J4
theorem inv_unique {x y : J4 K} (h : x * y = C 1) (h0 : x.a ≠ 0) : y = x⁻¹ := by
  have ha := congrArg J4.a h; have hb := congrArg J4.b h; have hc := congrArg J4.c h; have hd := congrArg J4.d h
  simp only [mul_a, mul_b, mul_c, mul_d, C_a, C_b, C_c, C_d] at ha hb hc hd
  have ea : y.a = x.a⁻¹ := eq_inv_of_mul_eq_one_right ha
  have eb : y.b = -x.b * x.a⁻¹ ^ 2 := by
    rw [ea] at hb; field_simp at hb ⊢; linear_combination hb
  have ec : y.c = x.b ^ 2 * x.a⁻¹ ^ 3 - x.c * x.a⁻¹ ^ 2 := by
    rw [ea, eb] at hc; field_simp at hc ⊢; linear_combination hc
  have ed : y.d = -x.b ^ 3 * x.a⁻¹ ^ 4 + 2 * x.b * x.c * x.a⁻¹ ^ 3 - x.d * x.a⁻¹ ^ 2 := by
    rw [ea, eb, ec] at hd; field_simp at hd ⊢; linear_combination hd
  exact J4.ext ea eb ec ed
end J4

namespace DAlg
variable (A : DAlg n K R)
/-- the expansion at the origin displaced by the spacing times the direction of `E` -/
def jd (E : Derivation K R R) (F : HX R) : J4 K :=
  ⟨A.ε F.a, A.ε (E F.a) + A.ε F.b, A.ε (E (E F.a)) / 2 + A.ε (E F.b) + A.ε F.c,
   A.ε (E (E (E F.a))) / 6 + A.ε (E (E F.b)) / 2 + A.ε (E F.c) + A.ε F.d⟩

variable {A} {E : Derivation K R R}
theorem jd_C (k : K) : A.jd E (HX.C (algebraMap K R k)) = J4.C k := by ext <;> simp [jd]
theorem jd_add (x y : HX R) : A.jd E (x + y) = A.jd E x + A.jd E y := by ext <;> simp [jd] <;> ring
theorem jd_sub (x y : HX R) : A.jd E (x - y) = A.jd E x - A.jd E y := by ext <;> simp [jd] <;> ring
theorem jd_smul (k : K) (x : HX R) : A.jd E (k • x) = J4.C k * A.jd E x := by ext <;> simp [jd] <;> ring
theorem jd_mul (x y : HX R) : A.jd E (x * y) = A.jd E x * A.jd E y := by
  ext <;> simp only [jd, HX.mul_a, HX.mul_b, HX.mul_c, HX.mul_d, J4.mul_a, J4.mul_b, J4.mul_c, J4.mul_d, Derivation.leibniz, map_add, map_mul, smul_eq_mul] <;> ring
theorem jd_inv {ι : R} {x : HX R} (h : x.a * ι = 1) : A.jd E (HX.inv ι x) = (A.jd E x)⁻¹ := by
  refine J4.inv_unique ?_ ?_
  · rw [← jd_mul, show x * HX.inv ι x = HX.C (algebraMap K R 1) from ?_, jd_C]
    rw [map_one]
    ext
    · exact h
    · simp only [HX.mul_b, HX.inv_a, HX.inv_b, HX.C_b]; linear_combination (-x.b * ι) * h
    · simp only [HX.mul_c, HX.inv_a, HX.inv_b, HX.inv_c, HX.C_c]; linear_combination (x.b ^ 2 * ι ^ 2 - x.c * ι) * h
    · simp only [HX.mul_d, HX.inv_a, HX.inv_b, HX.inv_c, HX.inv_d, HX.C_d]; linear_combination (-x.b ^ 3 * ι ^ 3 + 2 * x.b * x.c * ι ^ 2 - x.d * ι) * h
  · show A.ε x.a ≠ 0
    intro e
    have := congrArg A.ε h
    rw [map_mul, e, zero_mul, map_one] at this
    exact zero_ne_one this
theorem jd_shift {D : Derivation K R R} (hc : ∀ F, E (D F) = D (E F)) (s : K) (x : HX R) : A.jd (E + s • D) x = A.jd E (HX.shift s D x) := by
  ext <;> simp only [jd, HX.shift, Derivation.add_apply, Derivation.smul_apply, map_add, map_smul, Derivation.map_smul, smul_eq_mul, hc, smul_add] <;> ring
theorem jd_av (D : Derivation K R R) (x : HX R) : A.jd E (HX.av D x) = J4.C (1 / 2) * (A.jd E (HX.shift (1 / 2) D x) + A.jd E (HX.shift (-(1 / 2)) D x)) := by
  ext <;> simp only [jd, HX.shift, HX.av, J4.mul_a, J4.mul_b, J4.mul_c, J4.mul_d, J4.C_a, J4.C_b, J4.C_c, J4.C_d, J4.add_a, J4.add_b, J4.add_c, J4.add_d,
    map_add, map_smul, Derivation.map_smul, smul_eq_mul] <;> ring
theorem jd_dif (D : Derivation K R R) (x : HX R) : A.jd E (HX.dif D x) = A.jd E (HX.shift (1 / 2) D x) - A.jd E (HX.shift (-(1 / 2)) D x) := by
  ext <;> simp only [jd, HX.shift, HX.dif, J4.sub_a, J4.sub_b, J4.sub_c, J4.sub_d,
    map_add, map_smul, Derivation.map_smul, smul_eq_mul, map_zero] <;> ring
end DAlg

/-- grid function at the points `y + i v + j w + k z` (in units of the spacing) with the expansion given by `F` -/
def Gr3 (A : DAlg n K R) (v w z : Fin n → K) (y : Fin n → K) (f : K → Int → Int → Int → K) (F : HX R) : Prop :=
  ∀ i j k : Int, Jet (fun h => f h i j k) (A.jd (A.dir (y + (i : K) • v + (j : K) • w + (k : K) • z)) F)

namespace Gr3
variable {A : DAlg n K R} {v w z y y' : Fin n → K} {f g : K → Int → Int → Int → K} {F G : HX R}
theorem congr' (hf : Gr3 A v w z y f F) (e : ∀ h i j k, g h i j k = f h i j k) : Gr3 A v w z y g F := fun i j k => (hf i j k).congr' fun h => e h i j k
theorem base (hf : Gr3 A v w z y f F) (e : y' = y) : Gr3 A v w z y' f F := e ▸ hf
theorem const (c : K) : Gr3 A v w z y (fun _ _ _ _ => c) (HX.C (algebraMap K R c)) := fun i j k => by rw [DAlg.jd_C]; exact Jet.const c
theorem one : Gr3 A v w z y (fun _ _ _ _ => 1) (HX.C (1 : R)) := by have := const (A := A) (v := v) (w := w) (z := z) (y := y) 1; rwa [map_one] at this
theorem zero : Gr3 A v w z y (fun _ _ _ _ => 0) (HX.C (0 : R)) := by have := const (A := A) (v := v) (w := w) (z := z) (y := y) 0; rwa [map_zero] at this
theorem add (hf : Gr3 A v w z y f F) (hg : Gr3 A v w z y g G) : Gr3 A v w z y (fun h i j k => f h i j k + g h i j k) (F + G) := fun i j k => by
  rw [DAlg.jd_add]; exact (hf i j k).add (hg i j k)
theorem sub (hf : Gr3 A v w z y f F) (hg : Gr3 A v w z y g G) : Gr3 A v w z y (fun h i j k => f h i j k - g h i j k) (F - G) := fun i j k => by
  rw [DAlg.jd_sub]; exact (hf i j k).sub (hg i j k)
theorem mul (hf : Gr3 A v w z y f F) (hg : Gr3 A v w z y g G) : Gr3 A v w z y (fun h i j k => f h i j k * g h i j k) (F * G) := fun i j k => by
  rw [DAlg.jd_mul]; exact (hf i j k).mul (hg i j k)
theorem smul (c : K) (hf : Gr3 A v w z y f F) : Gr3 A v w z y (fun h i j k => c * f h i j k) (c • F) := fun i j k => by
  rw [DAlg.jd_smul]; exact (Jet.const c).mul (hf i j k)
theorem div {ι : R} (hf : Gr3 A v w z y f F) (hg : Gr3 A v w z y g G) (h : G.a * ι = 1) : Gr3 A v w z y (fun h i j k => f h i j k / g h i j k) (F * HX.inv ι G) := fun i j k => by
  rw [DAlg.jd_mul, DAlg.jd_inv h]
  refine ((hf i j k).mul ((hg i j k).inv ?_)).congr' fun h => div_eq_mul_inv _ _
  show A.ε G.a ≠ 0
  intro e
  have := congrArg A.ε h
  rw [map_mul, e, zero_mul, map_one] at this
  exact zero_ne_one this
theorem abs_sgn {s : K} (hf : Gr3 A v w z y f F) (hs : (s = 1 ∧ 0 < A.ε F.a) ∨ (s = -1 ∧ A.ε F.a < 0)) : Gr3 A v w z y (fun h i j k => |f h i j k|) (s • F) := fun i j k => by
  rw [DAlg.jd_smul]; exact Jet.abs_sgn (hf i j k) hs
theorem abs_lead {s : K} (hf : Gr3 A v w z y f F) (h0 : F.a = 0) (hs : (s = 1 ∧ 0 < A.ε F.b) ∨ (s = -1 ∧ A.ε F.b < 0)) : Gr3 A v w z y (fun h i j k => |f h i j k|) (s • F) := fun i j k => by
  rw [DAlg.jd_smul]
  refine Jet.abs_lead (hf i j k) ?_ ?_
  · show A.ε F.a = 0; rw [h0, map_zero]
  · show (_ ∧ 0 < A.ε (A.dir _ F.a) + A.ε F.b) ∨ (_ ∧ A.ε (A.dir _ F.a) + A.ε F.b < 0)
    rw [h0, map_zero, map_zero, zero_add]; exact hs

/-- displacement of the expansion point -/
theorem jd_move (x : Fin n → K) (s : K) (u : Fin n → K) (F : HX R) : A.jd (A.dir (x + s • u)) F = A.jd (A.dir x) (HX.shift s (A.dir u) F) := by
  rw [A.dir_add, A.dir_smul, DAlg.jd_shift (fun F => A.dir_comm _ _ F)]

/-- averages and differences of neighbours in a direction `u`: general form -/
theorem av_jet {a b : K → K} {x x' x'' u : Fin n → K} (ha : Jet a (A.jd (A.dir x') F)) (hb : Jet b (A.jd (A.dir x'') F)) (e1 : x' = x + (1 / 2 : K) • u) (e2 : x'' = x + (-(1 / 2) : K) • u) :
    Jet (fun h => (a h + b h) / 2) (A.jd (A.dir x) (HX.av (A.dir u) F)) := by
  rw [DAlg.jd_av, ← jd_move, ← jd_move, ← e1, ← e2]
  exact ((Jet.const (1 / 2)).mul (ha.add hb)).congr' fun h => by ring
theorem dif_jet {a b : K → K} {x x' x'' u : Fin n → K} (ha : Jet a (A.jd (A.dir x') F)) (hb : Jet b (A.jd (A.dir x'') F)) (e1 : x' = x + (1 / 2 : K) • u) (e2 : x'' = x + (-(1 / 2) : K) • u) :
    Jet (fun h => a h - b h) (A.jd (A.dir x) (HX.dif (A.dir u) F)) := by
  rw [DAlg.jd_dif, ← jd_move, ← jd_move, ← e1, ← e2]
  exact ha.sub hb

local macro "vec" : tactic => `(tactic| (push_cast; module))
theorem avN0 (hf : Gr3 A v w z y f F) : Gr3 A v w z (y + (1 / 2 : K) • v) (fun h i j k => (f h (i + 1) j k + f h i j k) / 2) (HX.av (A.dir v) F) := fun i j k =>
  av_jet (hf (i + 1) j k) (hf i j k) (by vec) (by vec)
theorem avN1 (hf : Gr3 A v w z y f F) : Gr3 A v w z (y + (1 / 2 : K) • w) (fun h i j k => (f h i (j + 1) k + f h i j k) / 2) (HX.av (A.dir w) F) := fun i j k =>
  av_jet (hf i (j + 1) k) (hf i j k) (by vec) (by vec)
theorem avN2 (hf : Gr3 A v w z y f F) : Gr3 A v w z (y + (1 / 2 : K) • z) (fun h i j k => (f h i j (k + 1) + f h i j k) / 2) (HX.av (A.dir z) F) := fun i j k =>
  av_jet (hf i j (k + 1)) (hf i j k) (by vec) (by vec)
theorem difN0 (hf : Gr3 A v w z y f F) : Gr3 A v w z (y + (1 / 2 : K) • v) (fun h i j k => f h (i + 1) j k - f h i j k) (HX.dif (A.dir v) F) := fun i j k =>
  dif_jet (hf (i + 1) j k) (hf i j k) (by vec) (by vec)
theorem difN1 (hf : Gr3 A v w z y f F) : Gr3 A v w z (y + (1 / 2 : K) • w) (fun h i j k => f h i (j + 1) k - f h i j k) (HX.dif (A.dir w) F) := fun i j k =>
  dif_jet (hf i (j + 1) k) (hf i j k) (by vec) (by vec)
theorem difN2 (hf : Gr3 A v w z y f F) : Gr3 A v w z (y + (1 / 2 : K) • z) (fun h i j k => f h i j (k + 1) - f h i j k) (HX.dif (A.dir z) F) := fun i j k =>
  dif_jet (hf i j (k + 1)) (hf i j k) (by vec) (by vec)
theorem avF0 (hf : Gr3 A v w z (y + (1 / 2 : K) • v) f F) : Gr3 A v w z y (fun h i j k => (f h i j k + f h (i - 1) j k) / 2) (HX.av (A.dir v) F) := fun i j k =>
  av_jet (hf i j k) (hf (i - 1) j k) (by vec) (by vec)
theorem avF1 (hf : Gr3 A v w z (y + (1 / 2 : K) • w) f F) : Gr3 A v w z y (fun h i j k => (f h i j k + f h i (j - 1) k) / 2) (HX.av (A.dir w) F) := fun i j k =>
  av_jet (hf i j k) (hf i (j - 1) k) (by vec) (by vec)
theorem avF2 (hf : Gr3 A v w z (y + (1 / 2 : K) • z) f F) : Gr3 A v w z y (fun h i j k => (f h i j k + f h i j (k - 1)) / 2) (HX.av (A.dir z) F) := fun i j k =>
  av_jet (hf i j k) (hf i j (k - 1)) (by vec) (by vec)
theorem difF0 (hf : Gr3 A v w z (y + (1 / 2 : K) • v) f F) : Gr3 A v w z y (fun h i j k => f h i j k - f h (i - 1) j k) (HX.dif (A.dir v) F) := fun i j k =>
  dif_jet (hf i j k) (hf (i - 1) j k) (by vec) (by vec)
theorem difF1 (hf : Gr3 A v w z (y + (1 / 2 : K) • w) f F) : Gr3 A v w z y (fun h i j k => f h i j k - f h i (j - 1) k) (HX.dif (A.dir w) F) := fun i j k =>
  dif_jet (hf i j k) (hf i (j - 1) k) (by vec) (by vec)
theorem difF2 (hf : Gr3 A v w z (y + (1 / 2 : K) • z) f F) : Gr3 A v w z y (fun h i j k => f h i j k - f h i j (k - 1)) (HX.dif (A.dir z) F) := fun i j k =>
  dif_jet (hf i j k) (hf i j (k - 1)) (by vec) (by vec)
end Gr3
end Mpdata
