import Verif.Lemmas.Jet
/-! # Expansions of grid functions in position and grid spacing, one dimension
`jSer2 q x 1` is the expansion at distance `x h` of a grid function whose coefficient of `(position)^m h^n` is `q m n`. -/
set_option linter.unusedSectionVars false
set_option linter.unusedTactic false
set_option linter.unreachableTactic false
set_option linter.unnecessarySeqFocus false
set_option linter.unusedSimpArgs false
namespace Mpdata
variable {K : Type} [Field K] [LinearOrder K] [IsStrictOrderedRing K]

/-- expansion of samples at distance `x h`, time `t h` -/
def jSer2 (p : Ser2 K) (x t : K) : J4 K := ⟨p 0 0, p 1 0 * x + p 0 1 * t, p 2 0 * x ^ 2 + p 1 1 * x * t + p 0 2 * t ^ 2,
      p 3 0 * x ^ 3 + p 2 1 * x ^ 2 * t + p 1 2 * x * t ^ 2 + p 0 3 * t ^ 3⟩

namespace Ser2
def C (c : K) : Ser2 K := fun m n => if m = 0 ∧ n = 0 then c else 0
def add (a b : Ser2 K) : Ser2 K := fun m n => a m n + b m n
def sub (a b : Ser2 K) : Ser2 K := fun m n => a m n - b m n
def smul (c : K) (a : Ser2 K) : Ser2 K := fun m n => c * a m n
/-- mean of the values half a spacing to either side -/
def av (a : Ser2 K) : Ser2 K := fun m n => a m n + (if 2 ≤ n then ((m + 1) * (m + 2) / 2) / 4 * a (m + 2) (n - 2) else 0)
/-- difference of the values half a spacing to either side -/
def dif (a : Ser2 K) : Ser2 K := fun m n => (if 1 ≤ n then (m + 1) * a (m + 1) (n - 1) else 0) + (if 3 ≤ n then ((m + 1) * (m + 2) * (m + 3) / 6) / 4 * a (m + 3) (n - 3) else 0)
/-- reciprocal -/
def inv (a : Ser2 K) : Ser2 K :=
  let r := sub (C 1) (smul (a 0 0)⁻¹ a)
  smul (a 0 0)⁻¹ (add (C 1) (add r (mul r (add r (mul r r)))))

macro "ser" : tactic => `(tactic| simp [C, add, sub, smul, mul, av, dif, Finset.sum_range_succ])

theorem j_C (c x : K) : jSer2 (C c) x 1 = J4.C c := by ext <;> simp [jSer2, C]
theorem j_add (a b : Ser2 K) (x : K) : jSer2 (add a b) x 1 = jSer2 a x 1 + jSer2 b x 1 := by ext <;> simp [jSer2, add] <;> ring
theorem j_sub (a b : Ser2 K) (x : K) : jSer2 (sub a b) x 1 = jSer2 a x 1 - jSer2 b x 1 := by ext <;> simp [jSer2, sub] <;> ring
theorem j_smul (c : K) (b : Ser2 K) (x : K) : jSer2 (smul c b) x 1 = J4.C c * jSer2 b x 1 := by ext <;> simp [jSer2, smul] <;> ring
theorem j_mul (a b : Ser2 K) (x : K) : jSer2 (mul a b) x 1 = jSer2 a x 1 * jSer2 b x 1 := by
  ext <;> simp [jSer2, mul, Finset.sum_range_succ] <;> ring
theorem j_av (a : Ser2 K) (x : K) : jSer2 (av a) x 1 = (jSer2 a (x + 1 / 2) 1 + jSer2 a (x - 1 / 2) 1) * (J4.C 2)⁻¹ := by
  ext <;> simp [jSer2, av] <;> ring
theorem j_dif (a : Ser2 K) (x : K) : jSer2 (dif a) x 1 = jSer2 a (x + 1 / 2) 1 - jSer2 a (x - 1 / 2) 1 := by
  ext <;> simp [jSer2, dif] <;> ring

theorem j4_inv (x : J4 K) (hx : x.a ≠ 0) : x⁻¹ = J4.C x.a⁻¹ * (J4.C 1 + (J4.C 1 - J4.C x.a⁻¹ * x + (J4.C 1 - J4.C x.a⁻¹ * x) *
    (J4.C 1 - J4.C x.a⁻¹ * x + (J4.C 1 - J4.C x.a⁻¹ * x) * (J4.C 1 - J4.C x.a⁻¹ * x)))) := by
  ext <;> simp <;> field_simp <;> ring

theorem j_inv (a : Ser2 K) (x : K) (h : a 0 0 ≠ 0) : jSer2 (inv a) x 1 = (jSer2 a x 1)⁻¹ := by
  have e : (jSer2 a x 1).a = a 0 0 := rfl
  rw [j4_inv _ (by rw [e]; exact h), e]
  simp only [inv, j_smul, j_add, j_mul, j_sub, j_C]

end Ser2

/-- at distance `x h` the function has the expansion given by `q` -/
def FJ (x : K) (f : K → K) (q : Ser2 K) : Prop := Jet f (jSer2 q x 1)

namespace FJ
variable {x : K} {f g : K → K} {q r : Ser2 K}
theorem congr' (hf : FJ x f q) (e : ∀ h, g h = f h) : FJ x g q := Jet.congr' hf e
theorem const (c : K) : FJ x (fun _ => c) (Ser2.C c) := by unfold FJ; rw [Ser2.j_C]; exact Jet.const c
theorem add (hf : FJ x f q) (hg : FJ x g r) : FJ x (fun h => f h + g h) (q.add r) := by unfold FJ; rw [Ser2.j_add]; exact Jet.add hf hg
theorem sub (hf : FJ x f q) (hg : FJ x g r) : FJ x (fun h => f h - g h) (q.sub r) := by unfold FJ; rw [Ser2.j_sub]; exact Jet.sub hf hg
theorem mul (hf : FJ x f q) (hg : FJ x g r) : FJ x (fun h => f h * g h) (q.mul r) := by unfold FJ; rw [Ser2.j_mul]; exact Jet.mul hf hg
theorem smul (c : K) (hf : FJ x f q) : FJ x (fun h => c * f h) (q.smul c) := by unfold FJ; rw [Ser2.j_smul]; exact Jet.mul (Jet.const c) hf
theorem inv (hf : FJ x f q) (h : q 0 0 ≠ 0) : FJ x (fun h => (f h)⁻¹) q.inv := by unfold FJ; rw [Ser2.j_inv _ _ h]; exact Jet.inv hf h
theorem div (hf : FJ x f q) (hg : FJ x g r) (h : r 0 0 ≠ 0) : FJ x (fun h => f h / g h) (q.mul r.inv) := (hf.mul (hg.inv h)).congr' fun _ => div_eq_mul_inv _ _
theorem av (hf : FJ (x + 1 / 2) f q) (hg : FJ (x - 1 / 2) g q) : FJ x (fun h => (f h + g h) / 2) q.av := by
  unfold FJ; rw [Ser2.j_av]; exact (Jet.add hf hg).div (Jet.const 2) (by simp)
theorem dif (hf : FJ (x + 1 / 2) f q) (hg : FJ (x - 1 / 2) g q) : FJ x (fun h => f h - g h) q.dif := by
  unfold FJ; rw [Ser2.j_dif]; exact Jet.sub hf hg
/-- absolute value, with `s` the sign of the leading coefficient -/
theorem abs_sgn (hf : FJ x f q) {s : K} (hs : (s = 1 ∧ 0 < q 0 0) ∨ (s = -1 ∧ q 0 0 < 0)) : FJ x (fun h => |f h|) (q.smul s) := by
  unfold FJ; rw [Ser2.j_smul]; exact Jet.abs_sgn hf hs
end FJ

/-- samples of a smooth function, at time `t h`, as a grid function -/
theorem Taylor2.fj {f : K → K → K} {p : Ser2 K} (hf : Taylor2 f p) (x t : K) : FJ x (fun h => f (x * h) (t * h)) (fun m n => p m n * t ^ n) := by
  refine Jet.rfl' (hf.jet x t) ?_
  ext <;> simp [jSer2] <;> ring

end Mpdata
namespace Mpdata
variable {K : Type} [Field K] [LinearOrder K] [IsStrictOrderedRing K]
/-- grid function at the points `k + θ` with the expansion given by `q` -/
def Gr (θ : K) (f : K → Int → K) (q : Ser2 K) : Prop := ∀ k : Int, FJ (k + θ) (fun h => f h k) q

namespace Gr
variable {θ : K} {f g : K → Int → K} {q r : Ser2 K}
theorem congr' (hf : Gr θ f q) (e : ∀ h k, g h k = f h k) : Gr θ g q := fun k => (hf k).congr' fun h => e h k
theorem const (c : K) : Gr θ (fun _ _ => c) (Ser2.C c) := fun _ => FJ.const c
theorem add (hf : Gr θ f q) (hg : Gr θ g r) : Gr θ (fun h k => f h k + g h k) (q.add r) := fun k => (hf k).add (hg k)
theorem sub (hf : Gr θ f q) (hg : Gr θ g r) : Gr θ (fun h k => f h k - g h k) (q.sub r) := fun k => (hf k).sub (hg k)
theorem mul (hf : Gr θ f q) (hg : Gr θ g r) : Gr θ (fun h k => f h k * g h k) (q.mul r) := fun k => (hf k).mul (hg k)
theorem smul (c : K) (hf : Gr θ f q) : Gr θ (fun h k => c * f h k) (q.smul c) := fun k => (hf k).smul c
theorem div (hf : Gr θ f q) (hg : Gr θ g r) (h : r 0 0 ≠ 0) : Gr θ (fun h k => f h k / g h k) (q.mul r.inv) := fun k => (hf k).div (hg k) h
theorem avN (hf : Gr 0 f q) : Gr (1 / 2) (fun h k => (f h (k + 1) + f h k) / 2) q.av := fun k => by
  have h1 := hf (k + 1); have h0 := hf k
  refine FJ.av (f := fun h => f h (k + 1)) (g := fun h => f h k) ?_ ?_
  · convert h1 using 1; push_cast; ring
  · convert h0 using 1; ring
theorem difN (hf : Gr 0 f q) : Gr (1 / 2) (fun h k => f h (k + 1) - f h k) q.dif := fun k => by
  have h1 := hf (k + 1); have h0 := hf k
  refine FJ.dif (f := fun h => f h (k + 1)) (g := fun h => f h k) ?_ ?_
  · convert h1 using 1; push_cast; ring
  · convert h0 using 1; ring
theorem avF (hf : Gr (1 / 2) f q) : Gr 0 (fun h k => (f h k + f h (k - 1)) / 2) q.av := fun k => by
  have h1 := hf k; have h0 := hf (k - 1)
  refine FJ.av (f := fun h => f h k) (g := fun h => f h (k - 1)) ?_ ?_
  · convert h1 using 1; ring
  · convert h0 using 1; push_cast; ring
theorem difF (hf : Gr (1 / 2) f q) : Gr 0 (fun h k => f h k - f h (k - 1)) q.dif := fun k => by
  have h1 := hf k; have h0 := hf (k - 1)
  refine FJ.dif (f := fun h => f h k) (g := fun h => f h (k - 1)) ?_ ?_
  · convert h1 using 1; ring
  · convert h0 using 1; push_cast; ring
theorem abs_sgn (hf : Gr θ f q) {s : K} (hs : (s = 1 ∧ 0 < q 0 0) ∨ (s = -1 ∧ q 0 0 < 0)) : Gr θ (fun h k => |f h k|) (q.smul s) := fun k => (hf k).abs_sgn hs
end Gr
end Mpdata
namespace Mpdata
variable {K : Type} [Field K] [LinearOrder K] [IsStrictOrderedRing K]
namespace Ser2
/-! coefficients of the operations -/
theorem e_C00 (c : K) : C c 0 0 = c := by simp [C]
theorem e_C10 (c : K) : C c 1 0 = 0 := by simp [C]
theorem e_C01 (c : K) : C c 0 1 = 0 := by simp [C]
theorem e_C20 (c : K) : C c 2 0 = 0 := by simp [C]
theorem e_C11 (c : K) : C c 1 1 = 0 := by simp [C]
theorem e_C02 (c : K) : C c 0 2 = 0 := by simp [C]
theorem e_C30 (c : K) : C c 3 0 = 0 := by simp [C]
theorem e_C21 (c : K) : C c 2 1 = 0 := by simp [C]
theorem e_C12 (c : K) : C c 1 2 = 0 := by simp [C]
theorem e_C03 (c : K) : C c 0 3 = 0 := by simp [C]
theorem e_mul00 (a b : Ser2 K) : a.mul b 0 0 = a 0 0 * b 0 0 := by simp [mul, Finset.sum_range_succ, add_assoc]
theorem e_add00 (a b : Ser2 K) : a.add b 0 0 = a 0 0 + b 0 0 := rfl
theorem e_sub00 (a b : Ser2 K) : a.sub b 0 0 = a 0 0 - b 0 0 := rfl
theorem e_smul00 (c : K) (a : Ser2 K) : a.smul c 0 0 = c * a 0 0 := rfl
theorem e_av00 (a : Ser2 K) : a.av 0 0 = a 0 0 := by simp [av] <;> norm_num
theorem e_dif00 (a : Ser2 K) : a.dif 0 0 = 0 := by simp [dif] <;> norm_num
theorem e_mul10 (a b : Ser2 K) : a.mul b 1 0 = a 0 0 * b 1 0 + a 1 0 * b 0 0 := by simp [mul, Finset.sum_range_succ, add_assoc]
theorem e_add10 (a b : Ser2 K) : a.add b 1 0 = a 1 0 + b 1 0 := rfl
theorem e_sub10 (a b : Ser2 K) : a.sub b 1 0 = a 1 0 - b 1 0 := rfl
theorem e_smul10 (c : K) (a : Ser2 K) : a.smul c 1 0 = c * a 1 0 := rfl
theorem e_av10 (a : Ser2 K) : a.av 1 0 = a 1 0 := by simp [av] <;> norm_num
theorem e_dif10 (a : Ser2 K) : a.dif 1 0 = 0 := by simp [dif] <;> norm_num
theorem e_mul01 (a b : Ser2 K) : a.mul b 0 1 = a 0 0 * b 0 1 + a 0 1 * b 0 0 := by simp [mul, Finset.sum_range_succ, add_assoc]
theorem e_add01 (a b : Ser2 K) : a.add b 0 1 = a 0 1 + b 0 1 := rfl
theorem e_sub01 (a b : Ser2 K) : a.sub b 0 1 = a 0 1 - b 0 1 := rfl
theorem e_smul01 (c : K) (a : Ser2 K) : a.smul c 0 1 = c * a 0 1 := rfl
theorem e_av01 (a : Ser2 K) : a.av 0 1 = a 0 1 := by simp [av] <;> norm_num
theorem e_dif01 (a : Ser2 K) : a.dif 0 1 = 1 * a 1 0 := by simp [dif] <;> norm_num
theorem e_mul20 (a b : Ser2 K) : a.mul b 2 0 = a 0 0 * b 2 0 + a 1 0 * b 1 0 + a 2 0 * b 0 0 := by simp [mul, Finset.sum_range_succ, add_assoc]
theorem e_add20 (a b : Ser2 K) : a.add b 2 0 = a 2 0 + b 2 0 := rfl
theorem e_sub20 (a b : Ser2 K) : a.sub b 2 0 = a 2 0 - b 2 0 := rfl
theorem e_smul20 (c : K) (a : Ser2 K) : a.smul c 2 0 = c * a 2 0 := rfl
theorem e_av20 (a : Ser2 K) : a.av 2 0 = a 2 0 := by simp [av] <;> norm_num
theorem e_dif20 (a : Ser2 K) : a.dif 2 0 = 0 := by simp [dif] <;> norm_num
theorem e_mul11 (a b : Ser2 K) : a.mul b 1 1 = a 0 0 * b 1 1 + a 0 1 * b 1 0 + a 1 0 * b 0 1 + a 1 1 * b 0 0 := by simp [mul, Finset.sum_range_succ, add_assoc]
theorem e_add11 (a b : Ser2 K) : a.add b 1 1 = a 1 1 + b 1 1 := rfl
theorem e_sub11 (a b : Ser2 K) : a.sub b 1 1 = a 1 1 - b 1 1 := rfl
theorem e_smul11 (c : K) (a : Ser2 K) : a.smul c 1 1 = c * a 1 1 := rfl
theorem e_av11 (a : Ser2 K) : a.av 1 1 = a 1 1 := by simp [av] <;> norm_num
theorem e_dif11 (a : Ser2 K) : a.dif 1 1 = 2 * a 2 0 := by simp [dif] <;> norm_num
theorem e_mul02 (a b : Ser2 K) : a.mul b 0 2 = a 0 0 * b 0 2 + a 0 1 * b 0 1 + a 0 2 * b 0 0 := by simp [mul, Finset.sum_range_succ, add_assoc]
theorem e_add02 (a b : Ser2 K) : a.add b 0 2 = a 0 2 + b 0 2 := rfl
theorem e_sub02 (a b : Ser2 K) : a.sub b 0 2 = a 0 2 - b 0 2 := rfl
theorem e_smul02 (c : K) (a : Ser2 K) : a.smul c 0 2 = c * a 0 2 := rfl
theorem e_av02 (a : Ser2 K) : a.av 0 2 = a 0 2 + 1 / 4 * a 2 0 := by simp [av] <;> norm_num
theorem e_dif02 (a : Ser2 K) : a.dif 0 2 = 1 * a 1 1 := by simp [dif] <;> norm_num
theorem e_mul30 (a b : Ser2 K) : a.mul b 3 0 = a 0 0 * b 3 0 + a 1 0 * b 2 0 + a 2 0 * b 1 0 + a 3 0 * b 0 0 := by simp [mul, Finset.sum_range_succ, add_assoc]
theorem e_add30 (a b : Ser2 K) : a.add b 3 0 = a 3 0 + b 3 0 := rfl
theorem e_sub30 (a b : Ser2 K) : a.sub b 3 0 = a 3 0 - b 3 0 := rfl
theorem e_smul30 (c : K) (a : Ser2 K) : a.smul c 3 0 = c * a 3 0 := rfl
theorem e_av30 (a : Ser2 K) : a.av 3 0 = a 3 0 := by simp [av] <;> norm_num
theorem e_dif30 (a : Ser2 K) : a.dif 3 0 = 0 := by simp [dif] <;> norm_num
theorem e_mul21 (a b : Ser2 K) : a.mul b 2 1 = a 0 0 * b 2 1 + a 0 1 * b 2 0 + a 1 0 * b 1 1 + a 1 1 * b 1 0 + a 2 0 * b 0 1 + a 2 1 * b 0 0 := by simp [mul, Finset.sum_range_succ, add_assoc]
theorem e_add21 (a b : Ser2 K) : a.add b 2 1 = a 2 1 + b 2 1 := rfl
theorem e_sub21 (a b : Ser2 K) : a.sub b 2 1 = a 2 1 - b 2 1 := rfl
theorem e_smul21 (c : K) (a : Ser2 K) : a.smul c 2 1 = c * a 2 1 := rfl
theorem e_av21 (a : Ser2 K) : a.av 2 1 = a 2 1 := by simp [av] <;> norm_num
theorem e_dif21 (a : Ser2 K) : a.dif 2 1 = 3 * a 3 0 := by simp [dif] <;> norm_num
theorem e_mul12 (a b : Ser2 K) : a.mul b 1 2 = a 0 0 * b 1 2 + a 0 1 * b 1 1 + a 0 2 * b 1 0 + a 1 0 * b 0 2 + a 1 1 * b 0 1 + a 1 2 * b 0 0 := by simp [mul, Finset.sum_range_succ, add_assoc]
theorem e_add12 (a b : Ser2 K) : a.add b 1 2 = a 1 2 + b 1 2 := rfl
theorem e_sub12 (a b : Ser2 K) : a.sub b 1 2 = a 1 2 - b 1 2 := rfl
theorem e_smul12 (c : K) (a : Ser2 K) : a.smul c 1 2 = c * a 1 2 := rfl
theorem e_av12 (a : Ser2 K) : a.av 1 2 = a 1 2 + 3 / 4 * a 3 0 := by simp [av] <;> norm_num
theorem e_dif12 (a : Ser2 K) : a.dif 1 2 = 2 * a 2 1 := by simp [dif] <;> norm_num
theorem e_mul03 (a b : Ser2 K) : a.mul b 0 3 = a 0 0 * b 0 3 + a 0 1 * b 0 2 + a 0 2 * b 0 1 + a 0 3 * b 0 0 := by simp [mul, Finset.sum_range_succ, add_assoc]
theorem e_add03 (a b : Ser2 K) : a.add b 0 3 = a 0 3 + b 0 3 := rfl
theorem e_sub03 (a b : Ser2 K) : a.sub b 0 3 = a 0 3 - b 0 3 := rfl
theorem e_smul03 (c : K) (a : Ser2 K) : a.smul c 0 3 = c * a 0 3 := rfl
theorem e_av03 (a : Ser2 K) : a.av 0 3 = a 0 3 + 1 / 4 * a 2 1 := by simp [av] <;> norm_num
theorem e_dif03 (a : Ser2 K) : a.dif 0 3 = 1 * a 1 2 + 1 / 4 * a 3 0 := by simp [dif] <;> norm_num
theorem e_inv00 (a : Ser2 K) (h : a 0 0 ≠ 0) : a.inv 0 0 = (a 0 0)⁻¹ := by
  have : (1 : K) - (a 0 0)⁻¹ * a 0 0 = 0 := by rw [inv_mul_cancel₀ h, sub_self]
  simp [inv, C, smul, add, sub, mul, Finset.sum_range_succ, this]
theorem e_inv10 (a : Ser2 K) (h : a 0 0 ≠ 0) : a.inv 1 0 = -(a 0 0)⁻¹ ^ 2 * a 1 0 := by
  have : (1 : K) - (a 0 0)⁻¹ * a 0 0 = 0 := by rw [inv_mul_cancel₀ h, sub_self]
  simp [inv, C, smul, add, sub, mul, Finset.sum_range_succ, this] <;> ring
theorem e_inv01 (a : Ser2 K) (h : a 0 0 ≠ 0) : a.inv 0 1 = -(a 0 0)⁻¹ ^ 2 * a 0 1 := by
  have : (1 : K) - (a 0 0)⁻¹ * a 0 0 = 0 := by rw [inv_mul_cancel₀ h, sub_self]
  simp [inv, C, smul, add, sub, mul, Finset.sum_range_succ, this] <;> ring
theorem e_inv20 (a : Ser2 K) (h : a 0 0 ≠ 0) : a.inv 2 0 = (a 0 0)⁻¹ ^ 3 * a 1 0 ^ 2 - (a 0 0)⁻¹ ^ 2 * a 2 0 := by
  have : (1 : K) - (a 0 0)⁻¹ * a 0 0 = 0 := by rw [inv_mul_cancel₀ h, sub_self]
  simp [inv, C, smul, add, sub, mul, Finset.sum_range_succ, this] <;> ring
theorem e_inv11 (a : Ser2 K) (h : a 0 0 ≠ 0) : a.inv 1 1 = 2 * (a 0 0)⁻¹ ^ 3 * a 1 0 * a 0 1 - (a 0 0)⁻¹ ^ 2 * a 1 1 := by
  have : (1 : K) - (a 0 0)⁻¹ * a 0 0 = 0 := by rw [inv_mul_cancel₀ h, sub_self]
  simp [inv, C, smul, add, sub, mul, Finset.sum_range_succ, this] <;> ring
theorem e_inv02 (a : Ser2 K) (h : a 0 0 ≠ 0) : a.inv 0 2 = (a 0 0)⁻¹ ^ 3 * a 0 1 ^ 2 - (a 0 0)⁻¹ ^ 2 * a 0 2 := by
  have : (1 : K) - (a 0 0)⁻¹ * a 0 0 = 0 := by rw [inv_mul_cancel₀ h, sub_self]
  simp [inv, C, smul, add, sub, mul, Finset.sum_range_succ, this] <;> ring
end Ser2

/-- evaluates coefficients -/
macro "sev" : tactic => `(tactic| simp only [Ser2.e_C00, Ser2.e_C10, Ser2.e_C01, Ser2.e_C20, Ser2.e_C11, Ser2.e_C02, Ser2.e_C30, Ser2.e_C21, Ser2.e_C12, Ser2.e_C03, Ser2.e_mul00, Ser2.e_mul10, Ser2.e_mul01, Ser2.e_mul20, Ser2.e_mul11, Ser2.e_mul02, Ser2.e_mul30, Ser2.e_mul21, Ser2.e_mul12, Ser2.e_mul03, Ser2.e_add00, Ser2.e_add10, Ser2.e_add01, Ser2.e_add20, Ser2.e_add11, Ser2.e_add02, Ser2.e_add30, Ser2.e_add21, Ser2.e_add12, Ser2.e_add03, Ser2.e_sub00, Ser2.e_sub10, Ser2.e_sub01, Ser2.e_sub20, Ser2.e_sub11, Ser2.e_sub02, Ser2.e_sub30, Ser2.e_sub21, Ser2.e_sub12, Ser2.e_sub03, Ser2.e_smul00, Ser2.e_smul10, Ser2.e_smul01, Ser2.e_smul20, Ser2.e_smul11, Ser2.e_smul02, Ser2.e_smul30, Ser2.e_smul21, Ser2.e_smul12, Ser2.e_smul03, Ser2.e_av00, Ser2.e_av10, Ser2.e_av01, Ser2.e_av20, Ser2.e_av11, Ser2.e_av02, Ser2.e_av30, Ser2.e_av21, Ser2.e_av12, Ser2.e_av03, Ser2.e_dif00, Ser2.e_dif10, Ser2.e_dif01, Ser2.e_dif20, Ser2.e_dif11, Ser2.e_dif02, Ser2.e_dif30, Ser2.e_dif21, Ser2.e_dif12, Ser2.e_dif03, mul_zero, zero_mul, add_zero, zero_add, sub_zero, zero_sub, one_mul, mul_one, neg_zero])
end Mpdata
