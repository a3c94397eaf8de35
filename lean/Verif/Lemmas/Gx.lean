import Verif.Lemmas.Hx
import Verif.Lemmas.Accuracy1
/-! # Expansions of grid functions up to second order (a third-order coefficient exists but is not named) -/
set_option linter.unusedSectionVars false
namespace Mpdata
variable {n : Nat} {K R : Type} [Field K] [LinearOrder K] [IsStrictOrderedRing K] [CommRing R] [Algebra K R]

/-- grid function near the points `y + i v + j w + k z` with expansion `a + b h + c h² + …` -/
def Gx (A : DAlg n K R) (v w z : Fin n → K) (y : Fin n → K) (f : K → Int → Int → Int → K) (a b c : R) : Prop :=
  ∃ d, Gr3 A v w z y f ⟨a, b, c, d⟩

namespace Gx
variable {A : DAlg n K R} {v w z y y' : Fin n → K} {f g : K → Int → Int → Int → K} {a b c a' b' c' : R}
theorem of {F : HX R} (h : Gr3 A v w z y f F) : Gx A v w z y f F.a F.b F.c := ⟨F.d, h⟩
theorem eq (h : Gx A v w z y f a b c) (ha : a' = a) (hb : b' = b) (hc : c' = c) : Gx A v w z y f a' b' c' := by subst ha hb hc; exact h
theorem congr' (h : Gx A v w z y f a b c) (e : ∀ h i j k, g h i j k = f h i j k) : Gx A v w z y g a b c := let ⟨d, h⟩ := h; ⟨d, h.congr' e⟩
theorem base (h : Gx A v w z y f a b c) (e : y' = y) : Gx A v w z y' f a b c := e ▸ h
theorem const (k : K) : Gx A v w z y (fun _ _ _ _ => k) (algebraMap K R k) 0 0 := ⟨0, Gr3.const k⟩
theorem one : Gx A v w z y (fun _ _ _ _ => 1) (1 : R) 0 0 := ⟨0, Gr3.one⟩
theorem zero : Gx A v w z y (fun _ _ _ _ => 0) (0 : R) 0 0 := ⟨0, Gr3.zero⟩
theorem add (hf : Gx A v w z y f a b c) (hg : Gx A v w z y g a' b' c') : Gx A v w z y (fun h i j k => f h i j k + g h i j k) (a + a') (b + b') (c + c') :=
  let ⟨_, hf⟩ := hf; let ⟨_, hg⟩ := hg; ⟨_, hf.add hg⟩
theorem sub (hf : Gx A v w z y f a b c) (hg : Gx A v w z y g a' b' c') : Gx A v w z y (fun h i j k => f h i j k - g h i j k) (a - a') (b - b') (c - c') :=
  let ⟨_, hf⟩ := hf; let ⟨_, hg⟩ := hg; ⟨_, hf.sub hg⟩
theorem mul (hf : Gx A v w z y f a b c) (hg : Gx A v w z y g a' b' c') :
    Gx A v w z y (fun h i j k => f h i j k * g h i j k) (a * a') (a * b' + b * a') (a * c' + b * b' + c * a') :=
  let ⟨_, hf⟩ := hf; let ⟨_, hg⟩ := hg; ⟨_, hf.mul hg⟩
theorem smul (k : K) (hf : Gx A v w z y f a b c) : Gx A v w z y (fun h i j l => k * f h i j l) (k • a) (k • b) (k • c) :=
  let ⟨_, hf⟩ := hf; ⟨_, hf.smul k⟩
theorem div {ι : R} (hf : Gx A v w z y f a b c) (hg : Gx A v w z y g a' b' c') (h : a' * ι = 1) :
    Gx A v w z y (fun h i j k => f h i j k / g h i j k) (a * ι) (a * (-b' * ι ^ 2) + b * ι) (a * (b' ^ 2 * ι ^ 3 - c' * ι ^ 2) + b * (-b' * ι ^ 2) + c * ι) :=
  let ⟨_, hf⟩ := hf; let ⟨_, hg⟩ := hg; (of (hf.div hg h)).eq (by simp only [HX.mul_a, HX.inv_a]) (by simp only [HX.mul_b, HX.inv_a, HX.inv_b]) (by simp only [HX.mul_c, HX.inv_a, HX.inv_b, HX.inv_c])
/-- quotient of a small quantity -/
theorem div0 {ι : R} (hf : Gx A v w z y f 0 b c) (hg : Gx A v w z y g a' b' c') (h : a' * ι = 1) :
    Gx A v w z y (fun h i j k => f h i j k / g h i j k) 0 (b * ι) (c * ι - b * b' * ι ^ 2) :=
  (hf.div hg h).eq (by ring) (by ring) (by ring)
theorem mul0 (hf : Gx A v w z y f a b c) (hg : Gx A v w z y g 0 b' c') : Gx A v w z y (fun h i j k => f h i j k * g h i j k) 0 (a * b') (a * c' + b * b') :=
  (hf.mul hg).eq (by ring) (by ring) (by ring)
theorem mul00 (hf : Gx A v w z y f a b c) (hg : Gx A v w z y g 0 0 c') : Gx A v w z y (fun h i j k => f h i j k * g h i j k) 0 0 (a * c') :=
  (hf.mul hg).eq (by ring) (by ring) (by ring)
theorem avN0 (hf : Gx A v w z y f a b c) : Gx A v w z (y + (1 / 2 : K) • v) (fun h i j k => (f h (i + 1) j k + f h i j k) / 2) a b (c + (1 / 8 : K) • A.dir v (A.dir v a)) :=
  let ⟨_, hf⟩ := hf; ⟨_, hf.avN0⟩
theorem avN1 (hf : Gx A v w z y f a b c) : Gx A v w z (y + (1 / 2 : K) • w) (fun h i j k => (f h i (j + 1) k + f h i j k) / 2) a b (c + (1 / 8 : K) • A.dir w (A.dir w a)) :=
  let ⟨_, hf⟩ := hf; ⟨_, hf.avN1⟩
theorem avN2 (hf : Gx A v w z y f a b c) : Gx A v w z (y + (1 / 2 : K) • z) (fun h i j k => (f h i j (k + 1) + f h i j k) / 2) a b (c + (1 / 8 : K) • A.dir z (A.dir z a)) :=
  let ⟨_, hf⟩ := hf; ⟨_, hf.avN2⟩
theorem difN0 (hf : Gx A v w z y f a b c) : Gx A v w z (y + (1 / 2 : K) • v) (fun h i j k => f h (i + 1) j k - f h i j k) 0 (A.dir v a) (A.dir v b) :=
  let ⟨_, hf⟩ := hf; ⟨_, hf.difN0⟩
theorem difN1 (hf : Gx A v w z y f a b c) : Gx A v w z (y + (1 / 2 : K) • w) (fun h i j k => f h i (j + 1) k - f h i j k) 0 (A.dir w a) (A.dir w b) :=
  let ⟨_, hf⟩ := hf; ⟨_, hf.difN1⟩
theorem difN2 (hf : Gx A v w z y f a b c) : Gx A v w z (y + (1 / 2 : K) • z) (fun h i j k => f h i j (k + 1) - f h i j k) 0 (A.dir z a) (A.dir z b) :=
  let ⟨_, hf⟩ := hf; ⟨_, hf.difN2⟩
theorem avF0 (hf : Gx A v w z (y + (1 / 2 : K) • v) f a b c) : Gx A v w z y (fun h i j k => (f h i j k + f h (i - 1) j k) / 2) a b (c + (1 / 8 : K) • A.dir v (A.dir v a)) :=
  let ⟨_, hf⟩ := hf; ⟨_, hf.avF0⟩
theorem avF1 (hf : Gx A v w z (y + (1 / 2 : K) • w) f a b c) : Gx A v w z y (fun h i j k => (f h i j k + f h i (j - 1) k) / 2) a b (c + (1 / 8 : K) • A.dir w (A.dir w a)) :=
  let ⟨_, hf⟩ := hf; ⟨_, hf.avF1⟩
theorem avF2 (hf : Gx A v w z (y + (1 / 2 : K) • z) f a b c) : Gx A v w z y (fun h i j k => (f h i j k + f h i j (k - 1)) / 2) a b (c + (1 / 8 : K) • A.dir z (A.dir z a)) :=
  let ⟨_, hf⟩ := hf; ⟨_, hf.avF2⟩
theorem difF0 (hf : Gx A v w z (y + (1 / 2 : K) • v) f a b c) : Gx A v w z y (fun h i j k => f h i j k - f h (i - 1) j k) 0 (A.dir v a) (A.dir v b) :=
  let ⟨_, hf⟩ := hf; ⟨_, hf.difF0⟩
theorem difF1 (hf : Gx A v w z (y + (1 / 2 : K) • w) f a b c) : Gx A v w z y (fun h i j k => f h i j k - f h i (j - 1) k) 0 (A.dir w a) (A.dir w b) :=
  let ⟨_, hf⟩ := hf; ⟨_, hf.difF1⟩
theorem difF2 (hf : Gx A v w z (y + (1 / 2 : K) • z) f a b c) : Gx A v w z y (fun h i j k => f h i j k - f h i j (k - 1)) 0 (A.dir z a) (A.dir z b) :=
  let ⟨_, hf⟩ := hf; ⟨_, hf.difF2⟩
theorem abs_sgn {s : K} (hf : Gx A v w z y f a b c) (hs : (s = 1 ∧ 0 < A.ε a) ∨ (s = -1 ∧ A.ε a < 0)) : Gx A v w z y (fun h i j k => |f h i j k|) (s • a) (s • b) (s • c) :=
  let ⟨_, hf⟩ := hf; ⟨_, hf.abs_sgn hs⟩
theorem abs_lead {s : K} (hf : Gx A v w z y f 0 b c) (hs : (s = 1 ∧ 0 < A.ε b) ∨ (s = -1 ∧ A.ε b < 0)) : Gx A v w z y (fun h i j k => |f h i j k|) 0 (s • b) (s • c) :=
  let ⟨_, hf⟩ := hf; Gx.eq ⟨_, hf.abs_lead rfl hs⟩ (smul_zero s).symm rfl rfl
end Gx

/-- a grid function that has an expansion -/
def Ok (A : DAlg n K R) (v w z : Fin n → K) (y : Fin n → K) (f : K → Int → Int → Int → K) : Prop := ∃ a b c, Gx A v w z y f a b c

namespace Ok
variable {A : DAlg n K R} {v w z y : Fin n → K} {f g : K → Int → Int → Int → K} {a b c : R}
theorem of (h : Gx A v w z y f a b c) : Ok A v w z y f := ⟨a, b, c, h⟩
theorem congr' (h : Ok A v w z y f) (e : ∀ h i j k, g h i j k = f h i j k) : Ok A v w z y g := let ⟨_, _, _, h⟩ := h; of (h.congr' e)
theorem const (k : K) : Ok A v w z y (fun _ _ _ _ => k) := of (Gx.const k)
theorem add (hf : Ok A v w z y f) (hg : Ok A v w z y g) : Ok A v w z y (fun h i j k => f h i j k + g h i j k) := let ⟨_, _, _, hf⟩ := hf; let ⟨_, _, _, hg⟩ := hg; of (hf.add hg)
theorem sub (hf : Ok A v w z y f) (hg : Ok A v w z y g) : Ok A v w z y (fun h i j k => f h i j k - g h i j k) := let ⟨_, _, _, hf⟩ := hf; let ⟨_, _, _, hg⟩ := hg; of (hf.sub hg)
theorem mul (hf : Ok A v w z y f) (hg : Ok A v w z y g) : Ok A v w z y (fun h i j k => f h i j k * g h i j k) := let ⟨_, _, _, hf⟩ := hf; let ⟨_, _, _, hg⟩ := hg; of (hf.mul hg)
theorem inv {ι : R} (hg : Gx A v w z y g a b c) (h : a * ι = 1) : Ok A v w z y (fun h i j k => (g h i j k)⁻¹) := (of (Gx.one.div hg h)).congr' fun _ _ _ _ => (one_div _).symm
theorem smul (k : K) (hf : Ok A v w z y f) : Ok A v w z y (fun h i j l => k * f h i j l) := let ⟨_, _, _, hf⟩ := hf; of (hf.smul k)
end Ok

/-- a small quantity (at the faces of direction `v`) whose product with the normalising field `e0 + e1 h + …` is `b h + c h² + …`; `ρ` is the reciprocal of `e0` -/
def Bk (A : DAlg n K R) (v w z : Fin n → K) (y : Fin n → K) (e1 ρ : R) (f : K → Int → Int → Int → K) (b c : R) : Prop :=
  Gx A v w z y f 0 (b * ρ) (c * ρ - b * e1 * ρ ^ 2)

namespace Bk
variable {A : DAlg n K R} {v w z y : Fin n → K} {e0 e1 e2 ρ : R} {f g : K → Int → Int → Int → K} {a b c a' b' c' : R}
theorem eq (h : Bk A v w z y e1 ρ f b c) (hb : b' = b) (hc : c' = c) : Bk A v w z y e1 ρ f b' c' := by subst hb hc; exact h
theorem congr' (h : Bk A v w z y e1 ρ f b c) (e : ∀ h i j k, g h i j k = f h i j k) : Bk A v w z y e1 ρ g b c := Gx.congr' h e
theorem add (hf : Bk A v w z y e1 ρ f b c) (hg : Bk A v w z y e1 ρ g b' c') : Bk A v w z y e1 ρ (fun h i j k => f h i j k + g h i j k) (b + b') (c + c') :=
  (Gx.add hf hg).eq (by ring) (by ring) (by ring)
theorem sub (hf : Bk A v w z y e1 ρ f b c) (hg : Bk A v w z y e1 ρ g b' c') : Bk A v w z y e1 ρ (fun h i j k => f h i j k - g h i j k) (b - b') (c - c') :=
  (Gx.sub hf hg).eq (by ring) (by ring) (by ring)
theorem smul (k : K) (hf : Bk A v w z y e1 ρ f b c) : Bk A v w z y e1 ρ (fun h i j l => k * f h i j l) (k • b) (k • c) :=
  (Gx.smul k hf).eq (by simp) (by algebra) (by algebra)
theorem zero : Bk A v w z y e1 ρ (fun _ _ _ _ => 0) 0 0 := Gx.zero.eq rfl (by ring) (by ring)
/-- multiplication by a coefficient -/
theorem cmul (hg : Gx A v w z y g a a' b') (hf : Bk A v w z y e1 ρ f b c) : Bk A v w z y e1 ρ (fun h i j k => g h i j k * f h i j k) (a * b) (a * c + a' * b) :=
  (Gx.mul0 hg hf).eq rfl (by ring) (by ring)
/-- division by the normalising field -/
theorem div (hf : Gx A v w z y f 0 b c) (hg : Gx A v w z y g e0 e1 e2) (h : e0 * ρ = 1) : Bk A v w z y e1 ρ (fun h i j k => f h i j k / g h i j k) b c :=
  hf.div0 hg h
/-- division of a second-order quantity by any field with the leading coefficient of the normalising field -/
theorem div00 (hf : Gx A v w z y f 0 0 c) (hg : Gx A v w z y g e0 a b) (h : e0 * ρ = 1) : Bk A v w z y e1 ρ (fun h i j k => f h i j k / g h i j k) 0 c :=
  (hf.div0 hg h).eq rfl (by ring) (by ring)
/-- product of a small quantity and the complementary field -/
theorem cross {m0 m1 m2 p q1 : R} (hf : Gx A v w z y f 0 b c) (hm : Gx A v w z y g m0 m1 m2) (h : e0 * ρ = 1) (h0 : m0 * e0 = p) (h1 : m0 * e1 + m1 * e0 = q1) :
    Bk A v w z y e1 ρ (fun h i j k => f h i j k * g h i j k) (b * p) (b * q1 + c * p) := by
  subst h0 h1
  refine (hf.mul hm).eq (by ring) ?_ ?_
  · linear_combination (b * m0) * h
  · linear_combination (b * m1 + c * m0 - b * m0 * e1 * ρ) * h
/-- the flux belonging to a velocity -/
theorem flux (hf : Bk A v w z y e1 ρ f b c) (hg : Gx A v w z y g e0 e1 e2) (h : e0 * ρ = 1) : Gx A v w z y (fun h i j k => f h i j k * g h i j k) 0 b c := by
  refine (Gx.mul hf hg).eq (by ring) ?_ ?_
  · linear_combination (-b) * h
  · linear_combination (-c + b * e1 * ρ) * h
/-- a second-order quantity times any coefficient -/
theorem mulOk (hf : Bk A v w z y e1 ρ f 0 c) (hg : Ok A v w z y g) : ∃ c', Bk A v w z y e1 ρ (fun h i j k => f h i j k * g h i j k) 0 c' :=
  let ⟨_, _, _, hg⟩ := hg; ⟨_, (Bk.cmul hg hf).congr' (fun _ _ _ _ => mul_comm _ _) |>.eq (mul_zero _).symm rfl⟩
/-- a third-order quantity times any coefficient -/
theorem mulOk3 (hf : Gx A v w z y f 0 0 0) (hg : Ok A v w z y g) : Bk A v w z y e1 ρ (fun h i j k => f h i j k * g h i j k) 0 0 :=
  let ⟨_, _, _, hg⟩ := hg; (Gx.mul hf hg).eq (by ring) (by ring) (by ring)
theorem gx (h : Bk A v w z y e1 ρ f b c) : Gx A v w z y f 0 (b * ρ) (c * ρ - b * e1 * ρ ^ 2) := h
end Bk
end Mpdata
