import Verif.Lemmas.Vel3
import Verif.Lemmas.Shift23
import Verif.Lemmas.CyclicN
/-! # Expansions of functions on an n-dimensional grid, and of the 2-D and 3-D antidiffusive velocities on it -/
set_option linter.unusedSectionVars false
set_option linter.unusedVariables false
set_option linter.unusedSimpArgs false
namespace Mpdata
variable {n : Nat} {K R : Type} [Field K] [LinearOrder K] [IsStrictOrderedRing K] [CommRing R] [Algebra K R]

/-- unit vectors and grid points, in units of the spacing -/
def ux (d : Fin n) : Fin n → K := Pi.single d 1
def px (x : Idx n) : Fin n → K := fun e => (x e : K)
theorem px_step (x : Idx n) (d : Fin n) (k : Int) : (px (stepIdx x d k) : Fin n → K) = px x + (k : K) • ux d := by
  funext e
  by_cases h : e = d
  · subst h; simp [px, stepIdx, ux]
  · simp [px, stepIdx, ux, h]
theorem px_zero : (px (0 : Idx n) : Fin n → K) = 0 := by funext e; simp [px]

/-- grid function with the expansion `F` at the points displaced by `y` from the grid points -/
def GN (A : DAlg n K R) (y : Fin n → K) (f : K → Idx n → K) (F : HX R) : Prop := ∀ x : Idx n, Jet (fun h => f h x) (A.jd (A.dir (y + px x)) F)

local macro "vec" : tactic => `(tactic| (push_cast; module))
namespace GN
variable {A : DAlg n K R} {y : Fin n → K} {f g : K → Idx n → K} {F G : HX R}
theorem congr' (hf : GN A y f F) (e : ∀ h x, g h x = f h x) : GN A y g F := fun x => (hf x).congr' fun h => e h x
theorem eq {F' : HX R} (hf : GN A y f F) (e : F' = F) : GN A y f F' := e ▸ hf
theorem add (hf : GN A y f F) (hg : GN A y g G) : GN A y (fun h x => f h x + g h x) (F + G) := fun x => by rw [DAlg.jd_add]; exact (hf x).add (hg x)
theorem sub (hf : GN A y f F) (hg : GN A y g G) : GN A y (fun h x => f h x - g h x) (F - G) := fun x => by rw [DAlg.jd_sub]; exact (hf x).sub (hg x)
theorem mul (hf : GN A y f F) (hg : GN A y g G) : GN A y (fun h x => f h x * g h x) (F * G) := fun x => by rw [DAlg.jd_mul]; exact (hf x).mul (hg x)
theorem smul (c : K) (hf : GN A y f F) : GN A y (fun h x => c * f h x) (c • F) := fun x => by rw [DAlg.jd_smul]; exact (Jet.const c).mul (hf x)
theorem zero : GN A y (fun _ _ => 0) (HX.C (0 : R)) := fun x => by
  have := DAlg.jd_C (A := A) (E := A.dir (y + px x)) (0 : K); rw [map_zero] at this; rw [this]; exact Jet.const 0
theorem div {ι : R} (hf : GN A y f F) (hg : GN A y g G) (h : G.a * ι = 1) : GN A y (fun h x => f h x / g h x) (F * HX.inv ι G) := fun x => by
  rw [DAlg.jd_mul, DAlg.jd_inv h]
  refine ((hf x).mul ((hg x).inv ?_)).congr' fun h => div_eq_mul_inv _ _
  show A.ε G.a ≠ 0
  intro e
  have := congrArg A.ε h
  rw [map_mul, e, zero_mul, map_one] at this
  exact zero_ne_one this
theorem abs_sgn {s : K} (hf : GN A y f F) (hs : (s = 1 ∧ 0 < A.ε F.a) ∨ (s = -1 ∧ A.ε F.a < 0)) : GN A y (fun h x => |f h x|) (s • F) := fun x => by
  rw [DAlg.jd_smul]; exact Jet.abs_sgn (hf x) hs
theorem abs_lead {s : K} (hf : GN A y f F) (h0 : F.a = 0) (hs : (s = 1 ∧ 0 < A.ε F.b) ∨ (s = -1 ∧ A.ε F.b < 0)) : GN A y (fun h x => |f h x|) (s • F) := fun x => by
  rw [DAlg.jd_smul]
  refine Jet.abs_lead (hf x) ?_ ?_
  · show A.ε F.a = 0; rw [h0, map_zero]
  · show (_ ∧ 0 < A.ε (A.dir _ F.a) + A.ε F.b) ∨ (_ ∧ A.ε (A.dir _ F.a) + A.ε F.b < 0)
    rw [h0, map_zero, map_zero, zero_add]; exact hs
theorem avN (d : Fin n) (hf : GN A y f F) : GN A (y + (1 / 2 : K) • ux d) (fun h x => (f h (stepIdx x d 1) + f h x) / 2) (HX.av (A.dir (ux d)) F) := fun x =>
  Gr3.av_jet (hf (stepIdx x d 1)) (hf x) (by rw [px_step]; vec) (by vec)
theorem difN (d : Fin n) (hf : GN A y f F) : GN A (y + (1 / 2 : K) • ux d) (fun h x => f h (stepIdx x d 1) - f h x) (HX.dif (A.dir (ux d)) F) := fun x =>
  Gr3.dif_jet (hf (stepIdx x d 1)) (hf x) (by rw [px_step]; vec) (by vec)
theorem difF (d : Fin n) (hf : GN A (y + (1 / 2 : K) • ux d) f F) : GN A y (fun h x => f h x - f h (stepIdx x d (-1))) (HX.dif (A.dir (ux d)) F) := fun x =>
  Gr3.dif_jet (hf x) (hf (stepIdx x d (-1))) (by vec) (by rw [px_step]; vec)
theorem sum {ι : Type} (s : Finset ι) {f : ι → K → Idx n → K} {F : ι → HX R} (hf : ∀ d, GN A y (f d) (F d)) :
    GN A y (fun h x => ∑ d ∈ s, f d h x) ⟨∑ d ∈ s, (F d).a, ∑ d ∈ s, (F d).b, ∑ d ∈ s, (F d).c, ∑ d ∈ s, (F d).d⟩ := by
  classical
  induction s using Finset.induction_on with
  | empty => exact GN.zero.congr' fun h x => by simp
  | insert a s ha ih => refine (((hf a).add ih).congr' fun h x => Finset.sum_insert ha).eq ?_; ext <;> simp [Finset.sum_insert ha]
end GN

/-- grid function with known leading coefficients -/
def Gn (A : DAlg n K R) (y : Fin n → K) (f : K → Idx n → K) (a b c : R) : Prop := ∃ d, GN A y f ⟨a, b, c, d⟩
namespace Gn
variable {A : DAlg n K R} {y : Fin n → K} {f g : K → Idx n → K} {F : HX R} {a b c a' b' c' : R}
theorem of (h : GN A y f F) : Gn A y f F.a F.b F.c := ⟨F.d, h⟩
theorem eq (h : Gn A y f a b c) (ha : a' = a) (hb : b' = b) (hc : c' = c) : Gn A y f a' b' c' := by subst ha hb hc; exact h
theorem congr' (h : Gn A y f a b c) (e : ∀ h x, g h x = f h x) : Gn A y g a b c := let ⟨d, h⟩ := h; ⟨d, h.congr' e⟩
theorem add (hf : Gn A y f a b c) (hg : Gn A y g a' b' c') : Gn A y (fun h x => f h x + g h x) (a + a') (b + b') (c + c') :=
  let ⟨_, hf⟩ := hf; let ⟨_, hg⟩ := hg; of (hf.add hg)
theorem sub (hf : Gn A y f a b c) (hg : Gn A y g a' b' c') : Gn A y (fun h x => f h x - g h x) (a - a') (b - b') (c - c') :=
  let ⟨_, hf⟩ := hf; let ⟨_, hg⟩ := hg; of (hf.sub hg)
theorem mul (hf : Gn A y f a b c) (hg : Gn A y g a' b' c') : Gn A y (fun h x => f h x * g h x) (a * a') (a * b' + b * a') (a * c' + b * b' + c * a') :=
  let ⟨_, hf⟩ := hf; let ⟨_, hg⟩ := hg; of (hf.mul hg)
theorem smul (k : K) (hf : Gn A y f a b c) : Gn A y (fun h x => k * f h x) (k • a) (k • b) (k • c) := let ⟨_, hf⟩ := hf; of (hf.smul k)
theorem abs_sgn {s : K} (hf : Gn A y f a b c) (hs : (s = 1 ∧ 0 < A.ε a) ∨ (s = -1 ∧ A.ε a < 0)) : Gn A y (fun h x => |f h x|) (s • a) (s • b) (s • c) :=
  let ⟨_, hf⟩ := hf; of (hf.abs_sgn hs)
theorem abs_lead {s : K} (hf : Gn A y f 0 b c) (hs : (s = 1 ∧ 0 < A.ε b) ∨ (s = -1 ∧ A.ε b < 0)) : Gn A y (fun h x => |f h x|) 0 (s • b) (s • c) :=
  let ⟨_, hf⟩ := hf; (of (hf.abs_lead rfl hs)).eq (smul_zero s).symm rfl rfl
theorem avN (d : Fin n) (hf : Gn A y f a b c) : Gn A (y + (1 / 2 : K) • ux d) (fun h x => (f h (stepIdx x d 1) + f h x) / 2) a b (c + (1 / 8 : K) • A.dir (ux d) (A.dir (ux d) a)) :=
  let ⟨_, hf⟩ := hf; of (hf.avN d)
theorem difN (d : Fin n) (hf : Gn A y f a b c) : Gn A (y + (1 / 2 : K) • ux d) (fun h x => f h (stepIdx x d 1) - f h x) 0 (A.dir (ux d) a) (A.dir (ux d) b) :=
  let ⟨_, hf⟩ := hf; of (hf.difN d)
end Gn

/-- a small quantity whose product with the normalising field `(1/ρ, e1)` is `b h + c h²` -/
def BN (A : DAlg n K R) (y : Fin n → K) (e1 ρ : R) (f : K → Idx n → K) (b c : R) : Prop := Gn A y f 0 (b * ρ) (c * ρ - b * e1 * ρ ^ 2)

/-- divergence divided by the G-factor -/
def DAlg.dv (A : DAlg n K R) (ι : R) (X : Fin n → R) : R := ι * ∑ e, A.dir (ux e) (X e)
namespace DAlg
variable {A : DAlg n K R} {ι : R}
theorem dv_add (X Y : Fin n → R) : A.dv ι (fun e => X e + Y e) = A.dv ι X + A.dv ι Y := by simp [dv, Finset.sum_add_distrib, mul_add]
theorem dv_smul (k : K) (X : Fin n → R) : A.dv ι (fun e => k • X e) = k • A.dv ι X := by simp [dv, Finset.smul_sum, Finset.mul_sum]
theorem dv_T (h : A.T ι = 0) (X : Fin n → R) : A.dv ι (fun e => A.T (X e)) = A.T (A.dv ι X) := by
  simp only [dv, Derivation.leibniz, h, smul_zero, add_zero, map_sum, smul_eq_mul, A.dir_T, mul_zero, add_zero]
end DAlg

/-- the fields that enter the antidiffusive velocity and their expansions -/
structure InN (A : DAlg n K R) (o : OptsT) (tiny : K) (st : K → Stat n K) (psi old : K → Sca n K) (U : K → Vec n K) (p q1 q2 : R) (a0 a1 a2 : Fin n → R) (g ι e0 e1 ρ : R) (s : Fin n → K) : Prop where
  H : AccOpts o tiny
  N : Nrm o p q1 e0 e1 ρ
  hn : ∀ h, isset o oNug = true ∨ ∀ x, (st h).G x = 1
  hf : Gn A 0 psi p q1 q2
  ho : Gn A 0 old p 0 0
  hU : ∀ d, Gn A (0 + (1 / 2 : K) • ux d) (fun h => U h d) (a0 d) (a1 d) (a2 d)
  hs : ∀ d, (s d = 1 ∧ 0 < A.ε (a0 d)) ∨ (s d = -1 ∧ A.ε (a0 d) < 0)
  hG : Gn A 0 (fun h => (st h).G) g 0 0
  hg : g * ι = 1

/-- what the velocity in direction `d` is to be in order to give second-order accuracy, and what in addition third-order accuracy requires -/
def velB (A : DAlg n K R) (p : R) (a0 : Fin n → R) (ι : R) (s : Fin n → K) (d : Fin n) : R :=
  (1 / 2 : K) • ((s d • a0 d) * A.dir (ux d) p - a0 d * A.dv ι (fun e => a0 e * p))
def velC (A : DAlg n K R) (ig : Bool) (si te : K) (p q1 : R) (a0 a1 na nt : Fin n → R) (ι ρ : R) (s z : Fin n → K) (d : Fin n) : R :=
  (1 / 2 : K) • ((s d • a1 d) * A.dir (ux d) p - a0 d * A.dv ι (fun e => a0 e * q1 + a1 e * p) + a1 d * q1)
    + (if ig = true then 0 else (1 / 2 : K) • ((z d • velB A p a0 ι s d) * A.dir (ux d) p * ρ))
    + (-(1 / 24) : K) • ((4 : K) • (a0 d * A.dir (ux d) (A.dir (ux d) p)) + (2 : K) • (A.dir (ux d) p * A.dir (ux d) (a0 d)) + si • (A.dir (ux d) (A.dir (ux d) (a0 d)) * p))
    + (1 / 24 : K) • ((8 : K) • (a0 d * A.dv ι (fun e => a0 e * q1)) + te • (nt d * p) + (2 : K) • (a0 d * A.dv ι (fun e => na e * p)) + (2 : K) • (na d * q1))

section two
variable {A : DAlg 2 K R} {y : Fin 2 → K} {f : K → Idx 2 → K} {F : HX R}
theorem idx2_eq (d : Fin 2) (x : Idx 2) : stepIdx (stepIdx 0 d (x d)) (d + 1) (x (d + 1)) = x := by
  funext e; revert d e; simp [Fin.forall_fin_two, stepIdx]
theorem px2_eq (d : Fin 2) (x : Idx 2) : (px x : Fin 2 → K) = (x d : K) • ux d + (x (d + 1) : K) • ux (d + 1) := by
  conv_lhs => rw [← idx2_eq d x]
  rw [px_step, px_step, px_zero, zero_add]
theorem GN.view2 (hf : GN A y f F) (d : Fin 2) : Gr3 A (ux d) (ux (d + 1)) 0 y (fun h i j _ => Mpdata.view2 d 0 (f h) i j) F := fun i j k => by
  have := hf (stepIdx (stepIdx 0 d i) (d + 1) j)
  rw [px_step, px_step, px_zero, zero_add, ← add_assoc] at this
  rw [smul_zero, add_zero]; exact this
theorem Gn.view2 {a b c : R} (hf : Gn A y f a b c) (d : Fin 2) : G2 A (ux d) (ux (d + 1)) y (fun h i j => Mpdata.view2 d 0 (f h) i j) a b c := let ⟨e, h⟩ := hf; ⟨e, h.view2 d⟩
theorem Gn.of_view2 {g : K → Int → Int → K} {a b c : R} {d : Fin 2} (hf : G2 A (ux d) (ux (d + 1)) y g a b c) (e : ∀ h x, f h x = g h (x d) (x (d + 1))) : Gn A y f a b c := by
  obtain ⟨k, hf⟩ := hf
  refine ⟨k, fun x => ((hf (x d) (x (d + 1)) 0).congr' fun h => e h x).rfl' ?_⟩
  rw [smul_zero, add_zero, add_assoc, ← px2_eq]
theorem view2_sh (d : Fin 2) (x : Idx 2) (a : Sca 2 K) : view2 d x a = sh2 (x d) (x (d + 1)) (view2 d 0 a) := by
  funext i j
  refine congrArg a ?_
  funext e; revert d e; simp [Fin.forall_fin_two, stepIdx]
theorem vel2_eq (o : OptsT) (si te) (tiny : K) (d : Fin 2) (st : Stat 2 K) (psi old : Sca 2 K) (U : Vec 2 K) (x : Idx 2) : (formulae2 o si te tiny).vel d st psi old U x =
    antidiff2 o si te tiny (view2 d 0 psi) (view2 d 0 old) (view2 d 0 (U d)) (view2 d 0 (U (d + 1))) (view2 d 0 (st.ndt d)) (view2 d 0 (st.ndt (d + 1))) (view2 d 0 (st.ndtt d)) (view2 d 0 st.G) (x d) (x (d + 1)) := by
  simp only [formulae2, view2_sh d x, antidiff2_sh, add_zero]
theorem dv2 (d : Fin 2) (ι : R) (X : Fin 2 → R) : A.dv ι X = ι * (A.dir (ux d) (X d) + A.dir (ux (d + 1)) (X (d + 1))) := by
  revert d; simp [DAlg.dv, Fin.forall_fin_two, Fin.sum_univ_two, add_comm]

variable {o : OptsT} {tiny : K} {st : K → Stat 2 K} {psi old : K → Sca 2 K} {U : K → Vec 2 K} {p q1 q2 : R} {a0 a1 a2 : Fin 2 → R} {g ι e0 e1 ρ : R} {s : Fin 2 → K}
theorem InN.in2 (I : InN A o tiny st psi old U p q1 q2 a0 a1 a2 g ι e0 e1 ρ s) (d : Fin 2) :
    In2 A (ux d) (ux (d + 1)) 0 o tiny (fun h => view2 d 0 (psi h)) (fun h => view2 d 0 (old h)) (fun h => view2 d 0 (U h d)) (fun h => view2 d 0 (U h (d + 1))) (fun h => view2 d 0 (st h).G)
      p q1 q2 (a0 d) (a1 d) (a2 d) (a0 (d + 1)) (a1 (d + 1)) (a2 (d + 1)) g ι e0 e1 ρ (s d) (s (d + 1)) where
  H := I.H
  N := I.N
  hn h := (I.hn h).imp id fun e i j => e _
  hf := I.hf.view2 d
  ho := I.ho.view2 d
  hga := (I.hU d).view2 d
  hgb := (I.hU (d + 1)).view2 d
  hs := I.hs d
  hsb := I.hs (d + 1)
  hG := I.hG.view2 d
  hg := I.hg
theorem second2 (I : InN A o tiny st psi old U p q1 q2 a0 a1 a2 g ι e0 e1 ρ s) (si te)
    (hopt : (isset o oDiv2 = true ∧ isset o oDiv3 = false ∧ isset o oDiv3dt = false) ∨ (isset o oDiv2 = false ∧ isset o oDiv3 = false ∧ isset o oDfl = true)) (d : Fin 2) :
    ∃ c, BN A (0 + (1 / 2 : K) • ux d) e1 ρ (fun h => (formulae2 o si te tiny).vel d (st h) (psi h) (old h) (U h)) (velB A p a0 ι s d) c := by
  unfold velB
  rw [dv2 d]
  rcases hopt with ⟨h2, h3, hd⟩ | ⟨h2, h3, hd⟩
  · have h := (div2_bk (I.in2 d)).add (fot2_bk (I.in2 d))
    refine ⟨_, Gn.of_view2 (d := d) ((Bk.congr' h fun h i j _ => ?_).eq (by simp) rfl) fun h x => vel2_eq o si te tiny d (st h) (psi h) (old h) (U h) x⟩
    simp only [antidiff2, div3rd2, h2, h3, hd, Bool.true_or, if_true, Bool.false_eq_true, if_false, add_zero]
  · obtain ⟨c, h⟩ := std2_bk (I.in2 d) h2 h3 hd si te (fun h => view2 d 0 ((st h).ndt d)) (fun h => view2 d 0 ((st h).ndt (d + 1))) (fun h => view2 d 0 ((st h).ndtt d))
    exact ⟨c, Gn.of_view2 (d := d) h fun h x => vel2_eq o si te tiny d (st h) (psi h) (old h) (U h) x⟩
theorem third2 (I : InN A o tiny st psi old U p q1 q2 a0 a1 a2 g ι e0 e1 ρ s) {si : SptlIntrp} {te : TmprlExtrp} {na na2 nt : Fin 2 → R} {z : Fin 2 → K}
    (hq : q1 = -A.dv ι (fun e => a0 e * p)) (hna : ∀ d, Gn A (0 + (1 / 2 : K) • ux d) (fun h => (st h).ndt d) 0 (na d) (na2 d)) (hnt : ∀ d, Gn A (0 + (1 / 2 : K) • ux d) (fun h => (st h).ndtt d) 0 0 (nt d))
    (hz : isset o oIga = true ∨ ∀ d, (z d = 1 ∧ 0 < A.ε (velB A p a0 ι s d * ρ)) ∨ (z d = -1 ∧ A.ε (velB A p a0 ι s d * ρ) < 0))
    (hopt : isset o oDiv3 = true ∨ (isset o oDiv3 = false ∧ isset o oDiv2 = true ∧ isset o oDiv3dt = true ∧ te = .noextrp)) (d : Fin 2) :
    BN A (0 + (1 / 2 : K) • ux d) e1 ρ (fun h => (formulae2 o si te tiny).vel d (st h) (psi h) (old h) (U h)) (velB A p a0 ι s d)
      (velC A (isset o oIga) (siFac si) (teFac te) p q1 a0 a1 na nt ι ρ s z d) := by
  have hb : velB A p a0 ι s d = (1 / 2 : K) • ((s d • a0 d) * A.dir (ux d) p + a0 d * q1) := by unfold velB; rw [hq, mul_neg, ← sub_eq_add_neg]
  have h := div3_bk (I.in2 d) (si := si) (te := te) (zz := z d) (by rw [hq, dv2 d]) ((hna d).view2 d) ((hna (d + 1)).view2 d) ((hnt d).view2 d)
    (hz.imp id fun e => by rw [← hb]; exact e d) hopt
  unfold velC
  rw [hb, dv2 d, dv2 d, dv2 d]
  exact Gn.of_view2 (d := d) h fun h x => vel2_eq o si te tiny d (st h) (psi h) (old h) (U h) x
end two

section three
variable {A : DAlg 3 K R} {y : Fin 3 → K} {f : K → Idx 3 → K} {F : HX R}
theorem idx3_eq (d : Fin 3) (x : Idx 3) : stepIdx (stepIdx (stepIdx 0 d (x d)) (d + 1) (x (d + 1))) (d + 2) (x (d + 2)) = x := by
  funext e; fin_cases d <;> fin_cases e <;> simp [stepIdx]
theorem px3_eq (d : Fin 3) (x : Idx 3) : (px x : Fin 3 → K) = (x d : K) • ux d + (x (d + 1) : K) • ux (d + 1) + (x (d + 2) : K) • ux (d + 2) := by
  conv_lhs => rw [← idx3_eq d x]
  rw [px_step, px_step, px_step, px_zero, zero_add]
theorem GN.view3 (hf : GN A y f F) (d : Fin 3) : Gr3 A (ux d) (ux (d + 1)) (ux (d + 2)) y (fun h i j k => Mpdata.view3 d 0 (f h) i j k) F := fun i j k => by
  have := hf (stepIdx (stepIdx (stepIdx 0 d i) (d + 1) j) (d + 2) k)
  rw [px_step, px_step, px_step, px_zero, zero_add, ← add_assoc, ← add_assoc] at this
  exact this
theorem Gn.view3 {a b c : R} (hf : Gn A y f a b c) (d : Fin 3) : Gx A (ux d) (ux (d + 1)) (ux (d + 2)) y (fun h i j k => Mpdata.view3 d 0 (f h) i j k) a b c := let ⟨e, h⟩ := hf; ⟨e, h.view3 d⟩
theorem Gn.of_view3 {g : K → Int → Int → Int → K} {a b c : R} {d : Fin 3} (hf : Gx A (ux d) (ux (d + 1)) (ux (d + 2)) y g a b c) (e : ∀ h x, f h x = g h (x d) (x (d + 1)) (x (d + 2))) : Gn A y f a b c := by
  obtain ⟨k, hf⟩ := hf
  refine ⟨k, fun x => ((hf (x d) (x (d + 1)) (x (d + 2))).congr' fun h => e h x).rfl' ?_⟩
  rw [px3_eq d, ← add_assoc, ← add_assoc]
theorem view3_sh (d : Fin 3) (x : Idx 3) (a : Sca 3 K) : view3 d x a = sh3 (x d) (x (d + 1)) (x (d + 2)) (view3 d 0 a) := by
  funext i j k
  refine congrArg a ?_
  funext e; fin_cases d <;> fin_cases e <;> simp [stepIdx]
theorem vel3_eq (o : OptsT) (si te) (tiny : K) (d : Fin 3) (st : Stat 3 K) (psi old : Sca 3 K) (U : Vec 3 K) (x : Idx 3) : (formulae3 o si te tiny).vel d st psi old U x =
    antidiff3 o si te tiny (view3 d 0 psi) (view3 d 0 old) (view3 d 0 (U d)) (view3 d 0 (U (d + 1))) (view3 d 0 (U (d + 2))) (view3 d 0 (st.ndt d)) (view3 d 0 (st.ndt (d + 1))) (view3 d 0 (st.ndt (d + 2)))
      (view3 d 0 (st.ndtt d)) (view3 d 0 st.G) (x d) (x (d + 1)) (x (d + 2)) := by
  simp only [formulae3, view3_sh d x, antidiff3_sh, add_zero]
theorem dv3 (d : Fin 3) (ι : R) (X : Fin 3 → R) : A.dv ι X = ι * (A.dir (ux d) (X d) + A.dir (ux (d + 1)) (X (d + 1)) + A.dir (ux (d + 2)) (X (d + 2))) := by
  simp only [DAlg.dv, Fin.sum_univ_three]
  fin_cases d
  · rfl
  · show _ = ι * (A.dir (ux 1) (X 1) + A.dir (ux 2) (X 2) + A.dir (ux 0) (X 0)); ring
  · show _ = ι * (A.dir (ux 2) (X 2) + A.dir (ux 0) (X 0) + A.dir (ux 1) (X 1)); ring

variable {o : OptsT} {tiny : K} {st : K → Stat 3 K} {psi old : K → Sca 3 K} {U : K → Vec 3 K} {p q1 q2 : R} {a0 a1 a2 : Fin 3 → R} {g ι e0 e1 ρ : R} {s : Fin 3 → K}
theorem InN.in3 (I : InN A o tiny st psi old U p q1 q2 a0 a1 a2 g ι e0 e1 ρ s) (d : Fin 3) :
    In3 A (ux d) (ux (d + 1)) (ux (d + 2)) 0 o tiny (fun h => view3 d 0 (psi h)) (fun h => view3 d 0 (old h)) (fun h => view3 d 0 (U h d)) (fun h => view3 d 0 (U h (d + 1))) (fun h => view3 d 0 (U h (d + 2))) (fun h => view3 d 0 (st h).G)
      p q1 q2 (a0 d) (a1 d) (a2 d) (a0 (d + 1)) (a1 (d + 1)) (a2 (d + 1)) (a0 (d + 2)) (a1 (d + 2)) (a2 (d + 2)) g ι e0 e1 ρ (s d) where
  H := I.H
  N := I.N
  hn h := (I.hn h).imp id fun e i j k => e _
  hf := I.hf.view3 d
  ho := I.ho.view3 d
  hga := (I.hU d).view3 d
  hgb := (I.hU (d + 1)).view3 d
  hgc := (I.hU (d + 2)).view3 d
  hs := I.hs d
  hG := I.hG.view3 d
  hg := I.hg
theorem second3 (I : InN A o tiny st psi old U p q1 q2 a0 a1 a2 g ι e0 e1 ρ s) (si te)
    (hopt : (isset o oDiv2 = true ∧ isset o oDiv3 = false ∧ isset o oDiv3dt = false) ∨ (isset o oDiv2 = false ∧ isset o oDiv3 = false ∧ isset o oDfl = true)) (d : Fin 3) :
    ∃ c, BN A (0 + (1 / 2 : K) • ux d) e1 ρ (fun h => (formulae3 o si te tiny).vel d (st h) (psi h) (old h) (U h)) (velB A p a0 ι s d) c := by
  unfold velB
  rw [dv3 d]
  rcases hopt with ⟨h2, h3, hd⟩ | ⟨h2, h3, hd⟩
  · refine ⟨_, Gn.of_view3 (d := d) (Bk.congr' (div2_3_bk (I.in3 d)) fun h i j k => ?_) fun h x => vel3_eq o si te tiny d (st h) (psi h) (old h) (U h) x⟩
    simp only [antidiff3, div3rd3, h2, h3, hd, Bool.true_or, if_true, Bool.false_eq_true, if_false, add_zero]
  · obtain ⟨c, h⟩ := std3_bk (I.in3 d) h2 h3 hd si te (fun h => view3 d 0 ((st h).ndt d)) (fun h => view3 d 0 ((st h).ndt (d + 1))) (fun h => view3 d 0 ((st h).ndt (d + 2))) (fun h => view3 d 0 ((st h).ndtt d))
    exact ⟨c, Gn.of_view3 (d := d) h fun h x => vel3_eq o si te tiny d (st h) (psi h) (old h) (U h) x⟩
theorem third3 (I : InN A o tiny st psi old U p q1 q2 a0 a1 a2 g ι e0 e1 ρ s) {si : SptlIntrp} {te : TmprlExtrp} {na na2 nt : Fin 3 → R} {z : Fin 3 → K}
    (hq : q1 = -A.dv ι (fun e => a0 e * p)) (hna : ∀ d, Gn A (0 + (1 / 2 : K) • ux d) (fun h => (st h).ndt d) 0 (na d) (na2 d)) (hnt : ∀ d, Gn A (0 + (1 / 2 : K) • ux d) (fun h => (st h).ndtt d) 0 0 (nt d))
    (hz : isset o oIga = true ∨ ∀ d, (z d = 1 ∧ 0 < A.ε (velB A p a0 ι s d * ρ)) ∨ (z d = -1 ∧ A.ε (velB A p a0 ι s d * ρ) < 0))
    (hopt : isset o oDiv3 = true ∨ (isset o oDiv3 = false ∧ isset o oDiv2 = true ∧ isset o oDiv3dt = true)) (d : Fin 3) :
    BN A (0 + (1 / 2 : K) • ux d) e1 ρ (fun h => (formulae3 o si te tiny).vel d (st h) (psi h) (old h) (U h)) (velB A p a0 ι s d)
      (velC A (isset o oIga) (siFac si) (teFac te) p q1 a0 a1 na nt ι ρ s z d) := by
  have hb : velB A p a0 ι s d = (1 / 2 : K) • ((s d • a0 d) * A.dir (ux d) p + a0 d * q1) := by unfold velB; rw [hq, mul_neg, ← sub_eq_add_neg]
  have h := div3_3_bk (I.in3 d) (si := si) (te := te) (zz := z d) (by rw [hq, dv3 d]) ((hna d).view3 d) ((hna (d + 1)).view3 d) ((hna (d + 2)).view3 d) ((hnt d).view3 d)
    (hz.imp id fun e => by rw [← hb]; exact e d) hopt
  unfold velC
  rw [hb, dv3 d, dv3 d, dv3 d]
  exact Gn.of_view3 (d := d) h fun h x => vel3_eq o si te tiny d (st h) (psi h) (old h) (U h) x
end three
end Mpdata
