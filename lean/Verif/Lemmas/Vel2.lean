import Verif.Lemmas.Gx
import Verif.Model.Antidiff2
/-! # Expansion of the 2-D antidiffusive velocity -/
set_option linter.unusedSectionVars false
set_option linter.unusedVariables false
set_option linter.unusedSimpArgs false
namespace Mpdata
variable {n : Nat} {K R : Type} [Field K] [LinearOrder K] [IsStrictOrderedRing K] [CommRing R] [Algebra K R]

/-- normalising field of the velocities: one in the infinite-gauge scheme, the mean of the field in the basic scheme -/
structure Nrm (o : OptsT) (p q1 e0 e1 ρ : R) : Prop where
  one : e0 * ρ = 1
  cases : (isset o oIga = true ∧ e0 = 1 ∧ e1 = 0) ∨ (isset o oIga = false ∧ e0 = p ∧ e1 = q1)

section
variable {A : DAlg n K R} {v w z y Y : Fin n → K} {o : OptsT} {tiny : K} {p q1 q2 c e0 e1 ρ : R} {m : K → Int → Int → Int → K}

theorem Nrm.den (N : Nrm o p q1 e0 e1 ρ) (hm : Gx A v w z Y m p q1 c) : ∃ c, Gx A v w z Y (fun h i j k => if isset o oIga = true then 1 else m h i j k) e0 e1 c := by
  rcases N.cases with ⟨hi, rfl, rfl⟩ | ⟨hi, rfl, rfl⟩
  · exact ⟨0, Gx.one.congr' fun _ _ _ _ => by simp [hi]⟩
  · exact ⟨c, hm.congr' fun _ _ _ _ => by simp [hi]⟩
theorem Nrm.den0 {b : R} (N : Nrm o p q1 e0 e1 ρ) (hm : Gx A v w z Y m p b c) : ∃ b c, Gx A v w z Y (fun h i j k => if isset o oIga = true then 1 else m h i j k) e0 b c := by
  rcases N.cases with ⟨hi, rfl, rfl⟩ | ⟨hi, rfl, rfl⟩
  · exact ⟨0, 0, Gx.one.congr' fun _ _ _ _ => by simp [hi]⟩
  · exact ⟨b, c, hm.congr' fun _ _ _ _ => by simp [hi]⟩
theorem Nrm.com (N : Nrm o p q1 e0 e1 ρ) (hm : Gx A v w z Y m p q1 c) :
    ∃ m0 m1 m2, Gx A v w z Y (fun h i j k => if isset o oIga = true then m h i j k else 1) m0 m1 m2 ∧ m0 * e0 = p ∧ m0 * e1 + m1 * e0 = q1 := by
  rcases N.cases with ⟨hi, rfl, rfl⟩ | ⟨hi, rfl, rfl⟩
  · exact ⟨p, q1, c, hm.congr' fun _ _ _ _ => by simp [hi], by ring, by ring⟩
  · exact ⟨1, 0, 0, Gx.one.congr' fun _ _ _ _ => by simp [hi], by ring, by ring⟩
end

section
variable {A : DAlg n K R} {v w y : Fin n → K} {o : OptsT} {tiny : K} {psi old ga gb nda ndb ndtt G : K → Int → Int → K} {p q1 q2 a0 a1 a2 b0 b1 b2 na na2 nb nb2 nt g ι e0 e1 ρ : R} {s sb : K}

/-- 2-D grid functions -/
abbrev G2 (A : DAlg n K R) (v w : Fin n → K) (y : Fin n → K) (f : K → Int → Int → K) (a b c : R) : Prop := Gx A v w 0 y (fun h i j _ => f h i j) a b c
abbrev B2 (A : DAlg n K R) (v w : Fin n → K) (y : Fin n → K) (e1 ρ : R) (f : K → Int → Int → K) (b c : R) : Prop := Bk A v w 0 y e1 ρ (fun h i j _ => f h i j) b c

theorem psiBarX2_gx (ha : isset o oAbs = false) (hf : G2 A v w y psi p q1 q2) :
    G2 A v w (y + (1 / 2 : K) • v) (fun h i j => psiBarX2 o (psi h) i j) p q1 (q2 + (1 / 8 : K) • A.dir v (A.dir v p)) :=
  hf.avN0.congr' fun h i j _ => by simp only [psiBarX2, vabs, ha, Bool.false_eq_true, if_false]
theorem psiBarY2_gx (ha : isset o oAbs = false) (hf : G2 A v w y psi p q1 q2) :
    G2 A v w (y + (1 / 2 : K) • w) (fun h i j => psiBarY2 o (psi h) i j) p q1 (q2 + (1 / 8 : K) • A.dir w (A.dir w p)) :=
  hf.avN1.congr' fun h i j _ => by simp only [psiBarY2, vabs, ha, Bool.false_eq_true, if_false]; ring
theorem psiBarXY2_gx (ha : isset o oAbs = false) (hf : G2 A v w y psi p q1 q2) :
    ∃ c, G2 A v w (y + (1 / 2 : K) • v + (1 / 2 : K) • w) (fun h i j => psiBarXY2 o (psi h) i j) p q1 c :=
  ⟨_, hf.avN0.avN1.congr' fun h i j _ => by simp only [psiBarXY2, vabs, ha, Bool.false_eq_true, if_false]; ring⟩
theorem gF2_eq {G : Ar2 K} (hn : isset o oNug = true ∨ ∀ i j, G i j = 1) (i j : Int) : gF2 o G i j = G i j := by
  unfold gF2; rcases hn with h | h
  · rw [if_pos h]
  · split_ifs <;> simp [h]
theorem gBarX2_gx (hn : ∀ h, isset o oNug = true ∨ ∀ i j, G h i j = 1) (hG : G2 A v w y G g 0 0) :
    ∃ c, G2 A v w (y + (1 / 2 : K) • v) (fun h i j => gBarX2 o (G h) i j) g 0 c := by
  refine ⟨_, hG.avN0.congr' fun h i j _ => ?_⟩
  simp only [gBarX2, gF2_eq (hn h)]
  rcases hn h with e | e
  · rw [if_pos e]
  · split_ifs <;> simp [e]
theorem gBarXY2_gx (hn : ∀ h, isset o oNug = true ∨ ∀ i j, G h i j = 1) (hG : G2 A v w y G g 0 0) :
    ∃ c, G2 A v w (y + (1 / 2 : K) • v + (1 / 2 : K) • w) (fun h i j => gBarXY2 o (G h) i j) g 0 c := by
  refine ⟨_, hG.avN0.avN1.congr' fun h i j _ => ?_⟩
  simp only [gBarXY2, gF2_eq (hn h)]
  rcases hn h with e | e
  · rw [if_pos e]; ring
  · split_ifs <;> simp [e]; norm_num
theorem gc0BarX2_gx (hga : G2 A v w (y + (1 / 2 : K) • v) ga a0 a1 a2) : ∃ c, G2 A v w y (fun h i j => gc0BarX2 (ga h) i j) a0 a1 c :=
  ⟨_, hga.avF0.congr' fun h i j _ => by simp only [gc0BarX2]⟩
theorem gc0BarXY2_gx (hga : G2 A v w (y + (1 / 2 : K) • v) ga a0 a1 a2) : ∃ c, G2 A v w (y + (1 / 2 : K) • w) (fun h i j => gc0BarXY2 (ga h) i j) a0 a1 c :=
  ⟨_, hga.avF0.avN1.congr' fun h i j _ => by simp only [gc0BarXY2]; ring⟩
theorem gc1BarX2_gx (hgb : G2 A v w (y + (1 / 2 : K) • w) gb b0 b1 b2) : ∃ c, G2 A v w (y + (1 / 2 : K) • v + (1 / 2 : K) • w) (fun h i j => gc1BarX2 (gb h) i j) b0 b1 c :=
  ⟨_, (hgb.avN0.base (add_right_comm _ _ _)).congr' fun h i j _ => by simp only [gc1BarX2]⟩
theorem gc1BarXY2_gx (hgb : G2 A v w (y + (1 / 2 : K) • w) gb b0 b1 b2) : ∃ c, G2 A v w (y + (1 / 2 : K) • v) (fun h i j => gc1BarXY2 (gb h) i j) b0 b1 c :=
  ⟨_, (hgb.avN0.base (add_right_comm _ _ _)).avF1.congr' fun h i j _ => by simp only [gc1BarXY2]; ring⟩

/-- means over two, four, six and eight points -/
theorem mean6_gx (hf : G2 A v w y psi p q1 q2) : ∃ c, G2 A v w (y + (1 / 2 : K) • v)
    (fun h i j => (psi h (i + 1) j + psi h i j + psi h i (j + 1) + psi h (i + 1) (j + 1) + psi h i (j - 1) + psi h (i + 1) (j - 1)) / 6) p q1 c := by
  refine ⟨_, (((((hf.avN1.avF1).smul 4).sub hf).smul (1 / 3)).avN0.congr' fun h i j _ => ?_).eq ?_ ?_ rfl⟩
  · simp only [sub_add_cancel]; ring
  · algebra
  · algebra
theorem mean4x_gx (hf : G2 A v w y psi p q1 q2) : ∃ c, G2 A v w (y + (1 / 2 : K) • v)
    (fun h i j => (psi h (i + 2) j + psi h (i + 1) j + psi h i j + psi h (i - 1) j) / 4) p q1 c := by
  refine ⟨_, (((hf.avN0.avF0.avN0.smul 2).sub hf.avN0).congr' fun h i j _ => ?_).eq ?_ ?_ rfl⟩
  · simp only [add_sub_cancel_right, sub_add_cancel, add_assoc]; norm_num; ring
  · algebra
  · algebra
theorem mean4y_gx (hf : G2 A v w y psi p q1 q2) : ∃ c, G2 A v w (y + (1 / 2 : K) • v)
    (fun h i j => (psi h (i + 1) (j + 1) + psi h i (j + 1) + psi h (i + 1) (j - 1) + psi h i (j - 1)) / 4) p q1 c := by
  refine ⟨_, (((hf.avN1.avF1.smul 2).sub hf).avN0.congr' fun h i j _ => ?_).eq ?_ ?_ rfl⟩
  · simp only [sub_add_cancel]; ring
  · algebra
  · algebra
theorem mean8_gx (ha : isset o oAbs = false) (hf : G2 A v w y psi p q1 q2) : ∃ c, G2 A v w (y + (1 / 2 : K) • v) (fun h i j => sum8_2 o (psi h) i j / 8) p q1 c := by
  obtain ⟨_, h1⟩ := mean4x_gx hf
  obtain ⟨_, h2⟩ := mean4y_gx hf
  refine ⟨_, (((h1.add h2).smul (1 / 2)).congr' fun h i j _ => ?_).eq ?_ ?_ rfl⟩
  · simp only [sum8_2, vabs, ha, Bool.false_eq_true, if_false]; ring
  · algebra
  · algebra

theorem ndx2_bk (H : AccOpts o tiny) (N : Nrm o p q1 e0 e1 ρ) (hf : G2 A v w y psi p q1 q2) :
    B2 A v w (y + (1 / 2 : K) • v) e1 ρ (fun h i j => ndxPsi2 o tiny (psi h) i j) (A.dir v p) (A.dir v q1) := by
  obtain ⟨_, hd⟩ := N.den hf.avN0
  refine (Bk.div hf.difN0 hd N.one).congr' fun h i j _ => ?_
  cases hi : isset o oIga
  · simp only [ndxPsi2, vabs, hi, H.ha, Bool.false_eq_true, if_false, frac_eq (H.hp.resolve_left (by simp [hi]))]; rw [div_div_eq_mul_div]; ring
  · simp only [ndxPsi2, hi, if_true]; ring
theorem ndy2_bk (H : AccOpts o tiny) (N : Nrm o p q1 e0 e1 ρ) (hf : G2 A v w y psi p q1 q2) :
    B2 A v w (y + (1 / 2 : K) • v) e1 ρ (fun h i j => ndyPsi2 o tiny (psi h) i j) (A.dir w p) (A.dir w q1) := by
  obtain ⟨_, hm⟩ := mean4y_gx hf
  obtain ⟨_, hd⟩ := N.den hm
  refine ((Bk.div hf.avN1.difF1.avN0 hd N.one).congr' fun h i j _ => ?_).eq rfl (by simp)
  cases hi : isset o oIga
  · simp only [ndyPsi2, vabs, hi, H.ha, Bool.false_eq_true, if_false, frac_eq (H.hp.resolve_left (by simp [hi]))]; rw [div_div_eq_mul_div]; ring_nf
  · simp only [ndyPsi2, hi, if_true]; ring_nf
theorem ndxx2_bk (H : AccOpts o tiny) (N : Nrm o p q1 e0 e1 ρ) (hf : G2 A v w y psi p q1 q2) :
    B2 A v w (y + (1 / 2 : K) • v) e1 ρ (fun h i j => ndxxPsi2 o tiny (psi h) i j) 0 (A.dir v (A.dir v p)) := by
  obtain ⟨_, hm⟩ := mean4x_gx hf
  obtain ⟨_, hd⟩ := N.den hm
  refine ((Bk.div hf.difN0.avF0.difN0 hd N.one).congr' fun h i j _ => ?_).eq (map_zero _).symm rfl
  cases hi : isset o oIga
  · simp only [ndxxPsi2, vabs, hi, H.ha, Bool.false_eq_true, if_false, frac_eq (H.hp.resolve_left (by simp [hi])), add_sub_cancel_right, sub_add_cancel, add_assoc]; norm_num
    rw [div_div_eq_mul_div]; ring
  · simp only [ndxxPsi2, hi, if_true, add_sub_cancel_right, sub_add_cancel, add_assoc]; norm_num; ring
theorem ndxy2_bk (H : AccOpts o tiny) (N : Nrm o p q1 e0 e1 ρ) (hf : G2 A v w y psi p q1 q2) :
    B2 A v w (y + (1 / 2 : K) • v) e1 ρ (fun h i j => ndxyPsi2 o tiny (psi h) i j) 0 (A.dir v (A.dir w p)) := by
  obtain ⟨_, hm⟩ := mean4y_gx hf
  obtain ⟨_, hd⟩ := N.den hm
  refine ((Bk.div hf.avN1.difF1.difN0 hd N.one).congr' fun h i j _ => ?_).eq (map_zero _).symm rfl
  cases hi : isset o oIga
  · simp only [ndxyPsi2, vabs, hi, H.ha, Bool.false_eq_true, if_false, frac_eq (H.hp.resolve_left (by simp [hi]))]; rw [div_div_eq_mul_div]; ring_nf
  · simp only [ndxyPsi2, hi, if_true]; ring_nf
theorem ndxGC2_gx (hga : G2 A v w (y + (1 / 2 : K) • v) ga a0 a1 a2) : G2 A v w (y + (1 / 2 : K) • v) (fun h i j => ndxGC02 (ga h) i j) 0 (A.dir v a0) (A.dir v a1) :=
  hga.avF0.difN0.congr' fun h i j _ => by simp only [ndxGC02, add_sub_cancel_right]; ring

/-- flux divergence at the faces, for any face field `(a0, a1)`, `(b0, b1)` -/
theorem nfdiv2_bk (H : AccOpts o tiny) (N : Nrm o p q1 e0 e1 ρ) (hn : ∀ h, isset o oNug = true ∨ ∀ i j, G h i j = 1) (hf : G2 A v w y psi p q1 q2)
    (hga : G2 A v w (y + (1 / 2 : K) • v) ga a0 a1 a2) (hgb : G2 A v w (y + (1 / 2 : K) • w) gb b0 b1 b2) (hG : G2 A v w y G g 0 0) (hg : g * ι = 1) :
    B2 A v w (y + (1 / 2 : K) • v) e1 ρ (fun h i j => nfdiv2 o tiny (psi h) (ga h) (gb h) (G h) i j) (ι * (A.dir v (a0 * p) + A.dir w (b0 * p)))
      (ι * (A.dir v (a0 * q1 + a1 * p) + A.dir w (b0 * q1 + b1 * p))) := by
  obtain ⟨_, hm⟩ := mean6_gx hf
  obtain ⟨_, hd⟩ := N.den hm
  obtain ⟨_, hgx⟩ := gBarX2_gx hn hG
  obtain ⟨_, h1⟩ := gc0BarX2_gx hga
  obtain ⟨_, h2⟩ := gc1BarX2_gx hgb
  obtain ⟨_, h3⟩ := psiBarXY2_gx H.ha hf
  have hN : G2 A v w (y + (1 / 2 : K) • v) (fun h i j => gc0BarX2 (ga h) (i + 1) j * psi h (i + 1) j - gc0BarX2 (ga h) i j * psi h i j
      + (gc1BarX2 (gb h) i j * psiBarXY2 o (psi h) i j - gc1BarX2 (gb h) i (j - 1) * psiBarXY2 o (psi h) i (j - 1))) 0 (A.dir v (a0 * p) + A.dir w (b0 * p))
      (A.dir v (a0 * q1 + a1 * p) + A.dir w (b0 * q1 + b1 * p)) :=
    ((h1.mul hf).difN0.add (h2.mul h3).difF1).eq (add_zero 0).symm rfl rfl
  refine ((Bk.div (hN.div0 hgx hg) hd N.one).congr' fun h i j _ => ?_).eq (mul_comm _ _) ?_
  · cases hi : isset o oIga
    · simp only [nfdiv2, vabs, hi, H.ha, Bool.false_eq_true, if_false, frac_eq (H.hp.resolve_left (by simp [hi]))]
      rw [div_div_eq_mul_div, ← mul_div_assoc, div_mul_eq_mul_div, div_div]; ring_nf
    · simp only [nfdiv2, hi, if_true]; ring_nf
  · ring

theorem fdivCentre2_gx (ha : isset o oAbs = false) (hn : ∀ h, isset o oNug = true ∨ ∀ i j, G h i j = 1) (hf : G2 A v w y psi p q1 q2)
    (hga : G2 A v w (y + (1 / 2 : K) • v) ga a0 a1 a2) (hgb : G2 A v w (y + (1 / 2 : K) • w) gb b0 b1 b2) (hG : G2 A v w y G g 0 0) (hg : g * ι = 1) :
    ∃ c, G2 A v w y (fun h i j => fdivCentre2 o (psi h) (ga h) (gb h) (G h) i j) 0 (ι * (A.dir v (a0 * p) + A.dir w (b0 * p))) c := by
  have hN : G2 A v w y (fun h i j => ga h i j * psiBarX2 o (psi h) i j - ga h (i - 1) j * psiBarX2 o (psi h) (i - 1) j
      + (gb h i j * psiBarY2 o (psi h) i j - gb h i (j - 1) * psiBarY2 o (psi h) i (j - 1))) 0 (A.dir v (a0 * p) + A.dir w (b0 * p))
      (A.dir v (a0 * q1 + a1 * p) + A.dir w (b0 * q1 + b1 * p)) :=
    ((hga.mul (psiBarX2_gx ha hf)).difF0.add (hgb.mul (psiBarY2_gx ha hf)).difF1).eq (add_zero 0).symm rfl rfl
  refine ⟨_, ((hN.div0 hG hg).congr' fun h i j _ => ?_).eq rfl (mul_comm _ _) rfl⟩
  simp only [fdivCentre2, gF2_eq (hn h)]; ring
theorem fdivCorner2_gx (ha : isset o oAbs = false) (hn : ∀ h, isset o oNug = true ∨ ∀ i j, G h i j = 1) (hf : G2 A v w y psi p q1 q2)
    (hga : G2 A v w (y + (1 / 2 : K) • v) ga a0 a1 a2) (hgb : G2 A v w (y + (1 / 2 : K) • w) gb b0 b1 b2) (hG : G2 A v w y G g 0 0) (hg : g * ι = 1) :
    ∃ c, G2 A v w (y + (1 / 2 : K) • v + (1 / 2 : K) • w) (fun h i j => fdivCornerXY2 o (psi h) (ga h) (gb h) (G h) i j) 0 (ι * (A.dir v (a0 * p) + A.dir w (b0 * p))) c := by
  obtain ⟨_, hgx⟩ := gBarXY2_gx hn hG
  obtain ⟨_, h1⟩ := gc0BarXY2_gx hga
  obtain ⟨_, h2⟩ := gc1BarXY2_gx hgb
  have hN : G2 A v w (y + (1 / 2 : K) • v + (1 / 2 : K) • w) (fun h i j => gc0BarXY2 (ga h) (i + 1) j * psiBarY2 o (psi h) (i + 1) j - gc0BarXY2 (ga h) i j * psiBarY2 o (psi h) i j
      + (gc1BarXY2 (gb h) i (j + 1) * psiBarX2 o (psi h) i (j + 1) - gc1BarXY2 (gb h) i j * psiBarX2 o (psi h) i j)) 0 (A.dir v (a0 * p) + A.dir w (b0 * p))
      (A.dir v (a0 * q1 + a1 * p) + A.dir w (b0 * q1 + b1 * p)) :=
    (((h1.mul (psiBarY2_gx ha hf)).difN0.base (add_right_comm _ _ _)).add (h2.mul (psiBarX2_gx ha hf)).difN1).eq (add_zero 0).symm rfl rfl
  refine ⟨_, ((hN.div0 hgx hg).congr' fun h i j _ => ?_).eq rfl (mul_comm _ _) rfl⟩
  simp only [fdivCornerXY2]; ring
theorem nfdivFdiv2_bk (H : AccOpts o tiny) (N : Nrm o p q1 e0 e1 ρ) (hn : ∀ h, isset o oNug = true ∨ ∀ i j, G h i j = 1) (hf : G2 A v w y psi p q1 q2)
    (hga : G2 A v w (y + (1 / 2 : K) • v) ga a0 a1 a2) (hgb : G2 A v w (y + (1 / 2 : K) • w) gb b0 b1 b2) (hG : G2 A v w y G g 0 0) (hg : g * ι = 1) :
    B2 A v w (y + (1 / 2 : K) • v) e1 ρ (fun h i j => nfdivFdiv2 o tiny (psi h) (ga h) (gb h) (G h) i j) 0
      (ι * (A.dir v (a0 * (ι * (A.dir v (a0 * p) + A.dir w (b0 * p)))) + A.dir w (b0 * (ι * (A.dir v (a0 * p) + A.dir w (b0 * p)))))) := by
  obtain ⟨_, hm⟩ := mean8_gx H.ha hf
  obtain ⟨_, hd⟩ := N.den hm
  obtain ⟨_, hgx⟩ := gBarX2_gx hn hG
  obtain ⟨_, h1⟩ := gc0BarX2_gx hga
  obtain ⟨_, h2⟩ := gc1BarX2_gx hgb
  obtain ⟨_, h3⟩ := fdivCentre2_gx H.ha hn hf hga hgb hG hg
  obtain ⟨_, h4⟩ := fdivCorner2_gx H.ha hn hf hga hgb hG hg
  obtain ⟨F, hF⟩ : ∃ F, F = ι * (A.dir v (a0 * p) + A.dir w (b0 * p)) := ⟨_, rfl⟩
  rw [← hF] at h3 h4 ⊢
  have hN : G2 A v w (y + (1 / 2 : K) • v) (fun h i j => gc0BarX2 (ga h) (i + 1) j * fdivCentre2 o (psi h) (ga h) (gb h) (G h) (i + 1) j - gc0BarX2 (ga h) i j * fdivCentre2 o (psi h) (ga h) (gb h) (G h) i j
      + (gc1BarX2 (gb h) i j * fdivCornerXY2 o (psi h) (ga h) (gb h) (G h) i j - gc1BarX2 (gb h) i (j - 1) * fdivCornerXY2 o (psi h) (ga h) (gb h) (G h) i (j - 1))) 0 0
      (A.dir v (a0 * F) + A.dir w (b0 * F)) :=
    ((h1.mul0 h3).difN0.add (h2.mul0 h4).difF1).eq (add_zero 0).symm (by simp) rfl
  refine ((Bk.div (hN.div0 hgx hg) hd N.one).congr' fun h i j _ => ?_).eq (zero_mul _).symm (by ring)
  cases hi : isset o oIga
  · simp only [nfdivFdiv2, vabs, hi, H.ha, Bool.false_eq_true, if_false, frac_eq (H.hp.resolve_left (by simp [hi]))]
    rw [div_div_eq_mul_div, ← mul_div_assoc, div_mul_eq_mul_div, div_div]; ring_nf
  · simp only [nfdivFdiv2, hi, if_true]; ring_nf
theorem ndxFdiv2_bk (H : AccOpts o tiny) (N : Nrm o p q1 e0 e1 ρ) (hn : ∀ h, isset o oNug = true ∨ ∀ i j, G h i j = 1) (hf : G2 A v w y psi p q1 q2)
    (hga : G2 A v w (y + (1 / 2 : K) • v) ga a0 a1 a2) (hgb : G2 A v w (y + (1 / 2 : K) • w) gb b0 b1 b2) (hG : G2 A v w y G g 0 0) (hg : g * ι = 1) :
    B2 A v w (y + (1 / 2 : K) • v) e1 ρ (fun h i j => ndxFdiv2 o tiny (psi h) (ga h) (gb h) (G h) i j) 0 (A.dir v (ι * (A.dir v (a0 * p) + A.dir w (b0 * p)))) := by
  obtain ⟨_, hm⟩ := mean8_gx H.ha hf
  obtain ⟨_, hd⟩ := N.den hm
  obtain ⟨_, h3⟩ := fdivCentre2_gx H.ha hn hf hga hgb hG hg
  refine ((Bk.div h3.difN0 hd N.one).congr' fun h i j _ => ?_).eq (map_zero _).symm rfl
  cases hi : isset o oIga
  · simp only [ndxFdiv2, vabs, hi, H.ha, Bool.false_eq_true, if_false, frac_eq (H.hp.resolve_left (by simp [hi]))]
    rw [div_div_eq_mul_div]; ring_nf
  · simp only [ndxFdiv2, hi, if_true]; ring_nf
/-- the change of the field over the first pass -/
theorem nfdivDt2_bk (H : AccOpts o tiny) (N : Nrm o p q1 e0 e1 ρ) (hn : ∀ h, isset o oNug = true ∨ ∀ i j, G h i j = 1) (hf : G2 A v w y psi p q1 q2) (ho : G2 A v w y old p 0 0)
    (hga : G2 A v w (y + (1 / 2 : K) • v) ga a0 a1 a2) (hgb : G2 A v w (y + (1 / 2 : K) • w) gb b0 b1 b2) (hG : G2 A v w y G g 0 0) (hg : g * ι = 1) :
    B2 A v w (y + (1 / 2 : K) • v) e1 ρ (fun h i j => nfdivDt2 o tiny (psi h) (old h) (ga h) (gb h) (G h) i j) 0 (ι * (A.dir v (a0 * q1) + A.dir w (b0 * q1))) := by
  obtain ⟨_, hm⟩ := mean6_gx hf
  obtain ⟨_, hm'⟩ := mean6_gx ho
  obtain ⟨_, _, hd⟩ := N.den0 ((((hm.add hm').smul (1 / 2)).eq (a' := p) (by algebra) rfl rfl).congr'
    (g := fun h i j _ => (psi h (i + 1) j + psi h i j + psi h i (j + 1) + psi h (i + 1) (j + 1) + psi h i (j - 1) + psi h (i + 1) (j - 1)
      + old h (i + 1) j + old h i j + old h i (j + 1) + old h (i + 1) (j + 1) + old h i (j - 1) + old h (i + 1) (j - 1)) / 12) fun h i j _ => by ring)
  obtain ⟨_, hgx⟩ := gBarX2_gx hn hG
  obtain ⟨_, h1⟩ := gc0BarX2_gx hga
  obtain ⟨_, h2⟩ := gc1BarX2_gx hgb
  obtain ⟨_, h3⟩ := psiBarXY2_gx H.ha hf
  obtain ⟨_, h4⟩ := psiBarXY2_gx H.ha ho
  have hN : G2 A v w (y + (1 / 2 : K) • v) (fun h i j => gc0BarX2 (ga h) (i + 1) j * (psi h (i + 1) j - old h (i + 1) j) - gc0BarX2 (ga h) i j * (psi h i j - old h i j)
      + (gc1BarX2 (gb h) i j * (psiBarXY2 o (psi h) i j - psiBarXY2 o (old h) i j) - gc1BarX2 (gb h) i (j - 1) * (psiBarXY2 o (psi h) i (j - 1) - psiBarXY2 o (old h) i (j - 1)))) 0 0
      (A.dir v (a0 * q1) + A.dir w (b0 * q1)) :=
    ((h1.mul0 ((hf.sub ho).eq (sub_self p).symm rfl rfl)).difN0.add (h2.mul0 ((h3.sub h4).eq (sub_self p).symm rfl rfl)).difF1).eq (add_zero 0).symm (by simp) (by simp)
  refine ((Bk.div00 ((hN.div0 hgx hg).eq rfl (zero_mul _).symm rfl) hd N.one).congr' fun h i j _ => ?_).eq rfl (by ring)
  cases hi : isset o oIga
  · simp only [nfdivDt2, vabs, hi, H.ha, Bool.false_eq_true, if_false, frac_eq (H.hp.resolve_left (by simp [hi]))]
    rw [div_div_eq_mul_div, ← mul_div_assoc, div_mul_eq_mul_div, div_div]; ring_nf
  · simp only [nfdivDt2, hi, if_true]; ring_nf
theorem ndtx2_bk (H : AccOpts o tiny) (N : Nrm o p q1 e0 e1 ρ) (hf : G2 A v w y psi p q1 q2) (ho : G2 A v w y old p 0 0) :
    B2 A v w (y + (1 / 2 : K) • v) e1 ρ (fun h i j => ndtxPsi2 o tiny (psi h) (old h) i j) 0 (A.dir v q1) := by
  obtain ⟨_, _, hd⟩ := N.den0 (((hf.avN0.add ho.avN0).smul (1 / 2)).eq (a' := p) (by algebra) rfl rfl)
  refine ((Bk.div00 ((hf.sub ho).difN0.eq rfl (by simp) rfl) hd N.one).congr' fun h i j _ => ?_).eq rfl (by simp)
  cases hi : isset o oIga
  · simp only [ndtxPsi2, vabs, hi, H.ha, Bool.false_eq_true, if_false, frac_eq (H.hp.resolve_left (by simp [hi]))]
    rw [show ∀ a b : K, a / (1 / 2 * (b / 2 + (old h (i + 1) j + old h i j) / 2)) = 4 * (a / (b + (old h (i + 1) j + old h i j))) from fun a b => by
      rw [show 1 / 2 * (b / 2 + (old h (i + 1) j + old h i j) / 2) = (b + (old h (i + 1) j + old h i j)) / 4 by ring, div_div_eq_mul_div]; ring]
    ring_nf
  · simp only [ndtxPsi2, hi, if_true]; ring_nf
theorem ndt2_bk (H : AccOpts o tiny) (N : Nrm o p q1 e0 e1 ρ) (hf : G2 A v w y psi p q1 q2) (ho : G2 A v w y old p 0 0) (hna : G2 A v w (y + (1 / 2 : K) • v) nda 0 na na2) :
    B2 A v w (y + (1 / 2 : K) • v) e1 ρ (fun h i j => nda h i j * ndtPsi2 o tiny (psi h) (old h) i j) 0 (na * q1) := by
  obtain ⟨_, _, hd⟩ := N.den0 (((hf.avN0.add ho.avN0).smul (1 / 2)).eq (a' := p) (by algebra) rfl rfl)
  refine ((hna.mul (((hf.sub ho).avN0.eq (sub_self p).symm rfl rfl).div0 hd N.one)).congr' fun h i j _ => ?_).eq (by ring) (by ring) (by ring)
  cases hi : isset o oIga
  · simp only [ndtPsi2, vabs, hi, H.ha, Bool.false_eq_true, if_false, frac_eq (H.hp.resolve_left (by simp [hi]))]
    rw [show ∀ a b : K, a / 2 / (1 / 2 * (b / 2 + (old h (i + 1) j + old h i j) / 2)) = 2 * (a / (b + (old h (i + 1) j + old h i j))) from fun a b => by
      rw [show 1 / 2 * (b / 2 + (old h (i + 1) j + old h i j) / 2) = (b + (old h (i + 1) j + old h i j)) / 4 by ring, div_div_eq_mul_div]; ring]
    ring_nf
  · simp only [ndtPsi2, hi, if_true]; ring_nf

/-- the arrays that enter the velocity in one direction, and their expansions -/
structure In2 (A : DAlg n K R) (v w y : Fin n → K) (o : OptsT) (tiny : K) (psi old ga gb G : K → Int → Int → K) (p q1 q2 a0 a1 a2 b0 b1 b2 g ι e0 e1 ρ : R) (s sb : K) : Prop where
  H : AccOpts o tiny
  N : Nrm o p q1 e0 e1 ρ
  hn : ∀ h, isset o oNug = true ∨ ∀ i j, G h i j = 1
  hf : G2 A v w y psi p q1 q2
  ho : G2 A v w y old p 0 0
  hga : G2 A v w (y + (1 / 2 : K) • v) ga a0 a1 a2
  hgb : G2 A v w (y + (1 / 2 : K) • w) gb b0 b1 b2
  hs : (s = 1 ∧ 0 < A.ε a0) ∨ (s = -1 ∧ A.ε a0 < 0)
  hsb : (sb = 1 ∧ 0 < A.ε b0) ∨ (sb = -1 ∧ A.ε b0 < 0)
  hG : G2 A v w y G g 0 0
  hg : g * ι = 1

variable (I : In2 A v w y o tiny psi old ga gb G p q1 q2 a0 a1 a2 b0 b1 b2 g ι e0 e1 ρ s sb)
include I
theorem dfl2_bk (hd : isset o oDfl = true) : ∃ c, B2 A v w (y + (1 / 2 : K) • v) e1 ρ (fun h i j => dfl2 o (psi h) (ga h) (gb h) (G h) i j)
    ((-(1 / 2) : K) • (a0 * ι * (A.dir v a0 + A.dir w b0)) * p) c := by
  obtain ⟨_, hgx⟩ := gBarX2_gx I.hn I.hG
  obtain ⟨_, h2⟩ := gc1BarX2_gx I.hgb
  obtain ⟨m0, m1, m2, hm, e1', e2'⟩ := I.N.com (psiBarX2_gx I.H.ha I.hf)
  have hX := (((I.hga.div hgx I.hg).mul0 ((I.hga.avF0.difN0.add h2.difF1).eq (add_zero 0).symm rfl rfl)).smul (-(1 / 2))).eq (a' := 0) (smul_zero _).symm rfl rfl
  refine ⟨_, (Bk.cross hX hm I.N.one e1' e2').congr' fun h i j _ => ?_⟩
  simp only [dfl2, hd, if_true, gc1BarX2]
  split_ifs <;> simp only [add_sub_cancel_right] <;> ring
theorem tot2_bk : ∃ c, B2 A v w (y + (1 / 2 : K) • v) e1 ρ (fun h i j => tot2 o tiny (psi h) (ga h) (gb h) (G h) i j) 0 c := by
  by_cases ht : isset o oTot = true
  · obtain ⟨_, hgx⟩ := gBarX2_gx I.hn I.hG
    obtain ⟨_, hgb⟩ := gc1BarXY2_gx I.hgb
    have gi := Ok.inv hgx I.hg
    have a := Ok.of I.hga
    have aa := Ok.of (I.hga.abs_sgn I.hs)
    have b := Ok.of hgb
    obtain ⟨_, h1⟩ := (ndxx2_bk I.H I.N I.hf).mulOk (((((a.mul aa).mul gi).smul (1 / 2)).sub (((((a.mul a).mul a).mul gi).mul gi).smul (1 / 3))).sub (a.smul (1 / 6)))
    obtain ⟨_, h2⟩ := (ndxy2_bk I.H I.N I.hf).mulOk ((((aa.sub (((a.mul a).mul gi).smul 2)).mul b).mul gi).smul (1 / 2))
    refine ⟨_, ((h1.add h2).congr' fun h i j _ => ?_).eq (add_zero 0).symm rfl⟩
    simp only [tot2, ht, if_true, ndxxPsiCoeff2, ndxyPsiCoeff2]; ring
  · exact ⟨0, Bk.zero.congr' fun h i j _ => by simp [tot2, ht]⟩
theorem fot2_bk : B2 A v w (y + (1 / 2 : K) • v) e1 ρ (fun h i j => fot2 o (psi h) (ga h) (gb h) (G h) i j) 0 0 := by
  by_cases ht : isset o oFot = true
  · obtain ⟨_, hgx⟩ := gBarX2_gx I.hn I.hG
    obtain ⟨_, hgb⟩ := gc1BarXY2_gx I.hgb
    have gi := Ok.inv hgx I.hg
    have a := Ok.of I.hga
    have aa := Ok.of (I.hga.abs_sgn I.hs)
    have b := Ok.of hgb
    have ab := Ok.of (hgb.abs_sgn I.hsb)
    have d1 : G2 A v w (y + (1 / 2 : K) • v) (fun h i j => ndxxxPsi2 (psi h) i j) 0 0 0 :=
      ((I.hf.difN0.difF0.difN0.smul (1 / 4)).congr' fun h i j _ => by simp only [ndxxxPsi2, add_sub_cancel_right, sub_add_cancel, add_assoc]; norm_num; ring).eq (by simp) (by simp) (by simp)
    have d2 : G2 A v w (y + (1 / 2 : K) • v) (fun h i j => ndxxyPsi2 (psi h) i j) 0 0 0 :=
      ((I.hf.avN1.difF1.difN0.avF0.difN0.smul (1 / 2)).congr' fun h i j _ => by simp only [ndxxyPsi2, add_sub_cancel_right, sub_add_cancel, add_assoc]; norm_num; ring).eq (by simp) (by simp) (by simp)
    have d3 : G2 A v w (y + (1 / 2 : K) • v) (fun h i j => ndxyyPsi2 (psi h) i j) 0 0 0 :=
      ((I.hf.difN1.difF1.difN0.smul (1 / 6)).congr' fun h i j _ => by simp only [ndxyyPsi2, add_sub_cancel_right, sub_add_cancel, add_assoc]; norm_num; ring).eq (by simp) (by simp) (by simp)
    have h1 := Bk.mulOk3 (e1 := e1) (ρ := ρ) d1 (((((((aa.mul a).mul a).mul gi).mul gi).smul 3).sub (((a.mul a).mul gi).smul (3 / 2))).sub (((((((a.mul a).mul a).mul a).mul gi).mul gi).mul gi).smul (3 / 2)))
    have h2 := Bk.mulOk3 (e1 := e1) (ρ := ρ) d2 ((((((aa.sub ((a.mul a).mul gi)).mul a).mul b).mul gi).mul gi).smul 3)
    have h3 := Bk.mulOk3 (e1 := e1) (ρ := ρ) d3 ((((((((((ab.mul a).mul a).mul gi).smul 3).add ((((b.mul b).mul aa).mul gi).smul 3)).sub ((ab.mul aa).smul 2)).sub
      ((((((b.mul b).mul a).mul a).mul gi).mul gi).smul 9))).mul gi).smul (3 / 4))
    refine (((h1.add h2).add h3).congr' fun h i j _ => ?_).eq (by simp) (by simp)
    simp only [fot2, ht, if_true, ndxxxPsiCoeff2, ndxxyPsiCoeff2, ndxyyPsiCoeff2]; ring
  · exact Bk.zero.congr' fun h i j _ => by simp [fot2, ht]

/-- the standard velocity with the divergent-flow correction -/
theorem std2_bk (hd2 : isset o oDiv2 = false) (hd3 : isset o oDiv3 = false) (hdfl : isset o oDfl = true) (si te) (nda ndb ndtt : K → Int → Int → K) :
    ∃ c, B2 A v w (y + (1 / 2 : K) • v) e1 ρ (fun h i j => antidiff2 o si te tiny (psi h) (old h) (ga h) (gb h) (nda h) (ndb h) (ndtt h) (G h) i j)
      ((1 / 2 : K) • ((s • a0) * A.dir v p - a0 * (ι * (A.dir v (a0 * p) + A.dir w (b0 * p))))) c := by
  obtain ⟨_, hgx⟩ := gBarX2_gx I.hn I.hG
  obtain ⟨_, hgb⟩ := gc1BarXY2_gx I.hgb
  obtain ⟨_, h1⟩ := dfl2_bk I hdfl
  obtain ⟨_, h2⟩ := tot2_bk I
  have h3 := fot2_bk I
  have haa := I.hga.abs_sgn I.hs
  have hx := Bk.cmul ((haa.smul (1 / 2)).mul (Gx.one.sub (haa.div hgx I.hg))) (ndx2_bk I.H I.N I.hf)
  have hy := Bk.cmul (((I.hga.mul hgb).div hgx I.hg).smul (1 / 2)) (ndy2_bk I.H I.N I.hf)
  refine ⟨_, (((((hx.sub hy).add h2).add h3).add h1).congr' fun h i j _ => ?_).eq ?_ rfl⟩
  · simp only [antidiff2, hd2, hd3, Bool.or_self, Bool.false_eq_true, if_false]; ring
  · have hs2 : s * s = 1 := by rcases I.hs with ⟨e, -⟩ | ⟨e, -⟩ <;> rw [e] <;> norm_num
    have e : (s • a0) * (s • a0) = a0 * a0 := by rw [smul_mul_smul_comm, hs2, one_smul]
    simp only [Derivation.leibniz, smul_eq_mul]
    linear_combination (norm := algebra) ((1 / 2 : K) • (ι * A.dir v p)) * e
/-- the divergence-form velocity without third-order terms -/
theorem div2_bk : B2 A v w (y + (1 / 2 : K) • v) e1 ρ (fun h i j => div2nd2 o tiny (psi h) (ga h) (gb h) (G h) i j)
      ((1 / 2 : K) • ((s • a0) * A.dir v p - a0 * (ι * (A.dir v (a0 * p) + A.dir w (b0 * p)))))
      ((1 / 2 : K) • ((s • a0) * A.dir v q1 + (s • a1) * A.dir v p - (a0 * (ι * (A.dir v (a0 * q1 + a1 * p) + A.dir w (b0 * q1 + b1 * p))) + a1 * (ι * (A.dir v (a0 * p) + A.dir w (b0 * p)))))) := by
  have h1 := Bk.cmul (I.hga.abs_sgn I.hs) (ndx2_bk I.H I.N I.hf)
  have h2 := Bk.cmul I.hga (nfdiv2_bk I.H I.N I.hn I.hf I.hga I.hgb I.hG I.hg)
  refine ((h1.sub h2).smul (1 / 2)).congr' fun h i j _ => ?_
  simp only [div2nd2]; ring
/-- the third-order divergence-form velocity, when the first pass changed the field by minus the flux divergence -/
theorem div3_bk {na na2 nb nb2 nt : R} {zz : K} {si : SptlIntrp} {te : TmprlExtrp} {nda ndb ndtt : K → Int → Int → K} (hq : q1 = -(ι * (A.dir v (a0 * p) + A.dir w (b0 * p))))
    (hna : G2 A v w (y + (1 / 2 : K) • v) nda 0 na na2) (hnb : G2 A v w (y + (1 / 2 : K) • w) ndb 0 nb nb2) (hnt : G2 A v w (y + (1 / 2 : K) • v) ndtt 0 0 nt)
    (hz : isset o oIga = true ∨ (zz = 1 ∧ 0 < A.ε ((1 / 2 : K) • ((s • a0) * A.dir v p + a0 * q1) * ρ)) ∨ (zz = -1 ∧ A.ε ((1 / 2 : K) • ((s • a0) * A.dir v p + a0 * q1) * ρ) < 0))
    (hopt : isset o oDiv3 = true ∨ (isset o oDiv3 = false ∧ isset o oDiv2 = true ∧ isset o oDiv3dt = true ∧ te = .noextrp)) :
    B2 A v w (y + (1 / 2 : K) • v) e1 ρ (fun h i j => antidiff2 o si te tiny (psi h) (old h) (ga h) (gb h) (nda h) (ndb h) (ndtt h) (G h) i j)
      ((1 / 2 : K) • ((s • a0) * A.dir v p + a0 * q1))
      ((1 / 2 : K) • ((s • a1) * A.dir v p - a0 * (ι * (A.dir v (a0 * q1 + a1 * p) + A.dir w (b0 * q1 + b1 * p))) + a1 * q1)
        + (if isset o oIga = true then 0 else (1 / 2 : K) • ((zz • ((1 / 2 : K) • ((s • a0) * A.dir v p + a0 * q1))) * A.dir v p * ρ))
        + (-(1 / 24) : K) • ((4 : K) • (a0 * A.dir v (A.dir v p)) + (2 : K) • (A.dir v p * A.dir v a0) + (siFac si : K) • (A.dir v (A.dir v a0) * p))
        + (1 / 24 : K) • ((8 : K) • (a0 * (ι * (A.dir v (a0 * q1) + A.dir w (b0 * q1)))) + (teFac te : K) • (nt * p) + (2 : K) • (a0 * (ι * (A.dir v (na * p) + A.dir w (nb * p)))) + (2 : K) • (na * q1))) := by
  obtain ⟨F, hF⟩ : ∃ F, F = ι * (A.dir v (a0 * p) + A.dir w (b0 * p)) := ⟨_, rfl⟩
  have hd2 := div2_bk I
  have haa := I.hga.abs_sgn I.hs
  have hndx := ndx2_bk I.H I.N I.hf
  obtain ⟨m0, m1, m2, hm, m0e, m1e⟩ := I.N.com (psiBarX2_gx I.H.ha I.hf)
  have hgcc := Bk.cross I.hga.difF0.difN0 hm I.N.one m0e m1e
  have htt := Bk.cross hnt hm I.N.one m0e m1e
  have hxx := Bk.cmul I.hga (ndxx2_bk I.H I.N I.hf)
  have hxg := Bk.cmul (ndxGC2_gx I.hga) hndx
  have hN := nfdiv2_bk I.H I.N I.hn I.hf hna hnb I.hG I.hg
  have hsp : B2 A v w (y + (1 / 2 : K) • v) e1 ρ (fun h i j => div3rdSpatial2 o si tiny (psi h) (ga h) i j) 0
      ((-(1 / 24) : K) • ((4 : K) • (a0 * A.dir v (A.dir v p)) + (2 : K) • (A.dir v p * A.dir v a0) + (siFac si : K) • (A.dir v (A.dir v a0) * p))) := by
    refine (((((hxx.smul 4).add (hxg.smul 2)).add (hgcc.smul (siFac si))).smul (-(1 / 24))).congr' fun h i j _ => ?_).eq ?_ ?_
    · cases si <;> simp only [div3rdSpatial2, div3rdSpatialHelper2, ndxxGC02, siFac, one_mul, zero_mul, add_sub_cancel_right] <;> (try split_ifs) <;> ring
    · simp
    · simp only [map_zero]; algebra
  have hup : B2 A v w (y + (1 / 2 : K) • v) e1 ρ (fun h i j => div3rdUpwind2 o tiny (psi h) (ga h) (gb h) (G h) i j) 0
      (if isset o oIga = true then 0 else (1 / 2 : K) • ((zz • ((1 / 2 : K) • ((s • a0) * A.dir v p + a0 * q1))) * A.dir v p * ρ)) := by
    cases hi : isset o oIga
    · have hz' := hz.resolve_left (by simp [hi])
      have e : (1 / 2 : K) • ((s • a0) * A.dir v p + a0 * q1) = (1 / 2 : K) • ((s • a0) * A.dir v p - a0 * (ι * (A.dir v (a0 * p) + A.dir w (b0 * p)))) := by
        rw [hq, mul_neg, ← sub_eq_add_neg]
      rw [e] at hz' ⊢
      refine ((((Gx.abs_lead hd2 hz').mul hndx).smul (1 / 2)).congr' fun h i j _ => ?_).eq (by simp) (by simp) ?_
      · simp only [div3rdUpwind2, hi, Bool.false_eq_true, if_false]; ring
      · simp only [Bool.false_eq_true, if_false]; algebra
    · exact Bk.zero.congr' fun h i j _ => by simp [div3rdUpwind2, hi]
  have htm : B2 A v w (y + (1 / 2 : K) • v) e1 ρ (fun h i j => div3rdTemporal2 o te (psi h) (ndtt h) i j) 0 ((teFac te : K) • (nt * p)) := by
    refine ((htt.smul (teFac te)).congr' fun h i j _ => ?_).eq (by simp) (by simp)
    cases te <;> simp only [div3rdTemporal2, ndttGC02, one_mul, teFac] <;> split_ifs <;> simp
  have hfot := fot2_bk I
  rcases hopt with h3 | ⟨h3, h2, hdt, rfl⟩
  · have hS := Bk.cmul I.hga (nfdivFdiv2_bk I.H I.N I.hn I.hf I.hga I.hgb I.hG I.hg)
    have hx := Bk.cmul haa (ndxFdiv2_bk I.H I.N I.hn I.hf I.hga I.hgb I.hG I.hg)
    have hnF := Bk.cmul hna (nfdiv2_bk I.H I.N I.hn I.hf I.hga I.hgb I.hG I.hg)
    have haN := Bk.cmul I.hga hN
    refine (((hd2.add (((hup.add hsp).add (hx.smul (1 / 2))).add (((((hS.smul (-8)).add htm).add (haN.smul 2)).sub (hnF.smul 2)).smul (1 / 24)))).add hfot).congr' fun h i j _ => ?_).eq ?_ ?_
    · simp only [antidiff2, div3rd2, h3, Bool.or_true, if_true]; ring
    · rw [hq, ← hF]; simp only [zero_mul, map_zero]; algebra
    · rw [← hF] at hq ⊢; rw [show F = -q1 by rw [hq, neg_neg]]; simp only [zero_mul, map_zero, mul_neg, map_neg, zero_add, mul_zero, add_zero, neg_add]; algebra
  · have hS := Bk.cmul I.hga (nfdivDt2_bk I.H I.N I.hn I.hf I.ho I.hga I.hgb I.hG I.hg)
    have hx := Bk.cmul haa (ndtx2_bk I.H I.N I.hf I.ho)
    have hnF := ndt2_bk I.H I.N I.hf I.ho hna
    have haN := Bk.cmul I.hga hN
    refine (((hd2.add (((hup.add hsp).sub (hx.smul (1 / 2))).add (((((hS.smul 8).add htm).add (haN.smul 2)).add (hnF.smul 2)).smul (1 / 24)))).add hfot).congr' fun h i j _ => ?_).eq ?_ ?_
    · simp only [antidiff2, div3rd2, h2, h3, hdt, div3rdTemporal2, Bool.true_or, if_true, Bool.false_eq_true, if_false]; ring
    · rw [hq, ← hF]; simp only [zero_mul, map_zero]; algebra
    · rw [← hF] at hq ⊢; rw [show F = -q1 by rw [hq, neg_neg]]; simp only [zero_mul, map_zero, mul_neg, map_neg, zero_add, mul_zero, add_zero, neg_add]; algebra
end
end Mpdata
