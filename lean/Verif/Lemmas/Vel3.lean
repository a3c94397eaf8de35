import Verif.Lemmas.Vel2
import Verif.Model.Antidiff3
/-! # Expansion of the 3-D antidiffusive velocity -/
set_option linter.unusedSectionVars false
set_option linter.unusedVariables false
set_option linter.unusedSimpArgs false
namespace Mpdata
variable {n : Nat} {K R : Type} [Field K] [LinearOrder K] [IsStrictOrderedRing K] [CommRing R] [Algebra K R]
section
variable {A : DAlg n K R} {v w z y : Fin n → K} {o : OptsT} {tiny : K} {psi old ga gb gc nda ndb ndc ndtt G : K → Int → Int → Int → K} {p q1 q2 a0 a1 a2 b0 b1 b2 c0 c1 c2 na na2 nb nb2 nc nc2 nt g ι e0 e1 ρ : R} {s : K}

theorem psiBarY3_gx (ha : isset o oAbs = false) (hf : Gx A v w z y psi p q1 q2) : ∃ c, Gx A v w z (y + (1 / 2 : K) • w) (fun h i j k => psiBarY3 o (psi h) i j k) p q1 c :=
  ⟨_, (hf.avN1).congr' fun h i j k => by simp only [psiBarY3, vabs, ha, Bool.false_eq_true, if_false]; ring⟩
theorem psiBarZ3_gx (ha : isset o oAbs = false) (hf : Gx A v w z y psi p q1 q2) : ∃ c, Gx A v w z (y + (1 / 2 : K) • z) (fun h i j k => psiBarZ3 o (psi h) i j k) p q1 c :=
  ⟨_, (hf.avN2).congr' fun h i j k => by simp only [psiBarZ3, vabs, ha, Bool.false_eq_true, if_false]; ring⟩
theorem psiBarX3_gx (ha : isset o oAbs = false) (hf : Gx A v w z y psi p q1 q2) : ∃ c, Gx A v w z (y + (1 / 2 : K) • v) (fun h i j k => psiBarX3 o (psi h) i j k) p q1 c :=
  ⟨_, (hf.avN0).congr' fun h i j k => by simp only [psiBarX3, vabs, ha, Bool.false_eq_true, if_false]⟩
theorem psiBarXY3_gx (ha : isset o oAbs = false) (hf : Gx A v w z y psi p q1 q2) : ∃ c, Gx A v w z (y + (1 / 2 : K) • v + (1 / 2 : K) • w) (fun h i j k => psiBarXY3 o (psi h) i j k) p q1 c :=
  ⟨_, (hf.avN0.avN1).congr' fun h i j k => by simp only [psiBarXY3, vabs, ha, Bool.false_eq_true, if_false]; ring⟩
theorem psiBarXZ3_gx (ha : isset o oAbs = false) (hf : Gx A v w z y psi p q1 q2) : ∃ c, Gx A v w z (y + (1 / 2 : K) • v + (1 / 2 : K) • z) (fun h i j k => psiBarXZ3 o (psi h) i j k) p q1 c :=
  ⟨_, (hf.avN0.avN2).congr' fun h i j k => by simp only [psiBarXZ3, vabs, ha, Bool.false_eq_true, if_false]; ring⟩
theorem psiBarXYZ3_gx (ha : isset o oAbs = false) (hf : Gx A v w z y psi p q1 q2) : ∃ c, Gx A v w z (y + (1 / 2 : K) • v + (1 / 2 : K) • w + (1 / 2 : K) • z) (fun h i j k => psiBarXYZ3 o (psi h) i j k) p q1 c :=
  ⟨_, (hf.avN0.avN1.avN2).congr' fun h i j k => by simp only [psiBarXYZ3, vabs, ha, Bool.false_eq_true, if_false]; ring⟩
theorem gF3_eq {G : Ar3 K} (hn : isset o oNug = true ∨ ∀ i j k, G i j k = 1) (i j k : Int) : gF3 o G i j k = G i j k := by
  unfold gF3; rcases hn with h | h
  · rw [if_pos h]
  · split_ifs <;> simp [h]
theorem gBarX3_gx (hn : ∀ h, isset o oNug = true ∨ ∀ i j k, G h i j k = 1) (hG : Gx A v w z y G g 0 0) : ∃ c, Gx A v w z (y + (1 / 2 : K) • v) (fun h i j k => gBarX3 o (G h) i j k) g 0 c := by
  refine ⟨_, (hG.avN0).congr' fun h i j k => ?_⟩
  simp only [gBarX3, gF3_eq (hn h)]
  rcases hn h with e | e
  · rw [if_pos e]
  · split_ifs <;> simp [e]
theorem gBarXY3_gx (hn : ∀ h, isset o oNug = true ∨ ∀ i j k, G h i j k = 1) (hG : Gx A v w z y G g 0 0) : ∃ c, Gx A v w z (y + (1 / 2 : K) • v + (1 / 2 : K) • w) (fun h i j k => gBarXY3 o (G h) i j k) g 0 c := by
  refine ⟨_, (hG.avN0.avN1).congr' fun h i j k => ?_⟩
  simp only [gBarXY3, gF3_eq (hn h)]
  rcases hn h with e | e
  · rw [if_pos e]; ring
  · split_ifs <;> simp [e]; norm_num
theorem gBarXZ3_gx (hn : ∀ h, isset o oNug = true ∨ ∀ i j k, G h i j k = 1) (hG : Gx A v w z y G g 0 0) : ∃ c, Gx A v w z (y + (1 / 2 : K) • v + (1 / 2 : K) • z) (fun h i j k => gBarXZ3 o (G h) i j k) g 0 c := by
  refine ⟨_, (hG.avN0.avN2).congr' fun h i j k => ?_⟩
  simp only [gBarXZ3, gF3_eq (hn h)]
  rcases hn h with e | e
  · rw [if_pos e]; ring
  · split_ifs <;> simp [e]; norm_num
theorem gc0BarX3_gx (hga : Gx A v w z (y + (1 / 2 : K) • v) ga a0 a1 a2) : ∃ c, Gx A v w z y (fun h i j k => gc0BarX3 (ga h) i j k) a0 a1 c :=
  ⟨_, (hga.avF0).congr' fun h i j k => by simp only [gc0BarX3]⟩
theorem gc0BarXY3_gx (hga : Gx A v w z (y + (1 / 2 : K) • v) ga a0 a1 a2) : ∃ c, Gx A v w z (y + (1 / 2 : K) • w) (fun h i j k => gc0BarXY3 (ga h) i j k) a0 a1 c :=
  ⟨_, (hga.avF0.avN1).congr' fun h i j k => by simp only [gc0BarXY3]; ring⟩
theorem gc0BarXZ3_gx (hga : Gx A v w z (y + (1 / 2 : K) • v) ga a0 a1 a2) : ∃ c, Gx A v w z (y + (1 / 2 : K) • z) (fun h i j k => gc0BarXZ3 (ga h) i j k) a0 a1 c :=
  ⟨_, (hga.avF0.avN2).congr' fun h i j k => by simp only [gc0BarXZ3]; ring⟩
theorem gc1BarX3_gx (hgb : Gx A v w z (y + (1 / 2 : K) • w) gb b0 b1 b2) : ∃ c, Gx A v w z (y + (1 / 2 : K) • v + (1 / 2 : K) • w) (fun h i j k => gc1BarX3 (gb h) i j k) b0 b1 c :=
  ⟨_, (hgb.avN0.base (add_right_comm _ _ _)).congr' fun h i j k => by simp only [gc1BarX3]⟩
theorem gc1BarXY3_gx (hgb : Gx A v w z (y + (1 / 2 : K) • w) gb b0 b1 b2) : ∃ c, Gx A v w z (y + (1 / 2 : K) • v) (fun h i j k => gc1BarXY3 (gb h) i j k) b0 b1 c :=
  ⟨_, ((hgb.avN0.base (add_right_comm _ _ _)).avF1).congr' fun h i j k => by simp only [gc1BarXY3]; ring⟩
theorem gc1BarXZ3_gx (hgb : Gx A v w z (y + (1 / 2 : K) • w) gb b0 b1 b2) : ∃ c, Gx A v w z (y + (1 / 2 : K) • v + (1 / 2 : K) • w + (1 / 2 : K) • z) (fun h i j k => gc1BarXZ3 (gb h) i j k) b0 b1 c :=
  ⟨_, ((hgb.avN0.base (add_right_comm _ _ _)).avN2).congr' fun h i j k => by simp only [gc1BarXZ3]; ring⟩
theorem gc2BarX3_gx (hgc : Gx A v w z (y + (1 / 2 : K) • z) gc c0 c1 c2) : ∃ c, Gx A v w z (y + (1 / 2 : K) • v + (1 / 2 : K) • z) (fun h i j k => gc2BarX3 (gc h) i j k) c0 c1 c :=
  ⟨_, (hgc.avN0.base (add_right_comm _ _ _)).congr' fun h i j k => by simp only [gc2BarX3]⟩
theorem gc2BarXZ3_gx (hgc : Gx A v w z (y + (1 / 2 : K) • z) gc c0 c1 c2) : ∃ c, Gx A v w z (y + (1 / 2 : K) • v) (fun h i j k => gc2BarXZ3 (gc h) i j k) c0 c1 c :=
  ⟨_, ((hgc.avN0.base (add_right_comm _ _ _)).avF2).congr' fun h i j k => by simp only [gc2BarXZ3]; ring⟩
theorem gc2BarXY3_gx (hgc : Gx A v w z (y + (1 / 2 : K) • z) gc c0 c1 c2) : ∃ c, Gx A v w z (y + (1 / 2 : K) • v + (1 / 2 : K) • w + (1 / 2 : K) • z) (fun h i j k => gc2BarXY3 (gc h) i j k) c0 c1 c :=
  ⟨_, (((hgc.avN0.avN1).base (by abel)).congr' fun h i j k => by simp only [gc2BarXY3]; ring)⟩
theorem mean4x3_gx (hf : Gx A v w z y psi p q1 q2) : ∃ c, Gx A v w z (y + (1 / 2 : K) • v) (fun h i j k => (psi h (i + 2) j k + psi h (i + 1) j k + psi h i j k + psi h (i - 1) j k) / 4) p q1 c := by
  refine ⟨_, (((hf.avN0.avF0.avN0.smul 2).sub hf.avN0).congr' fun h i j k => ?_).eq ?_ ?_ rfl⟩
  · simp only [add_sub_cancel_right, sub_add_cancel, add_assoc]; norm_num; ring
  · algebra
  · algebra
theorem mean4y3_gx (hf : Gx A v w z y psi p q1 q2) : ∃ c, Gx A v w z (y + (1 / 2 : K) • v) (fun h i j k => (psi h (i + 1) (j + 1) k + psi h i (j + 1) k + psi h (i + 1) (j - 1) k + psi h i (j - 1) k) / 4) p q1 c := by
  refine ⟨_, (((hf.avN1.avF1.smul 2).sub hf).avN0.congr' fun h i j k => ?_).eq ?_ ?_ rfl⟩
  · simp only [sub_add_cancel]; ring
  · algebra
  · algebra
theorem mean4z3_gx (hf : Gx A v w z y psi p q1 q2) : ∃ c, Gx A v w z (y + (1 / 2 : K) • v) (fun h i j k => (psi h (i + 1) j (k + 1) + psi h i j (k + 1) + psi h (i + 1) j (k - 1) + psi h i j (k - 1)) / 4) p q1 c := by
  refine ⟨_, (((hf.avN2.avF2.smul 2).sub hf).avN0.congr' fun h i j k => ?_).eq ?_ ?_ rfl⟩
  · simp only [sub_add_cancel]; ring
  · algebra
  · algebra
theorem mean8yz3_gx (hf : Gx A v w z y psi p q1 q2) : ∃ c, Gx A v w z (y + (1 / 2 : K) • v) (fun h i j k => (psi h (i + 1) (j + 1) (k + 1) + psi h (i + 1) (j - 1) (k - 1) + psi h (i + 1) (j + 1) (k - 1) + psi h (i + 1) (j - 1) (k + 1)
    + psi h i (j + 1) (k + 1) + psi h i (j - 1) (k - 1) + psi h i (j + 1) (k - 1) + psi h i (j - 1) (k + 1)) / 8) p q1 c := by
  refine ⟨_, (((((((hf.avN2.avF2.smul 2).sub hf).avN1.avF1).smul 2).sub ((hf.avN2.avF2.smul 2).sub hf))).avN0.congr' fun h i j k => ?_).eq ?_ ?_ rfl⟩
  · simp only [sub_add_cancel]; ring
  · algebra
  · algebra
theorem mean10_3_gx (ha : isset o oAbs = false) (hf : Gx A v w z y psi p q1 q2) : ∃ c, Gx A v w z (y + (1 / 2 : K) • v) (fun h i j k => sum10_3 o (psi h) i j k / 10) p q1 c := by
  obtain ⟨_, h1⟩ := mean4y3_gx hf
  obtain ⟨_, h2⟩ := mean4z3_gx hf
  refine ⟨_, (((((h1.add h2).smul 2).add hf.avN0).smul (1 / 5)).congr' fun h i j k => ?_).eq ?_ ?_ rfl⟩
  · simp only [sum10_3, vabs, ha, Bool.false_eq_true, if_false]; ring
  · algebra
  · algebra
theorem mean12_3_gx (ha : isset o oAbs = false) (hf : Gx A v w z y psi p q1 q2) : ∃ c, Gx A v w z (y + (1 / 2 : K) • v) (fun h i j k => sum12_3 o (psi h) i j k / 12) p q1 c := by
  obtain ⟨_, h0⟩ := mean4x3_gx hf
  obtain ⟨_, h1⟩ := mean4y3_gx hf
  obtain ⟨_, h2⟩ := mean4z3_gx hf
  refine ⟨_, (((h0.add (h1.add h2)).smul (1 / 3)).congr' fun h i j k => ?_).eq ?_ ?_ rfl⟩
  · simp only [sum12_3, vabs, ha, Bool.false_eq_true, if_false]; ring
  · algebra
  · algebra

theorem ndx3_bk (H : AccOpts o tiny) (N : Nrm o p q1 e0 e1 ρ) (hf : Gx A v w z y psi p q1 q2) : Bk A v w z (y + (1 / 2 : K) • v) e1 ρ (fun h i j k => ndxPsi3 o tiny (psi h) i j k) (A.dir v p) (A.dir v q1) := by
  obtain ⟨_, hd⟩ := N.den hf.avN0
  refine (Bk.div hf.difN0 hd N.one).congr' fun h i j k => ?_
  cases hi : isset o oIga
  · simp only [ndxPsi3, vabs, hi, H.ha, Bool.false_eq_true, if_false, frac_eq (H.hp.resolve_left (by simp [hi]))]; rw [div_div_eq_mul_div]; ring
  · simp only [ndxPsi3, hi, if_true]; ring
theorem ndy3_bk (H : AccOpts o tiny) (N : Nrm o p q1 e0 e1 ρ) (hf : Gx A v w z y psi p q1 q2) : Bk A v w z (y + (1 / 2 : K) • v) e1 ρ (fun h i j k => ndyPsi3 o tiny (psi h) i j k) (A.dir w p) (A.dir w q1) := by
  obtain ⟨_, hm⟩ := mean4y3_gx hf
  obtain ⟨_, hd⟩ := N.den hm
  refine ((Bk.div (hf.avN1.difF1.avN0.eq (a' := 0) (by simp) rfl rfl) hd N.one).congr' fun h i j k => ?_).eq (by simp) (by simp)
  cases hi : isset o oIga
  · simp only [ndyPsi3, vabs, hi, H.ha, Bool.false_eq_true, if_false, frac_eq (H.hp.resolve_left (by simp [hi]))]; rw [div_div_eq_mul_div]; ring_nf
  · simp only [ndyPsi3, hi, if_true]; ring_nf
theorem ndz3_bk (H : AccOpts o tiny) (N : Nrm o p q1 e0 e1 ρ) (hf : Gx A v w z y psi p q1 q2) : Bk A v w z (y + (1 / 2 : K) • v) e1 ρ (fun h i j k => ndzPsi3 o tiny (psi h) i j k) (A.dir z p) (A.dir z q1) := by
  obtain ⟨_, hm⟩ := mean4z3_gx hf
  obtain ⟨_, hd⟩ := N.den hm
  refine ((Bk.div (hf.avN2.difF2.avN0.eq (a' := 0) (by simp) rfl rfl) hd N.one).congr' fun h i j k => ?_).eq (by simp) (by simp)
  cases hi : isset o oIga
  · simp only [ndzPsi3, vabs, hi, H.ha, Bool.false_eq_true, if_false, frac_eq (H.hp.resolve_left (by simp [hi]))]; rw [div_div_eq_mul_div]; ring_nf
  · simp only [ndzPsi3, hi, if_true]; ring_nf
theorem ndxy3_bk (H : AccOpts o tiny) (N : Nrm o p q1 e0 e1 ρ) (hf : Gx A v w z y psi p q1 q2) : Bk A v w z (y + (1 / 2 : K) • v) e1 ρ (fun h i j k => ndxyPsi3 o tiny (psi h) i j k) (0) (A.dir v (A.dir w p)) := by
  obtain ⟨_, hm⟩ := mean4y3_gx hf
  obtain ⟨_, hd⟩ := N.den hm
  refine ((Bk.div (hf.avN1.difF1.difN0.eq (a' := 0) (by simp) rfl rfl) hd N.one).congr' fun h i j k => ?_).eq (by simp) (by simp)
  cases hi : isset o oIga
  · simp only [ndxyPsi3, vabs, hi, H.ha, Bool.false_eq_true, if_false, frac_eq (H.hp.resolve_left (by simp [hi]))]; rw [div_div_eq_mul_div]; ring_nf
  · simp only [ndxyPsi3, hi, if_true]; ring_nf
theorem ndxz3_bk (H : AccOpts o tiny) (N : Nrm o p q1 e0 e1 ρ) (hf : Gx A v w z y psi p q1 q2) : Bk A v w z (y + (1 / 2 : K) • v) e1 ρ (fun h i j k => ndxzPsi3 o tiny (psi h) i j k) (0) (A.dir v (A.dir z p)) := by
  obtain ⟨_, hm⟩ := mean4z3_gx hf
  obtain ⟨_, hd⟩ := N.den hm
  refine ((Bk.div (hf.avN2.difF2.difN0.eq (a' := 0) (by simp) rfl rfl) hd N.one).congr' fun h i j k => ?_).eq (by simp) (by simp)
  cases hi : isset o oIga
  · simp only [ndxzPsi3, vabs, hi, H.ha, Bool.false_eq_true, if_false, frac_eq (H.hp.resolve_left (by simp [hi]))]; rw [div_div_eq_mul_div]; ring_nf
  · simp only [ndxzPsi3, hi, if_true]; ring_nf
theorem ndyz3_bk (H : AccOpts o tiny) (N : Nrm o p q1 e0 e1 ρ) (hf : Gx A v w z y psi p q1 q2) : Bk A v w z (y + (1 / 2 : K) • v) e1 ρ (fun h i j k => ndyzPsi3 o tiny (psi h) i j k) (0) (A.dir w (A.dir z p)) := by
  obtain ⟨_, hm⟩ := mean8yz3_gx hf
  obtain ⟨_, hd⟩ := N.den hm
  refine ((Bk.div (hf.avN2.difF2.avN1.difF1.avN0.eq (a' := 0) (by simp) rfl rfl) hd N.one).congr' fun h i j k => ?_).eq (by simp) (by simp)
  cases hi : isset o oIga
  · simp only [ndyzPsi3, vabs, hi, H.ha, Bool.false_eq_true, if_false, frac_eq (H.hp.resolve_left (by simp [hi]))]; rw [div_div_eq_mul_div]; ring_nf
  · simp only [ndyzPsi3, hi, if_true]; ring_nf
theorem ndxx3_bk (H : AccOpts o tiny) (N : Nrm o p q1 e0 e1 ρ) (hf : Gx A v w z y psi p q1 q2) : Bk A v w z (y + (1 / 2 : K) • v) e1 ρ (fun h i j k => ndxxPsi3 o tiny (psi h) i j k) 0 (A.dir v (A.dir v p)) := by
  obtain ⟨_, hm⟩ := mean4x3_gx hf
  obtain ⟨_, hd⟩ := N.den hm
  refine ((Bk.div hf.difN0.avF0.difN0 hd N.one).congr' fun h i j k => ?_).eq (map_zero _).symm rfl
  cases hi : isset o oIga
  · simp only [ndxxPsi3, vabs, hi, H.ha, Bool.false_eq_true, if_false, frac_eq (H.hp.resolve_left (by simp [hi])), add_sub_cancel_right, sub_add_cancel, add_assoc]; norm_num
    rw [div_div_eq_mul_div]; ring
  · simp only [ndxxPsi3, hi, if_true, add_sub_cancel_right, sub_add_cancel, add_assoc]; norm_num; ring
theorem ndxGC3_gx (hga : Gx A v w z (y + (1 / 2 : K) • v) ga a0 a1 a2) : Gx A v w z (y + (1 / 2 : K) • v) (fun h i j k => ndxGC03 (ga h) i j k) 0 (A.dir v a0) (A.dir v a1) :=
  hga.avF0.difN0.congr' fun h i j k => by simp only [ndxGC03, add_sub_cancel_right]; ring

/-- flux divergence at the faces, for any face field -/
theorem nfdiv3_bk (H : AccOpts o tiny) (N : Nrm o p q1 e0 e1 ρ) (hn : ∀ h, isset o oNug = true ∨ ∀ i j k, G h i j k = 1) (hf : Gx A v w z y psi p q1 q2)
    (hga : Gx A v w z (y + (1 / 2 : K) • v) ga a0 a1 a2) (hgb : Gx A v w z (y + (1 / 2 : K) • w) gb b0 b1 b2) (hgc : Gx A v w z (y + (1 / 2 : K) • z) gc c0 c1 c2) (hG : Gx A v w z y G g 0 0) (hg : g * ι = 1) :
    Bk A v w z (y + (1 / 2 : K) • v) e1 ρ (fun h i j k => nfdiv3 o tiny (psi h) (ga h) (gb h) (gc h) (G h) i j k) (ι * (A.dir v (a0 * p) + A.dir w (b0 * p) + A.dir z (c0 * p)))
      (ι * (A.dir v (a0 * q1 + a1 * p) + A.dir w (b0 * q1 + b1 * p) + A.dir z (c0 * q1 + c1 * p))) := by
  obtain ⟨_, hm⟩ := mean10_3_gx H.ha hf
  obtain ⟨_, hd⟩ := N.den hm
  obtain ⟨_, hgx⟩ := gBarX3_gx hn hG
  obtain ⟨_, h1⟩ := gc0BarX3_gx hga
  obtain ⟨_, h2⟩ := gc1BarX3_gx hgb
  obtain ⟨_, h3⟩ := gc2BarX3_gx hgc
  obtain ⟨_, h4⟩ := psiBarXY3_gx H.ha hf
  obtain ⟨_, h5⟩ := psiBarXZ3_gx H.ha hf
  have hN : Gx A v w z (y + (1 / 2 : K) • v) (fun h i j k => gc0BarX3 (ga h) (i + 1) j k * psi h (i + 1) j k - gc0BarX3 (ga h) i j k * psi h i j k
      + (gc1BarX3 (gb h) i j k * psiBarXY3 o (psi h) i j k - gc1BarX3 (gb h) i (j - 1) k * psiBarXY3 o (psi h) i (j - 1) k)
      + (gc2BarX3 (gc h) i j k * psiBarXZ3 o (psi h) i j k - gc2BarX3 (gc h) i j (k - 1) * psiBarXZ3 o (psi h) i j (k - 1))) 0 (A.dir v (a0 * p) + A.dir w (b0 * p) + A.dir z (c0 * p))
      (A.dir v (a0 * q1 + a1 * p) + A.dir w (b0 * q1 + b1 * p) + A.dir z (c0 * q1 + c1 * p)) :=
    (((h1.mul hf).difN0.add (h2.mul h4).difF1).add (h3.mul h5).difF2).eq (by simp) rfl rfl
  refine ((Bk.div (hN.div0 hgx hg) hd N.one).congr' fun h i j k => ?_).eq (mul_comm _ _) ?_
  · cases hi : isset o oIga
    · simp only [nfdiv3, vabs, hi, H.ha, Bool.false_eq_true, if_false, frac_eq (H.hp.resolve_left (by simp [hi]))]
      rw [div_div_eq_mul_div, ← mul_div_assoc, div_mul_eq_mul_div, div_div]; ring_nf
    · simp only [nfdiv3, hi, if_true]; ring_nf
  · ring
theorem fdivCentre3_gx (ha : isset o oAbs = false) (hn : ∀ h, isset o oNug = true ∨ ∀ i j k, G h i j k = 1) (hf : Gx A v w z y psi p q1 q2)
    (hga : Gx A v w z (y + (1 / 2 : K) • v) ga a0 a1 a2) (hgb : Gx A v w z (y + (1 / 2 : K) • w) gb b0 b1 b2) (hgc : Gx A v w z (y + (1 / 2 : K) • z) gc c0 c1 c2) (hG : Gx A v w z y G g 0 0) (hg : g * ι = 1) :
    ∃ c, Gx A v w z y (fun h i j k => fdivCentre3 o (psi h) (ga h) (gb h) (gc h) (G h) i j k) 0 (ι * (A.dir v (a0 * p) + A.dir w (b0 * p) + A.dir z (c0 * p))) c := by
  obtain ⟨_, h1⟩ := psiBarX3_gx ha hf
  obtain ⟨_, h2⟩ := psiBarY3_gx ha hf
  obtain ⟨_, h3⟩ := psiBarZ3_gx ha hf
  have hN : Gx A v w z y (fun h i j k => ga h i j k * psiBarX3 o (psi h) i j k - ga h (i - 1) j k * psiBarX3 o (psi h) (i - 1) j k
      + (gb h i j k * psiBarY3 o (psi h) i j k - gb h i (j - 1) k * psiBarY3 o (psi h) i (j - 1) k)
      + (gc h i j k * psiBarZ3 o (psi h) i j k - gc h i j (k - 1) * psiBarZ3 o (psi h) i j (k - 1))) 0 (A.dir v (a0 * p) + A.dir w (b0 * p) + A.dir z (c0 * p))
      (A.dir v (a0 * q1 + a1 * p) + A.dir w (b0 * q1 + b1 * p) + A.dir z (c0 * q1 + c1 * p)) :=
    (((hga.mul h1).difF0.add (hgb.mul h2).difF1).add (hgc.mul h3).difF2).eq (by simp) rfl rfl
  refine ⟨_, ((hN.div0 hG hg).congr' fun h i j k => ?_).eq rfl (mul_comm _ _) rfl⟩
  simp only [fdivCentre3, gF3_eq (hn h)]; ring
theorem fdivCornerXY3_gx (ha : isset o oAbs = false) (hn : ∀ h, isset o oNug = true ∨ ∀ i j k, G h i j k = 1) (hf : Gx A v w z y psi p q1 q2)
    (hga : Gx A v w z (y + (1 / 2 : K) • v) ga a0 a1 a2) (hgb : Gx A v w z (y + (1 / 2 : K) • w) gb b0 b1 b2) (hgc : Gx A v w z (y + (1 / 2 : K) • z) gc c0 c1 c2) (hG : Gx A v w z y G g 0 0) (hg : g * ι = 1) :
    ∃ c, Gx A v w z (y + (1 / 2 : K) • v + (1 / 2 : K) • w) (fun h i j k => fdivCornerXY3 o (psi h) (ga h) (gb h) (gc h) (G h) i j k) 0 (ι * (A.dir v (a0 * p) + A.dir w (b0 * p) + A.dir z (c0 * p))) c := by
  obtain ⟨_, hgx⟩ := gBarXY3_gx hn hG
  obtain ⟨_, h1⟩ := gc0BarXY3_gx hga
  obtain ⟨_, h2⟩ := gc1BarXY3_gx hgb
  obtain ⟨_, h3⟩ := gc2BarXY3_gx hgc
  obtain ⟨_, k1⟩ := psiBarY3_gx ha hf
  obtain ⟨_, k2⟩ := psiBarX3_gx ha hf
  obtain ⟨_, k3⟩ := psiBarXYZ3_gx ha hf
  have hN : Gx A v w z (y + (1 / 2 : K) • v + (1 / 2 : K) • w) (fun h i j k => gc0BarXY3 (ga h) (i + 1) j k * psiBarY3 o (psi h) (i + 1) j k - gc0BarXY3 (ga h) i j k * psiBarY3 o (psi h) i j k
      + (gc1BarXY3 (gb h) i (j + 1) k * psiBarX3 o (psi h) i (j + 1) k - gc1BarXY3 (gb h) i j k * psiBarX3 o (psi h) i j k)
      + (gc2BarXY3 (gc h) i j k * psiBarXYZ3 o (psi h) i j k - gc2BarXY3 (gc h) i j (k - 1) * psiBarXYZ3 o (psi h) i j (k - 1))) 0 (A.dir v (a0 * p) + A.dir w (b0 * p) + A.dir z (c0 * p))
      (A.dir v (a0 * q1 + a1 * p) + A.dir w (b0 * q1 + b1 * p) + A.dir z (c0 * q1 + c1 * p)) :=
    ((((h1.mul k1).difN0.base (add_right_comm _ _ _)).add (h2.mul k2).difN1).add (h3.mul k3).difF2).eq (by simp) rfl rfl
  refine ⟨_, ((hN.div0 hgx hg).congr' fun h i j k => ?_).eq rfl (mul_comm _ _) rfl⟩
  simp only [fdivCornerXY3]; ring
theorem fdivCornerXZ3_gx (ha : isset o oAbs = false) (hn : ∀ h, isset o oNug = true ∨ ∀ i j k, G h i j k = 1) (hf : Gx A v w z y psi p q1 q2)
    (hga : Gx A v w z (y + (1 / 2 : K) • v) ga a0 a1 a2) (hgb : Gx A v w z (y + (1 / 2 : K) • w) gb b0 b1 b2) (hgc : Gx A v w z (y + (1 / 2 : K) • z) gc c0 c1 c2) (hG : Gx A v w z y G g 0 0) (hg : g * ι = 1) :
    ∃ c, Gx A v w z (y + (1 / 2 : K) • v + (1 / 2 : K) • z) (fun h i j k => fdivCornerXZ3 o (psi h) (ga h) (gb h) (gc h) (G h) i j k) 0 (ι * (A.dir v (a0 * p) + A.dir w (b0 * p) + A.dir z (c0 * p))) c := by
  obtain ⟨_, hgx⟩ := gBarXZ3_gx hn hG
  obtain ⟨_, h1⟩ := gc0BarXZ3_gx hga
  obtain ⟨_, h2⟩ := gc1BarXZ3_gx hgb
  obtain ⟨_, h3⟩ := gc2BarXZ3_gx hgc
  obtain ⟨_, k1⟩ := psiBarZ3_gx ha hf
  obtain ⟨_, k2⟩ := psiBarXYZ3_gx ha hf
  obtain ⟨_, k3⟩ := psiBarX3_gx ha hf
  have hN : Gx A v w z (y + (1 / 2 : K) • v + (1 / 2 : K) • z) (fun h i j k => gc0BarXZ3 (ga h) (i + 1) j k * psiBarZ3 o (psi h) (i + 1) j k - gc0BarXZ3 (ga h) i j k * psiBarZ3 o (psi h) i j k
      + (gc1BarXZ3 (gb h) i j k * psiBarXYZ3 o (psi h) i j k - gc1BarXZ3 (gb h) i (j - 1) k * psiBarXYZ3 o (psi h) i (j - 1) k)
      + (gc2BarXZ3 (gc h) i j (k + 1) * psiBarX3 o (psi h) i j (k + 1) - gc2BarXZ3 (gc h) i j k * psiBarX3 o (psi h) i j k)) 0 (A.dir v (a0 * p) + A.dir w (b0 * p) + A.dir z (c0 * p))
      (A.dir v (a0 * q1 + a1 * p) + A.dir w (b0 * q1 + b1 * p) + A.dir z (c0 * q1 + c1 * p)) :=
    ((((h1.mul k1).difN0.base (add_right_comm _ _ _)).add (((h2.mul k2).base (add_right_comm _ _ _)).difF1)).add (h3.mul k3).difN2).eq (by simp) rfl rfl
  refine ⟨_, ((hN.div0 hgx hg).congr' fun h i j k => ?_).eq rfl (mul_comm _ _) rfl⟩
  simp only [fdivCornerXZ3]; ring
theorem nfdivFdiv3_bk (H : AccOpts o tiny) (N : Nrm o p q1 e0 e1 ρ) (hn : ∀ h, isset o oNug = true ∨ ∀ i j k, G h i j k = 1) (hf : Gx A v w z y psi p q1 q2)
    (hga : Gx A v w z (y + (1 / 2 : K) • v) ga a0 a1 a2) (hgb : Gx A v w z (y + (1 / 2 : K) • w) gb b0 b1 b2) (hgc : Gx A v w z (y + (1 / 2 : K) • z) gc c0 c1 c2) (hG : Gx A v w z y G g 0 0) (hg : g * ι = 1) :
    Bk A v w z (y + (1 / 2 : K) • v) e1 ρ (fun h i j k => nfdivFdiv3 o tiny (psi h) (ga h) (gb h) (gc h) (G h) i j k) 0
      (ι * (A.dir v (a0 * (ι * (A.dir v (a0 * p) + A.dir w (b0 * p) + A.dir z (c0 * p)))) + A.dir w (b0 * (ι * (A.dir v (a0 * p) + A.dir w (b0 * p) + A.dir z (c0 * p)))) + A.dir z (c0 * (ι * (A.dir v (a0 * p) + A.dir w (b0 * p) + A.dir z (c0 * p)))))) := by
  obtain ⟨_, hm⟩ := mean12_3_gx H.ha hf
  obtain ⟨_, hd⟩ := N.den hm
  obtain ⟨_, hgx⟩ := gBarX3_gx hn hG
  obtain ⟨_, h1⟩ := gc0BarX3_gx hga
  obtain ⟨_, h2⟩ := gc1BarX3_gx hgb
  obtain ⟨_, h3⟩ := gc2BarX3_gx hgc
  obtain ⟨_, k1⟩ := fdivCentre3_gx H.ha hn hf hga hgb hgc hG hg
  obtain ⟨_, k2⟩ := fdivCornerXY3_gx H.ha hn hf hga hgb hgc hG hg
  obtain ⟨_, k3⟩ := fdivCornerXZ3_gx H.ha hn hf hga hgb hgc hG hg
  obtain ⟨F, hF⟩ : ∃ F, F = ι * (A.dir v (a0 * p) + A.dir w (b0 * p) + A.dir z (c0 * p)) := ⟨_, rfl⟩
  rw [← hF] at k1 k2 k3 ⊢
  have hN : Gx A v w z (y + (1 / 2 : K) • v) (fun h i j k => gc0BarX3 (ga h) (i + 1) j k * fdivCentre3 o (psi h) (ga h) (gb h) (gc h) (G h) (i + 1) j k - gc0BarX3 (ga h) i j k * fdivCentre3 o (psi h) (ga h) (gb h) (gc h) (G h) i j k
      + (gc1BarX3 (gb h) i j k * fdivCornerXY3 o (psi h) (ga h) (gb h) (gc h) (G h) i j k - gc1BarX3 (gb h) i (j - 1) k * fdivCornerXY3 o (psi h) (ga h) (gb h) (gc h) (G h) i (j - 1) k)
      + (gc2BarX3 (gc h) i j k * fdivCornerXZ3 o (psi h) (ga h) (gb h) (gc h) (G h) i j k - gc2BarX3 (gc h) i j (k - 1) * fdivCornerXZ3 o (psi h) (ga h) (gb h) (gc h) (G h) i j (k - 1))) 0 0
      (A.dir v (a0 * F) + A.dir w (b0 * F) + A.dir z (c0 * F)) :=
    (((h1.mul0 k1).difN0.add (h2.mul0 k2).difF1).add (h3.mul0 k3).difF2).eq (by simp) (by simp) rfl
  refine ((Bk.div (hN.div0 hgx hg) hd N.one).congr' fun h i j k => ?_).eq (zero_mul _).symm (by ring)
  cases hi : isset o oIga
  · simp only [nfdivFdiv3, vabs, hi, H.ha, Bool.false_eq_true, if_false, frac_eq (H.hp.resolve_left (by simp [hi]))]
    rw [div_div_eq_mul_div, ← mul_div_assoc, div_mul_eq_mul_div, div_div]; ring_nf
  · simp only [nfdivFdiv3, hi, if_true]; ring_nf
theorem ndxFdiv3_bk (H : AccOpts o tiny) (N : Nrm o p q1 e0 e1 ρ) (hn : ∀ h, isset o oNug = true ∨ ∀ i j k, G h i j k = 1) (hf : Gx A v w z y psi p q1 q2)
    (hga : Gx A v w z (y + (1 / 2 : K) • v) ga a0 a1 a2) (hgb : Gx A v w z (y + (1 / 2 : K) • w) gb b0 b1 b2) (hgc : Gx A v w z (y + (1 / 2 : K) • z) gc c0 c1 c2) (hG : Gx A v w z y G g 0 0) (hg : g * ι = 1) :
    Bk A v w z (y + (1 / 2 : K) • v) e1 ρ (fun h i j k => ndxFdiv3 o tiny (psi h) (ga h) (gb h) (gc h) (G h) i j k) 0 (A.dir v (ι * (A.dir v (a0 * p) + A.dir w (b0 * p) + A.dir z (c0 * p)))) := by
  obtain ⟨_, hm⟩ := mean12_3_gx H.ha hf
  obtain ⟨_, hd⟩ := N.den hm
  obtain ⟨_, h3⟩ := fdivCentre3_gx H.ha hn hf hga hgb hgc hG hg
  refine ((Bk.div h3.difN0 hd N.one).congr' fun h i j k => ?_).eq (map_zero _).symm rfl
  cases hi : isset o oIga
  · simp only [ndxFdiv3, vabs, hi, H.ha, Bool.false_eq_true, if_false, frac_eq (H.hp.resolve_left (by simp [hi]))]
    rw [div_div_eq_mul_div]; ring_nf
  · simp only [ndxFdiv3, hi, if_true]; ring_nf
theorem nfdivDt3_bk (H : AccOpts o tiny) (N : Nrm o p q1 e0 e1 ρ) (hn : ∀ h, isset o oNug = true ∨ ∀ i j k, G h i j k = 1) (hf : Gx A v w z y psi p q1 q2) (ho : Gx A v w z y old p 0 0)
    (hga : Gx A v w z (y + (1 / 2 : K) • v) ga a0 a1 a2) (hgb : Gx A v w z (y + (1 / 2 : K) • w) gb b0 b1 b2) (hgc : Gx A v w z (y + (1 / 2 : K) • z) gc c0 c1 c2) (hG : Gx A v w z y G g 0 0) (hg : g * ι = 1) :
    Bk A v w z (y + (1 / 2 : K) • v) e1 ρ (fun h i j k => nfdivDt3 o tiny (psi h) (old h) (ga h) (gb h) (gc h) (G h) i j k) 0 (ι * (A.dir v (a0 * q1) + A.dir w (b0 * q1) + A.dir z (c0 * q1))) := by
  obtain ⟨_, hm⟩ := mean10_3_gx H.ha hf
  obtain ⟨_, hm'⟩ := mean10_3_gx H.ha ho
  obtain ⟨_, _, hd⟩ := N.den0 ((((hm.add hm').smul (1 / 2)).eq (a' := p) (by algebra) rfl rfl).congr'
    (g := fun h i j k => (sum10_3 o (psi h) i j k + sum10_3 o (old h) i j k) / 20) fun h i j k => by ring)
  obtain ⟨_, hgx⟩ := gBarX3_gx hn hG
  obtain ⟨_, h1⟩ := gc0BarX3_gx hga
  obtain ⟨_, h2⟩ := gc1BarX3_gx hgb
  obtain ⟨_, h2'⟩ := gc2BarX3_gx hgc
  obtain ⟨_, h3⟩ := psiBarXY3_gx H.ha hf
  obtain ⟨_, h4⟩ := psiBarXY3_gx H.ha ho
  obtain ⟨_, h5⟩ := psiBarXZ3_gx H.ha hf
  obtain ⟨_, h6⟩ := psiBarXZ3_gx H.ha ho
  have hN : Gx A v w z (y + (1 / 2 : K) • v) (fun h i j k => gc0BarX3 (ga h) (i + 1) j k * (psi h (i + 1) j k - old h (i + 1) j k) - gc0BarX3 (ga h) i j k * (psi h i j k - old h i j k)
      + (gc1BarX3 (gb h) i j k * (psiBarXY3 o (psi h) i j k - psiBarXY3 o (old h) i j k) - gc1BarX3 (gb h) i (j - 1) k * (psiBarXY3 o (psi h) i (j - 1) k - psiBarXY3 o (old h) i (j - 1) k))
      + (gc2BarX3 (gc h) i j k * (psiBarXZ3 o (psi h) i j k - psiBarXZ3 o (old h) i j k) - gc2BarX3 (gc h) i j (k - 1) * (psiBarXZ3 o (psi h) i j (k - 1) - psiBarXZ3 o (old h) i j (k - 1)))) 0 0
      (A.dir v (a0 * q1) + A.dir w (b0 * q1) + A.dir z (c0 * q1)) :=
    (((h1.mul0 ((hf.sub ho).eq (sub_self p).symm rfl rfl)).difN0.add (h2.mul0 ((h3.sub h4).eq (sub_self p).symm rfl rfl)).difF1).add
      (h2'.mul0 ((h5.sub h6).eq (sub_self p).symm rfl rfl)).difF2).eq (by simp) (by simp) (by simp)
  refine ((Bk.div00 ((hN.div0 hgx hg).eq rfl (zero_mul _).symm rfl) hd N.one).congr' fun h i j k => ?_).eq rfl (by ring)
  cases hi : isset o oIga
  · simp only [nfdivDt3, vabs, hi, H.ha, Bool.false_eq_true, if_false, frac_eq (H.hp.resolve_left (by simp [hi]))]
    rw [div_div_eq_mul_div, ← mul_div_assoc, div_mul_eq_mul_div, div_div]; ring_nf
  · simp only [nfdivDt3, hi, if_true]; ring_nf
theorem ndtx3_bk (H : AccOpts o tiny) (N : Nrm o p q1 e0 e1 ρ) (hf : Gx A v w z y psi p q1 q2) (ho : Gx A v w z y old p 0 0) :
    Bk A v w z (y + (1 / 2 : K) • v) e1 ρ (fun h i j k => ndtxPsi3 o tiny (psi h) (old h) i j k) 0 (A.dir v q1) := by
  obtain ⟨_, _, hd⟩ := N.den0 (((hf.avN0.add ho.avN0).smul (1 / 2)).eq (a' := p) (by algebra) rfl rfl)
  refine ((Bk.div00 ((hf.sub ho).difN0.eq rfl (by simp) rfl) hd N.one).congr' fun h i j k => ?_).eq rfl (by simp)
  cases hi : isset o oIga
  · simp only [ndtxPsi3, vabs, hi, H.ha, Bool.false_eq_true, if_false, frac_eq (H.hp.resolve_left (by simp [hi]))]
    rw [show ∀ a b : K, a / (1 / 2 * (b / 2 + (old h (i + 1) j k + old h i j k) / 2)) = 4 * (a / (b + (old h (i + 1) j k + old h i j k))) from fun a b => by
      rw [show 1 / 2 * (b / 2 + (old h (i + 1) j k + old h i j k) / 2) = (b + (old h (i + 1) j k + old h i j k)) / 4 by ring, div_div_eq_mul_div]; ring]
    ring_nf
  · simp only [ndtxPsi3, hi, if_true]; ring_nf
theorem ndt3_bk (H : AccOpts o tiny) (N : Nrm o p q1 e0 e1 ρ) (hf : Gx A v w z y psi p q1 q2) (ho : Gx A v w z y old p 0 0) (hna : Gx A v w z (y + (1 / 2 : K) • v) nda 0 na na2) :
    Bk A v w z (y + (1 / 2 : K) • v) e1 ρ (fun h i j k => nda h i j k * ndtPsi3 o tiny (psi h) (old h) i j k) 0 (na * q1) := by
  obtain ⟨_, _, hd⟩ := N.den0 (((hf.avN0.add ho.avN0).smul (1 / 2)).eq (a' := p) (by algebra) rfl rfl)
  refine ((hna.mul (((hf.sub ho).avN0.eq (sub_self p).symm rfl rfl).div0 hd N.one)).congr' fun h i j k => ?_).eq (by ring) (by ring) (by ring)
  cases hi : isset o oIga
  · simp only [ndtPsi3, vabs, hi, H.ha, Bool.false_eq_true, if_false, frac_eq (H.hp.resolve_left (by simp [hi]))]
    rw [show ∀ a b : K, a / 2 / (1 / 2 * (b / 2 + (old h (i + 1) j k + old h i j k) / 2)) = 2 * (a / (b + (old h (i + 1) j k + old h i j k))) from fun a b => by
      rw [show 1 / 2 * (b / 2 + (old h (i + 1) j k + old h i j k) / 2) = (b + (old h (i + 1) j k + old h i j k)) / 4 by ring, div_div_eq_mul_div]; ring]
    ring_nf
  · simp only [ndtPsi3, hi, if_true]; ring_nf

/-- the arrays that enter the velocity in one direction, and their expansions -/
structure In3 (A : DAlg n K R) (v w z y : Fin n → K) (o : OptsT) (tiny : K) (psi old ga gb gc G : K → Int → Int → Int → K) (p q1 q2 a0 a1 a2 b0 b1 b2 c0 c1 c2 g ι e0 e1 ρ : R) (s : K) : Prop where
  H : AccOpts o tiny
  N : Nrm o p q1 e0 e1 ρ
  hn : ∀ h, isset o oNug = true ∨ ∀ i j k, G h i j k = 1
  hf : Gx A v w z y psi p q1 q2
  ho : Gx A v w z y old p 0 0
  hga : Gx A v w z (y + (1 / 2 : K) • v) ga a0 a1 a2
  hgb : Gx A v w z (y + (1 / 2 : K) • w) gb b0 b1 b2
  hgc : Gx A v w z (y + (1 / 2 : K) • z) gc c0 c1 c2
  hs : (s = 1 ∧ 0 < A.ε a0) ∨ (s = -1 ∧ A.ε a0 < 0)
  hG : Gx A v w z y G g 0 0
  hg : g * ι = 1

variable (I : In3 A v w z y o tiny psi old ga gb gc G p q1 q2 a0 a1 a2 b0 b1 b2 c0 c1 c2 g ι e0 e1 ρ s)
include I
theorem dfl3_bk (hd : isset o oDfl = true) : ∃ c, Bk A v w z (y + (1 / 2 : K) • v) e1 ρ (fun h i j k => dfl3 o (psi h) (ga h) (gb h) (gc h) (G h) i j k)
    ((-(1 / 2) : K) • (a0 * ι * (A.dir v a0 + A.dir w b0 + A.dir z c0)) * p) c := by
  obtain ⟨_, hgx⟩ := gBarX3_gx I.hn I.hG
  obtain ⟨_, h2⟩ := gc1BarX3_gx I.hgb
  obtain ⟨_, h3⟩ := gc2BarX3_gx I.hgc
  obtain ⟨_, hp⟩ := psiBarX3_gx I.H.ha I.hf
  obtain ⟨m0, m1, m2, hm, e1', e2'⟩ := I.N.com hp
  have hX := (((I.hga.div hgx I.hg).mul0 (((I.hga.avF0.difN0.add h2.difF1).add h3.difF2).eq (by simp) rfl rfl)).smul (-(1 / 2))).eq (a' := 0) (smul_zero _).symm rfl rfl
  refine ⟨_, (Bk.cross hX hm I.N.one e1' e2').congr' fun h i j k => ?_⟩
  simp only [dfl3, hd, if_true, gc1BarX3, gc2BarX3]
  split_ifs <;> simp only [add_sub_cancel_right] <;> ring
theorem tot3_bk : ∃ c, Bk A v w z (y + (1 / 2 : K) • v) e1 ρ (fun h i j k => tot3 o tiny (psi h) (ga h) (gb h) (gc h) (G h) i j k) 0 c := by
  by_cases ht : isset o oTot = true
  · obtain ⟨_, hgx⟩ := gBarX3_gx I.hn I.hG
    obtain ⟨_, hgb⟩ := gc1BarXY3_gx I.hgb
    obtain ⟨_, hgc⟩ := gc2BarXZ3_gx I.hgc
    have gi := Ok.inv hgx I.hg
    have a := Ok.of I.hga
    have aa := Ok.of (I.hga.abs_sgn I.hs)
    have b := Ok.of hgb
    have c := Ok.of hgc
    obtain ⟨_, h1⟩ := (ndxx3_bk I.H I.N I.hf).mulOk (((((a.mul aa).mul gi).smul (1 / 2)).sub (((((a.mul a).mul a).mul gi).mul gi).smul (1 / 3))).sub (a.smul (1 / 6)))
    obtain ⟨_, h2⟩ := (ndxy3_bk I.H I.N I.hf).mulOk ((((aa.sub (((a.mul a).mul gi).smul 2)).mul b).mul gi).smul (1 / 2))
    obtain ⟨_, h3⟩ := (ndxz3_bk I.H I.N I.hf).mulOk ((((aa.sub (((a.mul a).mul gi).smul 2)).mul c).mul gi).smul (1 / 2))
    obtain ⟨_, h4⟩ := (ndyz3_bk I.H I.N I.hf).mulOk (((((a.mul b).mul c).mul gi).mul gi).smul (-(2 / 3)))
    refine ⟨_, ((((h1.add h2).add h3).add h4).congr' fun h i j k => ?_).eq (by simp) rfl⟩
    simp only [tot3, ht, if_true, ndxxPsiCoeff3, ndxyPsiCoeff3, ndxzPsiCoeff3, ndyzPsiCoeff3]; ring
  · exact ⟨0, Bk.zero.congr' fun h i j k => by simp [tot3, ht]⟩
/-- the standard velocity with the divergent-flow correction -/
theorem std3_bk (hd2 : isset o oDiv2 = false) (hd3 : isset o oDiv3 = false) (hdfl : isset o oDfl = true) (si te) (nda ndb ndc ndtt : K → Int → Int → Int → K) :
    ∃ c, Bk A v w z (y + (1 / 2 : K) • v) e1 ρ (fun h i j k => antidiff3 o si te tiny (psi h) (old h) (ga h) (gb h) (gc h) (nda h) (ndb h) (ndc h) (ndtt h) (G h) i j k)
      ((1 / 2 : K) • ((s • a0) * A.dir v p - a0 * (ι * (A.dir v (a0 * p) + A.dir w (b0 * p) + A.dir z (c0 * p))))) c := by
  obtain ⟨_, hgx⟩ := gBarX3_gx I.hn I.hG
  obtain ⟨_, hgb⟩ := gc1BarXY3_gx I.hgb
  obtain ⟨_, hgc⟩ := gc2BarXZ3_gx I.hgc
  obtain ⟨_, h1⟩ := dfl3_bk I hdfl
  obtain ⟨_, h2⟩ := tot3_bk I
  have haa := I.hga.abs_sgn I.hs
  have hx := Bk.cmul ((haa.smul (1 / 2)).mul (Gx.one.sub (haa.div hgx I.hg))) (ndx3_bk I.H I.N I.hf)
  have hy := Bk.cmul (((I.hga.mul hgb).div hgx I.hg).smul (1 / 2)) (ndy3_bk I.H I.N I.hf)
  have hz := Bk.cmul (((I.hga.mul hgc).div hgx I.hg).smul (1 / 2)) (ndz3_bk I.H I.N I.hf)
  refine ⟨_, (((((hx.sub hy).sub hz).add h2).add h1).congr' fun h i j k => ?_).eq ?_ rfl⟩
  · simp only [antidiff3, hd2, hd3, Bool.or_self, Bool.false_eq_true, if_false]; ring
  · have hs2 : s * s = 1 := by rcases I.hs with ⟨e, -⟩ | ⟨e, -⟩ <;> rw [e] <;> norm_num
    have e : (s • a0) * (s • a0) = a0 * a0 := by rw [smul_mul_smul_comm, hs2, one_smul]
    simp only [Derivation.leibniz, smul_eq_mul]
    linear_combination (norm := algebra) ((1 / 2 : K) • (ι * A.dir v p)) * e
/-- the divergence-form velocity without third-order terms -/
theorem div2_3_bk : Bk A v w z (y + (1 / 2 : K) • v) e1 ρ (fun h i j k => div2nd3 o tiny (psi h) (ga h) (gb h) (gc h) (G h) i j k)
      ((1 / 2 : K) • ((s • a0) * A.dir v p - a0 * (ι * (A.dir v (a0 * p) + A.dir w (b0 * p) + A.dir z (c0 * p)))))
      ((1 / 2 : K) • ((s • a0) * A.dir v q1 + (s • a1) * A.dir v p - (a0 * (ι * (A.dir v (a0 * q1 + a1 * p) + A.dir w (b0 * q1 + b1 * p) + A.dir z (c0 * q1 + c1 * p))) + a1 * (ι * (A.dir v (a0 * p) + A.dir w (b0 * p) + A.dir z (c0 * p)))))) := by
  have h1 := Bk.cmul (I.hga.abs_sgn I.hs) (ndx3_bk I.H I.N I.hf)
  have h2 := Bk.cmul I.hga (nfdiv3_bk I.H I.N I.hn I.hf I.hga I.hgb I.hgc I.hG I.hg)
  refine ((h1.sub h2).smul (1 / 2)).congr' fun h i j k => ?_
  simp only [div2nd3]; ring
/-- the third-order divergence-form velocity, when the first pass changed the field by minus the flux divergence -/
theorem div3_3_bk {na na2 nb nb2 nc nc2 nt : R} {zz : K} {si : SptlIntrp} {te : TmprlExtrp} {nda ndb ndc ndtt : K → Int → Int → Int → K} (hq : q1 = -(ι * (A.dir v (a0 * p) + A.dir w (b0 * p) + A.dir z (c0 * p))))
    (hna : Gx A v w z (y + (1 / 2 : K) • v) nda 0 na na2) (hnb : Gx A v w z (y + (1 / 2 : K) • w) ndb 0 nb nb2) (hnc : Gx A v w z (y + (1 / 2 : K) • z) ndc 0 nc nc2) (hnt : Gx A v w z (y + (1 / 2 : K) • v) ndtt 0 0 nt)
    (hz : isset o oIga = true ∨ (zz = 1 ∧ 0 < A.ε ((1 / 2 : K) • ((s • a0) * A.dir v p + a0 * q1) * ρ)) ∨ (zz = -1 ∧ A.ε ((1 / 2 : K) • ((s • a0) * A.dir v p + a0 * q1) * ρ) < 0))
    (hopt : isset o oDiv3 = true ∨ (isset o oDiv3 = false ∧ isset o oDiv2 = true ∧ isset o oDiv3dt = true)) :
    Bk A v w z (y + (1 / 2 : K) • v) e1 ρ (fun h i j k => antidiff3 o si te tiny (psi h) (old h) (ga h) (gb h) (gc h) (nda h) (ndb h) (ndc h) (ndtt h) (G h) i j k)
      ((1 / 2 : K) • ((s • a0) * A.dir v p + a0 * q1))
      ((1 / 2 : K) • ((s • a1) * A.dir v p - a0 * (ι * (A.dir v (a0 * q1 + a1 * p) + A.dir w (b0 * q1 + b1 * p) + A.dir z (c0 * q1 + c1 * p))) + a1 * q1)
        + (if isset o oIga = true then 0 else (1 / 2 : K) • ((zz • ((1 / 2 : K) • ((s • a0) * A.dir v p + a0 * q1))) * A.dir v p * ρ))
        + (-(1 / 24) : K) • ((4 : K) • (a0 * A.dir v (A.dir v p)) + (2 : K) • (A.dir v p * A.dir v a0) + (siFac si : K) • (A.dir v (A.dir v a0) * p))
        + (1 / 24 : K) • ((8 : K) • (a0 * (ι * (A.dir v (a0 * q1) + A.dir w (b0 * q1) + A.dir z (c0 * q1)))) + (teFac te : K) • (nt * p) + (2 : K) • (a0 * (ι * (A.dir v (na * p) + A.dir w (nb * p) + A.dir z (nc * p)))) + (2 : K) • (na * q1))) := by
  obtain ⟨F, hF⟩ : ∃ F, F = ι * (A.dir v (a0 * p) + A.dir w (b0 * p) + A.dir z (c0 * p)) := ⟨_, rfl⟩
  have hd2 := div2_3_bk I
  have haa := I.hga.abs_sgn I.hs
  have hndx := ndx3_bk I.H I.N I.hf
  obtain ⟨_, hp⟩ := psiBarX3_gx I.H.ha I.hf
  obtain ⟨m0, m1, m2, hm, m0e, m1e⟩ := I.N.com hp
  have hgcc := Bk.cross I.hga.difF0.difN0 hm I.N.one m0e m1e
  have htt := Bk.cross hnt hm I.N.one m0e m1e
  have hxx := Bk.cmul I.hga (ndxx3_bk I.H I.N I.hf)
  have hxg := Bk.cmul (ndxGC3_gx I.hga) hndx
  have hN := nfdiv3_bk I.H I.N I.hn I.hf hna hnb hnc I.hG I.hg
  have hsp : Bk A v w z (y + (1 / 2 : K) • v) e1 ρ (fun h i j k => div3rdSpatial3 o si tiny (psi h) (ga h) i j k) 0
      ((-(1 / 24) : K) • ((4 : K) • (a0 * A.dir v (A.dir v p)) + (2 : K) • (A.dir v p * A.dir v a0) + (siFac si : K) • (A.dir v (A.dir v a0) * p))) := by
    refine (((((hxx.smul 4).add (hxg.smul 2)).add (hgcc.smul (siFac si))).smul (-(1 / 24))).congr' fun h i j k => ?_).eq ?_ ?_
    · cases si <;> simp only [div3rdSpatial3, div3rdSpatialHelper3, ndxxGC03, siFac, one_mul, zero_mul, add_sub_cancel_right] <;> (try split_ifs) <;> ring
    · simp
    · simp only [map_zero]; algebra
  have hup : Bk A v w z (y + (1 / 2 : K) • v) e1 ρ (fun h i j k => div3rdUpwind3 o tiny (psi h) (ga h) (gb h) (gc h) (G h) i j k) 0
      (if isset o oIga = true then 0 else (1 / 2 : K) • ((zz • ((1 / 2 : K) • ((s • a0) * A.dir v p + a0 * q1))) * A.dir v p * ρ)) := by
    cases hi : isset o oIga
    · have hz' := hz.resolve_left (by simp [hi])
      have e : (1 / 2 : K) • ((s • a0) * A.dir v p + a0 * q1) = (1 / 2 : K) • ((s • a0) * A.dir v p - a0 * (ι * (A.dir v (a0 * p) + A.dir w (b0 * p) + A.dir z (c0 * p)))) := by
        rw [hq, mul_neg, ← sub_eq_add_neg]
      rw [e] at hz' ⊢
      refine ((((Gx.abs_lead hd2 hz').mul hndx).smul (1 / 2)).congr' fun h i j k => ?_).eq (by simp) (by simp) ?_
      · simp only [div3rdUpwind3, hi, Bool.false_eq_true, if_false]; ring
      · simp only [Bool.false_eq_true, if_false]; algebra
    · exact Bk.zero.congr' fun h i j k => by simp [div3rdUpwind3, hi]
  have htm : Bk A v w z (y + (1 / 2 : K) • v) e1 ρ (fun h i j k => div3rdTemporal3 o te (psi h) (ndtt h) i j k) 0 ((teFac te : K) • (nt * p)) := by
    refine ((htt.smul (teFac te)).congr' fun h i j k => ?_).eq (by simp) (by simp)
    cases te <;> simp only [div3rdTemporal3, ndttGC03, one_mul, teFac] <;> split_ifs <;> simp
  rcases hopt with h3 | ⟨h3, h2, hdt⟩
  · have hS := Bk.cmul I.hga (nfdivFdiv3_bk I.H I.N I.hn I.hf I.hga I.hgb I.hgc I.hG I.hg)
    have hx := Bk.cmul haa (ndxFdiv3_bk I.H I.N I.hn I.hf I.hga I.hgb I.hgc I.hG I.hg)
    have hnF := Bk.cmul hna (nfdiv3_bk I.H I.N I.hn I.hf I.hga I.hgb I.hgc I.hG I.hg)
    have haN := Bk.cmul I.hga hN
    refine ((hd2.add (((hup.add hsp).add (hx.smul (1 / 2))).add (((((hS.smul (-8)).add htm).add (haN.smul 2)).sub (hnF.smul 2)).smul (1 / 24)))).congr' fun h i j k => ?_).eq ?_ ?_
    · simp only [antidiff3, div3rd3, h3, Bool.or_true, if_true]; ring
    · rw [hq, ← hF]; simp only [zero_mul, map_zero]; algebra
    · rw [← hF] at hq ⊢; rw [show F = -q1 by rw [hq, neg_neg]]; simp only [zero_mul, map_zero, mul_neg, map_neg, zero_add, mul_zero, add_zero, neg_add]; algebra
  · have hS := Bk.cmul I.hga (nfdivDt3_bk I.H I.N I.hn I.hf I.ho I.hga I.hgb I.hgc I.hG I.hg)
    have hx := Bk.cmul haa (ndtx3_bk I.H I.N I.hf I.ho)
    have hnF := ndt3_bk I.H I.N I.hf I.ho hna
    have haN := Bk.cmul I.hga hN
    refine ((hd2.add (((hup.add hsp).sub (hx.smul (1 / 2))).add (((((hS.smul 8).add htm).add (haN.smul 2)).add (hnF.smul 2)).smul (1 / 24)))).congr' fun h i j k => ?_).eq ?_ ?_
    · simp only [antidiff3, div3rd3, h2, h3, hdt, Bool.true_or, if_true, Bool.false_eq_true, if_false]; ring
    · rw [hq, ← hF]; simp only [zero_mul, map_zero]; algebra
    · rw [← hF] at hq ⊢; rw [show F = -q1 by rw [hq, neg_neg]]; simp only [zero_mul, map_zero, mul_neg, map_neg, zero_add, mul_zero, add_zero, neg_add]; algebra
end
end Mpdata
