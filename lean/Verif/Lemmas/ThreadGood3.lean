import Verif.Lemmas.ThreadsOwn
import Verif.Lemmas.ThreadGood
import Verif.Model.ThreadProg3
/-! # The phases of the three-dimensional program -/
set_option linter.unusedSectionVars false
set_option linter.unusedSimpArgs false
set_option linter.unusedVariables false
namespace Mpdata
namespace Threads
open Classical


variable {V : Type}

theorem nodup_append_rows (a b c d : Int) (h : b < c) : (rows a b ++ rows c d).Nodup := by
  rw [List.nodup_append]
  refine ⟨nodup_rows _ _, nodup_rows _ _, ?_⟩
  intro p hp q hq
  rw [mem_rows] at hp hq; omega

theorem mem_box (is ks : List Int) (y : IK) : y ∈ box is ks ↔ y.1 ∈ is ∧ y.2 ∈ ks := by
  unfold box; exact List.mem_product
theorem nodup_box {is ks : List Int} (h1 : is.Nodup) (h2 : ks.Nodup) : (box is ks).Nodup := h1.product h2

/-- the locations left undetermined: with no barrier in `xchng_vctr_nrml`, the corners of component 0 of a corrective velocity beyond the first halo column -/
def Junk3 (div3 : Bool) (N M : Nat) (l : A3 × Int × IK) : Prop :=
  div3 = false ∧ (∃ b, l.1 = .tmp b 0) ∧ ¬ (-1 ≤ l.2.1 ∧ l.2.1 ≤ N) ∧ ¬ (0 ≤ l.2.2.2 ∧ l.2.2.2 ≤ M - 1)

section phases
variable (F : F3 V) (o : TOpts) (div3 : Bool) (L N M : Nat)

theorem nodup_kHalo : (kHalo o M).Nodup := nodup_append_rows _ _ _ _ (by omega)
theorem nodup_kHaloF (hM : 0 < M) : (kHaloF o M).Nodup := nodup_append_rows _ _ _ _ (by omega)
theorem nodup_kEdge (hM : 0 < M) : (kEdge M).Nodup := nodup_append_rows _ _ _ _ (by omega)
theorem mem_kHalo (k : Int) : k ∈ kHalo o M ↔ (-(o.halo : Int) ≤ k ∧ k ≤ -1) ∨ ((M : Int) ≤ k ∧ k ≤ M - 1 + o.halo) := by
  simp only [kHalo, List.mem_append, mem_rows]
theorem mem_kHaloF (k : Int) : k ∈ kHaloF o M ↔ (-(o.halo : Int) ≤ k ∧ k ≤ -1) ∨ ((M : Int) - 1 ≤ k ∧ k ≤ M - 2 + o.halo) := by
  simp only [kHaloF, List.mem_append, mem_rows]
theorem mem_kEdge (k : Int) : k ∈ kEdge M ↔ k = -1 ∨ k = (M : Int) - 1 := by
  simp only [kEdge, List.mem_append, mem_rows]; omega
theorem mem_iHalo (r : Bool) (i : Int) : i ∈ iHalo o L r ↔ (r = true ∧ (L : Int) ≤ i ∧ i ≤ L - 1 + o.halo) ∨ (r = false ∧ -(o.halo : Int) ≤ i ∧ i ≤ -1) := by
  cases r <;> simp [iHalo, mem_rows]
theorem nodup_iHalo (r : Bool) : (iHalo o L r).Nodup := by
  cases r <;> simp only [iHalo, if_true, if_false] <;> exact nodup_rows _ _
theorem mem_iHaloF (r : Bool) (i : Int) : i ∈ iHaloF o L r ↔ (r = true ∧ (L : Int) - 1 ≤ i ∧ i ≤ L - 2 + o.halo) ∨ (r = false ∧ -(o.halo : Int) ≤ i ∧ i ≤ -1) := by
  cases r <;> simp [iHaloF, mem_rows]
theorem nodup_iHaloF (r : Bool) : (iHaloF o L r).Nodup := by
  cases r <;> simp only [iHaloF, if_true, if_false] <;> exact nodup_rows _ _

theorem junk_of_ne {a : A3} (ha : ∀ b, a ≠ .tmp b 0) (x : Int) (y : IK) : ¬ Junk3 div3 N M (a, x, y) := fun h => by
  obtain ⟨b, hb⟩ := h.2.1; exact ha b hb

theorem xchng3_ok (hh : 0 < N) (a : A3) (ha : ∀ b, a ≠ .tmp b 0) : ∀ ss ∈ xchng3 F o L N M a, PhaseIs N (Junk3 div3 N M) ss := by
  have cl : ∀ {ss : List (S A3 IK V)}, (∀ s ∈ ss, ∀ x y a' x' y', s.rd x y a' x' y' → a' = a) → CleanReads N (Junk3 div3 N M) ss := by
    intro ss h s hs x _ y _ _ a' x' y' hr
    rw [h s hs x y a' x' y' hr]
    exact junk_of_ne div3 N M ha x' y'
  intro ss hs
  simp only [xchng3, List.mem_cons, List.mem_nil_iff, or_false] at hs
  rcases hs with rfl | rfl | rfl
  · refine phaseIs_erase (P := [s1L F o L N M a, s1R F o L N M a]) (Q := [s0 F o L N M true a]) (fun y => !decide ((L : Int) ≤ y.1 ∧ y.1 ≤ L - 1 + o.halo)) ?_ ?_ ?_ ?_ ?_
    · simp only [List.mem_cons, List.mem_nil_iff, or_false]
      rintro s ((rfl | rfl) | rfl) <;> simp [s1L, s1R, s0, Dom.Own]
    · simp only [List.mem_cons, List.mem_nil_iff, or_false]
      rintro s ((rfl | rfl) | rfl) x hx y hy hk a' x' y' hr hp s' (rfl | rfl) hd hy' hx' <;>
        simp only [s1L, s1R, s0, Dom.glob, Rng.Mem, mem_box, mem_rows, mem_iHalo, reduceCtorEq, false_and, true_and, or_false, false_or] at * <;> simp at hp <;> omega
    · simp only [List.mem_cons, List.mem_nil_iff, or_false]
      rintro s (rfl | rfl) x hx y hy hp hj <;> refine ⟨_, rfl, rfl, ?_, ?_⟩ <;>
        simp only [s1L, s1R, s0, Dom.glob, Rng.Mem, mem_box, mem_rows, mem_iHalo, reduceCtorEq, false_and, true_and, or_false, false_or] at * <;> (try simp at hp) <;> omega
    · refine ⟨?_, ?_, ?_, ?_⟩
      · simp only [List.map_cons, List.map_nil, List.cons_append, List.nil_append, List.mem_cons, List.mem_nil_iff, or_false]
        rintro s (rfl | rfl | rfl) <;> simp [s1L, s1R, s0, Dom.Own, S.only]
      · simp only [List.map_cons, List.map_nil, List.cons_append, List.nil_append, List.mem_cons, List.mem_nil_iff, or_false]
        rintro s (rfl | rfl | rfl)
        · exact (nodup_box (nodup_rows _ _) (nodup_rows _ _)).filter _
        · exact (nodup_box (nodup_rows _ _) (nodup_rows _ _)).filter _
        · exact nodup_box (nodup_iHalo _ _ _) (nodup_rows _ _)
      · simp only [List.map_cons, List.map_nil, List.cons_append, List.nil_append, List.mem_cons, List.mem_nil_iff, or_false]
        rintro s (rfl | rfl | rfl) x hx y hy a' x' y' hr s' (rfl | rfl | rfl) hd hy' hx' <;>
          simp only [s1L, s1R, s0, S.only, SameCol, Dom.glob, Rng.Mem, List.mem_filter, Bool.not_eq_true', decide_eq_false_iff_not, mem_box, mem_rows, mem_iHalo, reduceCtorEq, false_and, true_and, or_false, false_or] at * <;> omega
      · simp only [List.map_cons, List.map_nil, List.cons_append, List.nil_append, List.mem_cons, List.mem_nil_iff, or_false]
        rintro s (rfl | rfl | rfl) x y x' y' hx hy hr hx' hy' <;>
          simp only [s1L, s1R, s0, S.only, SameCol, Dom.glob, Rng.Mem, List.mem_filter, Bool.not_eq_true', decide_eq_false_iff_not, mem_box, mem_rows, mem_iHalo, reduceCtorEq, false_and, true_and, or_false, false_or] at * <;> omega
    · refine cl ?_
      simp only [List.map_cons, List.map_nil, List.cons_append, List.nil_append, List.mem_cons, List.mem_nil_iff, or_false]
      rintro s (rfl | rfl | rfl) x y a' x' y' hr <;> exact hr.1
  · refine phaseIs_own ⟨?_, ?_, ?_, ?_⟩ (cl ?_) <;> simp only [List.mem_cons, List.mem_nil_iff, or_false]
    · rintro s rfl; trivial
    · rintro s rfl; exact nodup_box (nodup_iHalo _ _ _) (nodup_rows _ _)
    · rintro s rfl x hx y hy a' x' y' hr s' rfl hd hy' hx'
      simp only [s0, SameCol, Dom.glob, Rng.Mem, mem_box, mem_rows, mem_iHalo, reduceCtorEq, false_and, true_and, or_false, false_or] at *; omega
    · rintro s rfl x y x' y' hx hy hr hx' hy'
      simp only [s0, SameCol, Dom.glob, Rng.Mem, mem_box, mem_rows, mem_iHalo, reduceCtorEq, false_and, true_and, or_false, false_or] at *; omega
    · rintro s rfl x y a' x' y' hr; exact hr.1
  · refine phaseIs_own ⟨?_, ?_, ?_, ?_⟩ (cl ?_) <;> simp only [List.mem_cons, List.mem_nil_iff, or_false]
    · rintro s rfl; trivial
    · rintro s rfl; exact nodup_box (nodup_rows _ _) (nodup_kHalo _ _)
    · rintro s rfl x hx y hy a' x' y' hr s' rfl hd hy' hx'
      simp only [s2, SameCol, Dom.glob, Rng.Mem, mem_box, mem_rows, mem_kHalo] at *; omega
    · rintro s rfl x y x' y' hx hy hr hx' hy'
      simp only [s2, SameCol, Dom.glob, Rng.Mem, mem_box, mem_rows, mem_kHalo] at *; omega
    · rintro s rfl x y a' x' y' hr; exact hr.1

theorem junk_col {a : A3} {x : Int} {y : IK} (h0 : -1 ≤ x) (h1 : x ≤ N) : ¬ Junk3 div3 N M (a, x, y) := fun h => h.2.2.1 ⟨h0, h1⟩
theorem junk_k {a : A3} {x : Int} {y : IK} (h0 : 0 ≤ y.2) (h1 : y.2 ≤ M - 1) : ¬ Junk3 div3 N M (a, x, y) := fun h => h.2.2.2 ⟨h0, h1⟩

/-- the three components are different arrays, and only the first may hold junk -/
structure Vec3 (a : Fin 3 → A3) : Prop where
  h01 : a 0 ≠ a 1
  h02 : a 0 ≠ a 2
  h12 : a 1 ≠ a 2
  c1 : ∀ b, a 1 ≠ .tmp b 0
  c2 : ∀ b, a 2 ≠ .tmp b 0

theorem vec_corr (iter : Nat) : Vec3 (corr3 iter) := by constructor <;> simp [corr3]
theorem vec_gc : Vec3 A3.gc := by constructor <;> simp
theorem vec_flux : Vec3 A3.flux := by constructor <;> simp
theorem vec_mono : Vec3 A3.mono := by constructor <;> simp

theorem alng0_ok (hM : 0 < M) (a : Fin 3 → A3) (ha : Vec3 a) (ad r : Bool) (p : Int) :
    PhaseIs N (Junk3 div3 N M) [z02 F M r a p, z01L F M r a p, z01R F N M r a p, g0 F o L N M ad r a] := by
  obtain ⟨h01, h02, h12, c1, c2⟩ := ha
  refine phaseIs_own ⟨?_, ?_, ?_, ?_⟩ ?_
  · simp only [List.mem_cons, List.mem_nil_iff, or_false]
    rintro s (rfl | rfl | rfl | rfl) <;> simp [z02, z01L, z01R, g0, Dom.Own]
  · simp only [List.mem_cons, List.mem_nil_iff, or_false]
    rintro s (rfl | rfl | rfl | rfl)
    · exact nodup_box (List.nodup_singleton _) (nodup_kEdge M hM)
    · exact nodup_box (List.nodup_singleton _) (nodup_rows _ _)
    · exact nodup_box (List.nodup_singleton _) (nodup_rows _ _)
    · exact nodup_box (nodup_iHaloF _ _ _) (nodup_rows _ _)
  · simp only [List.mem_cons, List.mem_nil_iff, or_false]
    rintro s (rfl | rfl | rfl | rfl) x hx y hy a' x' y' hr s' (rfl | rfl | rfl | rfl) hd hy' hx' <;>
      simp only [z02, z01L, z01R, g0] at hx hy hr hd hy' hx' <;> subst hd <;>
      simp only [h01, h02, h12, h01.symm, h02.symm, h12.symm, false_and, true_and, or_false, false_or] at hr <;>
      simp only [Dom.glob, Rng.Mem, SameCol] at hx hx' ⊢ <;> (try simp only [hy', not_true_eq_false, false_and, or_false] at hr) <;> omega
  · simp only [List.mem_cons, List.mem_nil_iff, or_false]
    rintro s (rfl | rfl | rfl | rfl) x y x' y' hx hy hr hx' hy' <;>
      simp only [z02, z01L, z01R, g0] at hx hy hr hy' hx' <;>
      simp only [h01, h02, h12, h01.symm, h02.symm, h12.symm, hy', not_true_eq_false, false_and, true_and, or_false, false_or] at hr <;> exact hr
  · simp only [CleanReads, List.mem_cons, List.mem_nil_iff, or_false]
    rintro s (rfl | rfl | rfl | rfl) x hx y hy hj a' x' y' hr
    · obtain ⟨rfl, rfl, rfl⟩ := hr; exact hj
    · obtain ⟨rfl, rfl, rfl⟩ := hr; exact hj
    · obtain ⟨rfl, rfl, rfl⟩ := hr; exact hj
    · rcases hr with ⟨rfl, ⟨rfl, rfl⟩ | ⟨-, h0, h1⟩⟩ | ⟨rfl, -⟩ | ⟨rfl, -⟩
      · exact hj
      · exact junk_col div3 N M (by omega) (by omega)
      · exact junk_of_ne div3 N M c1 _ _
      · exact junk_of_ne div3 N M c2 _ _

theorem alng12_ok (hN : 0 < N) (hM : 0 < M) (a : Fin 3 → A3) (ha : Vec3 a) (ad : Bool) :
    PhaseIs N (Junk3 div3 N M) [z1 F L N M false a, g1L F o L N M ad a, z1 F L N M true a, g1R F o L N M ad a, g2 F o L M ad a] := by
  obtain ⟨h01, h02, h12, c1, c2⟩ := ha
  refine phaseIs_own ⟨?_, ?_, ?_, ?_⟩ ?_
  · simp only [List.mem_cons, List.mem_nil_iff, or_false]
    rintro s (rfl | rfl | rfl | rfl | rfl) <;> simp [z1, g1L, g1R, g2, Dom.Own]
  · simp only [List.mem_cons, List.mem_nil_iff, or_false]
    rintro s (rfl | rfl | rfl | rfl | rfl)
    · exact nodup_box (nodup_rows _ _) (nodup_kEdge M hM)
    · exact nodup_box (nodup_rows _ _) (nodup_rows _ _)
    · exact nodup_box (nodup_rows _ _) (nodup_kEdge M hM)
    · exact nodup_box (nodup_rows _ _) (nodup_rows _ _)
    · exact nodup_box (nodup_rows _ _) (nodup_kHaloF o M hM)
  · simp only [List.mem_cons, List.mem_nil_iff, or_false]
    rintro s (rfl | rfl | rfl | rfl | rfl) x hx y hy a' x' y' hr s' (rfl | rfl | rfl | rfl | rfl) hd hy' hx' <;>
      simp only [z1, g1L, g1R, g2, if_true, if_false, Bool.false_eq_true] at hx hy hr hd hy' hx' <;> subst hd <;>
      simp only [h01, h02, h12, h01.symm, h02.symm, h12.symm, false_and, true_and, or_false, false_or] at hr <;>
      simp only [Dom.glob, Rng.Mem, SameCol] at hx hx' ⊢ <;> omega
  · simp only [List.mem_cons, List.mem_nil_iff, or_false]
    rintro s (rfl | rfl | rfl | rfl | rfl) x y x' y' hx hy hr hx' hy' <;>
      simp only [z1, g1L, g1R, g2, if_true, if_false, Bool.false_eq_true] at hx hy hr hy' hx' <;>
      simp only [h01, h02, h12, h01.symm, h02.symm, h12.symm, hy', not_true_eq_false, false_and, true_and, or_false, false_or] at hr
    · exact hr
    · simp only [Dom.glob, Rng.Mem] at hx'
      rcases hr with h | h
      · exact h
      · omega
    · exact hr
    · simp only [Dom.glob, Rng.Mem] at hx'
      rcases hr with h | h
      · exact h
      · omega
    · exact hr
  · simp only [CleanReads, List.mem_cons, List.mem_nil_iff, or_false]
    rintro s (rfl | rfl | rfl | rfl | rfl) x hx y hy hj a' x' y' hr
    · obtain ⟨rfl, rfl, rfl⟩ := hr; exact hj
    · rcases hr with ⟨rfl, -⟩ | ⟨rfl, -⟩ | ⟨rfl, rfl⟩
      · exact junk_of_ne div3 N M c1 _ _
      · exact junk_of_ne div3 N M c2 _ _
      · exact junk_col div3 N M (by omega) (by omega)
    · obtain ⟨rfl, rfl, rfl⟩ := hr; exact hj
    · rcases hr with ⟨rfl, -⟩ | ⟨rfl, -⟩ | ⟨rfl, rfl⟩
      · exact junk_of_ne div3 N M c1 _ _
      · exact junk_of_ne div3 N M c2 _ _
      · exact junk_col div3 N M (by omega) (by omega)
    · simp only [g2, Dom.glob, Rng.Mem] at hx
      rcases hr with ⟨rfl, -⟩ | ⟨rfl, rfl⟩ | ⟨rfl, -⟩
      · exact junk_of_ne div3 N M c2 _ _
      · exact junk_col div3 N M (by omega) (by omega)
      · exact junk_of_ne div3 N M c1 _ _

theorem alng3_ok (hN : 0 < N) (hM : 0 < M) (a : Fin 3 → A3) (ha : Vec3 a) (ad : Bool) : ∀ ss ∈ alng3 F o L N M ad a, PhaseIs N (Junk3 div3 N M) ss := by
  intro ss hs
  simp only [alng3, List.mem_cons, List.mem_nil_iff, or_false] at hs
  rcases hs with rfl | rfl | rfl
  · exact alng0_ok F o div3 L N M hM a ha ad true _
  · exact alng0_ok F o div3 L N M hM a ha ad false _
  · exact alng12_ok F o div3 L N M hN hM a ha ad

theorem xflux3_ok (hN : 0 < N) (hM : 0 < M) (a : Fin 3 → A3) (ha : Vec3 a) : ∀ ss ∈ xflux3 F L N M a, PhaseIs N (Junk3 div3 N M) ss := by
  obtain ⟨h01, h02, h12, c1, c2⟩ := ha
  intro ss hs
  simp only [xflux3, List.mem_cons, List.mem_nil_iff, or_false] at hs
  rcases hs with rfl | rfl | rfl
  · refine phaseIs_own ⟨?_, ?_, ?_, ?_⟩ ?_ <;> simp only [CleanReads, List.mem_cons, List.mem_nil_iff, or_false]
    · rintro s rfl; simp [Dom.Own]
    · rintro s rfl; exact nodup_box (List.nodup_singleton _) (nodup_rows _ _)
    · rintro s rfl x hx y hy a' x' y' hr s' rfl hd hy' hx'
      exact Or.inl hr.2.1
    · rintro s rfl x y x' y' hx hy hr hx' hy'
      simp only [mem_box, List.mem_singleton] at hy'
      refine ⟨hr.2.1, hr.2.2.resolve_right (fun h => h hy'.1)⟩
    · rintro s rfl x hx y hy hj a' x' y' ⟨rfl, rfl, -⟩
      simp only [Dom.glob, Rng.Mem] at hx
      exact junk_col div3 N M (by omega) (by omega)
  · refine phaseIs_own ⟨?_, ?_, ?_, ?_⟩ ?_ <;> simp only [CleanReads, List.mem_cons, List.mem_nil_iff, or_false]
    · rintro s rfl; simp [Dom.Own]
    · rintro s rfl; exact nodup_box (List.nodup_singleton _) (nodup_rows _ _)
    · rintro s rfl x hx y hy a' x' y' hr s' rfl hd hy' hx'
      exact Or.inl hr.2.1
    · rintro s rfl x y x' y' hx hy hr hx' hy'
      simp only [mem_box, List.mem_singleton] at hy'
      refine ⟨hr.2.1, hr.2.2.resolve_right (fun h => h hy'.1)⟩
    · rintro s rfl x hx y hy hj a' x' y' ⟨rfl, rfl, -⟩
      simp only [Dom.glob, Rng.Mem] at hx
      exact junk_col div3 N M (by omega) (by omega)
  · refine phaseIs_own ⟨?_, ?_, ?_, ?_⟩ ?_ <;> simp only [CleanReads, List.mem_cons, List.mem_nil_iff, or_false]
    · rintro s (rfl | rfl | rfl) <;> simp [Dom.Own]
    · rintro s (rfl | rfl | rfl)
      · exact nodup_box (nodup_rows _ _) (nodup_rows _ _)
      · exact nodup_box (nodup_rows _ _) (nodup_rows _ _)
      · exact nodup_box (nodup_rows _ _) (nodup_kEdge M hM)
    · rintro s (rfl | rfl | rfl) x hx y hy a' x' y' hr s' (rfl | rfl | rfl) hd hy' hx' <;> simp only at hr hd <;> subst hd <;>
        simp only [h01, h02, h12, h01.symm, h02.symm, h12.symm, false_and, true_and, or_false, false_or] at hr <;>
        simp only [Dom.glob, Rng.Mem, SameCol] at hx hx' ⊢ <;> omega
    · rintro s (rfl | rfl | rfl) x y x' y' hx hy hr hx' hy' <;> simp only [Dom.glob, Rng.Mem] at hx hx'
      · rcases hr.2 with h | h
        · exact h
        · omega
      · rcases hr.2 with h | h
        · exact h
        · omega
      · rw [mem_box] at hy'
        exact ⟨hr.2.1, hr.2.2.resolve_right (fun h => h hy'.2)⟩
    · rintro s (rfl | rfl | rfl) x hx y hy hj a' x' y' ⟨rfl, -⟩
      · exact junk_of_ne div3 N M c1 _ _
      · exact junk_of_ne div3 N M c1 _ _
      · exact junk_of_ne div3 N M c2 _ _

theorem nrml3_ok (hN : 0 < N) (e : Nat) (he : e + 1 ≤ o.halo) (a : Fin 3 → A3) (ha : Vec3 a) (hj : div3 = true ∨ e + 1 = o.halo ∨ (e = 0 ∧ ∃ b, a 0 = .tmp b 0)) :
    ∀ ss ∈ nrml3 F o div3 L N M e a, PhaseIs N (Junk3 div3 N M) ss := by
  obtain ⟨h01, h02, h12, c1, c2⟩ := ha
  have first : ∀ ss ∈ (if div3 then [[n0L F o L N M e a, n0R F o L N M e a], [n02 F o L M e a, n10 F o L M e true a]]
      else [[n0L F o L N M e a, n0R F o L N M e a, n02 F o L M e a, n10 F o L M e true a]]), PhaseIs N (Junk3 div3 N M) ss := by
    cases hdiv : div3 with
    | true =>
      intro ss hs
      simp only [if_true, List.mem_cons, List.mem_nil_iff, or_false] at hs
      have nj : ∀ l, ¬ Junk3 true N M l := fun l h => by cases h.1
      rcases hs with rfl | rfl
      · refine phaseIs_own ⟨?_, ?_, ?_, ?_⟩ (fun _ _ _ _ _ _ _ _ _ _ _ => nj _) <;> simp only [List.mem_cons, List.mem_nil_iff, or_false]
        · rintro s (rfl | rfl) <;> simp [n0L, n0R, Dom.Own]
        · rintro s (rfl | rfl) <;> exact nodup_box (nodup_rows _ _) (nodup_rows _ _)
        · rintro s (rfl | rfl) x hx y hy a' x' y' hr s' (rfl | rfl) hd hy' hx' <;> simp only [n0L, n0R, Dom.glob, Rng.Mem, SameCol] at * <;> omega
        · rintro s (rfl | rfl) x y x' y' hx hy hr hx' hy' <;> simp only [n0L, n0R, Dom.glob, Rng.Mem] at * <;> omega
      · refine phaseIs_own ⟨?_, ?_, ?_, ?_⟩ (fun _ _ _ _ _ _ _ _ _ _ _ => nj _) <;> simp only [List.mem_cons, List.mem_nil_iff, or_false]
        · rintro s (rfl | rfl) <;> trivial
        · rintro s (rfl | rfl)
          · exact nodup_box (nodup_rows _ _) (nodup_kHalo _ _)
          · exact nodup_box (nodup_iHalo _ _ _) (nodup_rows _ _)
        · rintro s (rfl | rfl) x hx y hy a' x' y' hr s' (rfl | rfl) hd hy' hx' <;> simp only [n02, n10] at hx hy hr hd hy' hx' <;> subst hd <;>
            simp only [h01, h01.symm, false_and, true_and] at hr <;>
            simp only [Dom.glob, Rng.Mem, SameCol, mem_box, mem_rows, mem_kHalo, mem_iHalo, reduceCtorEq, false_and, true_and, or_false, false_or] at * <;> omega
        · rintro s (rfl | rfl) x y x' y' hx hy hr hx' hy' <;>
            simp only [n02, n10, mem_box, mem_rows, mem_kHalo, mem_iHalo, reduceCtorEq, false_and, true_and, or_false, false_or] at * <;> omega
    | false =>
      intro ss hs
      simp only [Bool.false_eq_true, if_false, List.mem_cons, List.mem_nil_iff, or_false] at hs
      subst hs
      refine phaseIs_erase (P := [n0L F o L N M e a, n0R F o L N M e a]) (Q := [n02 F o L M e a, n10 F o L M e true a]) (fun y => decide ((0 : Int) ≤ y.2 ∧ y.2 ≤ M - 1)) ?_ ?_ ?_ ?_ ?_
      · simp only [List.mem_cons, List.mem_nil_iff, or_false]
        rintro s ((rfl | rfl) | (rfl | rfl)) <;> simp [n0L, n0R, n02, n10, Dom.Own]
      · simp only [List.mem_cons, List.mem_nil_iff, or_false]
        rintro s ((rfl | rfl) | (rfl | rfl)) x hx y hy hk a' x' y' hr hp s' (rfl | rfl) hd hy' hx' <;>
          simp only [n0L, n0R, n02, n10] at hx hy hr hd hy' hx' <;> subst hd <;>
          simp only [h01, h01.symm, false_and, true_and] at hr <;>
          simp only [decide_eq_false_iff_not] at hp <;> simp only [Dom.glob, Rng.Mem] at hx hx' <;> omega
      · simp only [List.mem_cons, List.mem_nil_iff, or_false]
        have key : ∀ x y, (-(o.halo : Int) ≤ x ∧ x ≤ -1) ∨ ((N : Int) ≤ x ∧ x ≤ N - 1 + o.halo) → y ∈ box (rows (-e - 1) (L - 1 + e)) (rows (-e - 1) (M + e)) →
            ¬ ((0 : Int) ≤ y.2 ∧ y.2 ≤ M - 1) → ¬ Junk3 false N M (a 0, x, y) → y ∈ (n02 F o L M e a).ys ∧ ((n02 F o L M e a).dom.glob N).Mem x := by
          intro x y hx hy hp hJ
          simp only [n02, mem_box, mem_rows, mem_kHalo, Dom.glob, Rng.Mem] at hy ⊢
          rcases hj with h | h | ⟨h, b, hb⟩
          · rw [hdiv] at h; cases h
          · omega
          · have : -1 ≤ x ∧ x ≤ N := by
              by_contra hx'
              exact hJ ⟨rfl, ⟨b, hb⟩, hx', hp⟩
            omega
        rintro s (rfl | rfl) x hx y hy hp hJ
        · obtain ⟨k1, k2⟩ := key x y (Or.inl hx) hy (by simpa using hp) hJ
          exact ⟨_, Or.inl rfl, rfl, k1, k2⟩
        · obtain ⟨k1, k2⟩ := key x y (Or.inr hx) hy (by simpa using hp) hJ
          exact ⟨_, Or.inl rfl, rfl, k1, k2⟩
      · refine ⟨?_, ?_, ?_, ?_⟩ <;> simp only [List.map_cons, List.map_nil, List.cons_append, List.nil_append, List.mem_cons, List.mem_nil_iff, or_false]
        · rintro s (rfl | rfl | rfl | rfl) <;> simp [n0L, n0R, n02, n10, Dom.Own, S.only]
        · rintro s (rfl | rfl | rfl | rfl)
          · exact (nodup_box (nodup_rows _ _) (nodup_rows _ _)).filter _
          · exact (nodup_box (nodup_rows _ _) (nodup_rows _ _)).filter _
          · exact nodup_box (nodup_rows _ _) (nodup_kHalo _ _)
          · exact nodup_box (nodup_iHalo _ _ _) (nodup_rows _ _)
        · rintro s (rfl | rfl | rfl | rfl) x hx y hy a' x' y' hr s' (rfl | rfl | rfl | rfl) hd hy' hx' <;>
            simp only [n0L, n0R, n02, n10, S.only] at hx hy hr hd hy' hx' <;> subst hd <;>
            simp only [h01, h01.symm, false_and, true_and] at hr <;>
            simp only [Dom.glob, Rng.Mem, SameCol, List.mem_filter, decide_eq_true_eq, mem_box, mem_rows, mem_kHalo, mem_iHalo, reduceCtorEq, false_and, true_and, or_false, false_or]
              at hx hy hy' hx' ⊢ <;> omega
        · rintro s (rfl | rfl | rfl | rfl) x y x' y' hx hy hr hx' hy' <;>
            simp only [n0L, n0R, n02, n10, S.only, Dom.glob, Rng.Mem, List.mem_filter, decide_eq_true_eq, mem_box, mem_rows, mem_kHalo, mem_iHalo, reduceCtorEq, false_and, true_and,
              or_false, false_or] at * <;> omega
      · simp only [CleanReads, List.map_cons, List.map_nil, List.cons_append, List.nil_append, List.mem_cons, List.mem_nil_iff, or_false]
        rintro s (rfl | rfl | rfl | rfl) x hx y hy hJ a' x' y' hr
        · obtain ⟨rfl, h, -⟩ := hr; exact junk_col _ N M (by omega) (by omega)
        · obtain ⟨rfl, h, -⟩ := hr; exact junk_col _ N M (by omega) (by omega)
        · obtain ⟨rfl, h, -⟩ := hr; exact junk_k _ N M h.1 h.2
        · obtain ⟨rfl, -⟩ := hr; exact junk_of_ne _ N M c1 _ _
  intro ss hs
  unfold nrml3 at hs
  rcases List.mem_append.1 hs with hs | hs
  · exact first ss hs
  simp only [List.mem_cons, List.mem_nil_iff, or_false] at hs
  rcases hs with rfl | rfl | rfl | rfl
  · refine phaseIs_own ⟨?_, ?_, ?_, ?_⟩ ?_ <;> simp only [CleanReads, List.mem_cons, List.mem_nil_iff, or_false]
    · rintro s rfl; trivial
    · rintro s rfl; exact nodup_box (nodup_iHalo _ _ _) (nodup_rows _ _)
    · rintro s rfl x hx y hy a' x' y' hr s' rfl hd hy' hx'
      simp only [n10, mem_box, mem_rows, mem_iHalo, reduceCtorEq, false_and, true_and, or_false, false_or] at *; omega
    · rintro s rfl x y x' y' hx hy hr hx' hy'
      simp only [n10, mem_box, mem_rows, mem_iHalo, reduceCtorEq, false_and, true_and, or_false, false_or] at *; omega
    · rintro s rfl x hx y hy hJ a' x' y' ⟨rfl, -⟩; exact junk_of_ne _ N M c1 _ _
  · refine phaseIs_own ⟨?_, ?_, ?_, ?_⟩ ?_ <;> simp only [CleanReads, List.mem_cons, List.mem_nil_iff, or_false]
    · rintro s (rfl | rfl) <;> trivial
    · rintro s (rfl | rfl)
      · exact nodup_box (nodup_rows _ _) (nodup_kHalo _ _)
      · exact nodup_box (nodup_iHalo _ _ _) (nodup_rows _ _)
    · rintro s (rfl | rfl) x hx y hy a' x' y' hr s' (rfl | rfl) hd hy' hx' <;> simp only [n12, n20] at hx hy hr hd hy' hx' <;> subst hd <;>
        simp only [h12, h12.symm, false_and, true_and] at hr <;>
        simp only [Dom.glob, Rng.Mem, SameCol, mem_box, mem_rows, mem_kHalo, mem_iHalo, reduceCtorEq, false_and, true_and, or_false, false_or] at * <;> omega
    · rintro s (rfl | rfl) x y x' y' hx hy hr hx' hy' <;>
        simp only [n12, n20, mem_box, mem_rows, mem_kHalo, mem_iHalo, reduceCtorEq, false_and, true_and, or_false, false_or] at * <;> omega
    · rintro s (rfl | rfl) x hx y hy hJ a' x' y' ⟨rfl, -⟩
      · exact junk_of_ne _ N M c1 _ _
      · exact junk_of_ne _ N M c2 _ _
  · refine phaseIs_own ⟨?_, ?_, ?_, ?_⟩ ?_ <;> simp only [CleanReads, List.mem_cons, List.mem_nil_iff, or_false]
    · rintro s rfl; trivial
    · rintro s rfl; exact nodup_box (nodup_iHalo _ _ _) (nodup_rows _ _)
    · rintro s rfl x hx y hy a' x' y' hr s' rfl hd hy' hx'
      simp only [n20, mem_box, mem_rows, mem_iHalo, reduceCtorEq, false_and, true_and, or_false, false_or] at *; omega
    · rintro s rfl x y x' y' hx hy hr hx' hy'
      simp only [n20, mem_box, mem_rows, mem_iHalo, reduceCtorEq, false_and, true_and, or_false, false_or] at *; omega
    · rintro s rfl x hx y hy hJ a' x' y' ⟨rfl, -⟩; exact junk_of_ne _ N M c2 _ _
  · refine phaseIs_own ⟨?_, ?_, ?_, ?_⟩ ?_ <;> simp only [CleanReads, List.mem_cons, List.mem_nil_iff, or_false]
    · rintro s (rfl | rfl) <;> simp [n21, Dom.Own]
    · rintro s (rfl | rfl) <;> exact nodup_box (nodup_rows _ _) (nodup_rows _ _)
    · rintro s (rfl | rfl) x hx y hy a' x' y' hr s' (rfl | rfl) hd hy' hx' <;>
        simp only [n21, if_true, if_false, Bool.false_eq_true, Dom.glob, Rng.Mem, SameCol] at * <;> omega
    · rintro s (rfl | rfl) x y x' y' hx hy hr hx' hy' <;> simp only [n21, if_true, if_false, Bool.false_eq_true, Dom.glob, Rng.Mem] at * <;> omega
    · rintro s (rfl | rfl) x hx y hy hJ a' x' y' ⟨rfl, -⟩ <;> exact junk_of_ne _ N M c2 _ _

/-! ### computing phases -/

theorem corr3_ne_unco3 (iter : Nat) (d d' : Fin 3) : unco3 iter d ≠ corr3 iter d' := by
  unfold unco3 corr3
  split_ifs
  · simp
  · intro h
    injection h with h1 h2
    rcases Nat.mod_two_eq_zero_or_one iter with h3 | h3 <;> simp [h3] at h1

theorem unco3_clean (iter : Nat) {d : Fin 3} (h : d ≠ 0) (b : Bool) : unco3 iter d ≠ .tmp b 0 := by
  unfold unco3
  split_ifs
  · simp
  · intro h'; injection h' with _ h2; exact h h2

theorem unco3_ne (iter : Nat) (d : Fin 3) : (∀ d', unco3 iter d ≠ .flux d') ∧ (∀ d', unco3 iter d ≠ .mono d') ∧ (∀ b, unco3 iter d ≠ .psi b) := by
  unfold unco3
  split_ifs <;> simp

/-- reading the previous velocity where `antidiff` does is clean -/
theorem anti_clean (n : Bool) (iter : Nat) (d : Fin 3) {x : Int} (hx : (if d = 1 then -1 else 0) ≤ x ∧ x ≤ N - 1) {y y' : IK} {a' : A3} {x' : Int}
    (h : AntiRd div3 n iter d x y a' x' y') : ¬ Junk3 div3 N M (a', x', y') := by
  rcases h with rfl | rfl | ⟨d', rfl, hn⟩
  · exact junk_of_ne _ N M (by simp) _ _
  · exact junk_of_ne _ N M (by simp) _ _
  · by_cases h0 : d' = 0
    · rcases hn h0 with h | h
      · intro hJ; rw [h] at hJ; cases hJ.1
      · refine junk_col _ N M ?_ ?_ <;> split_ifs at hx h <;> omega
    · exact junk_of_ne _ N M (unco3_clean iter h0) _ _

theorem anti3_ok (n : Bool) (iter : Nat) : PhaseIs N (Junk3 div3 N M) (anti3 F div3 L M n iter) := by
  refine phaseIs_own ⟨?_, ?_, ?_, ?_⟩ ?_ <;> simp only [anti3, CleanReads, List.mem_cons, List.mem_nil_iff, or_false]
  · rintro s (rfl | rfl | rfl) <;> simp [Dom.Own]
  · rintro s (rfl | rfl | rfl) <;> exact nodup_box (nodup_rows _ _) (nodup_rows _ _)
  · rintro s hs x hx y hy a' x' y' hr s' hs' hd hy' hx'
    exfalso
    have e1 : ∃ d, s'.dst = corr3 iter d := by rcases hs' with rfl | rfl | rfl <;> exact ⟨_, rfl⟩
    have e2 : a' = .psi n ∨ a' = .psi (!n) ∨ ∃ d', a' = unco3 iter d' := by
      rcases hs with rfl | rfl | rfl <;> rcases hr with h | h | ⟨d', h, -⟩ <;> first | exact Or.inl h | exact Or.inr (Or.inl h) | exact Or.inr (Or.inr ⟨d', h⟩)
    obtain ⟨d, e1⟩ := e1
    rw [← hd, e1] at e2
    rcases e2 with h | h | ⟨d', h⟩
    · simp [corr3] at h
    · simp [corr3] at h
    · exact corr3_ne_unco3 iter _ _ h.symm
  · rintro s hs x y x' y' hx hy hr hx' hy'
    exfalso
    have e1 : ∃ d, s.dst = corr3 iter d := by rcases hs with rfl | rfl | rfl <;> exact ⟨_, rfl⟩
    have e2 : s.dst = .psi n ∨ s.dst = .psi (!n) ∨ ∃ d', s.dst = unco3 iter d' := by
      rcases hs with rfl | rfl | rfl <;> rcases hr with h | h | ⟨d', h, -⟩ <;> first | exact Or.inl h | exact Or.inr (Or.inl h) | exact Or.inr (Or.inr ⟨d', h⟩)
    obtain ⟨d, e1⟩ := e1
    rw [e1] at e2
    rcases e2 with h | h | ⟨d', h⟩
    · simp [corr3] at h
    · simp [corr3] at h
    · exact corr3_ne_unco3 iter _ _ h.symm
  · rintro s (rfl | rfl | rfl) x hx y hy hJ a' x' y' hr <;> simp only [Dom.glob, Rng.Mem] at hx <;>
      exact anti_clean div3 N M n iter _ (y := y) (by constructor <;> (try simp) <;> omega) hr

theorem flux3_clean (n : Bool) (g : Fin 3 → A3) (hg : Vec3 g) (k : Nat) : CleanReads N (Junk3 div3 N M) (flux3 F L M n g k) := by
  simp only [flux3, CleanReads, List.mem_cons, List.mem_nil_iff, or_false]
  rintro s (rfl | rfl | rfl) x hx y hy hJ a' x' y' hr <;> simp only [Dom.glob, Rng.Mem] at hx <;> rcases hr with rfl | ⟨rfl, rfl, rfl⟩
  · exact junk_of_ne _ N M (by simp) _ _
  · exact junk_col _ N M (by omega) (by omega)
  · exact junk_of_ne _ N M (by simp) _ _
  · exact junk_of_ne _ N M hg.c1 _ _
  · exact junk_of_ne _ N M (by simp) _ _
  · exact junk_of_ne _ N M hg.c2 _ _

theorem flux3_own (n : Bool) (g : Fin 3 → A3) (hg : ∀ d d', g d ≠ .flux d') (k : Nat) : OwnPhase N (flux3 F L M n g k) := by
  refine ⟨?_, ?_, ?_, ?_⟩ <;> simp only [flux3, List.mem_cons, List.mem_nil_iff, or_false]
  · rintro s (rfl | rfl | rfl) <;> simp [Dom.Own]
  · rintro s (rfl | rfl | rfl) <;> exact nodup_box (nodup_rows _ _) (nodup_rows _ _)
  · rintro s (rfl | rfl | rfl) x hx y hy a' x' y' hr s' (rfl | rfl | rfl) hd hy' hx' <;> rcases hr with rfl | ⟨rfl, rfl, rfl⟩ <;>
      first | exact Or.inl rfl | (simp at hd)
  · rintro s (rfl | rfl | rfl) x y x' y' hx hy hr hx' hy' <;> rcases hr with h | ⟨h, -⟩ <;> first | (exact absurd h.symm (hg _ _)) | (simp at h)

theorem flux3_ok (n : Bool) (g : Fin 3 → A3) (hv : Vec3 g) (hg : ∀ d d', g d ≠ .flux d') (k : Nat) : PhaseIs N (Junk3 div3 N M) (flux3 F L M n g k) :=
  phaseIs_own (flux3_own F L N M n g hg k) (flux3_clean F div3 L N M n g hv k)

theorem anti_flux3_ok (n : Bool) (iter : Nat) : PhaseIs N (Junk3 div3 N M) (anti3 F div3 L M n iter ++ flux3 F L M n (corr3 iter) iter) := by
  have key : ∀ a' d, (a' = A3.psi n ∨ a' = .psi (!n) ∨ ∃ d', a' = unco3 iter d') → corr3 iter d ≠ a' ∧ A3.flux d ≠ a' := by
    rintro a' d (rfl | rfl | ⟨d', rfl⟩)
    · simp [corr3]
    · simp [corr3]
    · exact ⟨(corr3_ne_unco3 iter _ _).symm, ((unco3_ne iter d').1 d).symm⟩
  have ar : ∀ d x y {a' x' y'}, AntiRd div3 n iter d x y a' x' y' → a' = A3.psi n ∨ a' = .psi (!n) ∨ ∃ d', a' = unco3 iter d' := by
    rintro d x y a' x' y' (h | h | ⟨d', h, -⟩)
    · exact Or.inl h
    · exact Or.inr (Or.inl h)
    · exact Or.inr (Or.inr ⟨d', h⟩)
  refine phaseIs_own ⟨?_, ?_, ?_, ?_⟩ ?_
  · simp only [anti3, flux3, List.cons_append, List.nil_append, List.mem_cons, List.mem_nil_iff, or_false]
    rintro s (rfl | rfl | rfl | rfl | rfl | rfl) <;> simp [Dom.Own]
  · simp only [anti3, flux3, List.cons_append, List.nil_append, List.mem_cons, List.mem_nil_iff, or_false]
    rintro s (rfl | rfl | rfl | rfl | rfl | rfl) <;> exact nodup_box (nodup_rows _ _) (nodup_rows _ _)
  · simp only [anti3, flux3, List.cons_append, List.nil_append, List.mem_cons, List.mem_nil_iff, or_false]
    intro s hs x hx y hy a' x' y' hr s' hs' hd hy' hx'
    have e : (∃ d, s'.dst = corr3 iter d) ∨ ∃ d, s'.dst = .flux d := by
      rcases hs' with rfl | rfl | rfl | rfl | rfl | rfl <;> first | exact Or.inl ⟨_, rfl⟩ | exact Or.inr ⟨_, rfl⟩
    have e2 : (∃ d, AntiRd div3 n iter d x y a' x' y') ∨ a' = .psi n ∨ (x' = x ∧ ∃ d, a' = corr3 iter d) := by
      rcases hs with rfl | rfl | rfl | rfl | rfl | rfl
      · exact Or.inl ⟨_, hr⟩
      · exact Or.inl ⟨_, hr⟩
      · exact Or.inl ⟨_, hr⟩
      all_goals
        rcases hr with h1 | ⟨h1, h2, -⟩
        · exact Or.inr (Or.inl h1)
        · exact Or.inr (Or.inr ⟨h2, _, h1⟩)
    rcases e2 with ⟨d', h⟩ | h | ⟨h, -⟩
    · rcases e with ⟨d, e⟩ | ⟨d, e⟩ <;> rw [e] at hd
      · exact absurd hd (key a' d (ar _ x y h)).1
      · exact absurd hd (key a' d (ar _ x y h)).2
    · rcases e with ⟨d, e⟩ | ⟨d, e⟩ <;> rw [e, h] at hd <;> simp [corr3] at hd
    · exact Or.inl h
  · simp only [anti3, flux3, List.cons_append, List.nil_append, List.mem_cons, List.mem_nil_iff, or_false]
    rintro s (rfl | rfl | rfl | rfl | rfl | rfl) x y x' y' hx hy hr hx' hy'
    · exact absurd rfl (key (corr3 iter 0) 0 (ar 0 x y (y' := y') hr)).1
    · exact absurd rfl (key (corr3 iter 1) 1 (ar 1 x y (y' := y') hr)).1
    · exact absurd rfl (key (corr3 iter 2) 2 (ar 2 x y (y' := y') hr)).1
    all_goals rcases hr with h | ⟨h, h2⟩ <;> simp [corr3] at h
  · intro s hs
    rcases List.mem_append.1 hs with hs | hs
    · simp only [anti3, List.mem_cons, List.mem_nil_iff, or_false] at hs
      rcases hs with rfl | rfl | rfl <;> intro x hx y hy hJ a' x' y' hr <;> simp only [Dom.glob, Rng.Mem] at hx <;>
        exact anti_clean div3 N M n iter _ (y := y) (by constructor <;> (try simp) <;> omega) hr
    · exact flux3_clean F div3 L N M n _ (vec_corr iter) iter s hs

theorem faces_clean {flx : Fin 3 → A3} (hv : Vec3 flx) {x : Int} (hx : -1 ≤ x ∧ x ≤ N) {y y' : IK} {a' : A3} {x' : Int} (h : Faces flx x y a' x' y') :
    ¬ Junk3 div3 N M (a', x', y') := by
  rcases h with ⟨rfl, rfl, -⟩ | ⟨rfl, -⟩ | ⟨rfl, -⟩
  · exact junk_col _ N M hx.1 hx.2
  · exact junk_of_ne _ N M hv.c1 _ _
  · exact junk_of_ne _ N M hv.c2 _ _

theorem donor3_ok (n : Bool) (flx : Fin 3 → A3) (hv : Vec3 flx) (hf : ∀ d b, flx d ≠ .psi b) (k : Nat) : PhaseIs N (Junk3 div3 N M) [donor3 F L M n flx k] := by
  have ne : ∀ {x y a' x' y'}, (a' = A3.psi n ∨ Faces flx x y a' x' y') → A3.psi (!n) ≠ a' := by
    rintro x y a' x' y' (rfl | ⟨rfl, -⟩ | ⟨rfl, -⟩ | ⟨rfl, -⟩)
    · cases n <;> simp
    · exact (hf _ _).symm
    · exact (hf _ _).symm
    · exact (hf _ _).symm
  refine phaseIs_own ⟨?_, ?_, ?_, ?_⟩ ?_ <;> simp only [CleanReads, List.mem_cons, List.mem_nil_iff, or_false]
  · rintro s rfl; simp [donor3, Dom.Own]
  · rintro s rfl; exact nodup_box (nodup_rows _ _) (nodup_rows _ _)
  · rintro s rfl x hx y hy a' x' y' hr s' rfl hd hy' hx'
    exact absurd hd (ne hr)
  · rintro s rfl x y x' y' hx hy hr hx' hy'
    exact absurd rfl (ne hr)
  · rintro s rfl x hx y hy hJ a' x' y' hr
    simp only [donor3, Dom.glob, Rng.Mem] at hx
    rcases hr with rfl | hr
    · exact junk_of_ne _ N M (by simp) _ _
    · exact faces_clean div3 N M hv (by omega) hr

theorem init_flux3_ok (n : Bool) : PhaseIs N (Junk3 div3 N M) (fctInit3 F o L M n ++ flux3 F L M n .gc 0) := by
  unfold fctInit3
  split_ifs with h
  · refine phaseIs_good ?_ ?_ ?_ ?_
    · intro T
      refine ⟨?_, ?_, ?_, ?_, ?_, trivial⟩
      · intro t x hx y hy a' x' y' hr
        obtain rfl : a' = A3.psi n := hr
        exact Or.inr (free_of (by simp [flux3]) _ _)
      · intro t x hx y hy a' x' y' hr
        obtain rfl : a' = A3.psi n := hr
        exact Or.inr (free_of (by simp [flux3]) _ _)
      all_goals
        intro t x hx y hy a' x' y' hr
        rcases hr with rfl | ⟨rfl, -⟩ <;> exact Or.inr (free_of (by simp [flux3]) _ _)
    · simp [flux3, Sep]
    · simp only [flux3, List.cons_append, List.nil_append, List.mem_cons, List.mem_nil_iff, or_false]
      rintro s (rfl | rfl | rfl | rfl | rfl) <;> exact nodup_box (nodup_rows _ _) (nodup_rows _ _)
    · intro s hs
      rcases List.mem_append.1 hs with hs | hs
      · simp only [List.mem_cons, List.mem_nil_iff, or_false] at hs
        rcases hs with rfl | rfl <;> intro x hx y hy hJ a' x' y' hr <;> obtain rfl : a' = A3.psi n := hr <;> exact junk_of_ne _ N M (by simp) _ _
      · exact flux3_clean F div3 L N M n _ vec_gc 0 s hs
  · exact flux3_ok F div3 L N M n _ vec_gc (by simp) 0

/-- `iga` with FCT: betas read the (exchanged) velocities, the limiter reads betas of the same thread -/
theorem iga_fct3_ok (n : Bool) (iter : Nat) : PhaseIs N (Junk3 div3 N M) (betas3 F L M n (corr3 iter) iter ++ mono3 F L M n iter) := by
  refine phaseIs_good ?_ ?_ ?_ ?_
  · intro T
    have hb : ∀ {t : Fin T} {x x' : Int} {y' : IK} {a' : A3} (pre : List (S A3 IK V)), (a' = .bup ∨ a' = .bdn) → (∀ s ∈ betas3 F L M n (corr3 iter) iter, s ∈ pre) →
        (Dom.rng (.ext 1 1) N T t).Mem x' → y' ∈ box (rows (-1) L) (rows (-1) M) → ∃ s' ∈ pre, s'.dst = a' ∧ (s'.dom.rng N T t).Mem x' ∧ y' ∈ s'.ys := by
      intro t x x' y' a' pre ha hp hx hy
      rcases ha with rfl | rfl
      · exact ⟨_, hp _ List.mem_cons_self, rfl, hx, hy⟩
      · exact ⟨_, hp _ (List.mem_cons_of_mem _ List.mem_cons_self), rfl, hx, hy⟩
    refine ⟨?_, ?_, ?_, ?_, ?_, trivial⟩
    · intro t x hx y hy a' x' y' hr
      refine Or.inr (free_of ?_ _ _)
      rcases hr with rfl | rfl | ⟨rfl, -⟩ | ⟨rfl, -⟩ | ⟨rfl, -⟩ <;> simp [betas3, mono3, corr3]
    · intro t x hx y hy a' x' y' hr
      refine Or.inr (free_of ?_ _ _)
      rcases hr with rfl | rfl | ⟨rfl, -⟩ | ⟨rfl, -⟩ | ⟨rfl, -⟩ <;> simp [betas3, mono3, corr3]
    · intro t x hx y hy a' x' y' hr
      rcases hr with rfl | ⟨rfl, -⟩ | ⟨ha, rfl, hy'⟩
      · exact Or.inr (free_of (by simp [betas3, mono3]) _ _)
      · exact Or.inr (free_of (by simp [betas3, mono3, corr3]) _ _)
      · refine Or.inl (hb (x := x') _ ha (by simp [betas3]) ?_ ?_)
        · simp only [Dom.rng, Rng.Mem] at hx ⊢; omega
        · simp only [mem_box, mem_rows] at hy ⊢; rcases hy' with rfl | rfl <;> (try simp only) <;> omega
    · intro t x hx y hy a' x' y' hr
      rcases hr with rfl | ⟨rfl, -⟩ | ⟨ha, hx', rfl⟩
      · exact Or.inr (free_of (by simp [betas3, mono3]) _ _)
      · exact Or.inr (free_of (by simp [betas3, mono3, corr3]) _ _)
      · refine Or.inl (hb (x := x') _ ha (by simp [betas3]) ?_ ?_)
        · simp only [Dom.rng, Rng.Mem] at hx ⊢; split_ifs at hx <;> omega
        · simp only [mem_box, mem_rows] at hy ⊢; omega
    · intro t x hx y hy a' x' y' hr
      rcases hr with rfl | ⟨rfl, -⟩ | ⟨ha, rfl, hy'⟩
      · exact Or.inr (free_of (by simp [betas3, mono3]) _ _)
      · exact Or.inr (free_of (by simp [betas3, mono3, corr3]) _ _)
      · refine Or.inl (hb (x := x') _ ha (by simp [betas3]) ?_ ?_)
        · simp only [Dom.rng, Rng.Mem] at hx ⊢; omega
        · simp only [mem_box, mem_rows] at hy ⊢; rcases hy' with rfl | rfl <;> (try simp only) <;> omega
  · simp [betas3, mono3, Sep]
  · simp only [betas3, mono3, List.cons_append, List.nil_append, List.mem_cons, List.mem_nil_iff, or_false]
    rintro s (rfl | rfl | rfl | rfl | rfl) <;> exact nodup_box (nodup_rows _ _) (nodup_rows _ _)
  · have hc := vec_corr iter
    simp only [CleanReads, betas3, mono3, List.cons_append, List.nil_append, List.mem_cons, List.mem_nil_iff, or_false]
    rintro s (rfl | rfl | rfl | rfl | rfl) x hx y hy hJ a' x' y' hr <;> simp only [Dom.glob, Rng.Mem] at hx
    · rcases hr with rfl | rfl | hr
      · exact junk_of_ne _ N M (by simp) _ _
      · exact junk_of_ne _ N M (by simp) _ _
      · exact faces_clean div3 N M hc (by omega) hr
    · rcases hr with rfl | rfl | hr
      · exact junk_of_ne _ N M (by simp) _ _
      · exact junk_of_ne _ N M (by simp) _ _
      · exact faces_clean div3 N M hc (by omega) hr
    · rcases hr with rfl | ⟨rfl, rfl, -⟩ | ⟨rfl | rfl, -⟩
      · exact junk_of_ne _ N M (by simp) _ _
      · exact junk_col _ N M (by omega) (by omega)
      · exact junk_of_ne _ N M (by simp) _ _
      · exact junk_of_ne _ N M (by simp) _ _
    · rcases hr with rfl | ⟨rfl, rfl, -⟩ | ⟨rfl | rfl, -⟩
      · exact junk_of_ne _ N M (by simp) _ _
      · exact junk_of_ne _ N M hc.c1 _ _
      · exact junk_of_ne _ N M (by simp) _ _
      · exact junk_of_ne _ N M (by simp) _ _
    · rcases hr with rfl | ⟨rfl, rfl, -⟩ | ⟨rfl | rfl, -⟩
      · exact junk_of_ne _ N M (by simp) _ _
      · exact junk_of_ne _ N M hc.c2 _ _
      · exact junk_of_ne _ N M (by simp) _ _
      · exact junk_of_ne _ N M (by simp) _ _

theorem iter3_ok (hN : 0 < N) (hM : 0 < M) (hh : 1 ≤ o.halo) (hno : o.fct = false ∨ o.iga = true) (n : Bool) (iter : Nat) :
    ∀ ss ∈ iter3 F o div3 L N M n iter, PhaseIs N (Junk3 div3 N M) ss := by
  have cps : ∀ d b, corr3 iter d ≠ .psi b := by simp [corr3]
  have hX := xchng3_ok F o div3 L N M hN (.psi n) (by simp)
  have hA := alng3_ok F o div3 L N M hN hM (corr3 iter) (vec_corr iter)
  have hR := nrml3_ok F o div3 L N M hN 0 (by omega) (corr3 iter) (vec_corr iter) (Or.inr (Or.inr ⟨rfl, _, rfl⟩))
  have hT := anti3_ok F div3 L N M n iter
  have hF := flux3_ok F div3 L N M n (corr3 iter) (vec_corr iter) (by simp [corr3]) iter
  have hU : ∀ ss ∈ xflux3 F L N M (corr3 iter), PhaseIs N (Junk3 div3 N M) ss := xflux3_ok F div3 L N M hN hM _ (vec_corr iter)
  have hV : ∀ ss ∈ xflux3 F L N M .flux, PhaseIs N (Junk3 div3 N M) ss := xflux3_ok F div3 L N M hN hM _ vec_flux
  have hW : ∀ ss ∈ xflux3 F L N M .mono, PhaseIs N (Junk3 div3 N M) ss := xflux3_ok F div3 L N M hN hM _ vec_mono
  have hB := iga_fct3_ok F div3 L N M n iter
  have hAF := anti_flux3_ok F div3 L N M n iter
  have hD1 := donor3_ok F div3 L N M n (corr3 iter) (vec_corr iter) cps iter
  have hD2 := donor3_ok F div3 L N M n .flux vec_flux (by simp) iter
  have hD3 := donor3_ok F div3 L N M n .mono vec_mono (by simp) iter
  intro ss hs
  unfold iter3 at hs
  rcases List.mem_append.1 hs with hs | hs
  · exact hX ss hs
  by_cases hf : o.fct = true
  · have higa : o.iga = true := by
      rcases hno with h | h
      · rw [h] at hf; cases hf
      · exact h
    rw [if_pos hf, if_pos higa] at hs
    simp only [List.mem_append, List.mem_cons, List.mem_nil_iff, or_false] at hs
    rcases hs with ((rfl | hs) | hs) | (rfl | hs) | rfl
    · exact hT
    · exact hA true ss hs
    · exact hR ss hs
    · exact hB
    · exact hW ss hs
    · exact hD3
  · rw [if_neg hf] at hs
    rcases List.mem_append.1 hs with hs | hs
    · split_ifs at hs <;> simp only [List.mem_append, List.mem_cons, List.mem_nil_iff, or_false, false_or] at hs
      · rcases hs with (rfl | hs) | hs
        · exact hT
        · exact hR ss hs
        · exact hA false ss hs
      · rcases hs with ((rfl | hs) | hs) | rfl
        · exact hT
        · exact hR ss hs
        · exact hA false ss hs
        · exact hF
      · rcases hs with rfl | hs
        · exact hT
        · exact hR ss hs
      · rcases hs with (rfl | hs) | rfl
        · exact hT
        · exact hR ss hs
        · exact hF
      · exact hs ▸ hT
      · rcases hs with rfl | rfl
        · exact hT
        · exact hF
      · exact hs ▸ hAF
    · split_ifs at hs <;> simp only [List.mem_append, List.mem_cons, List.mem_nil_iff, or_false] at hs <;> rcases hs with hs | rfl
      · exact hU ss hs
      · exact hD1
      · exact hV ss hs
      · exact hD2

theorem iters3_ok (hN : 0 < N) (hM : 0 < M) (hh : 1 ≤ o.halo) (hno : o.fct = false ∨ o.iga = true) (k : Nat) (n : Bool) (iter : Nat) :
    ∀ ss ∈ iters3 F o div3 L N M k n iter, PhaseIs N (Junk3 div3 N M) ss := by
  induction k generalizing n iter with
  | zero => simp [iters3]
  | succ k ih =>
    intro ss hs
    rcases List.mem_append.1 hs with hs | hs
    · exact iter3_ok F o div3 L N M hN hM hh hno n iter ss hs
    · exact ih (!n) (iter + 1) ss hs

theorem step3_ok (hN : 0 < N) (hM : 0 < M) (hh : 1 ≤ o.halo) (hno : o.fct = false ∨ o.iga = true) (n : Bool) :
    ∀ ss ∈ step3 F o div3 L N M n, PhaseIs N (Junk3 div3 N M) ss := by
  intro ss hs
  simp only [step3, List.mem_append, List.mem_cons, List.mem_nil_iff, or_false] at hs
  rcases hs with (((hs | rfl) | hs) | rfl) | hs
  · exact xchng3_ok F o div3 L N M hN (.psi n) (by simp) ss hs
  · exact init_flux3_ok F o div3 L N M n
  · exact xflux3_ok F div3 L N M hN hM _ vec_flux ss hs
  · exact donor3_ok F div3 L N M n .flux vec_flux (by simp) 0
  · exact iters3_ok F o div3 L N M hN hM hh hno _ _ _ ss hs

theorem anteLoop3_ok (hN : 0 < N) (hh : 1 ≤ o.halo) : ∀ ss ∈ anteLoop3 F o div3 L N M, PhaseIs N (Junk3 div3 N M) ss :=
  nrml3_ok F o div3 L N M hN _ (by omega) _ vec_gc (Or.inr (Or.inl (by omega)))

end phases
end Threads
end Mpdata
