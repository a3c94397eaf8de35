import Verif.Spec.SgsHeat
import Verif.Props.Fills
import Mathlib.Tactic.Ring
import Mathlib.Tactic.FieldSimp
import Mathlib.Tactic.Linarith
import Mathlib.Algebra.BigOperators.Intervals
import Mathlib.Algebra.BigOperators.Ring.Finset
/-! # Lemmas for the eddy diffusion of heat -/
set_option linter.unusedSectionVars false
namespace Mpdata
namespace Heat
variable {n : Nat}

theorem mem_grid {P : Fin n → Nat} {x : Idx n} : x ∈ gridPts P ↔ ∀ d, 0 ≤ x d ∧ x d ≤ P d := by
  simp [gridPts, Fintype.mem_piFinset]

theorem step_add (x : Idx n) (d : Fin n) (a b : Int) : stepIdx (stepIdx x d a) d b = stepIdx x d (a + b) := by
  funext e; by_cases he : e = d <;> simp [stepIdx, he]; omega

theorem step_zero (x : Idx n) (d : Fin n) : stepIdx x d 0 = x := by
  funext e; by_cases he : e = d <;> simp [stepIdx, he]

section
variable {K : Type} [Field K]

/-- a sum over the grid, line by line in dimension `d` -/
theorem sum_lines (P : Fin n → Nat) (d : Fin n) (f : Idx n → K) :
    ∑ x ∈ gridPts P, f x = ∑ y ∈ (gridPts P).filter (fun y => y d = 0), ∑ i ∈ Finset.Icc (0 : Int) (P d), f (stepIdx y d i) := by
  rw [← Finset.sum_product']
  refine Finset.sum_nbij' (fun x => (stepIdx x d (-x d), x d)) (fun q => stepIdx q.1 d q.2) ?_ ?_ ?_ ?_ ?_
  · intro x hx
    have h := mem_grid.1 hx
    simp only [Finset.mem_product, Finset.mem_filter, Finset.mem_Icc]
    refine ⟨⟨mem_grid.2 fun e => ?_, by rw [stepIdx_self]; omega⟩, h d⟩
    by_cases he : e = d
    · subst he; rw [stepIdx_self]; have := h e; omega
    · rw [stepIdx_other x he]; exact h e
  · rintro ⟨y, i⟩ hq
    simp only [Finset.mem_product, Finset.mem_filter, Finset.mem_Icc] at hq
    have h := mem_grid.1 hq.1.1
    show stepIdx y d i ∈ gridPts P
    refine mem_grid.2 fun e => ?_
    by_cases he : e = d
    · subst he; rw [stepIdx_self, hq.1.2]; have := hq.2; omega
    · rw [stepIdx_other y he]; exact h e
  · intro x _
    simp only
    rw [step_add, neg_add_cancel, step_zero]
  · rintro ⟨y, i⟩ hq
    simp only [Finset.mem_product, Finset.mem_filter, Finset.mem_Icc] at hq
    simp only [Prod.mk.injEq]
    rw [stepIdx_self, step_add, hq.1.2]
    exact ⟨by rw [show i + -(0 + i) = 0 by omega, step_zero], by omega⟩
  · intro x _
    simp only
    rw [step_add, neg_add_cancel, step_zero]

/-- a sum over the faces, line by line -/
theorem sum_faces (P : Fin n → Nat) (d : Fin n) (f : Idx n → K) :
    ∑ x ∈ facePts P d, f x = ∑ y ∈ (gridPts P).filter (fun y => y d = 0), ∑ i ∈ Finset.Ico (0 : Int) (P d), f (stepIdx y d i) := by
  unfold facePts
  rw [Finset.sum_filter, sum_lines P d]
  refine Finset.sum_congr rfl fun y hy => ?_
  rw [← Finset.sum_filter]
  refine Finset.sum_congr ?_ fun _ _ => rfl
  ext i
  have hy0 := (Finset.mem_filter.1 hy).2
  simp only [Finset.mem_filter, Finset.mem_Icc, Finset.mem_Ico, stepIdx_self, hy0]
  omega

/-- summation by parts on a line -/
theorem abel (φ F : Int → K) (N : Nat) :
    ∑ i ∈ Finset.range (N + 1), φ i * (F i - F ((i : Int) - 1)) = φ N * F N - φ 0 * F (-1) - ∑ i ∈ Finset.range N, F i * (φ ((i : Int) + 1) - φ i) := by
  induction N with
  | zero => simp; ring
  | succ N ih =>
    rw [Finset.sum_range_succ, ih, Finset.sum_range_succ]
    push_cast
    rw [show (N : Int) + 1 - 1 = N by omega]
    ring

theorem Icc_range (N : Nat) (f : Int → K) : ∑ i ∈ Finset.Icc (0 : Int) N, f i = ∑ i ∈ Finset.range (N + 1), f i := by
  refine Finset.sum_nbij' Int.toNat (fun k => (k : Int)) ?_ ?_ ?_ ?_ ?_
  · intro i hi; have := Finset.mem_Icc.1 hi; exact Finset.mem_range.2 (by omega)
  · intro k hk; have := Finset.mem_range.1 hk; exact Finset.mem_Icc.2 (by omega)
  · intro i hi; have := Finset.mem_Icc.1 hi; omega
  · intro k _; omega
  · intro i hi; have := Finset.mem_Icc.1 hi; rw [Int.toNat_of_nonneg this.1]

theorem Ico_range (N : Nat) (f : Int → K) : ∑ i ∈ Finset.Ico (0 : Int) N, f i = ∑ i ∈ Finset.range N, f i := by
  refine Finset.sum_nbij' Int.toNat (fun k => (k : Int)) ?_ ?_ ?_ ?_ ?_
  · intro i hi; have := Finset.mem_Ico.1 hi; exact Finset.mem_range.2 (by omega)
  · intro k hk; have := Finset.mem_range.1 hk; exact Finset.mem_Ico.2 (by omega)
  · intro i hi; have := Finset.mem_Ico.1 hi; omega
  · intro k _; omega
  · intro i hi; have := Finset.mem_Ico.1 hi; rw [Int.toNat_of_nonneg this.1]

/-- summation by parts on a line whose end points have weight one half -/
theorem line_parts [CharZero K] (φ F : Int → K) (N : Nat) (hN : 1 ≤ N) :
    ∑ i ∈ Finset.Icc (0 : Int) N, (if i = 0 ∨ i = (N : Int) then 1 / 2 else 1) * (φ i * (F i - F (i - 1))) =
      1 / 2 * φ N * (F (N - 1) + F N) - 1 / 2 * φ 0 * (F (-1) + F 0) - ∑ i ∈ Finset.Ico (0 : Int) N, F i * (φ (i + 1) - φ i) := by
  have hsplit : ∀ i : Int, (if i = 0 ∨ i = (N : Int) then (1 : K) / 2 else 1) = 1 - (if i = 0 then 1 / 2 else 0) - (if i = (N : Int) then 1 / 2 else 0) := by
    intro i
    by_cases h0 : i = 0
    · subst h0; rw [if_pos (Or.inl rfl), if_pos rfl, if_neg (by omega)]; ring
    · by_cases h1 : i = N
      · rw [if_pos (Or.inr h1), if_neg h0, if_pos h1]; ring
      · rw [if_neg (by tauto), if_neg h0, if_neg h1]; ring
  have hs : ∀ i ∈ Finset.Icc (0 : Int) N, (if i = 0 ∨ i = (N : Int) then (1 : K) / 2 else 1) * (φ i * (F i - F (i - 1))) =
      φ i * (F i - F (i - 1)) - (if i = 0 then 1 / 2 * (φ i * (F i - F (i - 1))) else 0) - (if i = (N : Int) then 1 / 2 * (φ i * (F i - F (i - 1))) else 0) := by
    intro i _
    rw [hsplit i]
    split_ifs <;> ring
  rw [Finset.sum_congr rfl hs, Finset.sum_sub_distrib, Finset.sum_sub_distrib, Finset.sum_ite_eq', Finset.sum_ite_eq', if_pos (Finset.mem_Icc.2 (by omega)),
    if_pos (Finset.mem_Icc.2 (by omega)), Icc_range N (fun i => φ i * (F i - F (i - 1))), abel φ F N, Ico_range N (fun i => F i * (φ (i + 1) - φ i))]
  rw [show (0 : Int) - 1 = -1 by omega]
  ring

theorem trapW_eq (P : Fin n → Nat) (d : Fin n) (x : Idx n) : (trapW P x : K) = (if x d = 0 ∨ x d = P d then 1 / 2 else 1) * faceW P d x := by
  unfold trapW faceW
  rw [← Finset.mul_prod_erase Finset.univ _ (Finset.mem_univ d)]

theorem faceW_step (P : Fin n → Nat) (d : Fin n) (x : Idx n) (k : Int) : (faceW P d (stepIdx x d k) : K) = faceW P d x := by
  unfold faceW
  refine Finset.prod_congr rfl fun e he => ?_
  rw [stepIdx_other x (Finset.ne_of_mem_erase he)]

/-- summation by parts in dimension `d` over the whole grid -/
theorem grid_parts [CharZero K] (P : Fin n → Nat) (d : Fin n) (hP : 1 ≤ P d) (φ F : Idx n → K) :
    ∑ x ∈ gridPts P, trapW P x * (φ x * (F x - F (stepIdx x d (-1)))) =
      (∑ y ∈ (gridPts P).filter (fun y => y d = 0), faceW P d y * (1 / 2 * φ (stepIdx y d (P d)) * (F (stepIdx y d (P d - 1)) + F (stepIdx y d (P d)))
        - 1 / 2 * φ y * (F (stepIdx y d (-1)) + F y)))
      - ∑ x ∈ facePts P d, faceW P d x * (F x * (φ (stepIdx x d 1) - φ x)) := by
  rw [sum_lines P d, sum_faces P d, ← Finset.sum_sub_distrib]
  refine Finset.sum_congr rfl fun y hy => ?_
  have hy0 := (Finset.mem_filter.1 hy).2
  have h := line_parts (fun i => φ (stepIdx y d i)) (fun i => F (stepIdx y d i)) (P d) hP
  simp only [step_zero] at h
  have e1 : ∀ i ∈ Finset.Icc (0 : Int) (P d), (trapW P (stepIdx y d i) : K) * (φ (stepIdx y d i) * (F (stepIdx y d i) - F (stepIdx (stepIdx y d i) d (-1)))) =
      faceW P d y * ((if i = 0 ∨ i = (P d : Int) then 1 / 2 else 1) * (φ (stepIdx y d i) * (F (stepIdx y d i) - F (stepIdx y d (i - 1))))) := by
    intro i _
    rw [trapW_eq P d, faceW_step, stepIdx_self, hy0, zero_add, step_add, ← Int.sub_eq_add_neg]
    ring
  have e2 : ∀ i ∈ Finset.Ico (0 : Int) (P d), (faceW P d (stepIdx y d i) : K) * (F (stepIdx y d i) * (φ (stepIdx (stepIdx y d i) d 1) - φ (stepIdx y d i))) =
      faceW P d y * (F (stepIdx y d i) * (φ (stepIdx y d (i + 1)) - φ (stepIdx y d i))) := by
    intro i _
    rw [faceW_step, step_add]
  rw [Finset.sum_congr rfl e1, Finset.sum_congr rfl e2, ← Finset.mul_sum, ← Finset.mul_sum, h]
  ring
end

section
variable [NeZero n] {K : Type} [Field K] [LinearOrder K]

/-- points inside the subdomain in every dimension but `z` -/
def Slab (B : Bnd n) (z : Fin n) (x : Idx n) : Prop := ∀ e, e ≠ z → B.f e ≤ x e ∧ x e ≤ B.l e

theorem Slab.step {B : Bnd n} {z : Fin n} {x : Idx n} (h : Slab B z x) (k : Int) : Slab B z (stepIdx x z k) := fun e he => by rw [stepIdx_other x he]; exact h e he

theorem asgN_congr {Q : Idx n → Prop} [DecidablePred Q] {e e' a a' : Sca n K} {x : Idx n} (he : e x = e' x) (ha : a x = a' x) : asgN Q e a x = asgN Q e' a' x := by
  unfold asgN; rw [he, ha]

theorem fillP_congr (B : Bnd n) (z : Fin n) {a a' : Sca n K} (h : ∀ x, Slab B z x → a x = a' x) {x : Idx n} (hx : Slab B z x) :
    fillP B z (fun _ => 0) (fun _ => 0) a x = fillP B z (fun _ => 0) (fun _ => 0) a' x := by
  have h1 : ∀ y, Slab B z y → asgN (fun x => (B.f z - presDepthL B z ≤ x z ∧ x z ≤ B.f z - 1) ∧ Ot B.b z (fun _ => 0) (fun _ => 0) x) (valPL B z a) a y =
      asgN (fun x => (B.f z - presDepthL B z ≤ x z ∧ x z ≤ B.f z - 1) ∧ Ot B.b z (fun _ => 0) (fun _ => 0) x) (valPL B z a') a' y := by
    intro y hy
    have hv : valPL B z a y = valPL B z a' y := by
      unfold valPL
      cases hk : B.kl z <;> simp only [h y hy, h _ (hy.step _)]
    unfold asgN
    rw [hv, h y hy]
  unfold fillP
  have hv : valPR B z (asgN (fun x => (B.f z - presDepthL B z ≤ x z ∧ x z ≤ B.f z - 1) ∧ Ot B.b z (fun _ => 0) (fun _ => 0) x) (valPL B z a) a) x =
      valPR B z (asgN (fun x => (B.f z - presDepthL B z ≤ x z ∧ x z ≤ B.f z - 1) ∧ Ot B.b z (fun _ => 0) (fun _ => 0) x) (valPL B z a') a') x := by
    unfold valPR
    cases hk : B.kr z <;> simp only [h1 x hx, h1 _ (hx.step _)]
  exact asgN_congr hv (h1 x hx)

theorem pres_fold_not (B : Bnd n) (z : Fin n) (ds : List (Fin n)) (hz : z ∉ ds) (a : Sca n K) {x : Idx n} (hx : Slab B z x) : xchngPres B ds 0 a x = a x := by
  induction ds generalizing a with
  | nil => rfl
  | cons d ds ih =>
    have hd : d ≠ z := fun h => hz (by rw [h]; exact List.mem_cons_self)
    show xchngPres B ds 0 (fillP B d (fun _ => 0) (fun _ => 0) a) x = a x
    rw [ih (fun h => hz (List.mem_cons_of_mem _ h)), fillP_keeps B d _ _ a x (hx d hd)]

/-- in the exchange of the pressure type, points outside the domain only in dimension `z` are filled by that dimension -/
theorem pres_slab (B : Bnd n) (z : Fin n) (ds : List (Fin n)) (hn : ds.Nodup) (hz : z ∈ ds) (a : Sca n K) {x : Idx n} (hx : Slab B z x) :
    xchngPres B ds 0 a x = fillP B z (fun _ => 0) (fun _ => 0) a x := by
  induction ds generalizing a with
  | nil => simp at hz
  | cons d ds ih =>
    show xchngPres B ds 0 (fillP B d (fun _ => 0) (fun _ => 0) a) x = _
    rw [List.nodup_cons] at hn
    by_cases hd : d = z
    · rw [pres_fold_not B z ds (by rw [← hd]; exact hn.1) _ hx, hd]
    · rw [ih hn.2 (by rcases List.mem_cons.1 hz with h | h; exacts [absurd h.symm hd, h])]
      exact fillP_congr B z (fun y hy => fillP_keeps B d _ _ a y (hy d hd)) hx
end

section
variable [NeZero n] {K : Type} [Field K] [LinearOrder K] [IsStrictOrderedRing K] {c : Cfg n K} {P : Fin n → Nat}

theorem Domain.f0 (h : Domain c P) (d : Fin n) : c.B.f d = 0 := by unfold Bnd.f; rw [h.box d]
theorem Domain.lP (h : Domain c P) (d : Fin n) : c.B.l d = P d := by unfold Bnd.l; rw [h.box d]

theorem Domain.inBox (h : Domain c P) {x : Idx n} : cellBox c.B.b x ↔ x ∈ gridPts P := by
  rw [mem_grid]
  unfold cellBox Bx
  refine forall_congr' fun d => ?_
  rw [h.box d]; simp

theorem Domain.slab (h : Domain c P) (z : Fin n) {x : Idx n} (hx : x ∈ gridPts P) : Slab c.B z x := fun e _ => by
  rw [h.f0, h.lP]; exact mem_grid.1 hx e

theorem step_mem {x : Idx n} {d : Fin n} {k : Int} (hx : x ∈ gridPts P) (h : 0 ≤ x d + k ∧ x d + k ≤ P d) : stepIdx x d k ∈ gridPts P := by
  refine mem_grid.2 fun e => ?_
  by_cases he : e = d
  · subst he; rw [stepIdx_self]; exact h
  · rw [stepIdx_other x he]; exact mem_grid.1 hx e

/-- the temperature inside the domain is not changed by its exchange -/
theorem tht_in (h : Domain c P) (tht : Sca n K) (m : Mem n K) {x : Idx n} (hx : x ∈ gridPts P) : (setTht c tht m).fullTht x = tht x := by
  unfold setTht
  simp only
  rw [pres_slab c.B c.z _ (List.nodup_finRange n) (List.mem_finRange _) _ (h.slab _ hx), fillP_keeps c.B c.z _ _ _ x (by rw [h.f0, h.lP]; exact mem_grid.1 hx c.z),
    asgN_of (h.inBox.2 hx)]

theorem tht_below (h : Domain c P) (tht : Sca n K) (m : Mem n K) {x : Idx n} (hx : x ∈ gridPts P) (h0 : x c.z = 0) :
    (setTht c tht m).fullTht (stepIdx x c.z (-1)) = 2 * tht x - tht (stepIdx x c.z 1) := by
  have h1 : stepIdx x c.z 1 ∈ gridPts P := step_mem hx (by have := h.two c.z; omega)
  have hf := h.f0 c.z
  have hl := h.lP c.z
  have hh := h.halo
  unfold setTht
  simp only
  rw [pres_slab c.B c.z _ (List.nodup_finRange n) (List.mem_finRange _) _ ((h.slab _ hx).step _)]
  unfold fillP
  have hO : Ot c.B.b c.z (fun _ => 0) (fun _ => 0) (stepIdx x c.z (-1)) := fun e he => by
    rw [stepIdx_other x he, h.box e]; have := mem_grid.1 hx e; simpa using this
  have hdep : presDepthL c.B c.z = c.B.halo := by unfold presDepthL; rw [if_neg (by rcases h.bottom with h | h <;> rw [h] <;> decide)]
  rw [asgN_of_not (by rintro ⟨hh, -⟩; rw [stepIdx_self] at hh; omega),
    asgN_of ⟨by rw [stepIdx_self, hdep]; omega, hO⟩]
  have e1 : stepIdx (stepIdx x c.z (-1)) c.z (c.B.f c.z - stepIdx x c.z (-1) c.z) = x := by
    rw [step_add, stepIdx_self, show -1 + (c.B.f c.z - (x c.z + -1)) = 0 by omega, step_zero]
  have e2 : stepIdx (stepIdx x c.z (-1)) c.z (2 * (c.B.f c.z - stepIdx x c.z (-1) c.z)) = stepIdx x c.z 1 := by
    rw [step_add, stepIdx_self, show -1 + 2 * (c.B.f c.z - (x c.z + -1)) = 1 by omega]
  unfold valPL
  rcases h.bottom with hk | hk <;> rw [hk] <;> simp only [e1, e2] <;> rw [asgN_of (h.inBox.2 hx), asgN_of (h.inBox.2 h1)]

theorem tht_above (h : Domain c P) (tht : Sca n K) (m : Mem n K) {x : Idx n} (hx : x ∈ gridPts P) (h0 : x c.z = P c.z) :
    (setTht c tht m).fullTht (stepIdx x c.z 1) = 2 * tht x - tht (stepIdx x c.z (-1)) := by
  have h1 : stepIdx x c.z (-1) ∈ gridPts P := step_mem hx (by have := h.two c.z; omega)
  have hf := h.f0 c.z
  have hl := h.lP c.z
  have hh := h.halo
  have h2 := h.two c.z
  unfold setTht
  simp only
  rw [pres_slab c.B c.z _ (List.nodup_finRange n) (List.mem_finRange _) _ ((h.slab _ hx).step _)]
  unfold fillP
  have hO : Ot c.B.b c.z (fun _ => 0) (fun _ => 0) (stepIdx x c.z 1) := fun e he => by
    rw [stepIdx_other x he, h.box e]; have := mem_grid.1 hx e; simpa using this
  have hdep : presDepthR c.B c.z = c.B.halo := by unfold presDepthR; rw [if_neg (by rcases h.top with h | h <;> rw [h] <;> decide)]
  rw [asgN_of ⟨by rw [stepIdx_self, hdep]; omega, hO⟩]
  have e1 : stepIdx (stepIdx x c.z 1) c.z (c.B.l c.z - stepIdx x c.z 1 c.z) = x := by
    rw [step_add, stepIdx_self, show 1 + (c.B.l c.z - (x c.z + 1)) = 0 by omega, step_zero]
  have e2 : stepIdx (stepIdx x c.z 1) c.z (2 * (c.B.l c.z - stepIdx x c.z 1 c.z)) = stepIdx x c.z (-1) := by
    rw [step_add, stepIdx_self, show 1 + 2 * (c.B.l c.z - (x c.z + 1)) = -1 by omega]
  have hL : ∀ (e a : Sca n K) y, y ∈ gridPts P →
      asgN (fun x => (c.B.f c.z - presDepthL c.B c.z ≤ x c.z ∧ x c.z ≤ c.B.f c.z - 1) ∧ Ot c.B.b c.z (fun _ => 0) (fun _ => 0) x) e a y = a y :=
    fun e a y hy => asgN_of_not (by rintro ⟨hh, -⟩; have := (mem_grid.1 hy c.z).1; omega)
  unfold valPR
  rcases h.top with hk | hk <;> rw [hk] <;> simp only [e1, e2] <;>
    rw [hL _ _ _ hx, hL _ _ _ h1, asgN_of (h.inBox.2 hx), asgN_of (h.inBox.2 h1)]

theorem grad_face (h : Domain c P) (tht : Sca n K) (m : Mem n K) (d : Fin n) {x : Idx n} (hx : x ∈ gridPts P) (hd : x d < P d) :
    (setGrad c (setTht c tht m)).grad d x = (tht (stepIdx x d 1) - tht x) / c.dx d := by
  have h1 : stepIdx x d 1 ∈ gridPts P := step_mem hx (by have := (mem_grid.1 hx d).1; omega)
  unfold setGrad
  simp only
  rw [asgN_of (fun e => by rw [h.box e]; have := mem_grid.1 hx e; simp only; split <;> omega)]
  unfold gradCmpct
  rw [tht_in h tht m hx, tht_in h tht m h1]

theorem grad_vert (h : Domain c P) (tht : Sca n K) (m : Mem n K) {x : Idx n} (hx : x ∈ gridPts P) :
    1 / 2 * ((setGrad c (setTht c tht m)).grad c.z (stepIdx x c.z (-1)) + (setGrad c (setTht c tht m)).grad c.z x) = vertGrad c P tht x := by
  have h2 := h.two c.z
  have hm := mem_grid.1 hx
  have hd := (h.dx0 c.z).ne'
  have hb1 : Bx c.B.b (fun e => if e = c.z then 1 else 0) (fun _ => 0) x := fun e => by rw [h.box e]; have := hm e; simp only; split <;> omega
  have hb2 : Bx c.B.b (fun e => if e = c.z then 1 else 0) (fun _ => 0) (stepIdx x c.z (-1)) := fun e => by
    rw [h.box e]; have := hm e
    by_cases he : e = c.z
    · subst he; rw [stepIdx_self]; simp only [if_true]; omega
    · rw [stepIdx_other x he]; simp only [if_neg he]; omega
  have e1 : (setGrad c (setTht c tht m)).grad c.z x = ((setTht c tht m).fullTht (stepIdx x c.z 1) - tht x) / c.dx c.z := by
    unfold setGrad
    simp only
    rw [asgN_of hb1]; unfold gradCmpct; rw [tht_in h tht m hx]
  have e2 : (setGrad c (setTht c tht m)).grad c.z (stepIdx x c.z (-1)) = (tht x - (setTht c tht m).fullTht (stepIdx x c.z (-1))) / c.dx c.z := by
    unfold setGrad
    simp only
    rw [asgN_of hb2]; unfold gradCmpct; rw [step_add, show (-1 : Int) + 1 = 0 by omega, step_zero, tht_in h tht m hx]
  rw [e1, e2]
  unfold vertGrad
  by_cases h0 : x c.z = 0
  · rw [if_pos h0, tht_below h tht m hx h0, tht_in h tht m (step_mem hx (by omega))]
    field_simp; ring
  · rw [if_neg h0, tht_in h tht m (step_mem (k := -1) hx (by have := hm c.z; omega))]
    by_cases hP : x c.z = P c.z
    · rw [if_pos hP, tht_above h tht m hx hP]
      field_simp; ring
    · rw [if_neg hP, tht_in h tht m (step_mem hx (by have := hm c.z; omega))]
      field_simp; ring

theorem on_ground (h : Domain c P) {x : Idx n} (hx : x ∈ gridPts P) : ground c x ↔ x c.z = 0 :=
  ⟨fun hg => hg.1, fun h0 => ⟨h0, fun e _ => by rw [h.f0, h.lP]; exact mem_grid.1 hx e⟩⟩

/-- state before the viscosity is computed -/
theorem km_in (h : Domain c P) (tau : Fin n → Fin n → Sca n K) (tht : Sca n K) (m : Mem n K) {x : Idx n} (hx : x ∈ gridPts P) :
    (setKm c (setRcdsn c (setTdef c tau (setGrad c (setTht c tht m))))).kh x = viscosity c (c.mixH x) (tdefSqCmpct tau x) (richardson c P tau tht x) ∧
    (setKm c (setRcdsn c (setTdef c tau (setGrad c (setTht c tht m))))).kv x = viscosity c (c.mixV x) (tdefSqCmpct tau x) (richardson c P tau tht x) := by
  have hb := h.inBox.2 hx
  have ht : (setTdef c tau (setGrad c (setTht c tht m))).tdef x = tdefSqCmpct tau x := by unfold setTdef; simp only; rw [asgN_of hb]
  have hr : (setRcdsn c (setTdef c tau (setGrad c (setTht c tht m)))).rcdsn x = richardson c P tau tht x := by
    unfold setRcdsn
    simp only
    rw [asgN_of hb, ht]
    show c.g * (1 / 2) * ((setGrad c (setTht c tht m)).grad c.z (stepIdx x c.z (-1)) + (setGrad c (setTht c tht m)).grad c.z x) / _ = _
    rw [mul_assoc, grad_vert h tht m hx, richardson]
  have ht' : (setRcdsn c (setTdef c tau (setGrad c (setTht c tht m)))).tdef x = tdefSqCmpct tau x := ht
  constructor <;> (rw [setKm]; simp only; rw [asgN_of hb, ht', hr])

theorem visc_lilly (h : Domain c P) (mix td rc : K) : viscosity c mix td rc = if rc < c.pr then (c.smgC * mix) ^ 2 * c.sqrt (td * (1 - rc / c.pr)) else 0 := by
  unfold viscosity
  simp only [div_lt_one h.pr0]

/-- the viscosity after its exchange, inside the domain -/
theorem km_final (h : Domain c P) (tau : Fin n → Fin n → Sca n K) (tht : Sca n K) (m : Mem n K) {x : Idx n} (hx : x ∈ gridPts P) :
    (viscPart c tau tht m).kh x = Lilly c P tau tht c.mixH x ∧ (viscPart c tau tht m).kv x = Lilly c P tau tht c.mixV x := by
  have hdom : InDomain c.B.b x := fun e => by rw [h.box e]; exact mem_grid.1 hx e
  have key : ∀ y, y ∈ gridPts P → _ := fun y hy => km_in h tau tht (setSrfc c m) (x := y) hy
  unfold viscPart xchngKm setKmGround
  simp only
  rw [C60_sclr_keeps_domain _ _ _ _ _ hdom, C60_sclr_keeps_domain _ _ _ _ _ hdom]
  unfold Lilly
  by_cases h0 : x c.z = 0
  · have h1 : stepIdx x c.z 1 ∈ gridPts P := step_mem hx (by have := h.two c.z; omega)
    rw [asgN_of ((on_ground h hx).2 h0), asgN_of ((on_ground h hx).2 h0), (key _ h1).1, (key _ h1).2, visc_lilly h, visc_lilly h]
    simp only [h0, if_true, and_self]
  · rw [asgN_of_not (fun hg => h0 hg.1), asgN_of_not (fun hg => h0 hg.1), (key x hx).1, (key x hx).2, visc_lilly h, visc_lilly h]
    simp only [h0, if_false, and_self]

/-- the stored fluxes -/
def flux (c : Cfg n K) (tau : Fin n → Fin n → Sca n K) (tht : Sca n K) (m : Mem n K) : Vec n K := (xchngFluxes c (multVctr c (viscPart c tau tht m))).grad

theorem flux_inner (h : Domain c P) (tau : Fin n → Fin n → Sca n K) (tht : Sca n K) (m : Mem n K) (d : Fin n) {x : Idx n} (hx : x ∈ gridPts P) (hd : x d < P d) :
    flux c tau tht m d x = Fourier c (Lilly c P tau tht (if d = c.z then c.mixV else c.mixH)) tht d x := by
  have h1 : stepIdx x d 1 ∈ gridPts P := step_mem hx (by have := (mem_grid.1 hx d).1; omega)
  have hm := mem_grid.1 hx
  unfold flux xchngFluxes
  simp only
  unfold xchngSgsVctr fillSgsVctr
  rw [fillFace_keeps c.B d _ _ _ _ _ x (by rw [h.f0, h.lP]; have := hm d; omega)]
  unfold multVctr
  simp only
  rw [asgN_of (fun e => by rw [h.box e]; have := hm e; simp only; split <;> omega)]
  have hg : (viscPart c tau tht m).grad d x = (tht (stepIdx x d 1) - tht x) / c.dx d := grad_face h tht (setSrfc c m) d hx hd
  unfold multFace Fourier
  rw [hg]
  have hpr := h.pr0.ne'
  by_cases hz : d = c.z
  · rw [if_pos hz, if_pos hz, (km_final h tau tht m hx).2, (km_final h tau tht m h1).2]
    field_simp
  · rw [if_neg hz, if_neg hz, (km_final h tau tht m hx).1, (km_final h tau tht m h1).1]
    field_simp

/-- the fluxes on the two sides of the ground -/
theorem flux_low (h : Domain c P) (tau : Fin n → Fin n → Sca n K) (tht : Sca n K) (m : Mem n K) (d : Fin n) {x : Idx n} (hx : x ∈ gridPts P) (hd : x d = 0)
    (hk : c.B.kl d ≠ .cyclic) :
    flux c tau tht m d (stepIdx x d (-1)) + flux c tau tht m d x = if d = c.z then -2 * fromGround c x else 0 := by
  have hO : Ot c.B.b d (fun _ => 0) (fun _ => 0) x := fun e _ => by rw [h.box e]; have := mem_grid.1 hx e; simpa using this
  have hw : c.B.f d < c.B.l d := by rw [h.f0, h.lP]; have := h.two d; omega
  have hE := C60_sgs_vctr_edge_values c.B d (fun _ => 0) (fun _ => 0) (multVctr c (viscPart c tau tht m)).srfc ((multVctr c (viscPart c tau tht m)).grad d) hw hO
  have hs : (multVctr c (viscPart c tau tht m)).srfc = (setSrfc c m).srfc := rfl
  unfold flux xchngFluxes xchngSgsVctr fromGround
  simp only
  have hrig : c.B.kl d = .rigid → _ := fun hr => hE.1 hr (by rw [h.f0]; exact hd)
  by_cases hz : d = c.z
  · rw [if_pos hz]
    subst hz
    rcases h.bottom with hb | hb
    · rw [hE.2.1 hb (by rw [h.f0]; exact hd), if_pos hb, hs]
      unfold setSrfc
      simp only
      rw [asgN_of ((on_ground h hx).2 hd)]; ring
    · rw [hrig hb, if_neg (by rw [hb]; decide)]; ring
  · rw [if_neg hz]
    rcases h.sides d hz with hb | hb
    · exact absurd hb.1 hk
    · exact hrig hb.1

theorem flux_high (h : Domain c P) (tau : Fin n → Fin n → Sca n K) (tht : Sca n K) (m : Mem n K) (d : Fin n) {x : Idx n} (hx : x ∈ gridPts P) (hd : x d = P d)
    (hk : c.B.kl d ≠ .cyclic) : flux c tau tht m d (stepIdx x d (-1)) + flux c tau tht m d x = 0 := by
  have hO : Ot c.B.b d (fun _ => 0) (fun _ => 0) x := fun e _ => by rw [h.box e]; have := mem_grid.1 hx e; simpa using this
  have hw : c.B.f d < c.B.l d := by rw [h.f0, h.lP]; have := h.two d; omega
  have hE := C60_sgs_vctr_edge_values c.B d (fun _ => 0) (fun _ => 0) (multVctr c (viscPart c tau tht m)).srfc ((multVctr c (viscPart c tau tht m)).grad d) hw hO
  refine hE.2.2 ?_ (by rw [h.lP]; exact hd)
  by_cases hz : d = c.z
  · subst hz; exact h.top.symm
  · rcases h.sides d hz with hb | hb
    · exact absurd hb.1 hk
    · exact Or.inl hb.2

theorem flux_cyc (h : Domain c P) (tau : Fin n → Fin n → Sca n K) (tht : Sca n K) (m : Mem n K) (d : Fin n) {x : Idx n} (hx : x ∈ gridPts P) (hd : x d = 0)
    (hk : c.B.kl d = .cyclic) :
    flux c tau tht m d (stepIdx x d (-1)) = flux c tau tht m d (stepIdx x d (P d - 1)) ∧ flux c tau tht m d (stepIdx x d (P d)) = flux c tau tht m d x := by
  have hO : ∀ k, Ot c.B.b d (fun _ => 0) (fun _ => 0) (stepIdx x d k) := fun k e he => by
    rw [stepIdx_other x he, h.box e]; have := mem_grid.1 hx e; simpa using this
  have h2 := h.two d
  have hf := h.f0 d
  have hl := h.lP d
  have hh := h.halo
  have hr : c.B.kr d = .cyclic := by
    by_cases hz : d = c.z
    · subst hz; rcases h.bottom with hb | hb <;> rw [hb] at hk <;> cases hk
    · rcases h.sides d hz with hb | hb
      · exact hb.2
      · rw [hb.1] at hk; cases hk
  have hkeep : ∀ k : Int, 0 ≤ k → k < P d → flux c tau tht m d (stepIdx x d k) = (multVctr c (viscPart c tau tht m)).grad d (stepIdx x d k) := fun k h0 h1 => by
    unfold flux xchngFluxes xchngSgsVctr fillSgsVctr
    simp only
    exact fillFace_keeps c.B d (fun _ => 0) (fun _ => 0) _ _ ((multVctr c (viscPart c tau tht m)).grad d) (stepIdx x d k) (by rw [stepIdx_self]; omega)
  constructor
  · rw [hkeep (P d - 1) (by omega) (by omega)]
    unfold flux xchngFluxes xchngSgsVctr fillSgsVctr fillFace
    simp only [if_pos hk, if_pos hr]
    rw [asgN_of_not (by rintro ⟨h, -⟩; rw [stepIdx_self] at h; omega), asgN_of ⟨by rw [stepIdx_self, if_pos hk]; omega, hO _⟩, step_add]
    congr 2; omega
  · have h0 := hkeep 0 le_rfl (by omega)
    rw [step_zero] at h0
    rw [h0]
    unfold flux xchngFluxes xchngSgsVctr fillSgsVctr fillFace
    simp only [if_pos hk, if_pos hr]
    rw [asgN_of ⟨by rw [stepIdx_self]; omega, hO _⟩, step_add, asgN_of_not (by rintro ⟨h, -⟩; rw [stepIdx_self] at h; omega)]
    congr 1
    rw [show (P d : Int) + -(c.B.l d - c.B.f d) = 0 by omega, step_zero]

/-- summation by parts for the stored fluxes in dimension `d` -/
theorem weak_dim (h : Domain c P) (tau : Fin n → Fin n → Sca n K) (tht φ : Sca n K) (hφ : Closes c P φ) (m : Mem n K) (d : Fin n) :
    ∑ x ∈ gridPts P, trapW P x * (φ x * (flux c tau tht m d x - flux c tau tht m d (stepIdx x d (-1)))) =
      (if d = c.z then ∑ x ∈ groundPts P c.z, faceW P c.z x * (φ x * fromGround c x) else 0)
      - ∑ x ∈ facePts P d, faceW P d x * (flux c tau tht m d x * (φ (stepIdx x d 1) - φ x)) := by
  rw [grid_parts P d (h.two d)]
  congr 1
  have hgr : ∀ y ∈ (gridPts P).filter (fun y => y d = 0), (faceW P d y : K) * (1 / 2 * φ (stepIdx y d (P d)) * (flux c tau tht m d (stepIdx y d (P d - 1)) + flux c tau tht m d (stepIdx y d (P d)))
        - 1 / 2 * φ y * (flux c tau tht m d (stepIdx y d (-1)) + flux c tau tht m d y)) = if d = c.z then faceW P c.z y * (φ y * fromGround c y) else 0 := by
    intro y hy
    obtain ⟨hyg, hy0⟩ := Finset.mem_filter.1 hy
    by_cases hk : c.B.kl d = .cyclic
    · obtain ⟨e1, e2⟩ := flux_cyc h tau tht m d hyg hy0 hk
      have hz : d ≠ c.z := by rintro rfl; rcases h.bottom with hb | hb <;> rw [hb] at hk <;> cases hk
      rw [e1, e2, hφ d y hk hyg hy0, if_neg hz]; ring
    · have e1 := flux_low h tau tht m d hyg hy0 hk
      have e2 := flux_high h tau tht m d (step_mem (d := d) (k := P d) hyg (by omega)) (by rw [stepIdx_self]; omega) hk
      rw [step_add, show (P d : Int) + -1 = P d - 1 by omega] at e2
      rw [e1, e2]
      by_cases hz : d = c.z
      · rw [if_pos hz, if_pos hz, hz]; ring
      · rw [if_neg hz, if_neg hz]; ring
  rw [Finset.sum_congr rfl hgr]
  by_cases hz : d = c.z
  · simp only [if_pos hz]; rw [hz]; rfl
  · simp only [if_neg hz, Finset.sum_const_zero]

theorem frc_eq (h : Domain c P) (tau : Fin n → Fin n → Sca n K) (tht : Sca n K) (m : Mem n K) {x : Idx n} (hx : x ∈ gridPts P) :
    c.G x * (multiplySgsVisc c tau tht m).frc x = ∑ d, (flux c tau tht m d x - flux c tau tht m d (stepIdx x d (-1))) / c.dx d := by
  unfold multiplySgsVisc setFrc
  simp only
  rw [asgN_of (h.inBox.2 hx)]
  unfold fluxDiv
  rw [mul_div_cancel₀ _ (h.G0 x hx).ne']
  rfl

/-- summation by parts: the heating tested with any field -/
theorem weak_form (h : Domain c P) (tau : Fin n → Fin n → Sca n K) (tht φ : Sca n K) (hφ : Closes c P φ) (m : Mem n K) :
    ∑ x ∈ gridPts P, trapW P x * (φ x * (c.G x * (multiplySgsVisc c tau tht m).frc x)) =
      (∑ x ∈ groundPts P c.z, faceW P c.z x * (φ x * fromGround c x)) / c.dx c.z
      - ∑ d, ∑ x ∈ facePts P d, faceW P d x * (Fourier c (Lilly c P tau tht (if d = c.z then c.mixV else c.mixH)) tht d x * ((φ (stepIdx x d 1) - φ x) / c.dx d)) := by
  have e1 : ∀ x ∈ gridPts P, (trapW P x : K) * (φ x * (c.G x * (multiplySgsVisc c tau tht m).frc x)) =
      ∑ d, 1 / c.dx d * (trapW P x * (φ x * (flux c tau tht m d x - flux c tau tht m d (stepIdx x d (-1))))) := by
    intro x hx
    rw [frc_eq h tau tht m hx, Finset.mul_sum, Finset.mul_sum]
    refine Finset.sum_congr rfl fun d _ => ?_
    ring
  rw [Finset.sum_congr rfl e1, Finset.sum_comm]
  have e2 : ∀ d ∈ (Finset.univ : Finset (Fin n)), ∑ x ∈ gridPts P, 1 / c.dx d * ((trapW P x : K) * (φ x * (flux c tau tht m d x - flux c tau tht m d (stepIdx x d (-1))))) =
      (if d = c.z then (∑ x ∈ groundPts P c.z, faceW P c.z x * (φ x * fromGround c x)) / c.dx c.z else 0)
      - ∑ x ∈ facePts P d, faceW P d x * (Fourier c (Lilly c P tau tht (if d = c.z then c.mixV else c.mixH)) tht d x * ((φ (stepIdx x d 1) - φ x) / c.dx d)) := by
    intro d _
    rw [← Finset.mul_sum, weak_dim h tau tht φ hφ m d, mul_sub]
    congr 1
    · by_cases hz : d = c.z
      · rw [if_pos hz, if_pos hz, hz]; ring
      · rw [if_neg hz, if_neg hz, mul_zero]
    · rw [Finset.mul_sum]
      refine Finset.sum_congr rfl fun x hx => ?_
      obtain ⟨hxg, hxd⟩ := Finset.mem_filter.1 hx
      rw [flux_inner h tau tht m d hxg hxd]
      ring
  rw [Finset.sum_congr rfl e2, Finset.sum_sub_distrib, Finset.sum_ite_eq' Finset.univ c.z, if_pos (Finset.mem_univ _)]

end
end Heat
end Mpdata
