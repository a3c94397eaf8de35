import Verif.Spec.SgsDrag
import Verif.Lemmas.SgsHeat
import Mathlib.Tactic.LinearCombination
import Mathlib.Tactic.Positivity
import Mathlib.Algebra.Order.BigOperators.Ring.Finset
/-! # Lemmas for subgrid-scale forces with walls and surface drag -/
set_option linter.unusedSectionVars false
namespace Mpdata
namespace Drag
open Heat (mem_grid step_add step_zero step_mem)
variable {n : Nat} [NeZero n] {K : Type} [Field K] [LinearOrder K]

theorem step_comm (x : Idx n) {d e : Fin n} (h : d ≠ e) (a b : Int) : stepIdx (stepIdx x d a) e b = stepIdx (stepIdx x e b) d a := by
  funext k
  by_cases h1 : k = d
  · subst h1; rw [stepIdx_self, stepIdx_other _ h, stepIdx_other _ h, stepIdx_self]
  · by_cases h2 : k = e
    · subst h2; rw [stepIdx_self, stepIdx_other _ h1, stepIdx_other _ h1, stepIdx_self]
    · rw [stepIdx_other _ h2, stepIdx_other _ h1, stepIdx_other _ h1, stepIdx_other _ h2]

section fills
variable {B : Bnd n} {P : Fin n → Nat}

/-- the box, its size and the halo -/
structure Box (B : Bnd n) (P : Fin n → Nat) : Prop where
  f : ∀ d, B.f d = 0
  l : ∀ d, B.l d = P d
  two : ∀ d, 2 ≤ P d
  halo : 1 ≤ B.halo

theorem fv_keep (h : Box B P) (q : Fin n) (lo hi : Fin n → Int) (s a : Sca n K) {x : Idx n} (hx : 0 ≤ x q ∧ x q < P q) : fillSgsVctr B q lo hi s a x = a x :=
  fillFace_keeps B q _ _ _ _ a x (by have := h.f q; have := h.l q; omega)

/-- what a cyclic filling puts on the faces next to the ends -/
theorem fv_cyc (h : Box B P) (q : Fin n) (hk : B.kl q = .cyclic ∧ B.kr q = .cyclic) (lo hi : Fin n → Int) (s a : Sca n K) {x : Idx n} (hx : Ot B.b q lo hi x) :
    (x q = -1 → fillSgsVctr B q lo hi s a x = a (stepIdx x q (P q))) ∧ (x q = P q → fillSgsVctr B q lo hi s a x = a (stepIdx x q (-(P q : Int)))) := by
  have h1 := h.f q
  have h2 := h.l q
  have h3 := h.halo
  have h4 := h.two q
  have hO : ∀ m, Ot B.b q lo hi (stepIdx x q m) := fun m e he => by rw [stepIdx_other x he]; exact hx e he
  constructor
  · intro hq
    unfold fillSgsVctr fillFace
    rw [asgN_of_not (by rintro ⟨h', -⟩; rw [if_pos hk.2] at h'; omega), asgN_of ⟨by rw [if_pos hk.1]; omega, hx⟩, if_pos hk.1, h1, h2, Int.sub_zero]
  · intro hq
    unfold fillSgsVctr fillFace
    rw [asgN_of ⟨by rw [if_pos hk.2]; omega, hx⟩, if_pos hk.2, asgN_of_not (by rintro ⟨h', -⟩; rw [if_pos hk.1, stepIdx_self] at h'; omega), h1, h2, Int.sub_zero]

theorem Box.ot (h : Box B P) (q : Fin n) (lo hi : Fin n → Int) {x : Idx n} (hx : ∀ e, e ≠ q → - lo e ≤ x e ∧ x e ≤ P e + hi e) : Ot B.b q lo hi x := by
  intro e he
  have h1 := h.f e
  have h2 := h.l e
  unfold Bnd.f at h1
  unfold Bnd.l at h2
  have := hx e he
  omega

/-- the place inside the domain whose value ends up at `x` -/
def wr (P : Fin n → Nat) (q : Fin n) (x : Idx n) : Idx n := stepIdx x q (if x q = -1 then (P q : Int) else if x q = P q then -(P q : Int) else 0)

theorem wr_in (h : Box B P) (q : Fin n) {x : Idx n} (hx : -1 ≤ x q ∧ x q ≤ P q) : 0 ≤ wr P q x q ∧ wr P q x q < P q := by
  have := h.two q
  unfold wr
  rw [stepIdx_self]
  split_ifs <;> omega

theorem wr_other (q : Fin n) (x : Idx n) {e : Fin n} (he : e ≠ q) : wr P q x e = x e := by unfold wr; rw [stepIdx_other x he]

theorem wr_step (q : Fin n) (x : Idx n) {p : Fin n} (hp : p ≠ q) (k : Int) : wr P q (stepIdx x p k) = stepIdx (wr P q x) p k := by
  unfold wr
  rw [stepIdx_other x hp.symm, step_comm x hp]

/-- usable in dimension `d`: inside, or anywhere between the faces next to the ends if the boundaries are cyclic -/
def Good (B : Bnd n) (P : Fin n → Nat) (d : Fin n) (x : Idx n) : Prop := (0 ≤ x d ∧ x d < P d) ∨ ((B.kl d = .cyclic ∧ B.kr d = .cyclic) ∧ -1 ≤ x d ∧ x d ≤ P d)

theorem fv_wr (h : Box B P) (q : Fin n) (lo hi : Fin n → Int) (s a : Sca n K) {x : Idx n} (hx : Ot B.b q lo hi x) (hg : Good B P q x) :
    fillSgsVctr B q lo hi s a x = a (wr P q x) := by
  have h4 := h.two q
  rcases hg with hg | ⟨hk, hg⟩
  · rw [fv_keep h q lo hi s a hg]
    unfold wr
    rw [if_neg (by omega), if_neg (by omega), step_zero]
  · obtain ⟨h1, h2⟩ := fv_cyc h q hk lo hi s a hx
    by_cases e1 : x q = -1
    · rw [h1 e1]; unfold wr; rw [if_pos e1]
    · by_cases e2 : x q = P q
      · rw [h2 e2]; unfold wr; rw [if_neg e1, if_pos e2]
      · rw [fv_keep h q lo hi s a (by omega)]; unfold wr; rw [if_neg e1, if_neg e2, step_zero]

/-- places next to the domain by at most one face in the dimensions `d` and `e`, inside in the others -/
def Near (P : Fin n → Nat) (d e : Fin n) (x : Idx n) : Prop := ∀ k, k ≠ e → (if k = d then -1 ≤ x k ∧ x k ≤ P k else 0 ≤ x k ∧ x k ≤ P k)

theorem Near.ot (h : Box B P) {d e : Fin n} {x : Idx n} (hx : Near P d e x) : Ot B.b e (fun _ => 1) (fun c => if c = d then 0 else 1) x := by
  refine h.ot e _ _ fun k hk => ?_
  have := hx k hk
  split_ifs at this ⊢ <;> omega

variable {p q : Fin n} {s a : Sca n K}

/-- values across the ends of the dimension filled last -/
theorem off_last (h : Box B P) {x : Idx n} (hx : Near P p q x) :
    (x q = 0 → B.kl q = .rigid → xchngSgsTnsrOffdiag B p q s a (stepIdx x q (-1)) + xchngSgsTnsrOffdiag B p q s a x = 0) ∧
    (x q = 0 → B.kl q = .gndsky → xchngSgsTnsrOffdiag B p q s a (stepIdx x q (-1)) + xchngSgsTnsrOffdiag B p q s a x = 2 * s x) ∧
    (x q = P q → B.kr q = .rigid ∨ B.kr q = .gndsky → xchngSgsTnsrOffdiag B p q s a (stepIdx x q (-1)) + xchngSgsTnsrOffdiag B p q s a x = 0) ∧
    (x q = 0 → B.kl q = .cyclic ∧ B.kr q = .cyclic → xchngSgsTnsrOffdiag B p q s a (stepIdx x q (-1)) = xchngSgsTnsrOffdiag B p q s a (stepIdx x q (P q - 1)) ∧
      xchngSgsTnsrOffdiag B p q s a (stepIdx x q (P q)) = xchngSgsTnsrOffdiag B p q s a x) := by
  have h4 := h.two q
  have h1 := h.f q
  have h2 := h.l q
  unfold xchngSgsTnsrOffdiag
  generalize fillSgsVctr B p (fun _ => 1) (fun c => if c = q then 0 else 1) s a = b
  have hO := hx.ot h
  obtain ⟨e1, e2, e3⟩ := C60_sgs_vctr_edge_values B q (fun _ => 1) (fun c => if c = p then 0 else 1) s b (by omega) hO
  refine ⟨fun h0 hk => e1 hk (by omega), fun h0 hk => e2 hk (by omega), fun h0 hk => e3 hk (by omega), fun h0 hk => ?_⟩
  have hO' : ∀ m, Ot B.b q (fun _ => 1) (fun c => if c = p then 0 else 1) (stepIdx x q m) := fun m e he => by rw [stepIdx_other x he]; exact hO e he
  rw [(fv_cyc h q hk _ _ s b (hO' (-1))).1 (by rw [stepIdx_self]; omega), (fv_cyc h q hk _ _ s b (hO' (P q))).2 (by rw [stepIdx_self]; omega),
    fv_keep h q _ _ s b (x := stepIdx x q (P q - 1)) (by rw [stepIdx_self]; omega), fv_keep h q _ _ s b (x := x) (by omega), step_add, step_add]
  exact ⟨by rw [show (-1 : Int) + (P q : Int) = (P q : Int) - 1 by omega], by rw [Int.add_right_neg, step_zero]⟩

/-- values across the ends of the dimension filled first -/
theorem off_first (h : Box B P) (hpq : p ≠ q) {x : Idx n} (hx : Near P q p x) (hg : Good B P q x) :
    (x p = 0 → B.kl p = .rigid → xchngSgsTnsrOffdiag B p q s a (stepIdx x p (-1)) + xchngSgsTnsrOffdiag B p q s a x = 0) ∧
    (x p = P p → B.kr p = .rigid ∨ B.kr p = .gndsky → xchngSgsTnsrOffdiag B p q s a (stepIdx x p (-1)) + xchngSgsTnsrOffdiag B p q s a x = 0) ∧
    (x p = 0 → B.kl p = .cyclic ∧ B.kr p = .cyclic → xchngSgsTnsrOffdiag B p q s a (stepIdx x p (-1)) = xchngSgsTnsrOffdiag B p q s a (stepIdx x p (P p - 1)) ∧
      xchngSgsTnsrOffdiag B p q s a (stepIdx x p (P p)) = xchngSgsTnsrOffdiag B p q s a x) := by
  have h4 := h.two p
  have h1 := h.f p
  have h2 := h.l p
  have hq := hx q hpq.symm
  rw [if_pos rfl] at hq
  have hX : ∀ k, -1 ≤ x p + k ∧ x p + k ≤ P p → xchngSgsTnsrOffdiag B p q s a (stepIdx x p k) =
      fillSgsVctr B p (fun _ => 1) (fun c => if c = q then 0 else 1) s a (stepIdx (wr P q x) p k) := by
    intro k hk
    unfold xchngSgsTnsrOffdiag
    rw [fv_wr h q, wr_step q x hpq]
    · refine h.ot q _ _ fun e he => ?_
      by_cases hep : e = p
      · subst hep; rw [if_pos rfl, stepIdx_self]; omega
      · rw [stepIdx_other x hep]; have := hx e hep; rw [if_neg he] at this; split_ifs <;> omega
    · unfold Good at hg ⊢; rw [stepIdx_other x hpq.symm]; exact hg
  have hX0 : -1 ≤ x p ∧ x p ≤ P p → xchngSgsTnsrOffdiag B p q s a x = fillSgsVctr B p (fun _ => 1) (fun c => if c = q then 0 else 1) s a (wr P q x) := by
    intro hk
    have := hX 0 (by omega)
    rwa [step_zero, step_zero] at this
  have hwp : wr P q x p = x p := wr_other q x hpq
  have hw := wr_in h q hq
  have hO : Ot B.b p (fun _ => 1) (fun c => if c = q then 0 else 1) (wr P q x) := by
    refine h.ot p _ _ fun e he => ?_
    by_cases heq : e = q
    · subst heq; rw [if_pos rfl]; omega
    · rw [wr_other q x heq, if_neg heq]; have := hx e he; rw [if_neg heq] at this; omega
  obtain ⟨e1, -, e3⟩ := C60_sgs_vctr_edge_values B p (fun _ => 1) (fun c => if c = q then 0 else 1) s a (by omega) hO
  refine ⟨fun h0 hk => ?_, fun h0 hk => ?_, fun h0 hk => ?_⟩
  · rw [hX (-1) (by omega), hX0 (by omega)]; exact e1 hk (by omega)
  · rw [hX (-1) (by omega), hX0 (by omega)]; exact e3 hk (by omega)
  · have hO' : ∀ m, Ot B.b p (fun _ => 1) (fun c => if c = q then 0 else 1) (stepIdx (wr P q x) p m) := fun m e he => by rw [stepIdx_other _ he]; exact hO e he
    rw [hX (-1) (by omega), hX0 (by omega), hX (P p - 1) (by omega), hX (P p) (by omega),
      (fv_cyc h p hk _ _ s a (hO' (-1))).1 (by rw [stepIdx_self]; omega), (fv_cyc h p hk _ _ s a (hO' (P p))).2 (by rw [stepIdx_self]; omega),
      fv_keep h p _ _ s a (x := stepIdx (wr P q x) p (P p - 1)) (by rw [stepIdx_self]; omega), fv_keep h p _ _ s a (x := wr P q x) (by omega), step_add, step_add]
    exact ⟨by rw [show (-1 : Int) + (P p : Int) = (P p : Int) - 1 by omega], by rw [Int.add_right_neg, step_zero]⟩

/-- inside the domain nothing changes -/
theorem off_in (h : Box B P) {x : Idx n} (hp : 0 ≤ x p ∧ x p < P p) (hq : 0 ≤ x q ∧ x q < P q) : xchngSgsTnsrOffdiag B p q s a x = a x := by
  unfold xchngSgsTnsrOffdiag
  rw [fv_keep h q _ _ _ _ hq, fv_keep h p _ _ _ _ hp]
end fills

section sums
open Heat (sum_lines sum_faces Icc_range Ico_range facePts faceW)

/-- averages on a line: moving the average from one factor to the other -/
theorem line_shift [CharZero K] (T g : Int → K) (N : Nat) (hN : 1 ≤ N) :
    ∑ i ∈ Finset.Icc (0 : Int) N, (if i = 0 ∨ i = (N : Int) then 1 / 2 else 1) * (1 / 2 * (T i + T (i - 1)) * g i) =
      ∑ i ∈ Finset.Ico (0 : Int) N, T i * (1 / 2 * (g i + g (i + 1))) + (1 / 4 * (T (-1) - T 0) * g 0 + 1 / 4 * (T N - T (N - 1)) * g N) := by
  have hs : ∀ i ∈ Finset.Icc (0 : Int) N, (if i = 0 ∨ i = (N : Int) then (1 : K) / 2 else 1) * (1 / 2 * (T i + T (i - 1)) * g i) =
      1 / 2 * (T i + T (i - 1)) * g i - (if i = 0 then 1 / 2 * (1 / 2 * (T i + T (i - 1)) * g i) else 0) - (if i = (N : Int) then 1 / 2 * (1 / 2 * (T i + T (i - 1)) * g i) else 0) := by
    intro i _
    by_cases h0 : i = 0
    · subst h0; rw [if_pos (Or.inl rfl), if_pos rfl, if_neg (by omega)]; ring
    · by_cases h1 : i = N
      · rw [if_pos (Or.inr h1), if_neg h0, if_pos h1]; ring
      · rw [if_neg (by tauto), if_neg h0, if_neg h1]; ring
  have ha : ∀ N : Nat, ∑ i ∈ Finset.range (N + 1), 1 / 2 * (T i + T ((i : Int) - 1)) * g i =
      ∑ i ∈ Finset.range N, T i * (1 / 2 * (g i + g ((i : Int) + 1))) + 1 / 2 * T (-1) * g 0 + 1 / 2 * T N * g N := by
    intro N
    induction N with
    | zero => simp; ring
    | succ N ih =>
      rw [Finset.sum_range_succ, ih, Finset.sum_range_succ]
      push_cast
      rw [show (N : Int) + 1 - 1 = N by omega]
      ring
  rw [Finset.sum_congr rfl hs, Finset.sum_sub_distrib, Finset.sum_sub_distrib, Finset.sum_ite_eq', Finset.sum_ite_eq', if_pos (Finset.mem_Icc.2 (by omega)),
    if_pos (Finset.mem_Icc.2 (by omega)), Icc_range N (fun i => 1 / 2 * (T i + T (i - 1)) * g i), ha N, Ico_range N (fun i => T i * (1 / 2 * (g i + g (i + 1))))]
  rw [show (0 : Int) - 1 = -1 by omega]
  ring

variable {P : Fin n → Nat}

theorem faceW_edgeW {d e : Fin n} (hde : d ≠ e) (x : Idx n) : (faceW P e x : K) = (if x d = 0 ∨ x d = P d then 1 / 2 else 1) * edgeW P d e x := by
  unfold faceW edgeW
  rw [Finset.erase_right_comm, ← Finset.mul_prod_erase (Finset.univ.erase e) _ (Finset.mem_erase.2 ⟨hde, Finset.mem_univ d⟩)]

theorem edgeW_step (d e : Fin n) (x : Idx n) (k : Int) : (edgeW P d e (stepIdx x d k) : K) = edgeW P d e x := by
  unfold edgeW
  refine Finset.prod_congr rfl fun j hj => ?_
  rw [stepIdx_other x (Finset.ne_of_mem_erase (Finset.mem_of_mem_erase hj))]

theorem edgeW_comm (d e : Fin n) (x : Idx n) : (edgeW P d e x : K) = edgeW P e d x := by
  unfold edgeW
  rw [Finset.erase_right_comm]

/-- moving an average in dimension `d` over a set of lines -/
theorem grid_shift [CharZero K] {d e : Fin n} (hde : d ≠ e) (hP : 1 ≤ P d) (Q : Idx n → Prop) [DecidablePred Q] (hQ : ∀ x k, Q (stepIdx x d k) ↔ Q x) (T g : Sca n K)
    (hb : ∀ y ∈ gridPts P, Q y → y d = 0 → (T (stepIdx y d (-1)) - T y) * g y + (T (stepIdx y d (P d)) - T (stepIdx y d (P d - 1))) * g (stepIdx y d (P d)) = 0) :
    ∑ x ∈ (gridPts P).filter Q, faceW P e x * (1 / 2 * (T x + T (stepIdx x d (-1))) * g x) =
      ∑ x ∈ (gridPts P).filter (fun x => Q x ∧ x d < P d), edgeW P d e x * (T x * (1 / 2 * (g x + g (stepIdx x d 1)))) := by
  have hr : (gridPts P).filter (fun x => Q x ∧ x d < P d) = (facePts P d).filter Q := by
    unfold facePts
    rw [Finset.filter_filter]
    refine Finset.filter_congr fun x _ => ?_
    tauto
  rw [hr, Finset.sum_filter, Finset.sum_filter, sum_lines P d, sum_faces P d]
  refine Finset.sum_congr rfl fun y hy => ?_
  obtain ⟨hyg, hy0⟩ := Finset.mem_filter.1 hy
  by_cases hq : Q y
  · have h := line_shift (fun i => T (stepIdx y d i)) (fun i => g (stepIdx y d i)) (P d) hP
    have hb' := hb y hyg hq hy0
    simp only [step_zero] at h
    have e1 : ∀ i ∈ Finset.Icc (0 : Int) (P d), (if Q (stepIdx y d i) then (faceW P e (stepIdx y d i) : K) * (1 / 2 * (T (stepIdx y d i) + T (stepIdx (stepIdx y d i) d (-1))) * g (stepIdx y d i)) else 0) =
        edgeW P d e y * ((if i = 0 ∨ i = (P d : Int) then 1 / 2 else 1) * (1 / 2 * (T (stepIdx y d i) + T (stepIdx y d (i - 1))) * g (stepIdx y d i))) := by
      intro i _
      rw [if_pos ((hQ y i).2 hq), faceW_edgeW hde, edgeW_step, stepIdx_self, hy0, zero_add, step_add, ← Int.sub_eq_add_neg]
      ring
    have e2 : ∀ i ∈ Finset.Ico (0 : Int) (P d), (if Q (stepIdx y d i) then (edgeW P d e (stepIdx y d i) : K) * (T (stepIdx y d i) * (1 / 2 * (g (stepIdx y d i) + g (stepIdx (stepIdx y d i) d 1)))) else 0) =
        edgeW P d e y * (T (stepIdx y d i) * (1 / 2 * (g (stepIdx y d i) + g (stepIdx y d (i + 1))))) := by
      intro i _
      rw [if_pos ((hQ y i).2 hq), edgeW_step, step_add]
    rw [Finset.sum_congr rfl e1, Finset.sum_congr rfl e2, ← Finset.mul_sum, ← Finset.mul_sum, h]
    linear_combination (edgeW P d e y : K) * (1 / 4) * hb'
  · rw [Finset.sum_eq_zero fun i _ => if_neg (fun hq' => hq ((hQ y i).1 hq')), Finset.sum_eq_zero fun i _ => if_neg (fun hq' => hq ((hQ y i).1 hq'))]
end sums

section domain
open Heat (facePts faceW grid_parts)
variable {c : Cfg n K} {P : Fin n → Nat}

theorem Domain.toBox (h : Domain c P) : Box c.B P where
  f d := by unfold Bnd.f; rw [h.box d]
  l d := by unfold Bnd.l; rw [h.box d]
  two := h.two
  halo := h.halo

theorem Domain.zwall (h : Domain c P) : c.B.kl c.z ≠ .cyclic := by rcases h.bottom with hb | hb <;> rw [hb] <;> decide

theorem Domain.cyc (h : Domain c P) {d : Fin n} (hk : c.B.kl d = .cyclic) : (c.B.kl d = .cyclic ∧ c.B.kr d = .cyclic) ∧ d ≠ c.z := by
  have hz : d ≠ c.z := by rintro rfl; exact h.zwall hk
  rcases h.sides d hz with h' | h'
  · exact ⟨h', hz⟩
  · rw [h'.1] at hk; cases hk

theorem Domain.wallL (h : Domain c P) {d : Fin n} (hk : c.B.kl d ≠ .cyclic) (hz : d ≠ c.z) : c.B.kl d = .rigid := by
  rcases h.sides d hz with h' | h'
  · exact absurd h'.1 hk
  · exact h'.1

theorem Domain.wallR (h : Domain c P) {d : Fin n} (hk : c.B.kl d ≠ .cyclic) : c.B.kr d = .rigid ∨ c.B.kr d = .gndsky := by
  by_cases hz : d = c.z
  · subst hz; exact h.top.symm
  · rcases h.sides d hz with h' | h'
    · exact absurd h'.1 hk
    · exact Or.inl h'.2

theorem Domain.inBox (h : Domain c P) {x : Idx n} : cellBox c.B.b x ↔ x ∈ gridPts P := by
  rw [mem_grid]
  unfold cellBox Bx
  refine forall_congr' fun d => ?_
  rw [h.box d]
  simp

theorem Domain.inDom (h : Domain c P) {x : Idx n} (hx : x ∈ gridPts P) : InDomain c.B.b x := by
  intro d
  rw [h.box d]
  exact mem_grid.1 hx d

/-! ### the arrays after the calculation -/

theorem xchngLast_v (c : Cfg n K) (m : Mem n K) : (xchngLast c m).v = m.v := by unfold xchngLast; split <;> rfl
theorem xchngLast_km (c : Cfg n K) (m : Mem n K) : (xchngLast c m).km = m.km := by unfold xchngLast; split <;> rfl
theorem xchngLast_srfc (c : Cfg n K) (m : Mem n K) : (xchngLast c m).srfc = m.srfc := by unfold xchngLast; split <;> rfl
theorem xchngLast_div (c : Cfg n K) (m : Mem n K) : (xchngLast c m).div = m.div := by unfold xchngLast; split <;> rfl
theorem xchngLast_rhs (c : Cfg n K) (m : Mem n K) : (xchngLast c m).rhs = m.rhs := by unfold xchngLast; split <;> rfl
theorem xchngLast_off (c : Cfg n K) (m : Mem n K) {d e : Fin n} (h : d ≠ e) : (xchngLast c m).tau d e = (xchngTau c m).tau d e := by
  unfold xchngLast
  split
  · exact if_neg h
  · rfl

theorem setKm_v (c : Cfg n K) (m : Mem n K) : (setKm c m).v = m.v := by unfold setKm; split <;> rfl
theorem setKm_tau (c : Cfg n K) (m : Mem n K) : (setKm c m).tau = m.tau := by unfold setKm; split <;> rfl
theorem setKm_srfc (c : Cfg n K) (m : Mem n K) : (setKm c m).srfc = m.srfc := by unfold setKm; split <;> rfl
theorem setKm_div (c : Cfg n K) (m : Mem n K) : (setKm c m).div = m.div := by unfold setKm; split <;> rfl
theorem setKm_rhs (c : Cfg n K) (m : Mem n K) : (setKm c m).rhs = m.rhs := by unfold setKm; split <;> rfl

/-- the memory before the stress is multiplied -/
def half (c : Cfg n K) (m : Mem n K) : Mem n K := xchngTau c (setDeform c (setDiv c (setDrag c (xchngVip c m))))

theorem forces_v (m : Mem n K) (d : Fin n) : (forces c m).v d = xchngSclr c.B c.ds 1 false (m.v d) := by
  show (xchngLast c (multTau c (setKm c (half c m)))).v d = _
  rw [xchngLast_v]
  show (setKm c (half c m)).v d = _
  rw [setKm_v]; rfl
theorem forces_srfc (m : Mem n K) : (forces c m).srfc = dragFaces c (xchngVip c m) := by
  show (xchngLast c (multTau c (setKm c (half c m)))).srfc = _
  rw [xchngLast_srfc]
  show (setKm c (half c m)).srfc = _
  rw [setKm_srfc]; rfl
theorem forces_div (m : Mem n K) : (forces c m).div = (setDiv c (xchngVip c m)).div := by
  show (xchngLast c (multTau c (setKm c (half c m)))).div = _
  rw [xchngLast_div]
  show (setKm c (half c m)).div = _
  rw [setKm_div]; rfl
theorem forces_km (m : Mem n K) : (forces c m).km = (setKm c (half c m)).km := xchngLast_km _ _

/-- the stress before its last exchange -/
def pre (c : Cfg n K) (m : Mem n K) : Fin n → Fin n → Sca n K := (multTau c (setKm c (half c m))).tau

theorem forces_off (m : Mem n K) {d e : Fin n} (hde : d ≠ e) : (forces c m).tau d e = xchngSgsTnsrOffdiag c.B d e ((forces c m).srfc d) (pre c m d e) := by
  show (xchngLast c (multTau c (setKm c (half c m)))).tau d e = _
  rw [xchngLast_off _ _ hde]
  show (if d = e then _ else _) = _
  rw [if_neg hde, forces_srfc, ← forces_srfc]
  show xchngSgsTnsrOffdiag c.B d e ((multTau c (setKm c (half c m))).srfc d) _ = _
  have : (forces c m).srfc = (multTau c (setKm c (half c m))).srfc := xchngLast_srfc _ _
  rw [this]; rfl
theorem forces_diag (m : Mem n K) (d : Fin n) (hb : ¬ IsBsq c) :
    (forces c m).tau d d = fillSgsTnsr c.B d ((forces c m).v c.z) (forces c m).div (c.dx d) (pre c m d d) := by
  have h1 : (forces c m).v = (multTau c (setKm c (half c m))).v := xchngLast_v _ _
  have h2 : (forces c m).div = (multTau c (setKm c (half c m))).div := xchngLast_div _ _
  rw [h1, h2]
  show (xchngLast c (multTau c (setKm c (half c m)))).tau d d = _
  have : xchngLast c (multTau c (setKm c (half c m))) = xchngTau c (multTau c (setKm c (half c m))) := by
    unfold xchngLast
    split
    · rename_i two k hv; exact absurd ⟨two, k, hv⟩ hb
    · rfl
  rw [this]
  show (if d = d then _ else _) = _
  rw [if_pos rfl]; rfl
theorem forces_diag_bsq (m : Mem n K) (d : Fin n) (hb : IsBsq c) : (forces c m).tau d d = pre c m d d := by
  obtain ⟨two, k, hv⟩ := hb
  show (xchngLast c (multTau c (setKm c (half c m)))).tau d d = _
  unfold xchngLast
  rw [hv]
  exact if_pos rfl

/-- the velocities inside the domain -/
theorem v_in (h : Domain c P) (m : Mem n K) (e : Fin n) {x : Idx n} (hx : x ∈ gridPts P) : (forces c m).v e x = m.v e x := by
  rw [forces_v]; exact C60_sclr_keeps_domain c.B c.ds 1 false _ (h.inDom hx)

/-- the velocities just beyond cyclic ends -/
theorem v_cyc (h : Domain c P) (m : Mem n K) (e : Fin n) {d : Fin n} (hk : c.B.kl d = .cyclic) {x : Idx n} (hx : x ∈ gridPts P) (hd : x d = 0) :
    (forces c m).v e (stepIdx x d (-1)) = m.v e (stepIdx x d (P d - 1)) ∧ (forces c m).v e (stepIdx x d (P d + 1)) = m.v e (stepIdx x d 1) := by
  rw [forces_v]
  have hkk := (h.cyc hk).1
  have h2 := h.two d
  have hb := h.toBox
  have hf := hb.f d
  have hl := hb.l d
  have hh := h.halo
  have hO : ∀ lo hi : Fin n → Int, (∀ k, 0 ≤ lo k) → (∀ k, 0 ≤ hi k) → ∀ j, Ot c.B.b d lo hi (stepIdx x d j) := by
    intro lo hi hlo hhi j
    refine hb.ot d lo hi fun k hk' => ?_
    rw [stepIdx_other x hk']
    have := mem_grid.1 hx k
    have := hlo k
    have := hhi k
    omega
  -- after any filling in another dimension the values on the line are the same
  have hother : ∀ (ds : List (Fin n)) (a : Sca n K), d ∉ ds → ∀ j, xchngSclr c.B ds 1 false a (stepIdx x d j) = a (stepIdx x d j) := by
    intro ds
    induction ds with
    | nil => intro a _ j; rfl
    | cons k ds ih =>
      intro a hd' j
      rw [List.mem_cons, not_or] at hd'
      show xchngSclr c.B ds 1 false (fillS c.B k _ _ false a) (stepIdx x d j) = _
      rw [ih _ hd'.2 j, fillS_keeps]
      rw [stepIdx_other x (Ne.symm hd'.1), hb.f k, hb.l k]
      exact mem_grid.1 hx k
  have hself : ∀ a : Sca n K, fillS c.B d (fun _ => 1) (fun _ => 1) false a (stepIdx x d (-1)) = a (stepIdx x d (P d - 1)) ∧
      fillS c.B d (fun _ => 1) (fun _ => 1) false a (stepIdx x d (P d + 1)) = a (stepIdx x d 1) ∧ ∀ j : Int, 0 ≤ j → j ≤ P d → fillS c.B d (fun _ => 1) (fun _ => 1) false a (stepIdx x d j) = a (stepIdx x d j) := by
    intro a
    have hin : ∀ j : Int, 0 ≤ j → j ≤ P d → fillS c.B d (fun _ => 1) (fun _ => 1) false a (stepIdx x d j) = a (stepIdx x d j) := fun j h1 h2 =>
      fillS_keeps c.B d _ _ false a _ (by rw [stepIdx_self]; omega)
    refine ⟨?_, ?_, hin⟩
    · unfold fillS
      rw [asgN_of_not (by rintro ⟨h', -⟩; rw [stepIdx_self] at h'; omega), asgN_of ⟨by rw [stepIdx_self]; omega, hO _ _ (by simp) (by simp) _⟩]
      unfold valSL
      rw [hkk.1]
      simp only
      rw [step_add, hf, hl, show (-1 : Int) + ((P d : Int) - 0) = P d - 1 by omega]
    · unfold fillS
      rw [asgN_of ⟨by rw [stepIdx_self]; omega, hO _ _ (by simp) (by simp) _⟩]
      unfold valSR
      rw [hkk.2]
      simp only
      rw [step_add, asgN_of_not (by rintro ⟨h', -⟩; rw [stepIdx_self] at h'; omega), hf, hl, show (P d : Int) + 1 + -((P d : Int) - 0) = 1 by omega]
  have key : ∀ (ds : List (Fin n)) (a : Sca n K), d ∈ ds → xchngSclr c.B ds 1 false a (stepIdx x d (-1)) = a (stepIdx x d (P d - 1)) ∧
      xchngSclr c.B ds 1 false a (stepIdx x d (P d + 1)) = a (stepIdx x d 1) := by
    intro ds
    induction ds with
    | nil => intro a hd'; cases hd'
    | cons k ds ih =>
      intro a hd'
      show xchngSclr c.B ds 1 false (fillS c.B k _ _ false a) _ = _ ∧ xchngSclr c.B ds 1 false (fillS c.B k _ _ false a) _ = _
      by_cases hds : d ∈ ds
      · obtain ⟨e1, e2⟩ := ih (fillS c.B k (fun _ => 1) (fun _ => 1) false a) hds
        have hkeep : ∀ j : Int, 0 ≤ j → j ≤ P d → fillS c.B k (fun _ => 1) (fun _ => 1) false a (stepIdx x d j) = a (stepIdx x d j) := by
          intro j h1 h2
          by_cases hkd : k = d
          · subst hkd; exact (hself a).2.2 j h1 h2
          · refine fillS_keeps c.B k _ _ false a _ ?_
            rw [stepIdx_other x hkd, hb.f k, hb.l k]
            exact mem_grid.1 hx k
        rw [e1, e2]
        exact ⟨hkeep _ (by omega) (by omega), hkeep _ (by omega) (by omega)⟩
      · have hkd : d = k := (List.mem_cons.1 hd').resolve_right hds
        subst hkd
        rw [hother ds _ hds, hother ds _ hds]
        exact ⟨(hself a).1, (hself a).2.1⟩
  exact key c.ds (m.v e) (h.order d)

/-! ### surface stress -/

theorem srfc_eq (h : Domain c P) (m : Mem n K) {d : Fin n} (hdz : d ≠ c.z) {x : Idx n} (hz : x c.z = 0) (hx : Near P d c.z x) :
    (forces c m).srfc d x = dragAt c (forces c m).v d x := by
  have hv : (forces c m).v = (xchngVip c m).v := by funext e; rw [forces_v]; rfl
  rw [forces_srfc, hv]
  unfold dragFaces
  rw [if_neg hdz, asgN_of]
  refine ⟨hz, h.toBox.ot _ _ _ fun e he => ?_⟩
  have := hx e he
  split_ifs at this ⊢ <;> omega

theorem near_of_grid {d e : Fin n} {x : Idx n} (hx : x ∈ gridPts P) : Near P d e x := fun k _ => by have := mem_grid.1 hx k; split_ifs <;> omega

theorem near_step {d e : Fin n} {x : Idx n} (hx : x ∈ gridPts P) {j : Int} (hj : -1 ≤ x d + j ∧ x d + j ≤ P d) : Near P d e (stepIdx x d j) := fun k _ => by
  have := mem_grid.1 hx k
  by_cases hk : k = d
  · subst hk; rw [if_pos rfl, stepIdx_self]; exact hj
  · rw [if_neg hk, stepIdx_other x hk]; exact this

theorem srfc_cyc (h : Domain c P) (m : Mem n K) (hv : ∀ e, Closes c P (m.v e)) {d : Fin n} (hk : c.B.kl d = .cyclic) {x : Idx n} (hx : x ∈ gridPts P) (hz : x c.z = 0) (hd : x d = 0) :
    (forces c m).srfc d (stepIdx x d (-1)) = (forces c m).srfc d (stepIdx x d (P d - 1)) ∧ (forces c m).srfc d (stepIdx x d (P d)) = (forces c m).srfc d x := by
  have hdz := (h.cyc hk).2
  have h2 := h.two d
  have hzs : ∀ j, stepIdx x d j c.z = 0 := fun j => by rw [stepIdx_other x hdz.symm]; exact hz
  rw [srfc_eq h m hdz (hzs _) (near_step hx (by omega)), srfc_eq h m hdz (hzs _) (near_step hx (by omega)), srfc_eq h m hdz (hzs _) (near_step hx (by omega)),
    srfc_eq h m hdz hz (near_of_grid hx)]
  have g0 := h.Gper d x hk hx hd
  have hv0 : ∀ e, (forces c m).v e (stepIdx x d (P d)) = (forces c m).v e x := fun e => by
    rw [v_in h m e hx, v_in h m e (step_mem hx (by omega))]; exact hv e d x hk hx hd
  have hv1 : ∀ e, (forces c m).v e (stepIdx x d (-1)) = (forces c m).v e (stepIdx x d (P d - 1)) := fun e => by
    rw [(v_cyc h m e hk hx hd).1, v_in h m e (step_mem hx (by omega))]
  have hv2 : ∀ e, (forces c m).v e (stepIdx x d (P d + 1)) = (forces c m).v e (stepIdx x d 1) := fun e => by
    rw [(v_cyc h m e hk hx hd).2, v_in h m e (step_mem hx (by omega))]
  unfold dragAt speed2
  simp only [step_add, show (-1 : Int) + 1 = 0 by omega, show (P d : Int) - 1 + 1 = P d by omega, step_zero, g0.1, g0.2.1, g0.2.2, hv0, hv1, hv2, and_self]

theorem root_unique [IsStrictOrderedRing K] {a b : K} (ha : 0 ≤ a) (hb : 0 ≤ b) (h : a ^ 2 = b ^ 2) : a = b := by
  rcases sq_eq_sq_iff_eq_or_eq_neg.1 h with h' | h'
  · exact h'
  · linarith

/-- the stress computed on the ground is the one of the drag law -/
theorem srfc_law [IsStrictOrderedRing K] (h : Domain c P) (hs : IsRoot c) (m : Mem n K) {d : Fin n} (hdz : d ≠ c.z) {x : Idx n} (hx : x ∈ gridPts P) (hz : x c.z = 0) (hd : x d < P d) :
    (forces c m).srfc d x = dragLaw c m.v d x := by
  have hx1 : stepIdx x d 1 ∈ gridPts P := step_mem hx (by have := mem_grid.1 hx d; omega)
  rw [srfc_eq h m hdz hz (near_of_grid hx)]
  have hsum : (0 : K) ≤ ∑ e, if e = c.z then 0 else mean d (m.v e) x ^ 2 := Finset.sum_nonneg fun e _ => by split <;> positivity
  obtain ⟨r0, r1⟩ := hs _ hsum
  have hsp : speed2 c (forces c m).v d x = 2 * c.sqrt (∑ e, if e = c.z then 0 else mean d (m.v e) x ^ 2) := by
    unfold speed2
    by_cases hn : n = 2
    · rw [if_pos hn]
      refine root_unique (abs_nonneg _) (by positivity) ?_
      rw [sq_abs, mul_pow, r1, v_in h m d hx, v_in h m d hx1, Finset.sum_eq_single d]
      · rw [if_neg hdz]; unfold mean; ring
      · intro e _ he
        rw [if_pos]
        subst hn
        have h1 := e.2; have h2 := d.2; have h3 := c.z.2
        have h4 : e.1 ≠ d.1 := fun h' => he (Fin.ext h')
        have h5 : d.1 ≠ c.z.1 := fun h' => hdz (Fin.ext h')
        exact Fin.ext (by omega)
      · intro h'; exact absurd (Finset.mem_univ d) h'
    · rw [if_neg hn]
      have hs4 : (∑ e, if e = c.z then 0 else ((forces c m).v e (stepIdx x d 1) + (forces c m).v e x) ^ 2) = 4 * ∑ e, if e = c.z then 0 else mean d (m.v e) x ^ 2 := by
        rw [Finset.mul_sum]
        refine Finset.sum_congr rfl fun e _ => ?_
        rw [v_in h m e hx, v_in h m e hx1]
        split
        · ring
        · unfold mean; ring
      rw [hs4]
      obtain ⟨q0, q1⟩ := hs (4 * ∑ e, if e = c.z then 0 else mean d (m.v e) x ^ 2) (by positivity)
      refine root_unique q0 (by positivity) ?_
      rw [q1, mul_pow, r1]; ring
  unfold dragAt dragLaw
  rw [hsp, v_in h m d hx, v_in h m d hx1]
  unfold mean
  ring

/-! ### stresses -/

theorem stgrAvg_comm (f : Sca n K) {d e : Fin n} (hde : d ≠ e) (x : Idx n) : stgrAvg f d e x = stgrAvg f e d x := by
  unfold stgrAvg
  rw [if_neg hde, if_neg hde.symm, step_comm x hde]
  ring

theorem deform_comm (v : Vec n K) (div : Sca n K) (d e : Fin n) (x : Idx n) : deformCmpct c.z c.dx v div d e x = deformCmpct c.z c.dx v div e d x := by
  by_cases hde : d = e
  · subst hde; rfl
  · unfold deformCmpct deformOff
    rw [if_neg hde, if_neg (Ne.symm hde), step_comm x hde]
    ring

theorem viscAt_comm (k : Bool → Sca n K) {d e : Fin n} (hde : d ≠ e) (x : Idx n) : viscAt c k d e x = viscAt c k e d x := by
  unfold viscAt
  split
  · rfl
  · rw [stgrAvg_comm _ hde, stgrAvg_comm _ hde]
  · have h1 : ∀ two : Bool, (two = true ∧ d ≠ e ∧ (d = c.z ∨ e = c.z)) ↔ (two = true ∧ e ≠ d ∧ (e = c.z ∨ d = c.z)) :=
      fun _ => and_congr_right fun _ => ⟨fun h => ⟨h.1.symm, h.2.symm⟩, fun h => ⟨h.1.symm, h.2.symm⟩⟩
    rw [stgrAvg_comm _ hde, stgrAvg_comm _ hde]
    simp only [h1]
  · rw [stgrAvg_comm _ hde, stgrAvg_comm _ hde]
    have : (d ≠ e ∧ (d = c.z ∨ e = c.z)) ↔ (e ≠ d ∧ (e = c.z ∨ d = c.z)) := ⟨fun h => ⟨h.1.symm, h.2.symm⟩, fun h => ⟨h.1.symm, h.2.symm⟩⟩
    simp only [this]

theorem half_v (m : Mem n K) : (half c m).v = (forces c m).v := by funext e; rw [forces_v]; rfl
theorem half_div (m : Mem n K) : (half c m).div = (forces c m).div := by rw [forces_div]; rfl

theorem half_in (h : Domain c P) (m : Mem n K) {d e : Fin n} {x : Idx n} (hx : x ∈ gridPts P) (hd : x d < P d) (he : x e < P e) :
    (half c m).tau d e x = deformCmpct c.z c.dx (forces c m).v (forces c m).div d e x := by
  have hg := mem_grid.1 hx
  have hb := h.toBox
  have h0 : (setDeform c (setDiv c (setDrag c (xchngVip c m)))).tau d e x = deformCmpct c.z c.dx (forces c m).v (forces c m).div d e x := by
    rw [← half_v, ← half_div]
    show asgN _ _ _ x = _
    rw [asgN_of]
    · rfl
    · intro k
      have h1 := hb.f k
      have h2 := hb.l k
      unfold Bnd.f at h1
      unfold Bnd.l at h2
      have := hg k
      show (c.B.b k).first - (if k = d ∨ k = e then 1 else 0) ≤ x k ∧ x k ≤ (c.B.b k).last + 0
      split_ifs <;> omega
  rw [← h0]
  show (if d = e then xchngSgsTnsrDiag _ _ _ _ _ _ else xchngSgsTnsrOffdiag _ _ _ _ _ : Sca n K) x = _
  by_cases hde : d = e
  · subst hde
    rw [if_pos rfl]
    unfold xchngSgsTnsrDiag fillSgsTnsr
    rw [fillFace_keeps _ _ _ _ _ _ _ _ (by have := hb.f d; have := hb.l d; have := hg d; omega)]
  · rw [if_neg hde, off_in hb ⟨(hg d).1, hd⟩ ⟨(hg e).1, he⟩]

theorem pre_in (h : Domain c P) (m : Mem n K) {d e : Fin n} {x : Idx n} (hx : x ∈ gridPts P) (hd : x d < P d) (he : x e < P e) :
    pre c m d e x = viscAt c (forces c m).km d e x * deformCmpct c.z c.dx (forces c m).v (forces c m).div d e x := by
  have hg := mem_grid.1 hx
  have hb := h.toBox
  show asgN _ (product c (setKm c (half c m)) d e) _ x = _
  rw [asgN_of]
  · unfold product viscAt
    rw [forces_km]
    cases hv : c.visc with
    | dns eta => simp only; unfold multEta; rw [setKm_tau, half_in h m hx hd he]; ring
    | smg s => simp only; unfold multKm; rw [setKm_tau, half_in h m hx hd he]; ring
    | ani s =>
      simp only; unfold multKm; rw [setKm_tau, half_in h m hx hd he]
      have : (setKm c (half c m)).km (pick c d e) = if d ≠ e ∧ (d = c.z ∨ e = c.z) then (setKm c (half c m)).km true else (setKm c (half c m)).km false := by
        unfold pick; split_ifs with h1 <;> simp [h1]
      rw [this]; ring
    | bsq two k =>
      simp only; unfold multKm; rw [setKm_tau, half_in h m hx hd he]
      have : (setKm c (half c m)).km (two && pick c d e) = if two = true ∧ d ≠ e ∧ (d = c.z ∨ e = c.z) then (setKm c (half c m)).km true else (setKm c (half c m)).km false := by
        cases two
        · rw [if_neg fun h' => Bool.noConfusion h'.1]; rfl
        · unfold pick
          by_cases h1 : d ≠ e ∧ (d = c.z ∨ e = c.z)
          · rw [if_pos ⟨rfl, h1⟩, decide_eq_true h1]; rfl
          · rw [if_neg fun h' => h1 h'.2, decide_eq_false h1]; rfl
      rw [this]; ring
  · intro k
    have h1 := hb.f k
    have h2 := hb.l k
    unfold Bnd.f at h1
    unfold Bnd.l at h2
    have := hg k
    show (c.B.b k).first - 1 ≤ x k ∧ x k ≤ (c.B.b k).last + 0
    omega

/-- the stress the forces are computed from -/
def T (c : Cfg n K) (m : Mem n K) (d e : Fin n) : Sca n K := sym (forces c m).tau d e

theorem T_comm (m : Mem n K) (d e : Fin n) : T c m d e = T c m e d := by
  unfold T sym
  rcases lt_trichotomy d e with h | h | h
  · rw [if_pos h.le, if_neg (not_le.2 h)]
  · subst h; rfl
  · rw [if_neg (not_le.2 h), if_pos h.le]

theorem T_in (h : Domain c P) (m : Mem n K) {d e : Fin n} {x : Idx n} (hx : x ∈ gridPts P) (hd : x d < P d) (he : x e < P e) :
    T c m d e x = viscAt c (forces c m).km d e x * deformCmpct c.z c.dx (forces c m).v (forces c m).div d e x := by
  have hg := mem_grid.1 hx
  have key : ∀ d e, x d < P d → x e < P e → (forces c m).tau d e x = viscAt c (forces c m).km d e x * deformCmpct c.z c.dx (forces c m).v (forces c m).div d e x := by
    intro d e hd he
    rw [← pre_in h m hx hd he]
    by_cases hde : d = e
    · subst hde
      by_cases hB : IsBsq c
      · rw [forces_diag_bsq m d hB]
      rw [forces_diag m d hB]
      exact fillFace_keeps _ _ _ _ _ _ _ _ (by have := h.toBox.f d; have := h.toBox.l d; have := hg d; omega)
    · rw [forces_off m hde, off_in h.toBox ⟨(hg d).1, hd⟩ ⟨(hg e).1, he⟩]
  unfold T sym
  split
  · exact key d e hd he
  · rename_i hle
    have hde : d ≠ e := fun h' => hle h'.le
    rw [key e d he hd, viscAt_comm _ hde, deform_comm _ _ d e]

theorem T_low (h : Domain c P) (m : Mem n K) {d e : Fin n} (hde : d ≠ e) (hk : c.B.kl e ≠ .cyclic) {x : Idx n} (hx : Near P d e x) (hg : Good c.B P d x) (h0 : x e = 0) :
    T c m d e (stepIdx x e (-1)) + T c m d e x = if e = c.z ∧ c.B.kl c.z = .gndsky then 2 * (forces c m).srfc d x else 0 := by
  unfold T sym
  by_cases hle : d ≤ e
  · rw [if_pos hle, forces_off m hde]
    obtain ⟨e1, e2, -, -⟩ := off_last (s := (forces c m).srfc d) (a := pre c m d e) h.toBox hx
    by_cases hez : e = c.z
    · by_cases hgs : c.B.kl c.z = .gndsky
      · rw [if_pos ⟨hez, hgs⟩]; exact e2 h0 (hez ▸ hgs)
      · rw [if_neg (fun h' => hgs h'.2)]; exact e1 h0 (hez ▸ h.bottom.resolve_left hgs)
    · rw [if_neg (fun h' => hez h'.1)]; exact e1 h0 (h.wallL hk hez)
  · have hez : e ≠ c.z := by rintro rfl; exact hle (h.last d)
    rw [if_neg hle, forces_off m hde.symm, if_neg (fun h' => hez h'.1)]
    exact (off_first (s := (forces c m).srfc e) (a := pre c m e d) h.toBox hde.symm hx hg).1 h0 (h.wallL hk hez)

theorem T_high (h : Domain c P) (m : Mem n K) {d e : Fin n} (hde : d ≠ e) (hk : c.B.kl e ≠ .cyclic) {x : Idx n} (hx : Near P d e x) (hg : Good c.B P d x) (h0 : x e = P e) :
    T c m d e (stepIdx x e (-1)) + T c m d e x = 0 := by
  unfold T sym
  by_cases hle : d ≤ e
  · rw [if_pos hle, forces_off m hde]
    exact (off_last (s := (forces c m).srfc d) (a := pre c m d e) h.toBox hx).2.2.1 h0 (h.wallR hk)
  · rw [if_neg hle, forces_off m hde.symm]
    exact (off_first (s := (forces c m).srfc e) (a := pre c m e d) h.toBox hde.symm hx hg).2.1 h0 (h.wallR hk)

theorem T_cyc (h : Domain c P) (m : Mem n K) {d e : Fin n} (hde : d ≠ e) (hk : c.B.kl e = .cyclic) {x : Idx n} (hx : Near P d e x) (hg : Good c.B P d x) (h0 : x e = 0) :
    T c m d e (stepIdx x e (-1)) = T c m d e (stepIdx x e (P e - 1)) ∧ T c m d e (stepIdx x e (P e)) = T c m d e x := by
  unfold T sym
  by_cases hle : d ≤ e
  · rw [if_pos hle, forces_off m hde]
    exact (off_last (s := (forces c m).srfc d) (a := pre c m d e) h.toBox hx).2.2.2 h0 (h.cyc hk).1
  · rw [if_neg hle, forces_off m hde.symm]
    exact (off_first (s := (forces c m).srfc e) (a := pre c m e d) h.toBox hde.symm hx hg).2.2 h0 (h.cyc hk).1

theorem fill_diag_cyc (h : Domain c P) (w dv a : Sca n K) {d : Fin n} (hk : c.B.kl d = .cyclic) {x : Idx n} (hx : x ∈ gridPts P) (h0 : x d = 0) :
    fillSgsTnsr c.B d w dv (c.dx d) a (stepIdx x d (-1)) = fillSgsTnsr c.B d w dv (c.dx d) a (stepIdx x d (P d - 1)) ∧
    fillSgsTnsr c.B d w dv (c.dx d) a (stepIdx x d (P d)) = fillSgsTnsr c.B d w dv (c.dx d) a x := by
  have hkk := (h.cyc hk).1
  have hb := h.toBox
  have h1 := hb.f d
  have h2 := hb.l d
  have h3 := hb.halo
  have h4 := hb.two d
  have hO : ∀ j, Ot c.B.b d (fun _ => 0) (fun _ => 0) (stepIdx x d j) := fun j => hb.ot d _ _ fun k hk' => by
    rw [stepIdx_other x hk']; have := mem_grid.1 hx k; omega
  unfold fillSgsTnsr
  have k1 : ∀ j, 0 ≤ j → j < (P d : Int) → fillFace c.B d (fun _ => 0) (fun _ => 0) (fun a x => if c.B.kl d = .gndsky then
        2 * ((3 * w (stepIdx x d 2) - 2 * w (stepIdx x d 1) - w (stepIdx x d 3)) / c.dx d - dv x)
      else 2 * a (stepIdx x d 1) - a (stepIdx x d 2)) (fun a x => 2 * a (stepIdx x d (-1)) - a (stepIdx x d (-2))) a (stepIdx x d j) = a (stepIdx x d j) := fun j j1 j2 =>
    fillFace_keeps _ _ _ _ _ _ _ _ (by rw [stepIdx_self]; omega)
  have k0 := k1 0 (by omega) (by omega)
  rw [step_zero] at k0
  rw [k1 (P d - 1) (by omega) (by omega), k0]
  unfold fillFace
  constructor
  · rw [asgN_of_not (by rintro ⟨h', -⟩; rw [if_pos hkk.2, stepIdx_self] at h'; omega), asgN_of ⟨by rw [if_pos hkk.1, stepIdx_self]; omega, hO _⟩, if_pos hkk.1, h1, h2, step_add,
      show (-1 : Int) + ((P d : Int) - 0) = P d - 1 by omega]
  · rw [asgN_of ⟨by rw [if_pos hkk.2, stepIdx_self]; omega, hO _⟩, if_pos hkk.2, step_add, h1, h2, show (P d : Int) + -((P d : Int) - 0) = 0 by omega, step_zero,
      asgN_of_not (by rintro ⟨h', -⟩; rw [if_pos hkk.1] at h'; omega)]

theorem T_diag_cyc (h : Domain c P) (m : Mem n K) (hkm : IsBsq c → ∀ b, Closes c P ((forces c m).km b)) {d : Fin n} (hk : c.B.kl d = .cyclic) {x : Idx n} (hx : x ∈ gridPts P) (h0 : x d = 0) :
    T c m d d (stepIdx x d (-1)) = T c m d d (stepIdx x d (P d - 1)) ∧ T c m d d (stepIdx x d (P d)) = T c m d d x := by
  unfold T sym
  rw [if_pos le_rfl]
  by_cases hB : IsBsq c
  · rw [forces_diag_bsq m d hB]
    have hkm := hkm hB
    have hb := h.toBox
    have h2 := h.two d
    have hP : ∀ j : Int, -1 ≤ j → j ≤ P d → pre c m d d (stepIdx x d j) = (half c m).tau d d (stepIdx x d j) *
        (1 * stgrAvg ((forces c m).km false) d d (stepIdx x d j) * stgrAvg c.rho d d (stepIdx x d j)) := by
      intro j j1 j2
      show asgN _ (product c (setKm c (half c m)) d d) _ _ = _
      rw [asgN_of]
      · obtain ⟨two, k, hv⟩ := hB
        unfold product
        rw [hv, forces_km]
        have hp : (two && pick c d d) = false := by unfold pick; simp
        simp only [hp]
        unfold multKm
        rw [setKm_tau]
      · intro k
        have h1 := hb.f k
        have h2 := hb.l k
        unfold Bnd.f at h1
        unfold Bnd.l at h2
        have := mem_grid.1 hx k
        show (c.B.b k).first - 1 ≤ stepIdx x d j k ∧ stepIdx x d j k ≤ (c.B.b k).last + 0
        by_cases hkd : k = d
        · subst hkd; rw [stepIdx_self]; omega
        · rw [stepIdx_other x hkd]; omega
    have hT := fill_diag_cyc h ((setDeform c (setDiv c (setDrag c (xchngVip c m)))).v c.z) ((setDeform c (setDiv c (setDrag c (xchngVip c m)))).div)
      ((setDeform c (setDiv c (setDrag c (xchngVip c m)))).tau d d) hk hx h0
    have hhalf : (half c m).tau d d = fillSgsTnsr c.B d ((setDeform c (setDiv c (setDrag c (xchngVip c m)))).v c.z) ((setDeform c (setDiv c (setDrag c (xchngVip c m)))).div) (c.dx d)
      ((setDeform c (setDiv c (setDrag c (xchngVip c m)))).tau d d) := by
      show (if d = d then _ else _) = _
      rw [if_pos rfl]; rfl
    rw [← hhalf] at hT
    have hK : ∃ a : Sca n K, (forces c m).km false = xchngSclr c.B c.ds 1 false a := by
      obtain ⟨two, k, hv⟩ := hB
      refine ⟨k (half c m).tau false, ?_⟩
      rw [forces_km]
      unfold setKm
      rw [hv]
    obtain ⟨a, ha⟩ := hK
    have hc := hkm false d x hk hx h0
    have e0 := v_cyc h { m with v := fun _ => a } d hk hx h0
    have e1 := v_in h { m with v := fun _ => a } d (x := stepIdx x d (P d - 1)) (step_mem hx (by omega))
    have e2 := v_in h { m with v := fun _ => a } d (x := stepIdx x d 1) (step_mem hx (by omega))
    rw [forces_v] at e0 e1 e2
    have hcyc : xchngSclr c.B c.ds 1 false a (stepIdx x d (-1)) = xchngSclr c.B c.ds 1 false a (stepIdx x d (P d - 1)) ∧
        xchngSclr c.B c.ds 1 false a (stepIdx x d (P d + 1)) = xchngSclr c.B c.ds 1 false a (stepIdx x d 1) := ⟨e0.1.trans e1.symm, e0.2.trans e2.symm⟩
    rw [← ha] at hcyc
    have g0 := h.Gper d x hk hx h0
    have hP0 := hP 0 (by omega) (by omega)
    rw [step_zero] at hP0
    rw [hP (-1) (by omega) (by omega), hP (P d - 1) (by omega) (by omega), hP (P d) (by omega) (by omega), hP0, hT.1, hT.2]
    unfold stgrAvg
    simp only [if_true, step_add, show (-1 : Int) + 1 = 0 by omega, show (P d : Int) - 1 + 1 = P d by omega, step_zero, g0.1, g0.2.1, g0.2.2, hcyc.1, hcyc.2, hc, and_self]
  · rw [forces_diag m d hB]
    exact fill_diag_cyc h _ _ _ hk hx h0

/-! ### summation by parts -/

/-- flux of momentum component `d` in dimension `e` -/
def Fl (c : Cfg n K) (m : Mem n K) (d e : Fin n) (x : Idx n) : K := if e = d then T c m d d x else 1 / 2 * (T c m d e x + T c m d e (stepIdx x d (-1)))

theorem rhs_eq (h : Domain c P) (m : Mem n K) (d : Fin n) {x : Idx n} (hx : x ∈ gridPts P) :
    c.rho x * ((forces c m).rhs d x - m.rhs d x) = 2 * ∑ e, (Fl c m d e x - Fl c m d e (stepIdx x e (-1))) / c.dx e := by
  have h1 : (forces c m).rhs d x = m.rhs d x + stressRhs c.dx c.rho 2 (T c m) d x := by
    show asgN (cellBox c.B.b) (fun x => (xchngLast c (multTau c (setKm c (half c m)))).rhs d x + stressRhs c.dx c.rho 2 (T c m) d x) _ x = _
    rw [asgN_of (h.inBox.2 hx), xchngLast_rhs]
    show (setKm c (half c m)).rhs d x + _ = _
    rw [setKm_rhs]
    rfl
  rw [h1, add_sub_cancel_left]
  unfold stressRhs
  rw [mul_div_cancel₀ _ (h.G0 x hx)]
  congr 1
  have h2 : ∀ e ∈ (Finset.univ : Finset (Fin n)), (Fl c m d e x - Fl c m d e (stepIdx x e (-1))) / c.dx e =
      (if e = d then (T c m d d x - T c m d d (stepIdx x d (-1))) / c.dx d else 0) + (if e = d then 0 else
        1 / 2 * (T c m d e x - T c m d e (stepIdx x e (-1)) + T c m d e (stepIdx x d (-1)) - T c m d e (stepIdx (stepIdx x d (-1)) e (-1))) / c.dx e) := by
    intro e _
    unfold Fl
    by_cases hed : e = d
    · subst hed; simp only [if_true, add_zero]
    · simp only [if_neg hed]
      rw [step_comm x hed]
      ring
  rw [Finset.sum_congr rfl h2, Finset.sum_add_distrib, Finset.sum_ite_eq', if_pos (Finset.mem_univ d)]

theorem weak_dim [CharZero K] (h : Domain c P) (m : Mem n K) (hkm : IsBsq c → ∀ b, Closes c P ((forces c m).km b)) (hv : ∀ e, Closes c P (m.v e)) (d : Fin n) (φ : Sca n K) (hφ : Closes c P φ) (h0 : NoFlow c P d φ) (e : Fin n) :
    ∑ x ∈ gridPts P, trapW P x * (φ x * (Fl c m d e x - Fl c m d e (stepIdx x e (-1)))) =
      - (if e = c.z ∧ d ≠ c.z ∧ c.B.kl c.z = .gndsky then ∑ x ∈ groundFaces P c.z d, edgeW P d c.z x * ((forces c m).srfc d x * mean d φ x) else 0)
      - (if e = d then ∑ x ∈ facePts P d, faceW P d x * (T c m d d x * (φ (stepIdx x d 1) - φ x))
        else ∑ x ∈ edgePts P d e, edgeW P d e x * (T c m d e x * (1 / 2 * (φ (stepIdx x e 1) - φ x + (φ (stepIdx (stepIdx x d 1) e 1) - φ (stepIdx x d 1)))))) := by
  have h2 := h.two e
  rw [grid_parts P e (by omega)]
  by_cases hed : e = d
  · -- the component itself
    subst hed
    rw [if_neg (fun h' => h'.2.1 h'.1), if_pos rfl]
    congr 1
    · rw [neg_zero]
      refine Finset.sum_eq_zero fun y hy => ?_
      obtain ⟨hyg, hy0⟩ := Finset.mem_filter.1 hy
      by_cases hk : c.B.kl e = .cyclic
      · obtain ⟨e1, e2⟩ := T_diag_cyc h m hkm hk hyg hy0
        unfold Fl
        rw [if_pos rfl, if_pos rfl, if_pos rfl, if_pos rfl, e1, e2, hφ e y hk hyg hy0]
        ring
      · rw [h0 hk y hyg (Or.inl hy0), h0 hk _ (step_mem hyg (by omega)) (Or.inr (by rw [stepIdx_self]; omega))]
        ring
    · refine Finset.sum_congr rfl fun x _ => ?_
      unfold Fl
      rw [if_pos rfl]
  · have hde : d ≠ e := fun h' => hed h'.symm
    have h2d := h.two d
    have hFl : ∀ x, Fl c m d e x = 1 / 2 * (T c m d e x + T c m d e (stepIdx x d (-1))) := fun x => if_neg hed
    rw [if_neg hed]
    congr 1
    · -- ends of the dimension
      have hbnd : ∀ y ∈ (gridPts P).filter (fun y => y e = 0), (faceW P e y : K) * (1 / 2 * φ (stepIdx y e (P e)) * (Fl c m d e (stepIdx y e (P e - 1)) + Fl c m d e (stepIdx y e (P e)))
          - 1 / 2 * φ y * (Fl c m d e (stepIdx y e (-1)) + Fl c m d e y)) =
          if e = c.z ∧ c.B.kl c.z = .gndsky then -(faceW P e y * (1 / 2 * ((forces c m).srfc d y + (forces c m).srfc d (stepIdx y d (-1))) * φ y)) else 0 := by
        intro y hy
        obtain ⟨hyg, hy0⟩ := Finset.mem_filter.1 hy
        have hyd := mem_grid.1 hyg d
        have hyP : stepIdx y e (P e) ∈ gridPts P := step_mem hyg (by omega)
        by_cases hz : c.B.kl d ≠ .cyclic ∧ (y d = 0 ∨ y d = P d)
        · rw [h0 hz.1 y hyg hz.2, h0 hz.1 _ hyP (by rw [stepIdx_other y hde]; exact hz.2)]
          split_ifs <;> ring
        · -- usable lines
          have hgood : Good c.B P d y ∧ Good c.B P d (stepIdx y d (-1)) := by
            unfold Good
            rw [stepIdx_self]
            by_cases hk : c.B.kl d = .cyclic
            · exact ⟨Or.inr ⟨(h.cyc hk).1, by omega⟩, Or.inr ⟨(h.cyc hk).1, by omega⟩⟩
            · have : ¬(y d = 0 ∨ y d = P d) := fun h' => hz ⟨hk, h'⟩
              exact ⟨Or.inl (by omega), Or.inl (by omega)⟩
          have hn1 : Near P d e y := near_of_grid hyg
          have hn2 : Near P d e (stepIdx y d (-1)) := near_step hyg (by omega)
          have hy0' : stepIdx y d (-1) e = 0 := by rw [stepIdx_other y hed]; exact hy0
          rw [hFl, hFl, hFl, hFl, step_comm y hed, step_comm y hed, step_comm y hed]
          by_cases hk : c.B.kl e = .cyclic
          · obtain ⟨a1, a2⟩ := T_cyc h m hde hk hn1 hgood.1 hy0
            obtain ⟨b1, b2⟩ := T_cyc h m hde hk hn2 hgood.2 hy0'
            rw [a1, a2, b1, b2, hφ e y hk hyg hy0, if_neg (fun h' : e = c.z ∧ c.B.kl c.z = .gndsky => h.zwall (h'.1 ▸ hk))]
            ring
          · have a1 := T_low h m hde hk hn1 hgood.1 hy0
            have b1 := T_low h m hde hk hn2 hgood.2 hy0'
            have hg1 : Good c.B P d (stepIdx y e (P e)) := by have := hgood.1; unfold Good at this ⊢; rw [stepIdx_other y hde]; exact this
            have hg2 : Good c.B P d (stepIdx (stepIdx y d (-1)) e (P e)) := by have := hgood.2; unfold Good at this ⊢; rw [stepIdx_other _ hde]; exact this
            have hn3 : Near P d e (stepIdx y e (P e)) := near_of_grid hyP
            have hn4 : Near P d e (stepIdx (stepIdx y d (-1)) e (P e)) := fun k hk' => by rw [stepIdx_other _ hk']; exact hn2 k hk'
            have a2 := T_high h m hde hk hn3 hg1 (by rw [stepIdx_self]; omega)
            have b2 := T_high h m hde hk hn4 hg2 (by rw [stepIdx_self, hy0']; omega)
            rw [step_add, show (P e : Int) + -1 = P e - 1 by omega] at a2 b2
            have k1 : φ y * (T c m d e (stepIdx y e (-1)) + T c m d e y) = φ y * (if e = c.z ∧ c.B.kl c.z = .gndsky then 2 * (forces c m).srfc d y else 0) := by rw [a1]
            have k2 : φ y * (T c m d e (stepIdx (stepIdx y d (-1)) e (-1)) + T c m d e (stepIdx y d (-1))) =
                φ y * (if e = c.z ∧ c.B.kl c.z = .gndsky then 2 * (forces c m).srfc d (stepIdx y d (-1)) else 0) := by rw [b1]
            split_ifs at k1 k2 ⊢ with hc
            · linear_combination (faceW P e y : K) * (1 / 4 * φ (stepIdx y e (P e)) * (a2 + b2) - 1 / 4 * (k1 + k2))
            · linear_combination (faceW P e y : K) * (1 / 4 * φ (stepIdx y e (P e)) * (a2 + b2) - 1 / 4 * (k1 + k2))
      rw [Finset.sum_congr rfl hbnd]
      by_cases hc : e = c.z ∧ c.B.kl c.z = .gndsky
      · have hdz : d ≠ c.z := fun h' => hde (h'.trans hc.1.symm)
        simp only [if_pos hc]
        rw [if_pos ⟨hc.1, hdz, hc.2⟩, Finset.sum_neg_distrib, hc.1]
        have hQ : ∀ (x : Idx n) (k : Int), (stepIdx x d k c.z = 0) ↔ (x c.z = 0) := fun x k => by rw [stepIdx_other x hdz.symm]
        rw [grid_shift hdz (by omega) (fun y => y c.z = 0) hQ ((forces c m).srfc d) φ]
        · refine congrArg Neg.neg (Finset.sum_congr rfl fun x _ => ?_)
          unfold mean
          ring
        · intro y hyg hyz hy0
          by_cases hk : c.B.kl d = .cyclic
          · obtain ⟨e1, e2⟩ := srfc_cyc h m hv hk hyg hyz hy0
            rw [e1, e2, hφ d y hk hyg hy0]
            ring
          · rw [h0 hk y hyg (Or.inl hy0), h0 hk _ (step_mem hyg (by omega)) (Or.inr (by rw [stepIdx_self]; omega))]
            ring
      · simp only [if_neg hc]
        rw [Finset.sum_const_zero, if_neg (fun h' => hc ⟨h'.1, h'.2.2⟩), neg_zero]
    · -- inside
      have hQ : ∀ (x : Idx n) (k : Int), (stepIdx x d k e < P e) ↔ (x e < P e) := fun x k => by rw [stepIdx_other x hed]
      have hs := grid_shift (K := K) (P := P) hde (by omega) (fun y => y e < (P e : Int)) hQ (T c m d e) (fun x => φ (stepIdx x e 1) - φ x) ?_
      · have e1 : ∑ x ∈ facePts P e, (faceW P e x : K) * (Fl c m d e x * (φ (stepIdx x e 1) - φ x)) =
            ∑ x ∈ (gridPts P).filter (fun y => y e < (P e : Int)), faceW P e x * (1 / 2 * (T c m d e x + T c m d e (stepIdx x d (-1))) * (φ (stepIdx x e 1) - φ x)) :=
          Finset.sum_congr rfl fun x _ => by rw [hFl]
        rw [e1, hs]
        refine Finset.sum_congr ?_ fun _ _ => rfl
        unfold edgePts
        exact Finset.filter_congr fun x _ => and_comm
      · intro y hyg hye hy0
        have hy1 : stepIdx y e 1 ∈ gridPts P := step_mem hyg (by have := mem_grid.1 hyg e; omega)
        have hye0 := mem_grid.1 hyg e
        show (_ - _) * (φ (stepIdx y e 1) - φ y) + (_ - _) * (φ (stepIdx (stepIdx y d (P d)) e 1) - φ (stepIdx y d (P d))) = 0
        rw [step_comm y hde]
        by_cases hk : c.B.kl d = .cyclic
        · obtain ⟨e1, e2⟩ := T_cyc h m hed hk (near_of_grid hyg) (Or.inl ⟨hye0.1, hye⟩) hy0
          rw [T_comm m e d] at e1 e2
          rw [e1, e2, hφ d y hk hyg hy0, hφ d _ hk hy1 (by rw [stepIdx_other y hde]; exact hy0)]
          ring
        · have z1 := h0 hk y hyg (Or.inl hy0)
          have z2 := h0 hk _ (step_mem (d := d) (k := P d) hyg (by omega)) (Or.inr (by rw [stepIdx_self]; omega))
          have z3 := h0 hk _ hy1 (Or.inl (by rw [stepIdx_other y hde]; exact hy0))
          have z4 := h0 hk _ (step_mem (d := d) (k := P d) hy1 (by rw [stepIdx_other y hde]; omega)) (Or.inr (by rw [stepIdx_self, stepIdx_other y hde]; omega))
          rw [z1, z2, z3, z4]
          ring

/-- the forces on component `d` tested with any field that closes and vanishes on the walls across `d` -/
theorem weak_form [CharZero K] (h : Domain c P) (m : Mem n K) (hkm : IsBsq c → ∀ b, Closes c P ((forces c m).km b)) (hv : ∀ e, Closes c P (m.v e)) (d : Fin n) (φ : Sca n K) (hφ : Closes c P φ) (h0 : NoFlow c P d φ) :
    ∑ x ∈ gridPts P, trapW P x * (φ x * (c.rho x * ((forces c m).rhs d x - m.rhs d x))) =
      -2 * ((if d ≠ c.z ∧ c.B.kl c.z = .gndsky then (∑ x ∈ groundFaces P c.z d, edgeW P d c.z x * ((forces c m).srfc d x * mean d φ x)) / c.dx c.z else 0)
        + (∑ x ∈ facePts P d, faceW P d x * (T c m d d x * ((φ (stepIdx x d 1) - φ x) / c.dx d)))
        + ∑ e, if e = d then 0 else ∑ x ∈ edgePts P d e, edgeW P d e x * (T c m d e x * slope c d e φ x)) := by
  have e1 : ∀ x ∈ gridPts P, (trapW P x : K) * (φ x * (c.rho x * ((forces c m).rhs d x - m.rhs d x))) =
      ∑ e, 2 / c.dx e * (trapW P x * (φ x * (Fl c m d e x - Fl c m d e (stepIdx x e (-1))))) := by
    intro x hx
    rw [rhs_eq h m d hx, Finset.mul_sum, Finset.mul_sum, Finset.mul_sum]
    exact Finset.sum_congr rfl fun e _ => by ring
  rw [Finset.sum_congr rfl e1, Finset.sum_comm]
  have e2 : ∀ e ∈ (Finset.univ : Finset (Fin n)), ∑ x ∈ gridPts P, 2 / c.dx e * ((trapW P x : K) * (φ x * (Fl c m d e x - Fl c m d e (stepIdx x e (-1))))) =
      -2 * ((if e = c.z then (if d ≠ c.z ∧ c.B.kl c.z = .gndsky then (∑ x ∈ groundFaces P c.z d, edgeW P d c.z x * ((forces c m).srfc d x * mean d φ x)) / c.dx c.z else 0) else 0)
        + (if e = d then ∑ x ∈ facePts P d, faceW P d x * (T c m d d x * ((φ (stepIdx x d 1) - φ x) / c.dx d)) else 0)
        + (if e = d then 0 else ∑ x ∈ edgePts P d e, edgeW P d e x * (T c m d e x * slope c d e φ x))) := by
    intro e _
    rw [← Finset.mul_sum, weak_dim h m hkm hv d φ hφ h0 e]
    have g1 : 2 / c.dx e * (if e = c.z ∧ d ≠ c.z ∧ c.B.kl c.z = .gndsky then ∑ x ∈ groundFaces P c.z d, (edgeW P d c.z x : K) * ((forces c m).srfc d x * mean d φ x) else 0) =
        2 * (if e = c.z then (if d ≠ c.z ∧ c.B.kl c.z = .gndsky then (∑ x ∈ groundFaces P c.z d, edgeW P d c.z x * ((forces c m).srfc d x * mean d φ x)) / c.dx c.z else 0) else 0) := by
      by_cases hz : e = c.z
      · rw [if_pos hz]
        by_cases hg : d ≠ c.z ∧ c.B.kl c.z = .gndsky
        · rw [if_pos hg, if_pos ⟨hz, hg⟩, hz]; ring
        · rw [if_neg hg, if_neg (fun h' => hg h'.2)]; ring
      · rw [if_neg hz, if_neg (fun h' => hz h'.1)]; ring
    have g2 : 2 / c.dx e * (if e = d then ∑ x ∈ facePts P d, (faceW P d x : K) * (T c m d d x * (φ (stepIdx x d 1) - φ x))
        else ∑ x ∈ edgePts P d e, edgeW P d e x * (T c m d e x * (1 / 2 * (φ (stepIdx x e 1) - φ x + (φ (stepIdx (stepIdx x d 1) e 1) - φ (stepIdx x d 1)))))) =
        2 * ((if e = d then ∑ x ∈ facePts P d, faceW P d x * (T c m d d x * ((φ (stepIdx x d 1) - φ x) / c.dx d)) else 0)
        + (if e = d then 0 else ∑ x ∈ edgePts P d e, edgeW P d e x * (T c m d e x * slope c d e φ x))) := by
      by_cases hed : e = d
      · subst hed
        simp only [if_true, add_zero]
        rw [Finset.mul_sum, Finset.mul_sum]
        exact Finset.sum_congr rfl fun x _ => by ring
      · simp only [if_neg hed, zero_add]
        rw [Finset.mul_sum, Finset.mul_sum]
        refine Finset.sum_congr rfl fun x _ => ?_
        unfold slope
        ring
    linear_combination -g1 - g2
  rw [Finset.sum_congr rfl e2, ← Finset.mul_sum, Finset.sum_add_distrib, Finset.sum_add_distrib, Finset.sum_ite_eq', if_pos (Finset.mem_univ _), Finset.sum_ite_eq',
    if_pos (Finset.mem_univ _)]
end domain
end Drag
end Mpdata
