import Verif.Spec.FillValues
import Verif.Props.Fills
import Mathlib.Tactic.LinearCombination
/-! # Properties: the values in the halo after an exchange (C60)
If a field on the whole grid continues the domain as the boundary conditions demand (`Spec/FillValues.lean`), then an exchange started from the domain values of that field, with anything
in the halo, ends with exactly that field, corners included. -/
namespace Mpdata
variable {n : Nat} [NeZero n] {K : Type} [Field K] [LinearOrder K]

theorem setc_step (x : Idx n) (d : Fin n) (m k : Int) (h : m = x d + k) : setc x d m = stepIdx x d k := by
  funext e
  unfold setc stepIdx
  by_cases he : e = d
  · subst he; rw [if_pos rfl, if_pos rfl, h]
  · rw [if_neg he, if_neg he]

theorem setc_pole (B : Bnd n) (d : Fin n) (hd : d + 1 ≠ d) (x : Idx n) (m m' : Int) (h : m = m') :
    setc (setc x d m) (d + 1) (polarNb B.pole (x (d + 1))) = acrossPole B d m' x := by
  subst h
  unfold acrossPole
  rw [setc_step x d m (m - x d) (by omega)]
  refine setc_step _ _ _ _ ?_
  unfold stepIdx
  rw [if_neg hd]
  omega

theorem asgN_fix {p : Idx n → Prop} [DecidablePred p] {v a : Sca n K} (h : ∀ x, p x → v x = a x) : asgN p v a = a := by
  funext x
  by_cases hx : p x
  · rw [asgN_of hx, h x hx]
  · rw [asgN_of_not hx]

theorem near_of_ot {B : Bnd n} {d : Fin n} {lo hi : Fin n → Int} (hlo : ∀ e, lo e ≤ B.halo) (hhi : ∀ e, hi e ≤ B.halo) {x : Idx n}
    (hx : Ot B.b d lo hi x) (hd : (B.b d).first - B.halo ≤ x d ∧ x d ≤ (B.b d).last + B.halo) : WithHalo B.b B.halo x := by
  intro e
  by_cases he : e = d
  · subst he; exact hd
  · have := hx e he; have := hlo e; have := hhi e; omega

theorem fillS_fix (B : Bnd n) (hW : Wide B) (d : Fin n) (dv : Bool) {u : Sca n K} (hu : ContinuesS B dv u) :
    fillS B d (fun _ => B.halo) (fun _ => B.halo) dv u = u := by
  have h1 := hW.1
  have h2 := hW.2.1 d
  unfold Bnd.f Bnd.l at h2
  have hL : asgN (fun x => (B.f d - B.halo ≤ x d ∧ x d ≤ B.f d - 1) ∧ Ot B.b d (fun _ => B.halo) (fun _ => B.halo) x) (valSL B d dv u) u = u := by
    refine asgN_fix (fun x hx => ?_)
    unfold Bnd.f at hx
    have hB : Below B d x := ⟨near_of_ot (fun _ => le_refl _) (fun _ => le_refl _) hx.2 (by omega), by omega⟩
    unfold valSL
    split
    · rename_i hk; rw [hu.cycL d x hk hB]; congr 1; exact (setc_step _ _ _ _ rfl).symm
    · rename_i hk; rw [hu.wallL d x (Or.inl hk) hB]; congr 1; exact (setc_step _ _ _ _ (by unfold Bnd.f; omega)).symm
    · rename_i hk; rw [hu.wallL d x (Or.inr hk) hB]; congr 1; exact (setc_step _ _ _ _ (by unfold Bnd.f; omega)).symm
    · rename_i hk
      rw [hu.openL d x hk hB]
      congr 1
      congr 1
      exact (setc_step _ _ _ _ (by unfold Bnd.f; omega)).symm
    · rename_i hk
      rw [hu.poleL d x hk hB]
      congr 1
      exact (setc_pole B d (hW.2.2 d (Or.inl hk)).1 x _ _ (by unfold Bnd.f; omega)).symm
  unfold fillS
  simp only [hL]
  refine asgN_fix (fun x hx => ?_)
  unfold Bnd.l at hx
  have hB : Above B d x := ⟨near_of_ot (fun _ => le_refl _) (fun _ => le_refl _) hx.2 (by omega), by omega⟩
  unfold valSR
  split
  · rename_i hk; rw [hu.cycR d x hk hB]; congr 1; exact (setc_step _ _ _ _ (by unfold Bnd.f Bnd.l; omega)).symm
  · rename_i hk; rw [hu.wallR d x (Or.inl hk) hB]; congr 1; exact (setc_step _ _ _ _ (by unfold Bnd.l; omega)).symm
  · rename_i hk; rw [hu.wallR d x (Or.inr hk) hB]; congr 1; exact (setc_step _ _ _ _ (by unfold Bnd.l; omega)).symm
  · rename_i hk
    rw [hu.openR d x hk hB]
    congr 1
    congr 1
    exact (setc_step _ _ _ _ (by unfold Bnd.l; omega)).symm
  · rename_i hk
    rw [hu.poleR d x hk hB]
    congr 1
    exact (setc_pole B d (hW.2.2 d (Or.inr hk)).1 x _ _ (by unfold Bnd.l; omega)).symm

theorem foldl_fix {α β : Type} (f : α → β → α) (ds : List β) {a : α} (h : ∀ d ∈ ds, f a d = a) : ds.foldl f a = a := by
  induction ds with
  | nil => rfl
  | cons d ds ih => rw [List.foldl_cons, h d List.mem_cons_self]; exact ih (fun e he => h e (List.mem_cons_of_mem _ he))

/-- C60, scalars: after an exchange over the full halo the halo contains the continuation of the domain demanded by the boundary conditions, corners included, whatever it contained
before: periodic images, mirror images, edge values (or zero for derivatives), values across the pole. -/
theorem C60_sclr_values (B : Bnd n) (hW : Wide B) (ds : List (Fin n)) (hds : ∀ d, d ∈ ds) (dv : Bool) (u a : Sca n K) (hu : ContinuesS B dv u)
    (h : ∀ x, InDomain B.b x → a x = u x) {x : Idx n} (hx : WithHalo B.b B.halo x) : xchngSclr B ds B.halo dv a x = u x := by
  rw [C60_sclr_no_stale B hW ds hds dv a u h hx]
  unfold xchngSclr
  rw [foldl_fix _ ds (fun d _ => fillS_fix B hW d dv hu)]

theorem fillP_fix (B : Bnd n) (hW : Wide B) (hP : PresFilled B) (d : Fin n) {u : Sca n K} (hu : ContinuesP B u) :
    fillP B d (fun _ => B.halo) (fun _ => B.halo) u = u := by
  have h1 := hW.1
  have h2 := hW.2.1 d
  unfold Bnd.f Bnd.l at h2
  have hdl : presDepthL B d ≤ B.halo := by unfold presDepthL; split_ifs <;> omega
  have hdr : presDepthR B d ≤ B.halo := by unfold presDepthR; split_ifs <;> omega
  have hL : asgN (fun x => (B.f d - presDepthL B d ≤ x d ∧ x d ≤ B.f d - 1) ∧ Ot B.b d (fun _ => B.halo) (fun _ => B.halo) x) (valPL B d u) u = u := by
    refine asgN_fix (fun x hx => ?_)
    unfold Bnd.f at hx
    have hB : Below B d x := ⟨near_of_ot (fun _ => le_refl _) (fun _ => le_refl _) hx.2 (by omega), by omega⟩
    have e1 := setc_step x d (B.b d).first (B.f d - x d) (by unfold Bnd.f; omega)
    have e2 := setc_step x d (2 * (B.b d).first - x d) (2 * (B.f d - x d)) (by unfold Bnd.f; omega)
    have e3 := setc_step x d ((B.b d).first + 1) (B.f d + 1 - x d) (by unfold Bnd.f; omega)
    unfold valPL
    split
    · rename_i hk; rw [hu.cycL d x hk hB]; congr 1; exact (setc_step _ _ _ _ rfl).symm
    · rename_i hk; have := hu.wallL d x (Or.inl hk) hB; rw [e1, e2] at this; linear_combination -this
    · rename_i hk; have := hu.wallL d x (Or.inr hk) hB; rw [e1, e2] at this; linear_combination -this
    · rename_i hk; have := hu.openL d x hk hB; rw [e1, e3] at this; rw [this]; unfold Bnd.f; push_cast; ring
    · rfl
  unfold fillP
  simp only [hL]
  refine asgN_fix (fun x hx => ?_)
  unfold Bnd.l at hx
  have hB : Above B d x := ⟨near_of_ot (fun _ => le_refl _) (fun _ => le_refl _) hx.2 (by omega), by omega⟩
  have e1 := setc_step x d (B.b d).last (B.l d - x d) (by unfold Bnd.l; omega)
  have e2 := setc_step x d (2 * (B.b d).last - x d) (2 * (B.l d - x d)) (by unfold Bnd.l; omega)
  have e3 := setc_step x d ((B.b d).last - 1) (B.l d - 1 - x d) (by unfold Bnd.l; omega)
  unfold valPR
  split
  · rename_i hk; rw [hu.cycR d x hk hB]; congr 1; exact (setc_step _ _ _ _ (by unfold Bnd.f Bnd.l; omega)).symm
  · rename_i hk; have := hu.wallR d x (Or.inl hk) hB; rw [e1, e2] at this; linear_combination -this
  · rename_i hk; have := hu.wallR d x (Or.inr hk) hB; rw [e1, e2] at this; linear_combination -this
  · rename_i hk; have := hu.openR d x hk hB; rw [e1, e3] at this; rw [this]; unfold Bnd.l; push_cast; ring
  · rfl

/-- C60, pressure: the halo contains the continuation of the domain: periodic images, point reflection in the value at a wall, linear extrapolation beyond open boundaries. Missing: open
boundaries with wider halos and poles (as in `C60_pres_no_stale_partial`). -/
theorem C60_pres_values_partial (B : Bnd n) (hW : Wide B) (hP : PresFilled B) (ds : List (Fin n)) (hds : ∀ d, d ∈ ds) (u a : Sca n K) (hu : ContinuesP B u)
    (h : ∀ x, InDomain B.b x → a x = u x) {x : Idx n} (hx : WithHalo B.b B.halo x) : xchngPres B ds B.halo a x = u x := by
  rw [C60_pres_no_stale_partial B hW hP ds hds a u h hx]
  unfold xchngPres
  rw [foldl_fix _ ds (fun d _ => fillP_fix B hW hP d hu)]

theorem fillN_fix (B : Bnd n) (hW : Wide B) {ext : Int} (hext : ext + 1 ≤ B.halo) {c d : Fin n} (hdc : d ≠ c) (hR : B.kr d ≠ .polar) {u : Sca n K} (hu : ContinuesN B c u) :
    fillN B d (fun _ => ext + 1) (fun e => if e = c then ext else ext + 1) u = u := by
  have h1 := hW.1
  have h2 := hW.2.1 d
  unfold Bnd.f Bnd.l at h2
  have hhi : ∀ e, (if e = c then ext else ext + 1) ≤ B.halo := fun e => by split_ifs <;> omega
  have hL : asgN (fun x => (B.f d - B.halo ≤ x d ∧ x d ≤ B.f d - 1) ∧ Ot B.b d (fun _ => ext + 1) (fun e => if e = c then ext else ext + 1) x) (valNL B d u) u = u := by
    refine asgN_fix (fun x hx => ?_)
    unfold Bnd.f at hx
    have hB : Below B d x := ⟨near_of_ot (fun _ => hext) hhi hx.2 (by omega), by omega⟩
    unfold valNL
    split
    · rename_i hk; rw [hu.cycL d x hdc hk hB]; congr 1; exact (setc_step _ _ _ _ rfl).symm
    · rename_i hk; rw [hu.wallL d x hdc (Or.inl hk) hB]; congr 1; exact (setc_step _ _ _ _ (by unfold Bnd.f; omega)).symm
    · rename_i hk; rw [hu.wallL d x hdc (Or.inr hk) hB]; congr 1; exact (setc_step _ _ _ _ (by unfold Bnd.f; omega)).symm
    · rename_i hk; rw [hu.openL d x hdc hk hB]
    · rename_i hk
      rw [hu.poleL d x hdc hk hB]
      congr 1
      exact (setc_pole B d (hW.2.2 d (Or.inl hk)).1 x _ _ (by unfold Bnd.f; omega)).symm
  unfold fillN
  simp only [hL]
  refine asgN_fix (fun x hx => ?_)
  unfold Bnd.l at hx
  have hB : Above B d x := ⟨near_of_ot (fun _ => hext) hhi hx.2 (by omega), by omega⟩
  unfold valNR
  split
  · rename_i hk; rw [hu.cycR d x hdc hk hB]; congr 1; exact (setc_step _ _ _ _ (by unfold Bnd.f Bnd.l; omega)).symm
  · rename_i hk; rw [hu.wallR d x hdc (Or.inl hk) hB]; congr 1; exact (setc_step _ _ _ _ (by unfold Bnd.l; omega)).symm
  · rename_i hk; rw [hu.wallR d x hdc (Or.inr hk) hB]; congr 1; exact (setc_step _ _ _ _ (by unfold Bnd.l; omega)).symm
  · rename_i hk; rw [hu.openR d x hdc hk hB]
  · rename_i hk; exact absurd hk hR

/-- C60, advector components in the other dimensions: after `xchng_vctr_nrml` with extension `ext` the faces within `ext + 1` layers contain the continuation of those in line with the
domain: periodic images, mirror images, zero beyond open boundaries, values across the lower pole. Missing: the upper pole (`C24_fails_polar_vctr_nrml_right`). -/
theorem C60_nrml_values_partial (B : Bnd n) (hW : Wide B) {ext : Int} (h0 : 0 ≤ ext) (hext : ext + 1 ≤ B.halo) (A : Vec n K) {c : Fin n} (hR : ∀ d, d ≠ c → B.kr d ≠ .polar)
    (u : Sca n K) (hu : ContinuesN B c u) (h : ∀ x, AlongFace B.b (ext + 1) c x → A c x = u x) {x : Idx n} (hx : HaloFace B.b (ext + 1) c x) : xchngNrml B ext A c x = u x := by
  rw [C60_nrml_no_stale B hW h0 hext A (fun _ => u) (c := c) h hx]
  unfold xchngNrml
  rw [foldl_fix _ _ (fun d hd => fillN_fix B hW hext (by simpa using hd) (hR d (by simpa using hd)) hu)]

theorem fillA_fix (B : Bnd n) (hW : Wide B) (d : Fin n) {U : Vec n K} (hu : ContinuesA B U) (hl : B.kl d = .cyclic ∨ (B.kl d).isWall) (hr : B.kr d = .cyclic ∨ (B.kr d).isWall) :
    fillA B d false U = U := by
  have h1 := hW.1
  have h2 := hW.2.1 d
  unfold Bnd.f Bnd.l at h2
  have nl : B.kl d ≠ .opened := by rcases hl with h | h | h <;> rw [h] <;> decide
  have nr : B.kr d ≠ .opened := by rcases hr with h | h | h <;> rw [h] <;> decide
  have hL : asgN (fun x => alngL B d false (x d) ∧ Ot B.b d (fun _ => 0) (fun _ => 0) x) (valAL B d U) (U d) = U d := by
    refine asgN_fix (fun x hx => ?_)
    have hm : B.f d - B.halo ≤ x d ∧ x d ≤ B.f d - 1 := by
      have := hx.1
      unfold alngL at this
      rcases hl with h | h | h <;> rw [h] at this <;> simpa using this
    unfold Bnd.f at hm
    have hA : AlongFace B.b B.halo d x := ⟨by omega, fun e he => by simpa using hx.2 e he⟩
    unfold valAL
    split
    · rename_i hk; rw [hu.cycL d x hk hA (by omega)]; congr 1; exact (setc_step _ _ _ _ rfl).symm
    · rename_i hk; rw [hu.wallL d x (Or.inl hk) hA (by omega)]; congr 2; exact (setc_step _ _ _ _ (by unfold Bnd.f; omega)).symm
    · rename_i hk; rw [hu.wallL d x (Or.inr hk) hA (by omega)]; congr 2; exact (setc_step _ _ _ _ (by unfold Bnd.f; omega)).symm
    · rename_i hk; exact absurd hk nl
    · rename_i hk; rcases hl with h | h | h <;> rw [h] at hk <;> cases hk
  have hR : asgN (fun x => alngR B d false (x d) ∧ Ot B.b d (fun _ => 0) (fun _ => 0) x) (valAR B d false U) (U d) = U d := by
    refine asgN_fix (fun x hx => ?_)
    have hm : B.l d ≤ x d ∧ x d ≤ B.l d + B.halo - 1 := by
      have := hx.1
      unfold alngR at this
      rcases hr with h | h | h <;> rw [h] at this <;> simpa using this
    unfold Bnd.l at hm
    have hA : AlongFace B.b B.halo d x := ⟨by omega, fun e he => by simpa using hx.2 e he⟩
    unfold valAR
    split
    · rename_i hk; rw [hu.cycR d x hk hA (by omega)]; congr 1; exact (setc_step _ _ _ _ (by unfold Bnd.f Bnd.l; omega)).symm
    · rename_i hk; rw [hu.wallR d x (Or.inl hk) hA (by omega)]; congr 2; exact (setc_step _ _ _ _ (by unfold Bnd.l; simp; omega)).symm
    · rename_i hk; rw [hu.wallR d x (Or.inr hk) hA (by omega)]; congr 2; exact (setc_step _ _ _ _ (by unfold Bnd.l; simp; omega)).symm
    · rename_i hk; exact absurd hk nr
    · rename_i hk; rcases hr with h | h | h <;> rw [h] at hk <;> cases hk
  unfold fillA
  simp only [if_neg nl, if_neg nr, hL, Function.update_eq_self, hR]

/-- C60, advector components along their own dimension: after `xchng_vctr_alng` the faces beyond the ends contain the continuation of the faces of the domain: periodic images, mirror
images with the opposite sign beyond walls (so that nothing crosses the wall). Missing: poles; open boundaries (`C22_open_edge_cells_nondivergent_2d`, `_3d`). -/
theorem C60_alng_values_partial (B : Bnd n) (hW : Wide B) (hl : ∀ d, B.kl d = .cyclic ∨ (B.kl d).isWall) (hr : ∀ d, B.kr d = .cyclic ∨ (B.kr d).isWall) (U A : Vec n K)
    (hu : ContinuesA B U) (h : ∀ c x, InnerFace B.b c x → A c x = U c x) {c : Fin n} {x : Idx n} (hx : AlongFace B.b B.halo c x) : xchngAlng B false A c x = U c x := by
  have hP : PolarTwo B := by
    intro d hd
    rcases hd with hd | hd
    · rcases hl d with h | h | h <;> rw [h] at hd <;> cases hd
    · rcases hr d with h | h | h <;> rw [h] at hd <;> cases hd
  rw [C60_alng_no_stale B hW hP A U h hx]
  unfold xchngAlng
  rw [foldl_fix _ _ (fun d _ => fillA_fix B hW d hu (hl d) (hr d))]

/-! ### The hypotheses are met -/

/-- a field on the channel (open in the first dimension, walls in the second) that continues the domain -/
def chanU : Sca 2 ℚ := fun x => 100 * ((max 0 (min 5 (x 0)) : Int) : ℚ) + ((if x 1 < 0 then -x 1 else if 5 < x 1 then 10 - x 1 else x 1 : Int) : ℚ)

theorem chanU_continues : ContinuesS channel false chanU := by
  constructor
  · intro d x hk; exact absurd hk ((by decide : ∀ d, channel.kl d ≠ .cyclic) d)
  · intro d x hk; exact absurd hk ((by decide : ∀ d, channel.kr d ≠ .cyclic) d)
  · intro d x hk hx
    have hd : d = 1 := (by unfold BcAll.isWall; decide : ∀ d, (channel.kl d).isWall → d = 1) d hk
    subst hd
    have h1 : x 1 < 0 := hx.2
    have h2 := (hx.1 1).1
    have h3 : (channel.b 1).first = 0 := rfl
    have h4 : channel.halo = 2 := rfl
    unfold chanU setc
    simp only [if_pos, h3, h4] at *
    rw [if_pos h1, if_neg (by decide), if_neg (by omega), if_neg (by omega)]
    congr 2
    omega
  · intro d x hk hx
    have hd : d = 1 := (by unfold BcAll.isWall; decide : ∀ d, (channel.kr d).isWall → d = 1) d hk
    subst hd
    have h1 : 5 < x 1 := hx.2
    have h2 := (hx.1 1).2
    have h3 : (channel.b 1).last = 5 := rfl
    have h4 : channel.halo = 2 := rfl
    unfold chanU setc
    simp only [if_pos, h3, h4] at *
    rw [if_neg (by omega), if_pos h1, if_neg (by decide), if_neg (by omega), if_neg (by omega)]
    congr 2
  · intro d x hk hx
    have hd : d = 0 := (by decide : ∀ d, channel.kl d = .opened → d = 0) d hk
    subst hd
    have h1 : x 0 < 0 := hx.2
    have h3 : (channel.b 0).first = 0 := rfl
    unfold chanU setc
    simp only [if_pos, h3]
    rw [if_neg (show ¬ (1 : Fin 2) = 0 by decide), max_eq_left (by omega)]
    simp
  · intro d x hk hx
    have hd : d = 0 := (by decide : ∀ d, channel.kr d = .opened → d = 0) d hk
    subst hd
    have h1 : 5 < x 0 := hx.2
    have h3 : (channel.b 0).last = 5 := rfl
    unfold chanU setc
    simp only [if_pos, h3]
    rw [if_neg (show ¬ (1 : Fin 2) = 0 by decide), min_eq_left (by omega)]
    simp
  · intro d x hk; exact absurd hk ((by decide : ∀ d, channel.kl d ≠ .polar) d)
  · intro d x hk; exact absurd hk ((by decide : ∀ d, channel.kr d ≠ .polar) d)

/-- with zeros in the halo before the exchange, the corner `(-2, 7)` ends with the value of the point `(0, 3)` -/
example : xchngSclr channel [0, 1] 2 false (fun x => if 0 ≤ x 0 ∧ x 0 ≤ 5 ∧ 0 ≤ x 1 ∧ x 1 ≤ 5 then 100 * (x 0 : ℚ) + x 1 else 0) ![-2, 7] = 3 := by
  rw [show ∀ a : Sca 2 ℚ, xchngSclr channel [0, 1] 2 false a = xchngSclr channel [0, 1] channel.halo false a from fun _ => rfl]
  rw [C60_sclr_values channel ⟨by decide, by decide, by decide⟩ [0, 1] (by decide) false chanU _ chanU_continues ?_ (by unfold WithHalo; decide)]
  · unfold chanU; decide +kernel
  · intro x hx
    have h0 : 0 ≤ x 0 ∧ x 0 ≤ 5 := hx 0
    have h1 : 0 ≤ x 1 ∧ x 1 ≤ 5 := hx 1
    rw [if_pos ⟨h0.1, h0.2, h1⟩]
    unfold chanU
    rw [min_eq_right h0.2, max_eq_right h0.1, if_neg (by omega), if_neg (by omega)]

/-- a box with walls all around: the pressure is a linear function (every reflection keeps it), the advector is a rotation-free wave vanishing at the walls, odd about them -/
example (a : Sca 2 ℚ) (h : ∀ x, InDomain boxRigid.b x → a x = 3 * x 0 - 2 * x 1) : xchngPres boxRigid [0, 1] 1 a ![-1, 4] = -11 := by
  rw [show xchngPres boxRigid [0, 1] 1 a = xchngPres boxRigid [0, 1] boxRigid.halo a from rfl]
  rw [C60_pres_values_partial boxRigid ⟨by decide, by decide, by decide⟩ ⟨by decide, by decide, by decide⟩ [0, 1] (by decide) (fun x => 3 * (x 0 : ℚ) - 2 * x 1) a ?_ h (by unfold WithHalo; decide)]
  · norm_num
  · have key : ∀ (d : Fin 2) (x : Idx 2) (w : Int), (3 * (x 0 : ℚ) - 2 * x 1) - (3 * (setc x d w 0 : ℚ) - 2 * setc x d w 1)
        = -((3 * (setc x d (2 * w - x d) 0 : ℚ) - 2 * setc x d (2 * w - x d) 1) - (3 * (setc x d w 0 : ℚ) - 2 * setc x d w 1)) := by
      intro d x w
      unfold setc
      rcases (by omega : d = 0 ∨ d = 1) with h | h <;> subst h <;> simp <;> ring
    constructor
    · intro d x hk; exact absurd hk ((by decide : ∀ d, boxRigid.kl d ≠ .cyclic) d)
    · intro d x hk; exact absurd hk ((by decide : ∀ d, boxRigid.kr d ≠ .cyclic) d)
    · exact fun d x _ _ => key d x _
    · exact fun d x _ _ => key d x _
    · intro d x hk; exact absurd hk ((by decide : ∀ d, boxRigid.kl d ≠ .opened) d)
    · intro d x hk; exact absurd hk ((by decide : ∀ d, boxRigid.kr d ≠ .opened) d)

/-- beyond the walls at 0 and 3 the advector `(c, 0, -c)` of the three inner faces continues with the opposite sign -/
example (A : Vec 2 ℚ) (h : ∀ c x, InnerFace boxRigid.b c x → A c x = if x c = 0 then 1 else if x c = 2 then -1 else 0) : xchngAlng boxRigid false A 0 ![-1, 2] = -1 ∧
    xchngAlng boxRigid false A 1 ![0, 3] = 1 := by
  have hc : ContinuesA boxRigid (fun c x => if x c = 0 then (1 : ℚ) else if x c = 2 then -1 else if x c = -1 then -1 else if x c = 3 then 1 else 0) := by
    constructor
    · intro d x hk; exact absurd hk ((by decide : ∀ d, boxRigid.kl d ≠ .cyclic) d)
    · intro d x hk; exact absurd hk ((by decide : ∀ d, boxRigid.kr d ≠ .cyclic) d)
    · intro d x _ hx h2
      have h3 : (boxRigid.b d).first = 0 := rfl
      have h4 : boxRigid.halo = 1 := rfl
      have h5 := hx.1.1
      rw [h3] at h2
      rw [h3, h4] at h5
      have : x d = -1 := by omega
      unfold setc
      simp [h3, this]
    · intro d x _ hx h2
      have h3 : (boxRigid.b d).last = 3 := rfl
      have h4 : boxRigid.halo = 1 := rfl
      have h5 := hx.1.2
      rw [h3] at h2
      rw [h3, h4] at h5
      have : x d = 3 := by omega
      unfold setc
      simp [h3, this]
  have hA : ∀ c x, InnerFace boxRigid.b c x → A c x = if x c = 0 then (1 : ℚ) else if x c = 2 then -1 else if x c = -1 then -1 else if x c = 3 then 1 else 0 := by
    intro c x hx
    have h1 : 0 ≤ x c ∧ x c ≤ 3 - 1 := hx.1
    rw [h c x hx, if_neg (show ¬ x c = -1 by omega), if_neg (show ¬ x c = 3 by omega)]
  constructor
  · rw [C60_alng_values_partial boxRigid ⟨by decide, by decide, by decide⟩ (fun _ => Or.inr (Or.inl rfl)) (fun _ => Or.inr (Or.inl rfl)) _ A hc hA ⟨by decide, by decide⟩]
    norm_num
  · rw [C60_alng_values_partial boxRigid ⟨by decide, by decide, by decide⟩ (fun _ => Or.inr (Or.inl rfl)) (fun _ => Or.inr (Or.inl rfl)) _ A hc hA ⟨by decide, by decide⟩]
    norm_num

/-- an advector component of the box that does not vary across the walls -/
example (A : Vec 2 ℚ) (h : ∀ x, AlongFace boxRigid.b 1 0 x → A 0 x = 7 * x 0) : xchngNrml boxRigid 0 A 0 ![2, 4] = 14 := by
  rw [C60_nrml_values_partial boxRigid ⟨by decide, by decide, by decide⟩ (ext := 0) (by decide) (by decide) A (by decide) (fun x => 7 * (x 0 : ℚ)) ?_ h ⟨by decide, by decide⟩]
  · norm_num
  · constructor
    · intro d x _ hk; exact absurd hk ((by decide : ∀ d, boxRigid.kl d ≠ .cyclic) d)
    · intro d x _ hk; exact absurd hk ((by decide : ∀ d, boxRigid.kr d ≠ .cyclic) d)
    · intro d x hd _ _; unfold setc; rw [if_neg (fun h => hd h.symm)]
    · intro d x hd _ _; unfold setc; rw [if_neg (fun h => hd h.symm)]
    · intro d x _ hk; exact absurd hk ((by decide : ∀ d, boxRigid.kl d ≠ .opened) d)
    · intro d x _ hk; exact absurd hk ((by decide : ∀ d, boxRigid.kr d ≠ .opened) d)
    · intro d x _ hk; exact absurd hk ((by decide : ∀ d, boxRigid.kl d ≠ .polar) d)

end Mpdata
