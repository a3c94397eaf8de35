import Verif.Model.Fills
import Verif.Spec.Fills
import Verif.Lemmas.AdvopN
import Mathlib.Data.Fin.VecNotation
import Mathlib.Tactic.FinCases
import Mathlib.Tactic.NormNum
import Mathlib.Tactic.FieldSimp
import Mathlib.Tactic.Tauto
/-! # C60: halo exchanges never change the domain and leave nothing stale in the halo -/
namespace Mpdata
section
variable {n : Nat} [NeZero n] {K : Type} [Field K] [LinearOrder K]

/-! ## The domain is left alone -/

omit [NeZero n] [Field K] [LinearOrder K] in
theorem asgN_of_not {P : Idx n → Prop} [DecidablePred P] {e a : Sca n K} {x : Idx n} (h : ¬ P x) : asgN P e a x = a x := by simp [asgN, h]
omit [NeZero n] [Field K] [LinearOrder K] in
theorem asgN_of {P : Idx n → Prop} [DecidablePred P] {e a : Sca n K} {x : Idx n} (h : P x) : asgN P e a x = e x := by simp [asgN, h]

omit [Field K] [LinearOrder K] in
theorem foldl_keeps {α β : Type} (S : β → Prop) (F : (β → K) → α → (β → K)) (hF : ∀ a d x, S x → F a d x = a x) (ds : List α) (a : β → K) {x : β} (hx : S x) :
    ds.foldl F a x = a x := by
  induction ds generalizing a with
  | nil => rfl
  | cons d ds ih => rw [List.foldl_cons, ih, hF _ _ _ hx]

theorem fillS_keeps (B : Bnd n) (d : Fin n) (lo hi : Fin n → Int) (dv : Bool) (a : Sca n K) (x : Idx n) (hx : B.f d ≤ x d ∧ x d ≤ B.l d) : fillS B d lo hi dv a x = a x := by
  unfold fillS
  rw [asgN_of_not (by rintro ⟨h, -⟩; omega), asgN_of_not (by rintro ⟨h, -⟩; omega)]

theorem fillN_keeps (B : Bnd n) (d : Fin n) (lo hi : Fin n → Int) (a : Sca n K) (x : Idx n) (hx : B.f d ≤ x d ∧ x d ≤ B.l d) : fillN B d lo hi a x = a x := by
  unfold fillN
  rw [asgN_of_not (by rintro ⟨h, -⟩; omega), asgN_of_not (by rintro ⟨h, -⟩; omega)]

theorem fillP_keeps (B : Bnd n) (d : Fin n) (lo hi : Fin n → Int) (a : Sca n K) (x : Idx n) (hx : B.f d ≤ x d ∧ x d ≤ B.l d) : fillP B d lo hi a x = a x := by
  unfold fillP
  rw [asgN_of_not (by rintro ⟨h, -⟩; omega), asgN_of_not (by rintro ⟨h, -⟩; omega)]

/-- C60, scalars: whatever the boundary kinds, exchanging the halos of a scalar (`xchng_sclr`, with any extension, of values or of derivatives, dimensions in any order)
changes no value inside the domain. -/
theorem C60_sclr_keeps_domain (B : Bnd n) (ds : List (Fin n)) (ext : Int) (dv : Bool) (a : Sca n K) {x : Idx n} (hx : InDomain B.b x) :
    xchngSclr B ds ext dv a x = a x :=
  foldl_keeps (InDomain B.b) _ (fun a d x h => fillS_keeps B d _ _ dv a x (h d)) ds a hx

/-- C60, pressure -/
theorem C60_pres_keeps_domain (B : Bnd n) (ds : List (Fin n)) (ext : Int) (a : Sca n K) {x : Idx n} (hx : InDomain B.b x) : xchngPres B ds ext a x = a x :=
  foldl_keeps (InDomain B.b) _ (fun a d x h => fillP_keeps B d _ _ a x (h d)) ds a hx

theorem zeroRim_keeps (B : Bnd n) (d : Fin n) (i : Int) (A : Vec n K) (e : Fin n) (x : Idx n) (hx : B.f e ≤ x e ∧ x e ≤ B.l e - 1) : zeroRim B d i A e x = A e x := by
  unfold zeroRim
  split
  · rw [asgN_of_not]; rintro ⟨-, h, -⟩; omega
  · rfl

omit [NeZero n] in
theorem alngL_out (B : Bnd n) (d : Fin n) (ad : Bool) {m : Int} (h : alngL B d ad m) : m ≤ B.f d - 1 := by
  unfold alngL at h
  split at h
  · omega
  · split at h <;> omega
  · split at h <;> omega
  · split at h <;> omega
  · omega

omit [NeZero n] in
theorem alngR_out (B : Bnd n) (d : Fin n) (ad : Bool) {m : Int} (h : alngR B d ad m) : B.l d ≤ m := by
  unfold alngR at h
  split at h
  · omega
  · split at h <;> omega
  · split at h <;> omega
  · split at h <;> omega
  · omega

theorem fillA_keeps (B : Bnd n) (d : Fin n) (ad : Bool) (A : Vec n K) (c : Fin n) (x : Idx n) (hx : B.f c ≤ x c ∧ x c ≤ B.l c - 1) : fillA B d ad A c x = A c x := by
  have hz : ∀ (b : Bool) (i : Int) (A : Vec n K), (if b = true then zeroRim B d i A else A) c x = A c x := by
    intro b i A; cases b
    · rfl
    · exact zeroRim_keeps B d i A c x hx
  have hz' : ∀ (p : Prop) [Decidable p] (i : Int) (A : Vec n K), (if p then zeroRim B d i A else A) c x = A c x := by
    intro p _ i A
    split
    · exact zeroRim_keeps B d i A c x hx
    · rfl
  unfold fillA
  by_cases hc : c = d
  · subst hc
    simp only [Function.update_self]
    rw [asgN_of_not (by rintro ⟨h, -⟩; have := alngR_out B c ad h; omega), hz']
    simp only [Function.update_self]
    rw [asgN_of_not (by rintro ⟨h, -⟩; have := alngL_out B c ad h; omega), hz']
  · simp only [Function.update_of_ne hc]
    rw [hz']
    simp only [Function.update_of_ne hc]
    rw [hz']

/-- C60, advector components along their own dimension (`xchng_vctr_alng`, also with `ad`): no face between two points of the domain is changed. -/
theorem C60_alng_keeps_inner_faces (B : Bnd n) (ad : Bool) (A : Vec n K) {c : Fin n} {x : Idx n} (hx : InnerFace B.b c x) : xchngAlng B ad A c x = A c x := by
  unfold xchngAlng
  have : ∀ (ds : List (Fin n)) (A : Vec n K), ds.foldl (fun A d => fillA B d ad A) A c x = A c x := by
    intro ds
    induction ds with
    | nil => intro A; rfl
    | cons d ds ih => intro A; rw [List.foldl_cons, ih, fillA_keeps B d ad A c x hx.1]
  exact this _ _

/-- C60, advector components in the other dimensions (`xchng_vctr_nrml`): no face between two points of the domain is changed, nor is any face beyond the ends of its own
dimension as long as it lies in the domain in the others. -/
theorem C60_nrml_keeps_faces (B : Bnd n) (ext : Int) (A : Vec n K) {c : Fin n} {x : Idx n} (hx : ∀ e, e ≠ c → (B.b e).first ≤ x e ∧ x e ≤ (B.b e).last) :
    xchngNrml B ext A c x = A c x := by
  unfold xchngNrml
  have : ∀ (ds : List (Fin n)) (_ : ∀ d ∈ ds, d ≠ c) (a : Sca n K),
      ds.foldl (fun a d => fillN B d (fun _ => ext + 1) (fun e => if e = c then ext else ext + 1) a) a x = a x := by
    intro ds
    induction ds with
    | nil => intro _ a; rfl
    | cons d ds ih =>
      intro hd a
      rw [List.foldl_cons, ih (fun e he => hd e (List.mem_cons_of_mem _ he)), fillN_keeps B d _ _ a x (hx d (hd d List.mem_cons_self))]
  exact this _ (fun d hd => by simpa using hd) _

theorem fillFace_keeps (B : Bnd n) (d : Fin n) (lo hi : Fin n → Int) (vl vr : Sca n K → Sca n K) (a : Sca n K) (x : Idx n) (hx : B.f d ≤ x d ∧ x d ≤ B.l d - 1) :
    fillFace B d lo hi vl vr a x = a x := by
  unfold fillFace
  rw [asgN_of_not (by rintro ⟨h, -⟩; split at h <;> omega), asgN_of_not (by rintro ⟨h, -⟩; split at h <;> omega)]

/-- C60, fluxes (`xchng_flux`) -/
theorem C60_flux_keeps_inner_faces (B : Bnd n) (A : Vec n K) {c : Fin n} {x : Idx n} (hx : InnerFace B.b c x) : xchngFlux B A c x = A c x := by
  have h1 : B.f c ≤ x c ∧ x c ≤ B.l c - 1 := hx.1
  unfold xchngFlux fillFlux
  split
  · rw [asgN_of_not (by rintro ⟨h, -⟩; omega)]
    split
    · rw [asgN_of_not (by rintro ⟨h, -⟩; omega)]
    · rfl
  · split
    · rw [asgN_of_not (by rintro ⟨h, -⟩; omega)]
    · rfl

/-- C60, subgrid-scale fields: the flux-like vectors, the diagonal and the off-diagonal stresses keep their values between points of the domain (off-diagonal stresses of the
dimensions `d`, `e` live between points in both). -/
theorem C60_sgs_keeps_inner_faces (B : Bnd n) (s w v : Sca n K) (di : Fin n → K) (A : Vec n K) (a : Sca n K) {c d : Fin n} {x : Idx n} (hx : InnerFace B.b c x) :
    xchngSgsVctr B s A c x = A c x ∧ xchngSgsTnsrDiag B w v di A c x = A c x ∧
      (InnerFace B.b d x → xchngSgsTnsrOffdiag B c d s a x = a x) := by
  refine ⟨by unfold xchngSgsVctr fillSgsVctr; exact fillFace_keeps B c _ _ _ _ _ x hx.1, by unfold xchngSgsTnsrDiag fillSgsTnsr; exact fillFace_keeps B c _ _ _ _ _ x hx.1,
    fun hd => ?_⟩
  unfold xchngSgsTnsrOffdiag fillSgsVctr
  rw [fillFace_keeps B d _ _ _ _ _ x hd.1, fillFace_keeps B c _ _ _ _ _ x hx.1]

/-- C60, velocity divergence for the compact stress (`xchng_sgs_div`), the part that holds: with cyclic right lateral boundaries the field, which is staggered in the vertical
dimension `v` only, keeps its values inside the domain. Missing: other lateral boundaries, for which it is false (`C60_fails_sgs_div`). -/
theorem C60_sgs_div_keeps_domain_partial (B : Bnd n) (v : Fin n) (lat : List (Fin n)) (hl : ∀ d ∈ lat, d ≠ v ∧ B.kr d = .cyclic) (a : Sca n K) {x : Idx n}
    (hx : InnerFace B.b v x) : xchngSgsDiv B v lat a x = a x := by
  unfold xchngSgsDiv
  have : ∀ (ds : List (Fin n)) (_ : ∀ d ∈ ds, d ≠ v ∧ B.kr d = .cyclic) (a : Sca n K),
      ds.foldl (fun a d => fillSgsDiv B d (fun e => if e = v then 1 else 0) (fun _ => 0) a) a x = a x := by
    intro ds
    induction ds with
    | nil => intro _ a; rfl
    | cons d ds ih =>
      intro hd a
      have h1 := hd d List.mem_cons_self
      have h2 : B.f d ≤ x d ∧ x d ≤ B.l d := hx.2 d h1.1
      rw [List.foldl_cons, ih (fun e he => hd e (List.mem_cons_of_mem _ he))]
      unfold fillSgsDiv
      rw [asgN_of_not (by rintro ⟨h, -⟩; rw [if_pos h1.2] at h; omega), asgN_of_not (by rintro ⟨h, -⟩; split at h <;> omega)]
  rw [this lat hl]
  exact fillFace_keeps B v _ _ _ _ _ x hx.1


/-! ## Nothing stale is left in the halo -/

/-- the domain is at least as wide as the halo plus one point in every dimension; beside a pole the dimension crossed has the points `0 .. 2 pole` and `pole` is not less
than the halo -/
def Wide (B : Bnd n) : Prop :=
  1 ≤ B.halo ∧ (∀ d, B.halo ≤ B.l d - B.f d) ∧
    ∀ d, B.kl d = .polar ∨ B.kr d = .polar → d + 1 ≠ d ∧ B.f (d + 1) = 0 ∧ B.l (d + 1) = 2 * B.pole ∧ B.halo ≤ B.pole

/-- a place the halo value at `x` may be copied from: inside the domain in dimension `d`, unchanged or inside in the others -/
def Src (B : Bnd n) (d : Fin n) (x y : Idx n) : Prop := (B.f d ≤ y d ∧ y d ≤ B.l d) ∧ ∀ e, e ≠ d → y e = x e ∨ (B.f e ≤ y e ∧ y e ≤ B.l e)

omit [NeZero n] in
theorem src_step (B : Bnd n) (d : Fin n) (x : Idx n) (m : Int) (h : B.f d ≤ x d + m ∧ x d + m ≤ B.l d) : Src B d x (stepIdx x d m) :=
  ⟨by rw [stepIdx_self]; exact h, fun e he => Or.inl (stepIdx_other x he m)⟩

theorem polarNb_mem {pole j : Int} (hp : 0 < pole) (hj : -pole ≤ j) : 0 ≤ polarNb pole j ∧ polarNb pole j < 2 * pole := by
  unfold polarNb
  exact ⟨Int.tmod_nonneg _ (by omega), by have := Int.tmod_lt_of_pos (j + pole) (b := 2 * pole) (by omega); exact this⟩

theorem src_pole (B : Bnd n) (hW : Wide B) (d : Fin n) (hd : B.kl d = .polar ∨ B.kr d = .polar) (x : Idx n) (m : Int) (h : B.f d ≤ m ∧ m ≤ B.l d)
    (hx : B.f (d + 1) - B.halo ≤ x (d + 1)) : Src B d x (acrossPole B d m x) := by
  obtain ⟨h1, -, h3⟩ := hW
  obtain ⟨hne, hf, hl, hp⟩ := h3 d hd
  have hnb := polarNb_mem (pole := B.pole) (j := x (d + 1)) (by omega) (by omega)
  refine ⟨?_, fun e he => ?_⟩
  · unfold acrossPole
    rw [stepIdx_other _ hne.symm, stepIdx_self]; omega
  · by_cases hed : e = d + 1
    · subst hed
      right
      unfold acrossPole
      rw [stepIdx_self, stepIdx_other _ he, hf, hl]
      omega
    · left
      unfold acrossPole
      rw [stepIdx_other _ hed, stepIdx_other _ he]

theorem valSL_src (B : Bnd n) (hW : Wide B) (d : Fin n) (dv : Bool) {a a' : Sca n K} {x : Idx n} (hx : B.f d - B.halo ≤ x d ∧ x d ≤ B.f d - 1)
    (ht : B.f (d + 1) - B.halo ≤ x (d + 1)) (h : ∀ y, Src B d x y → a y = a' y) : valSL B d dv a x = valSL B d dv a' x := by
  have hw := hW.2.1 d
  unfold valSL
  split
  · exact h _ (src_step B d x _ (by omega))
  · exact h _ (src_step B d x _ (by omega))
  · exact h _ (src_step B d x _ (by omega))
  · split
    · rfl
    · exact h _ (src_step B d x _ (by omega))
  · rename_i hk
    exact h _ (src_pole B hW d (Or.inl hk) x _ (by omega) ht)

theorem valSR_src (B : Bnd n) (hW : Wide B) (d : Fin n) (dv : Bool) {a a' : Sca n K} {x : Idx n} (hx : B.l d + 1 ≤ x d ∧ x d ≤ B.l d + B.halo)
    (ht : B.f (d + 1) - B.halo ≤ x (d + 1)) (h : ∀ y, Src B d x y → a y = a' y) : valSR B d dv a x = valSR B d dv a' x := by
  have hw := hW.2.1 d
  unfold valSR
  split
  · exact h _ (src_step B d x _ (by omega))
  · exact h _ (src_step B d x _ (by omega))
  · exact h _ (src_step B d x _ (by omega))
  · split
    · rfl
    · exact h _ (src_step B d x _ (by omega))
  · rename_i hk
    exact h _ (src_pole B hW d (Or.inr hk) x _ (by omega) ht)

theorem valNL_src (B : Bnd n) (hW : Wide B) (d : Fin n) {a a' : Sca n K} {x : Idx n} (hx : B.f d - B.halo ≤ x d ∧ x d ≤ B.f d - 1)
    (ht : B.f (d + 1) - B.halo ≤ x (d + 1)) (h : ∀ y, Src B d x y → a y = a' y) : valNL B d a x = valNL B d a' x := by
  have hw := hW.2.1 d
  unfold valNL
  split
  · exact h _ (src_step B d x _ (by omega))
  · exact h _ (src_step B d x _ (by omega))
  · exact h _ (src_step B d x _ (by omega))
  · rfl
  · rename_i hk
    exact h _ (src_pole B hW d (Or.inl hk) x _ (by omega) ht)

theorem valNR_src (B : Bnd n) (hW : Wide B) (d : Fin n) {a a' : Sca n K} {x : Idx n} (hx : B.l d + 1 ≤ x d ∧ x d ≤ B.l d + B.halo)
    (ht : B.f (d + 1) - B.halo ≤ x (d + 1)) (h : ∀ y, Src B d x y → a y = a' y) : valNR B d a x = valNR B d a' x := by
  have hw := hW.2.1 d
  unfold valNR
  split
  · exact h _ (src_step B d x _ (by omega))
  · exact h _ (src_step B d x _ (by omega))
  · exact h _ (src_step B d x _ (by omega))
  · rfl
  · rename_i hk
    exact h _ (src_pole B hW d (Or.inr hk) x _ (by omega) ht)

/-- within the halo everywhere, inside the domain in the dimensions not yet treated -/
def Zone (B : Bnd n) (q : Fin n → Prop) (x : Idx n) : Prop :=
  ∀ e, (B.f e - B.halo ≤ x e ∧ x e ≤ B.l e + B.halo) ∧ (¬ q e → B.f e ≤ x e ∧ x e ≤ B.l e)

theorem zone_src (B : Bnd n) (h1 : 1 ≤ B.halo) {q : Fin n → Prop} {d : Fin n} {x y : Idx n} (hx : Zone B (fun e => q e ∨ e = d) x) (hy : Src B d x y) : Zone B q y := by
  intro e
  by_cases he : e = d
  · subst he
    have := hy.1
    exact ⟨by omega, fun _ => hy.1⟩
  · rcases hy.2 e he with h | h
    · rw [h]
      exact ⟨(hx e).1, fun hq => (hx e).2 (by rintro (h | h); exacts [hq h, he h])⟩
    · exact ⟨by omega, fun _ => h⟩

theorem fillS_fresh (B : Bnd n) (hW : Wide B) (d : Fin n) (dv : Bool) {q : Fin n → Prop} {a a' : Sca n K} (h : ∀ x, Zone B q x → a x = a' x) {x : Idx n}
    (hx : Zone B (fun e => q e ∨ e = d) x) :
    fillS B d (fun _ => B.halo) (fun _ => B.halo) dv a x = fillS B d (fun _ => B.halo) (fun _ => B.halo) dv a' x := by
  have hO : Ot B.b d (fun _ => B.halo) (fun _ => B.halo) x := fun e _ => (hx e).1
  have hxd := (hx d).1
  have ht := (hx (d + 1)).1.1
  have hs : ∀ y, Src B d x y → a y = a' y := fun y hy => h y (zone_src B hW.1 hx hy)
  unfold fillS
  by_cases hR : B.l d + 1 ≤ x d
  · rw [asgN_of ⟨⟨hR, hxd.2⟩, hO⟩, asgN_of ⟨⟨hR, hxd.2⟩, hO⟩]
    refine valSR_src B hW d dv ⟨hR, hxd.2⟩ ht (fun y hy => ?_)
    have := hy.1
    rw [asgN_of_not (by rintro ⟨h, -⟩; omega), asgN_of_not (by rintro ⟨h, -⟩; omega)]
    exact hs y hy
  · by_cases hL : x d ≤ B.f d - 1
    · rw [asgN_of_not (by rintro ⟨h, -⟩; omega), asgN_of ⟨⟨hxd.1, hL⟩, hO⟩, asgN_of_not (by rintro ⟨h, -⟩; omega), asgN_of ⟨⟨hxd.1, hL⟩, hO⟩]
      exact valSL_src B hW d dv ⟨hxd.1, hL⟩ ht hs
    · rw [asgN_of_not (by rintro ⟨h, -⟩; omega), asgN_of_not (by rintro ⟨h, -⟩; omega), asgN_of_not (by rintro ⟨h, -⟩; omega), asgN_of_not (by rintro ⟨h, -⟩; omega)]
      refine h x (fun e => ⟨(hx e).1, fun hq => ?_⟩)
      by_cases he : e = d
      · subst he; omega
      · exact (hx e).2 (by rintro (h | h); exacts [hq h, he h])

theorem xchngS_fresh (B : Bnd n) (hW : Wide B) (dv : Bool) (ds : List (Fin n)) : ∀ {q : Fin n → Prop} {a a' : Sca n K}, (∀ x, Zone B q x → a x = a' x) → ∀ {x : Idx n},
    Zone B (fun e => q e ∨ e ∈ ds) x → xchngSclr B ds B.halo dv a x = xchngSclr B ds B.halo dv a' x := by
  induction ds with
  | nil => intro q a a' h x hx; exact h x (fun e => ⟨(hx e).1, fun hq => (hx e).2 (by simpa using hq)⟩)
  | cons d ds ih =>
    intro q a a' h x hx
    unfold xchngSclr
    rw [List.foldl_cons, List.foldl_cons]
    refine ih (q := fun e => q e ∨ e = d) (fun y hy => fillS_fresh B hW d dv h hy) (fun e => ⟨(hx e).1, fun hq => (hx e).2 ?_⟩)
    simp only [List.mem_cons]
    tauto

/-- C60, scalars: after an exchange over the full halo (dimensions in any order, all of them), every value in the domain and in the halo, corners included, is determined by
the values inside the domain, for every combination of boundary kinds: nothing that was in the halo before survives. -/
theorem C60_sclr_no_stale (B : Bnd n) (hW : Wide B) (ds : List (Fin n)) (hds : ∀ d, d ∈ ds) (dv : Bool) (a a' : Sca n K) (h : ∀ x, InDomain B.b x → a x = a' x) {x : Idx n}
    (hx : WithHalo B.b B.halo x) : xchngSclr B ds B.halo dv a x = xchngSclr B ds B.halo dv a' x :=
  xchngS_fresh B hW dv ds (q := fun _ => False) (fun y hy => h y (fun e => (hy e).2 id)) (fun e => ⟨hx e, fun hq => absurd (Or.inr (hds e)) hq⟩)

/-- C60: exchanging the halos of a scalar a second time changes nothing. -/
theorem C60_sclr_idempotent (B : Bnd n) (hW : Wide B) (ds : List (Fin n)) (hds : ∀ d, d ∈ ds) (dv : Bool) (a : Sca n K) {x : Idx n} (hx : WithHalo B.b B.halo x) :
    xchngSclr B ds B.halo dv (xchngSclr B ds B.halo dv a) x = xchngSclr B ds B.halo dv a x :=
  C60_sclr_no_stale B hW ds hds dv _ _ (fun _ hy => C60_sclr_keeps_domain B ds B.halo dv a hy) hx

/-! ### Advectors -/

/-- within `ext + 1` layers in the dimensions other than `c`, inside the domain in those not yet treated; in dimension `c` between the first and the last filled face -/
def ZoneN (B : Bnd n) (ext : Int) (c : Fin n) (q : Fin n → Prop) (x : Idx n) : Prop :=
  (B.f c - (ext + 1) ≤ x c ∧ x c ≤ B.l c + ext) ∧
    ∀ e, e ≠ c → (B.f e - (ext + 1) ≤ x e ∧ x e ≤ B.l e + (ext + 1)) ∧ (¬ q e → B.f e ≤ x e ∧ x e ≤ B.l e)

theorem fillN_fresh (B : Bnd n) (hW : Wide B) {ext : Int} (h0 : 0 ≤ ext) (hext : ext + 1 ≤ B.halo) {c d : Fin n} (hdc : d ≠ c) {q : Fin n → Prop} {a a' : Sca n K}
    (h : ∀ x, ZoneN B ext c q x → a x = a' x) {x : Idx n} (hx : ZoneN B ext c (fun e => q e ∨ e = d) x) :
    fillN B d (fun _ => ext + 1) (fun e => if e = c then ext else ext + 1) a x = fillN B d (fun _ => ext + 1) (fun e => if e = c then ext else ext + 1) a' x := by
  have hO : Ot B.b d (fun _ => ext + 1) (fun e => if e = c then ext else ext + 1) x := by
    intro e he
    by_cases hec : e = c
    · subst hec; simp only [if_pos]; exact hx.1
    · simp only [if_neg hec]; exact (hx.2 e hec).1
  have hxd := (hx.2 d hdc).1
  have ht : B.f (d + 1) - B.halo ≤ x (d + 1) := by
    by_cases hc : d + 1 = c
    · rw [hc]; have := hx.1; omega
    · have := (hx.2 (d + 1) hc).1; omega
  have hs : ∀ y, Src B d x y → a y = a' y := by
    intro y hy
    refine h y ⟨?_, fun e hec => ?_⟩
    · rcases hy.2 c hdc.symm with h | h
      · rw [h]; exact hx.1
      · omega
    · by_cases he : e = d
      · subst he; have := hy.1; exact ⟨by omega, fun _ => this⟩
      · rcases hy.2 e he with h | h
        · rw [h]; exact ⟨(hx.2 e hec).1, fun hq => (hx.2 e hec).2 (by rintro (h | h); exacts [hq h, he h])⟩
        · exact ⟨by omega, fun _ => h⟩
  unfold fillN
  by_cases hR : B.l d + 1 ≤ x d
  · rw [asgN_of ⟨⟨hR, by omega⟩, hO⟩, asgN_of ⟨⟨hR, by omega⟩, hO⟩]
    refine valNR_src B hW d ⟨hR, by omega⟩ ht (fun y hy => ?_)
    have := hy.1
    rw [asgN_of_not (by rintro ⟨h, -⟩; omega), asgN_of_not (by rintro ⟨h, -⟩; omega)]
    exact hs y hy
  · by_cases hL : x d ≤ B.f d - 1
    · rw [asgN_of_not (by rintro ⟨h, -⟩; omega), asgN_of ⟨⟨by omega, hL⟩, hO⟩, asgN_of_not (by rintro ⟨h, -⟩; omega), asgN_of ⟨⟨by omega, hL⟩, hO⟩]
      exact valNL_src B hW d ⟨by omega, hL⟩ ht hs
    · rw [asgN_of_not (by rintro ⟨h, -⟩; omega), asgN_of_not (by rintro ⟨h, -⟩; omega), asgN_of_not (by rintro ⟨h, -⟩; omega), asgN_of_not (by rintro ⟨h, -⟩; omega)]
      refine h x ⟨hx.1, fun e hec => ⟨(hx.2 e hec).1, fun hq => ?_⟩⟩
      by_cases he : e = d
      · subst he; omega
      · exact (hx.2 e hec).2 (by rintro (h | h); exacts [hq h, he h])

theorem xchngN_fresh (B : Bnd n) (hW : Wide B) {ext : Int} (h0 : 0 ≤ ext) (hext : ext + 1 ≤ B.halo) {c : Fin n} (ds : List (Fin n)) (hds : ∀ d ∈ ds, d ≠ c) :
    ∀ {q : Fin n → Prop} {a a' : Sca n K}, (∀ x, ZoneN B ext c q x → a x = a' x) → ∀ {x : Idx n}, ZoneN B ext c (fun e => q e ∨ e ∈ ds) x →
      ds.foldl (fun a d => fillN B d (fun _ => ext + 1) (fun e => if e = c then ext else ext + 1) a) a x
        = ds.foldl (fun a d => fillN B d (fun _ => ext + 1) (fun e => if e = c then ext else ext + 1) a) a' x := by
  induction ds with
  | nil => intro q a a' h x hx; exact h x ⟨hx.1, fun e he => ⟨(hx.2 e he).1, fun hq => (hx.2 e he).2 (by simpa using hq)⟩⟩
  | cons d ds ih =>
    intro q a a' h x hx
    rw [List.foldl_cons, List.foldl_cons]
    refine ih (fun e he => hds e (List.mem_cons_of_mem _ he)) (q := fun e => q e ∨ e = d)
      (fun y hy => fillN_fresh B hW h0 hext (hds d List.mem_cons_self) h hy) ⟨hx.1, fun e he => ⟨(hx.2 e he).1, fun hq => (hx.2 e he).2 ?_⟩⟩
    simp only [List.mem_cons]
    tauto

/-- C60, advector components in the other dimensions: after `xchng_vctr_nrml` with extension `ext` all faces between points within `ext + 1` layers of the domain are determined
by those that were inside the domain in the other dimensions. -/
theorem C60_nrml_no_stale (B : Bnd n) (hW : Wide B) {ext : Int} (h0 : 0 ≤ ext) (hext : ext + 1 ≤ B.halo) (A A' : Vec n K) {c : Fin n}
    (h : ∀ x, AlongFace B.b (ext + 1) c x → A c x = A' c x) {x : Idx n} (hx : HaloFace B.b (ext + 1) c x) : xchngNrml B ext A c x = xchngNrml B ext A' c x := by
  unfold xchngNrml
  have h1 : (B.b c).first - (ext + 1) ≤ x c ∧ x c ≤ (B.b c).last + (ext + 1) - 1 := hx.1
  refine xchngN_fresh B hW h0 hext _ (fun d hd => by simpa using hd) (q := fun _ => False) (fun y hy => ?_) ⟨⟨h1.1, ?_⟩, fun e he => ⟨hx.2 e he, fun hq => absurd (Or.inr ?_) hq⟩⟩
  · have h2 : (B.b c).first - (ext + 1) ≤ y c ∧ y c ≤ (B.b c).last + ext := hy.1
    exact h y ⟨by omega, fun e he => (hy.2 e he).2 id⟩
  · show x c ≤ (B.b c).last + ext
    omega
  · simpa using he

/-! ### Advector components along their own dimension -/

omit [NeZero n] in
theorem transverse_congr (d : Fin n) {A A' : Vec n K} {y : Idx n} (h : ∀ e, e ≠ d → A e (stepIdx y e (-1)) = A' e (stepIdx y e (-1)) ∧ A e y = A' e y) :
    transverse d A y = transverse d A' y := by
  unfold transverse
  have : ∀ (ds : List (Fin n)) (_ : ∀ e ∈ ds, e ≠ d) (s : K),
      ds.foldl (fun s e => s + (A e (stepIdx y e (-1)) - A e y)) s = ds.foldl (fun s e => s + (A' e (stepIdx y e (-1)) - A' e y)) s := by
    intro ds
    induction ds with
    | nil => intro _ s; rfl
    | cons e ds ih =>
      intro hd s
      rw [List.foldl_cons, List.foldl_cons, (h e (hd e List.mem_cons_self)).1, (h e (hd e List.mem_cons_self)).2]
      exact ih (fun c hc => hd c (List.mem_cons_of_mem _ hc)) _
  exact this _ (fun e he => by simpa using he) _

/-- faces of component `c` inside the domain in the other dimensions; beyond the ends of their own dimension only if it precedes `k` -/
def ZoneA (B : Bnd n) (k : Nat) (c : Fin n) (x : Idx n) : Prop :=
  (B.f c - B.halo ≤ x c ∧ x c ≤ B.l c + B.halo - 1) ∧ (k ≤ c.val → B.f c ≤ x c ∧ x c ≤ B.l c - 1) ∧ ∀ e, e ≠ c → B.f e ≤ x e ∧ x e ≤ B.l e

/-- the condition under which polar boundaries fill the whole halo: they write only the nearest and the furthest face -/
def PolarTwo (B : Bnd n) : Prop := ∀ d, B.kl d = .polar ∨ B.kr d = .polar → B.halo ≤ 2


theorem zeroRim_lower (B : Bnd n) (d : Fin n) (i : Int) (A : Vec n K) {e : Fin n} (h : ¬ d < e) : zeroRim B d i A e = A e := by simp [zeroRim, h]

/-- zeroing the rim keeps agreement in the zone -/
theorem zeroRim_zone (B : Bnd n) (d : Fin n) (i : Int) {A A' : Vec n K} (h : ∀ e, e ≠ d → ∀ x, ZoneA B d.val e x → A e x = A' e x) (e : Fin n) (he : e ≠ d) (x : Idx n)
    (hx : ZoneA B d.val e x) : zeroRim B d i A e x = zeroRim B d i A' e x := by
  by_cases hde : d < e
  · have hi := hx.2.1 (Nat.le_of_lt hde)
    rw [zeroRim_keeps B d i A e x hi, zeroRim_keeps B d i A' e x hi]
    exact h e he x hx
  · rw [zeroRim_lower B d i A hde, zeroRim_lower B d i A' hde]
    exact h e he x hx

/-- after zeroing, also the rim faces of the edge row agree -/
theorem zeroRim_row (B : Bnd n) (h1 : 1 ≤ B.halo) (hw : ∀ c, B.f c < B.l c) (d : Fin n) (i : Int) (hi : B.f d ≤ i ∧ i ≤ B.l d) {A A' : Vec n K}
    (h : ∀ e, e ≠ d → ∀ x, ZoneA B d.val e x → A e x = A' e x) (e : Fin n) (he : e ≠ d) (x : Idx n) (hxd : x d = i)
    (hxe : B.f e - 1 ≤ x e ∧ x e ≤ B.l e) (hx : ∀ c, c ≠ d → c ≠ e → B.f c ≤ x c ∧ x c ≤ B.l c) : zeroRim B d i A e x = zeroRim B d i A' e x := by
  have hdom : ∀ c, c ≠ e → B.f c ≤ x c ∧ x c ≤ B.l c := by
    intro c hc
    by_cases hcd : c = d
    · subst hcd; omega
    · exact hx c hcd hc
  by_cases hde : d < e
  · by_cases hr : x e = B.f e - 1 ∨ x e = B.l e
    · simp only [zeroRim, if_pos hde]
      rw [asgN_of ⟨hxd, hr, hx⟩, asgN_of ⟨hxd, hr, hx⟩]
    · have hin : B.f e ≤ x e ∧ x e ≤ B.l e - 1 := by omega
      rw [zeroRim_keeps B d i A e x hin, zeroRim_keeps B d i A' e x hin]
      exact h e he x ⟨by omega, fun _ => hin, hdom⟩
  · rw [zeroRim_lower B d i A hde, zeroRim_lower B d i A' hde]
    have : e < d := lt_of_le_of_ne (not_lt.1 hde) he
    exact h e he x ⟨by omega, fun hk => absurd hk (by simpa using this), hdom⟩

/-- the transverse inflow into a cell of the edge row -/
theorem transverse_row (B : Bnd n) (h1 : 1 ≤ B.halo) (hw : ∀ c, B.f c < B.l c) (d : Fin n) (i : Int) (hi : B.f d ≤ i ∧ i ≤ B.l d) {A A' : Vec n K}
    (h : ∀ e, e ≠ d → ∀ x, ZoneA B d.val e x → A e x = A' e x) (y : Idx n) (hyd : y d = i) (hy : ∀ c, c ≠ d → B.f c ≤ y c ∧ y c ≤ B.l c) :
    transverse d (zeroRim B d i A) y = transverse d (zeroRim B d i A') y := by
  refine transverse_congr d (fun e he => ⟨?_, ?_⟩)
  · have := hy e he
    refine zeroRim_row B h1 hw d i hi h e he _ ?_ ?_ ?_
    · rw [stepIdx_other y he.symm]; exact hyd
    · rw [stepIdx_self]; omega
    · intro c hcd hce; rw [stepIdx_other y hce]; exact hy c hcd
  · have := hy e he
    exact zeroRim_row B h1 hw d i hi h e he _ hyd (by omega) (fun c hcd _ => hy c hcd)

theorem fillA_fresh (B : Bnd n) (hW : Wide B) (hP : PolarTwo B) (d : Fin n) {A A' : Vec n K} (h : ∀ c x, ZoneA B d.val c x → A c x = A' c x) (c : Fin n) (x : Idx n)
    (hx : ZoneA B (d.val + 1) c x) : fillA B d false A c x = fillA B d false A' c x := by
  have h1 := hW.1
  have hwd := fun c => hW.2.1 c
  have hw : ∀ c, B.f c < B.l c := fun c => by have := hwd c; omega
  by_cases hin : B.f c ≤ x c ∧ x c ≤ B.l c - 1
  · rw [fillA_keeps B d false A c x hin, fillA_keeps B d false A' c x hin]
    exact h c x ⟨hx.1, fun _ => hin, hx.2.2⟩
  have hcd : c.val < d.val + 1 := by
    by_contra hc
    exact hin (hx.2.1 (not_lt.1 hc))
  -- components other than `d`
  have hH : ∀ e, e ≠ d → ∀ x, ZoneA B d.val e x → A e x = A' e x := fun e _ x hx => h e x hx
  by_cases hc : c = d
  swap
  · have hlt : ¬ d < c := by intro hdc; have : d.val < c.val := hdc; omega
    unfold fillA
    simp only [Function.update_of_ne hc]
    have hz : ∀ (p : Prop) [Decidable p] (i : Int) (A : Vec n K), (if p then zeroRim B d i A else A) c = A c := by
      intro p _ i A
      split
      · exact zeroRim_lower B d i A hlt
      · rfl
    rw [hz, hz]
    simp only [Function.update_of_ne hc]
    rw [hz, hz]
    exact h c x ⟨hx.1, fun hk => absurd hk (by omega), hx.2.2⟩
  subst hc
  have hO : Ot B.b c (fun _ => 0) (fun _ => 0) x := by
    intro e he
    have : (B.b e).first ≤ x e ∧ x e ≤ (B.b e).last := hx.2.2 e he
    simpa using this
  have ht : ∀ e, e ≠ c → B.f e - B.halo ≤ x e := fun e he => by have := hx.2.2 e he; omega
  -- the intermediate states
  set A1 : Vec n K := if B.kl c = .opened then zeroRim B c (B.f c) A else A with hA1
  set A1' : Vec n K := if B.kl c = .opened then zeroRim B c (B.f c) A' else A' with hA1'
  have hself : ∀ (p : Prop) [Decidable p] (i : Int) (A : Vec n K), (if p then zeroRim B c i A else A) c = A c := by
    intro p _ i A
    split
    · exact zeroRim_lower B c i A (lt_irrefl _)
    · rfl
  have hd1 : A1 c = A c := hself _ _ _
  have hd1' : A1' c = A' c := hself _ _ _
  have hH1 : ∀ e, e ≠ c → ∀ x, ZoneA B c.val e x → A1 e x = A1' e x := by
    intro e he y hy
    rw [hA1, hA1']
    split
    · exact zeroRim_zone B c _ hH e he y hy
    · exact hH e he y hy
  have hinner : ∀ y, Src B c x y → y c ≤ B.l c - 1 → A c y = A' c y := by
    intro y hy hyl
    refine h c y ⟨by have := hy.1; omega, fun _ => ⟨hy.1.1, hyl⟩, fun e he => ?_⟩
    rcases hy.2 e he with h | h
    · rw [h]; exact hx.2.2 e he
    · exact h
  have hpole : ∀ m, (B.kl c = .polar ∨ B.kr c = .polar) → B.f c ≤ m → m ≤ B.l c - 1 → A c (acrossPole B c m x) = A' c (acrossPole B c m x) := by
    intro m hk hm1 hm2
    have hne : c + 1 ≠ c := (hW.2.2 c hk).1
    have hs := src_pole B hW c hk x m (by omega) (ht _ hne)
    refine hinner _ hs ?_
    unfold acrossPole
    rw [stepIdx_other _ hne.symm, stepIdx_self]; omega
  have hfill : ∀ A A1 : Vec n K, A1 = (if B.kl c = .opened then zeroRim B c (B.f c) A else A) → fillA B c false A c x =
      asgN (fun x => alngR B c false (x c) ∧ Ot B.b c (fun _ => 0) (fun _ => 0) x)
        (valAR B c false (if B.kr c = .opened then zeroRim B c (B.l c) (Function.update A1 c (asgN (fun x => alngL B c false (x c) ∧ Ot B.b c (fun _ => 0) (fun _ => 0) x) (valAL B c A1) (A1 c)))
          else (Function.update A1 c (asgN (fun x => alngL B c false (x c) ∧ Ot B.b c (fun _ => 0) (fun _ => 0) x) (valAL B c A1) (A1 c)))))
        (asgN (fun x => alngL B c false (x c) ∧ Ot B.b c (fun _ => 0) (fun _ => 0) x) (valAL B c A1) (A1 c)) x := by
    intro A A1 hA
    unfold fillA
    rw [← hA]
    simp only [Function.update_self, hself]
  rw [hfill A A1 hA1, hfill A' A1' hA1']
  have hxc := hx.1
  by_cases hL : x c ≤ B.f c - 1
  · -- left halo
    have hr : ¬ (alngR B c false (x c) ∧ Ot B.b c (fun _ => 0) (fun _ => 0) x) := by
      rintro ⟨h, -⟩; have := alngR_out B c false h; have := hw c; omega
    have hl : alngL B c false (x c) := by
      have hp := hP c
      unfold alngL
      split
      · omega
      · simp; omega
      · simp; omega
      · simp; omega
      · rename_i hk
        have := hp (Or.inl hk)
        by_cases hxf : x c = B.f c - 1
        · exact Or.inl ⟨rfl, hxf⟩
        · exact Or.inr ⟨by omega, by omega⟩
    rw [asgN_of_not hr, asgN_of ⟨hl, hO⟩, asgN_of_not hr, asgN_of ⟨hl, hO⟩]
    have hwc := hwd c
    unfold valAL
    rw [hd1, hd1']
    split
    · exact hinner _ (src_step B c x _ (by omega)) (by rw [stepIdx_self]; omega)
    · rw [hinner _ (src_step B c x _ (by omega)) (by rw [stepIdx_self]; omega)]
    · rw [hinner _ (src_step B c x _ (by omega)) (by rw [stepIdx_self]; omega)]
    · rename_i hk
      rw [hinner _ (src_step B c x _ (by omega)) (by rw [stepIdx_self]; omega), hA1, hA1', if_pos hk, if_pos hk,
        transverse_row B h1 hw c (B.f c) (by have := hw c; omega) hH _ (by rw [stepIdx_self]; omega)
          (fun e he => by rw [stepIdx_other x he]; exact hx.2.2 e he)]
    · rename_i hk
      rw [hpole _ (Or.inl hk) (le_refl _) (by have := hw c; omega)]
  · -- right halo
    have hxl : B.l c ≤ x c := by omega
    have hr : alngR B c false (x c) := by
      have hp := hP c
      unfold alngR
      split
      · omega
      · simp; omega
      · simp; omega
      · simp; omega
      · rename_i hk
        have := hp (Or.inr hk)
        by_cases hxf : x c = B.l c
        · exact Or.inl ⟨rfl, hxf⟩
        · exact Or.inr ⟨by omega, by omega⟩
    rw [asgN_of ⟨hr, hO⟩, asgN_of ⟨hr, hO⟩]
    -- component `c` at inner faces is that of `A`
    have hin2 : ∀ (A1 : Vec n K) (y : Idx n), B.f c ≤ y c →
        asgN (fun x => alngL B c false (x c) ∧ Ot B.b c (fun _ => 0) (fun _ => 0) x) (valAL B c A1) (A1 c) y = A1 c y := by
      intro A1 y hy
      rw [asgN_of_not]
      rintro ⟨h, -⟩; have := alngL_out B c false h; omega
    have hwc := hwd c
    have key : ∀ y, Src B c x y → y c ≤ B.l c - 1 →
        asgN (fun x => alngL B c false (x c) ∧ Ot B.b c (fun _ => 0) (fun _ => 0) x) (valAL B c A1) (A1 c) y
          = asgN (fun x => alngL B c false (x c) ∧ Ot B.b c (fun _ => 0) (fun _ => 0) x) (valAL B c A1') (A1' c) y := by
      intro y hy hyl
      rw [hin2 A1 y hy.1.1, hin2 A1' y hy.1.1, hd1, hd1']
      exact hinner y hy hyl
    unfold valAR
    simp only [hself, Function.update_self]
    split
    · exact key _ (src_step B c x _ (by omega)) (by rw [stepIdx_self]; omega)
    · simp only [Bool.false_eq_true, if_false]
      rw [key _ (src_step B c x _ (by omega)) (by rw [stepIdx_self]; omega)]
    · simp only [Bool.false_eq_true, if_false]
      rw [key _ (src_step B c x _ (by omega)) (by rw [stepIdx_self]; omega)]
    · rename_i hk
      rw [key _ (src_step B c x _ (by omega)) (by rw [stepIdx_self]; omega), if_pos hk, if_pos hk]
      congr 1
      refine transverse_row B h1 hw c (B.l c) (by have := hw c; omega) (fun e he y hy => ?_) _ (by rw [stepIdx_self]; omega)
        (fun e he => by rw [stepIdx_other x he]; exact hx.2.2 e he)
      rw [Function.update_of_ne he, Function.update_of_ne he]
      exact hH1 e he y hy
    · rename_i hk
      have hne : c + 1 ≠ c := (hW.2.2 c (Or.inr hk)).1
      have hs := src_pole B hW c (Or.inr hk) x (B.l c - 1) (by omega) (ht _ hne)
      rw [key _ hs (by unfold acrossPole; rw [stepIdx_other _ hne.symm, stepIdx_self]; omega)]

theorem finRange_foldl {α : Type} (F : α → Fin n → α) (R : Nat → α → α → Prop) (hF : ∀ (d : Fin n) a a', R d.val a a' → R (d.val + 1) (F a d) (F a' d)) {a a' : α}
    (h : R 0 a a') : R n ((List.finRange n).foldl F a) ((List.finRange n).foldl F a') := by
  have : ∀ (m : Nat) (hm : m ≤ n), R m (((List.finRange n).take m).foldl F a) (((List.finRange n).take m).foldl F a') := by
    intro m
    induction m with
    | zero => intro _; simpa using h
    | succ m ih =>
      intro hm
      have hlen : m < (List.finRange n).length := by simpa using hm
      rw [List.take_succ_eq_append_getElem hlen, List.foldl_append, List.foldl_append]
      have := hF ⟨m, hm⟩ _ _ (ih (Nat.le_of_succ_le hm))
      simpa using this
  have := this n (le_refl _)
  rwa [List.take_of_length_le (by simp)] at this

/-- C60, advector components along their own dimension: after `xchng_vctr_alng` every face of the halo in line with the domain is determined by the faces between points of the
domain, for every combination of boundary kinds (open boundaries use the transverse components; polar boundaries fill the whole halo only up to two layers, `PolarTwo`). -/
theorem C60_alng_no_stale (B : Bnd n) (hW : Wide B) (hP : PolarTwo B) (A A' : Vec n K) (h : ∀ c x, InnerFace B.b c x → A c x = A' c x) {c : Fin n} {x : Idx n}
    (hx : AlongFace B.b B.halo c x) : xchngAlng B false A c x = xchngAlng B false A' c x := by
  have := finRange_foldl (n := n) (fun A d => fillA B d false A) (fun k A A' => ∀ c x, ZoneA B k c x → A c x = A' c x)
    (fun d A A' h c x hx => fillA_fresh B hW hP d h c x hx) (a := A) (a' := A')
    (fun c x hx => h c x ⟨hx.2.1 (Nat.zero_le _), hx.2.2⟩)
  exact this c x ⟨hx.1, fun hk => absurd hk (by have := c.isLt; omega), hx.2⟩

/-- C60: after the preparation of the advector at the start of a run (`xchng_vctr_alng` then `xchng_vctr_nrml` over the rest of the halo) every face in the halo, corners
included, is determined by the faces between points of the domain. -/
theorem C60_advector_no_stale (B : Bnd n) (hW : Wide B) (hP : PolarTwo B) (A A' : Vec n K) (h : ∀ c x, InnerFace B.b c x → A c x = A' c x) {c : Fin n} {x : Idx n}
    (hx : HaloFace B.b B.halo c x) : xchngNrml B (B.halo - 1) (xchngAlng B false A) c x = xchngNrml B (B.halo - 1) (xchngAlng B false A') c x := by
  have h1 := hW.1
  refine C60_nrml_no_stale B hW (by omega) (by omega) _ _ (fun y hy => ?_) (by rw [show B.halo - 1 + 1 = B.halo by omega]; exact hx)
  rw [show B.halo - 1 + 1 = B.halo by omega] at hy
  exact C60_alng_no_stale B hW hP A A' h hy

/-! ### Pressure -/

/-- the pressure exchange fills the whole halo: no polar boundary (they have no pressure filling); an open one fills two layers (one on the left in 2-D) -/
def PresFilled (B : Bnd n) : Prop :=
  (∀ d, B.kl d ≠ .polar ∧ B.kr d ≠ .polar) ∧ (∀ d, B.kl d = .opened → B.halo ≤ if n = 2 then 1 else 2) ∧ ∀ d, B.kr d = .opened → B.halo ≤ 2

theorem fillP_fresh (B : Bnd n) (hW : Wide B) (hP : PresFilled B) (d : Fin n) {q : Fin n → Prop} {a a' : Sca n K} (h : ∀ x, Zone B q x → a x = a' x) {x : Idx n}
    (hx : Zone B (fun e => q e ∨ e = d) x) : fillP B d (fun _ => B.halo) (fun _ => B.halo) a x = fillP B d (fun _ => B.halo) (fun _ => B.halo) a' x := by
  have h1 := hW.1
  have hw := hW.2.1 d
  have hO : Ot B.b d (fun _ => B.halo) (fun _ => B.halo) x := fun e _ => (hx e).1
  have hxd := (hx d).1
  have hs : ∀ y, Src B d x y → a y = a' y := fun y hy => h y (zone_src B hW.1 hx hy)
  have hdL : presDepthL B d = B.halo := by
    unfold presDepthL
    split
    · rename_i hk
      have := hP.2.1 d hk
      split at this
      · rename_i hn; rw [if_pos hn]; omega
      · rename_i hn; rw [if_neg hn]; omega
    · rfl
  have hdR : presDepthR B d = B.halo := by
    unfold presDepthR
    split
    · rename_i hk
      have := hP.2.2 d hk
      omega
    · rfl
  unfold fillP
  rw [hdL, hdR]
  by_cases hR : B.l d + 1 ≤ x d
  · rw [asgN_of ⟨⟨hR, hxd.2⟩, hO⟩, asgN_of ⟨⟨hR, hxd.2⟩, hO⟩]
    have key : ∀ y, Src B d x y → asgN (fun x => (B.f d - B.halo ≤ x d ∧ x d ≤ B.f d - 1) ∧ Ot B.b d (fun _ => B.halo) (fun _ => B.halo) x) (valPL B d a) a y
        = asgN (fun x => (B.f d - B.halo ≤ x d ∧ x d ≤ B.f d - 1) ∧ Ot B.b d (fun _ => B.halo) (fun _ => B.halo) x) (valPL B d a') a' y := by
      intro y hy
      have := hy.1
      rw [asgN_of_not (by rintro ⟨h, -⟩; omega), asgN_of_not (by rintro ⟨h, -⟩; omega)]
      exact hs y hy
    unfold valPR
    split
    · exact key _ (src_step B d x _ (by omega))
    · rw [key _ (src_step B d x _ (by omega)), key _ (src_step B d x _ (by omega))]
    · rw [key _ (src_step B d x _ (by omega)), key _ (src_step B d x _ (by omega))]
    · rw [key _ (src_step B d x _ (by omega)), key _ (src_step B d x _ (by omega))]
    · rename_i hk; exact absurd hk (hP.1 d).2
  · by_cases hL : x d ≤ B.f d - 1
    · rw [asgN_of_not (by rintro ⟨h, -⟩; omega), asgN_of ⟨⟨hxd.1, hL⟩, hO⟩, asgN_of_not (by rintro ⟨h, -⟩; omega), asgN_of ⟨⟨hxd.1, hL⟩, hO⟩]
      unfold valPL
      split
      · exact hs _ (src_step B d x _ (by omega))
      · rw [hs _ (src_step B d x _ (by omega)), hs _ (src_step B d x _ (by omega))]
      · rw [hs _ (src_step B d x _ (by omega)), hs _ (src_step B d x _ (by omega))]
      · rw [hs _ (src_step B d x _ (by omega)), hs _ (src_step B d x _ (by omega))]
      · rename_i hk; exact absurd hk (hP.1 d).1
    · rw [asgN_of_not (by rintro ⟨h, -⟩; omega), asgN_of_not (by rintro ⟨h, -⟩; omega), asgN_of_not (by rintro ⟨h, -⟩; omega), asgN_of_not (by rintro ⟨h, -⟩; omega)]
      refine h x (fun e => ⟨(hx e).1, fun hq => ?_⟩)
      by_cases he : e = d
      · subst he; omega
      · exact (hx e).2 (by rintro (h | h); exacts [hq h, he h])

/-- C60, pressure: after an exchange over the full halo every value is determined by the values inside the domain, wherever the fillings reach the whole halo. Missing: open
boundaries with wider halos, for which it is false (`C60_fails_pres_open_left`). -/
theorem C60_pres_no_stale_partial (B : Bnd n) (hW : Wide B) (hP : PresFilled B) (ds : List (Fin n)) (hds : ∀ d, d ∈ ds) (a a' : Sca n K)
    (h : ∀ x, InDomain B.b x → a x = a' x) {x : Idx n} (hx : WithHalo B.b B.halo x) : xchngPres B ds B.halo a x = xchngPres B ds B.halo a' x := by
  have main : ∀ (ds : List (Fin n)) {q : Fin n → Prop} {a a' : Sca n K}, (∀ x, Zone B q x → a x = a' x) → ∀ {x : Idx n},
      Zone B (fun e => q e ∨ e ∈ ds) x → xchngPres B ds B.halo a x = xchngPres B ds B.halo a' x := by
    intro ds
    induction ds with
    | nil => intro q a a' h x hx; exact h x (fun e => ⟨(hx e).1, fun hq => (hx e).2 (by simpa using hq)⟩)
    | cons d ds ih =>
      intro q a a' h x hx
      unfold xchngPres
      rw [List.foldl_cons, List.foldl_cons]
      refine ih (q := fun e => q e ∨ e = d) (fun y hy => fillP_fresh B hW hP d h hy) (fun e => ⟨(hx e).1, fun hq => (hx e).2 ?_⟩)
      simp only [List.mem_cons]
      tauto
  exact main ds (q := fun _ => False) (fun y hy => h y (fun e => (hy e).2 id)) (fun e => ⟨hx e, fun hq => absurd (Or.inr (hds e)) hq⟩)


/-! ## Values on the boundary of subgrid-scale fields -/

/-- C60, stresses and fluxes at walls: after the filling of a face field in dimension `d`, its average across the left edge is zero at a rigid wall and the prescribed surface
value at the ground; across the right edge it is zero at a rigid wall and at the sky. `x` is a point of the left (right) edge. -/
theorem C60_sgs_vctr_edge_values (B : Bnd n) (d : Fin n) (lo hi : Fin n → Int) (s a : Sca n K) (hw : B.f d < B.l d) {x : Idx n} (hx : Ot B.b d lo hi x) :
    (B.kl d = .rigid → x d = B.f d → fillSgsVctr B d lo hi s a (stepIdx x d (-1)) + fillSgsVctr B d lo hi s a x = 0) ∧
    (B.kl d = .gndsky → x d = B.f d → fillSgsVctr B d lo hi s a (stepIdx x d (-1)) + fillSgsVctr B d lo hi s a x = 2 * s x) ∧
    (B.kr d = .rigid ∨ B.kr d = .gndsky → x d = B.l d → fillSgsVctr B d lo hi s a (stepIdx x d (-1)) + fillSgsVctr B d lo hi s a x = 0) := by
  have hO : ∀ m, Ot B.b d lo hi (stepIdx x d m) := fun m e he => by rw [stepIdx_other x he]; exact hx e he
  have hback : stepIdx (stepIdx x d (-1)) d 1 = x := by funext e; by_cases he : e = d <;> simp [stepIdx, he]
  have hleft : B.kl d ≠ .cyclic → x d = B.f d → fillSgsVctr B d lo hi s a (stepIdx x d (-1)) =
      if B.kl d = .gndsky then 2 * s x - a x else -a x := by
    intro hk hxd
    unfold fillSgsVctr fillFace
    rw [asgN_of_not (by rintro ⟨h, -⟩; rw [stepIdx_self] at h; split at h <;> omega),
      asgN_of ⟨by rw [if_neg hk, stepIdx_self]; omega, hO _⟩, if_neg hk]
    beta_reduce
    rw [hback]
  have hin : x d = B.f d → fillSgsVctr B d lo hi s a x = a x := fun hxd => fillFace_keeps B d _ _ _ _ a x (by omega)
  refine ⟨fun hk hxd => ?_, fun hk hxd => ?_, fun hk hxd => ?_⟩
  · rw [hleft (by rw [hk]; decide) hxd, hin hxd, hk, if_neg (by decide)]; ring
  · rw [hleft (by rw [hk]; decide) hxd, hin hxd, hk, if_pos rfl]; ring
  · have hc : B.kr d ≠ .cyclic := by rcases hk with h | h <;> rw [h] <;> decide
    have h1 : fillSgsVctr B d lo hi s a (stepIdx x d (-1)) = a (stepIdx x d (-1)) := fillFace_keeps B d _ _ _ _ a _ (by rw [stepIdx_self]; omega)
    have h2 : fillSgsVctr B d lo hi s a x = -a (stepIdx x d (-1)) := by
      unfold fillSgsVctr fillFace
      rw [asgN_of ⟨by rw [if_neg hc]; exact hxd, hx⟩, if_neg hc]
      beta_reduce
      rw [asgN_of_not (by rintro ⟨h, -⟩; rw [stepIdx_self] at h; split at h <;> omega)]
    rw [h1, h2]; ring

/-- C60, fluxes at walls: the mean of the fluxes through the faces on the two sides of a wall point is zero -/
theorem C60_flux_edge_values (B : Bnd n) (A : Vec n K) (d : Fin n) (hw : B.f d < B.l d) {x : Idx n} (hx : ∀ e, e ≠ d → (B.b e).Mem (x e)) :
    (B.kl d = .rigid ∨ B.kl d = .gndsky → x d = B.f d → xchngFlux B A d (stepIdx x d (-1)) + xchngFlux B A d x = 0) ∧
    (B.kr d = .rigid ∨ B.kr d = .gndsky → x d = B.l d → xchngFlux B A d (stepIdx x d (-1)) + xchngFlux B A d x = 0) := by
  have hO : ∀ m, Ot B.b d (fun _ => 0) (fun _ => 0) (stepIdx x d m) := fun m e he => by
    rw [stepIdx_other x he]
    have := hx e he
    exact ⟨by simpa using this.1, by simpa using this.2⟩
  have hO' : Ot B.b d (fun _ => 0) (fun _ => 0) x := by
    have := hO 0
    rwa [show stepIdx x d 0 = x from by funext e; by_cases he : e = d <;> simp [stepIdx, he]] at this
  have hself : ∀ m, stepIdx x d m d = x d + m := fun m => by simp [stepIdx]
  have hback : stepIdx (stepIdx x d (-1)) d 1 = x := by funext e; by_cases he : e = d <;> simp [stepIdx, he]
  constructor
  · intro hk hxd
    have h1 : xchngFlux B A d x = A d x := by
      unfold xchngFlux fillFlux
      rw [if_pos hk]
      split
      · rw [asgN_of_not (by rintro ⟨h, -⟩; omega), asgN_of_not (by rintro ⟨h, -⟩; omega)]
      · rw [asgN_of_not (by rintro ⟨h, -⟩; omega)]
    have h2 : xchngFlux B A d (stepIdx x d (-1)) = -A d x := by
      unfold xchngFlux fillFlux
      rw [if_pos hk]
      have : asgN (fun x => x d = B.f d - 1 ∧ Ot B.b d (fun _ => 0) (fun _ => 0) x) (fun x => -A d (stepIdx x d 1)) (A d) (stepIdx x d (-1)) = -A d x := by
        rw [asgN_of (by exact ⟨by rw [hself]; omega, hO _⟩), hback]
      split
      · rw [asgN_of_not (by rintro ⟨h, -⟩; rw [hself] at h; omega)]; exact this
      · exact this
    rw [h1, h2]; ring
  · intro hk hxd
    unfold xchngFlux fillFlux
    simp only [if_pos hk]
    rw [asgN_of_not (by rintro ⟨h, -⟩; rw [hself] at h; omega), asgN_of (by exact ⟨hxd, hO'⟩)]
    ring

/-- C60, diagonal stress at the ground: if at the two lowest faces the stress is `2 (dw/dz - div)` and the divergence below the ground is extrapolated linearly, the
value rebuilt at the ground is the linear extrapolation of the stress, as at a rigid wall. -/
theorem C60_ground_tnsr_extrapolates (B : Bnd n) (d : Fin n) (u v a : Sca n K) (di : K) (hk : B.kl d = .gndsky) (hw : B.f d < B.l d) {x : Idx n}
    (hx : Ot B.b d (fun _ => 0) (fun _ => 0) x) (hxd : x d = B.f d - 1) (hv : v x = 2 * v (stepIdx x d 1) - v (stepIdx x d 2))
    (ha : ∀ m : Int, m = 1 ∨ m = 2 → a (stepIdx x d m) = 2 * ((u (stepIdx x d (m + 1)) - u (stepIdx x d m)) / di - v (stepIdx x d m))) :
    fillSgsTnsr B d u v di a x = 2 * a (stepIdx x d 1) - a (stepIdx x d 2) := by
  unfold fillSgsTnsr fillFace
  rw [asgN_of_not (by rintro ⟨h, -⟩; split at h <;> omega), asgN_of ⟨by rw [if_neg (by rw [hk]; decide)]; exact hxd, hx⟩, if_neg (by rw [hk]; decide)]
  beta_reduce
  rw [if_pos hk,
    ha 1 (Or.inl rfl), ha 2 (Or.inr rfl), hv]
  rw [show (1 : Int) + 1 = 2 from rfl, show (2 : Int) + 1 = 3 from rfl]
  by_cases hdi : di = 0
  · subst hdi; simp; ring
  · field_simp; ring

end

/-! ## Where the claims fail, and concrete cases -/

/-- a box of 4 x 4 points, rigid walls on all sides -/
def boxRigid : Bnd 2 := ⟨fun _ => .rigid, fun _ => .rigid, fun _ => ⟨0, 3⟩, 1, 0⟩

/-- C60 fails for the velocity divergence of the compact stress with lateral walls: the right boundary treats the cell-centred lateral direction like the staggered vertical one
and overwrites the last column of the domain (`rght_edge_sclr + h` is the index of the edge itself, rigid_2d.hpp:170-174, called by solver_2d.hpp:110-111). -/
theorem C60_fails_sgs_div : ∃ (a : Sca 2 ℚ) (x : Idx 2), InnerFace boxRigid.b 1 x ∧ xchngSgsDiv boxRigid 1 [0] a x ≠ a x := by
  refine ⟨fun x => if x 0 = 3 then 1 else 0, ![3, 1], ⟨by decide, by decide⟩, ?_⟩
  decide +kernel

/-- a box with open boundaries on all sides and a halo of two -/
def boxOpen : Bnd 2 := ⟨fun _ => .opened, fun _ => .opened, fun _ => ⟨0, 3⟩, 2, 0⟩

/-- C60 fails for the pressure with open boundaries in 2-D: two layers of halo are exchanged, but on the left only the nearest is filled (the statement for the second one
stands in `set_edge_pres`, open_2d.hpp:67-71), so the old content of the second layer survives. -/
theorem C60_fails_pres_open_left : ∃ (a a' : Sca 2 ℚ) (x : Idx 2), (∀ y, InDomain boxOpen.b y → a y = a' y) ∧ WithHalo boxOpen.b boxOpen.halo x ∧
    xchngPres boxOpen [0, 1] 2 a x ≠ xchngPres boxOpen [0, 1] 2 a' x := by
  refine ⟨fun _ => 0, fun y => if y 0 = -2 then 1 else 0, ![-2, 1], fun y hy => ?_, by unfold WithHalo; decide, by decide +kernel⟩
  have : (0 : Int) ≤ y 0 := (hy 0).1
  simp only
  rw [if_neg (by omega)]

/-- a channel: walls across the second dimension, open inflow and outflow across the first, halo 2 -/
def channel : Bnd 2 := ⟨fun d => if d = 0 then .opened else .rigid, fun d => if d = 0 then .opened else .rigid, fun _ => ⟨0, 5⟩, 2, 0⟩

/-- the sphere: cyclic in longitude (8 points and their repetition), poles in latitude -/
def sphere : Bnd 2 := ⟨fun d => if d = 0 then .cyclic else .polar, fun d => if d = 0 then .cyclic else .polar, fun d => if d = 0 then ⟨0, 8⟩ else ⟨0, 5⟩, 2, 4⟩

/-- an atmosphere in a box: cyclic in the first, walls in the second dimension, ground and sky in the third -/
def atmosphere : Bnd 3 := ⟨fun d => if d = 0 then .cyclic else if d = 1 then .rigid else .gndsky, fun d => if d = 0 then .cyclic else if d = 1 then .rigid else .gndsky,
  fun _ => ⟨0, 7⟩, 3, 0⟩

theorem channel_wide : Wide channel := by unfold Wide; decide
theorem sphere_wide : Wide sphere := by unfold Wide; decide
theorem atmosphere_wide : Wide atmosphere := by unfold Wide; decide

example (a a' : Sca 2 ℚ) (h : ∀ x, InDomain channel.b x → a x = a' x) : xchngSclr channel [0, 1] 2 false a ![-2, 7] = xchngSclr channel [0, 1] 2 false a' ![-2, 7] :=
  C60_sclr_no_stale channel channel_wide [0, 1] (by decide) false a a' h (by unfold WithHalo; decide)
example (a a' : Sca 2 ℚ) (h : ∀ x, InDomain sphere.b x → a x = a' x) : xchngSclr sphere [0, 1] 2 false a ![10, -2] = xchngSclr sphere [0, 1] 2 false a' ![10, -2] :=
  C60_sclr_no_stale sphere sphere_wide [0, 1] (by decide) false a a' h (by unfold WithHalo; decide)
example (a : Sca 3 ℚ) : xchngSclr atmosphere [1, 0, 2] 3 false (xchngSclr atmosphere [1, 0, 2] 3 false a) ![-3, 10, -1] = xchngSclr atmosphere [1, 0, 2] 3 false a ![-3, 10, -1] :=
  C60_sclr_idempotent atmosphere atmosphere_wide [1, 0, 2] (by decide) false a (by unfold WithHalo; decide)
example (A A' : Vec 2 ℚ) (h : ∀ c x, InnerFace channel.b c x → A c x = A' c x) :
    xchngNrml channel 1 (xchngAlng channel false A) 0 ![-2, 7] = xchngNrml channel 1 (xchngAlng channel false A') 0 ![-2, 7] :=
  C60_advector_no_stale channel channel_wide (by unfold PolarTwo; decide) A A' h ⟨by decide, by decide⟩
example (A A' : Vec 2 ℚ) (h : ∀ c x, InnerFace sphere.b c x → A c x = A' c x) : xchngAlng sphere false A 1 ![3, -2] = xchngAlng sphere false A' 1 ![3, -2] :=
  C60_alng_no_stale sphere sphere_wide (by unfold PolarTwo; decide) A A' h ⟨by decide, by decide⟩
example (a a' : Sca 3 ℚ) (h : ∀ x, InDomain atmosphere.b x → a x = a' x) : xchngPres atmosphere [0, 1, 2] 3 a ![-3, 10, -1] = xchngPres atmosphere [0, 1, 2] 3 a' ![-3, 10, -1] :=
  C60_pres_no_stale_partial atmosphere atmosphere_wide (by unfold PresFilled; decide) [0, 1, 2] (by decide) a a' h (by unfold WithHalo; decide)
example (a : Sca 2 ℚ) : xchngSclr channel [0, 1] 2 true a ![5, 0] = a ![5, 0] := C60_sclr_keeps_domain channel [0, 1] 2 true a (by unfold InDomain; decide)
example (A : Vec 2 ℚ) : xchngAlng sphere true A 1 ![8, 4] = A 1 ![8, 4] := C60_alng_keeps_inner_faces sphere true A ⟨by decide, by decide⟩
example (a : Sca 2 ℚ) : xchngSgsDiv ⟨fun _ => .cyclic, fun _ => .cyclic, fun _ => ⟨0, 3⟩, 1, 0⟩ 1 [0] a ![3, 1] = a ![3, 1] :=
  C60_sgs_div_keeps_domain_partial _ 1 [0] (by decide) a ⟨by decide, by decide⟩
/-- the prescribed surface stress 5 at the ground of the atmosphere -/
example (a : Sca 3 ℚ) : fillSgsVctr atmosphere 2 (fun _ => 0) (fun _ => 0) (fun _ => 5) a (stepIdx ![1, 1, 0] 2 (-1)) +
    fillSgsVctr atmosphere 2 (fun _ => 0) (fun _ => 0) (fun _ => 5) a ![1, 1, 0] = 2 * 5 :=
  (C60_sgs_vctr_edge_values atmosphere 2 _ _ (fun _ => 5) a (by decide) (by unfold Ot; decide)).2.1 rfl rfl

/-- C60: the diagonal stress below the ground does not depend on the stress it is computed beside. `multiply_sgs_visc` multiplies the deformation by the viscosity `eta` and
exchanges again (mpdata_rhs_vip_prs_sgs_dns.hpp:29-34); at a rigid wall the refilled value is `eta` times the one before, at the ground it is the unmultiplied deformation. -/
theorem C60_ground_tnsr_ignores_viscosity : ∃ (B : Bnd 2) (u v a : Sca 2 ℚ) (eta : ℚ) (x : Idx 2), x 1 = B.f 1 - 1 ∧ Ot B.b 1 (fun _ => 0) (fun _ => 0) x ∧ eta ≠ 1 ∧
    fillSgsTnsr B 1 u v 1 (fun y => eta * a y) x ≠ eta * fillSgsTnsr B 1 u v 1 a x ∧
    fillSgsTnsr { B with kl := fun _ => .rigid } 1 u v 1 (fun y => eta * a y) x = eta * fillSgsTnsr { B with kl := fun _ => .rigid } 1 u v 1 a x := by
  refine ⟨⟨fun _ => .gndsky, fun _ => .gndsky, fun _ => ⟨0, 5⟩, 1, 0⟩, fun x => (x 1 : ℚ) ^ 2, fun _ => 0, fun x => 2 * ((x 1 + 1 : ℚ) ^ 2 - (x 1 : ℚ) ^ 2), 1 / 10, ![2, -1],
    by decide, by unfold Ot; decide, by norm_num, ?_, ?_⟩ <;> decide +kernel

/-! ## Poles in three dimensions (C24) -/

/-- the sphere with a vertical first: longitude, height, latitude. Poles in the last dimension. -/
def globeLast : Bnd 3 := ⟨fun d => if d = 0 then .cyclic else if d = 1 then .rigid else .polar, fun d => if d = 0 then .cyclic else if d = 1 then .rigid else .polar,
  fun d => if d = 0 then ⟨0, 8⟩ else ⟨0, 5⟩, 2, 4⟩

/-- longitude, latitude, height: poles in the second dimension -/
def globeSecond : Bnd 3 := ⟨fun d => if d = 0 then .cyclic else if d = 1 then .polar else .rigid, fun d => if d = 0 then .cyclic else if d = 1 then .polar else .rigid,
  fun d => if d = 0 then ⟨0, 8⟩ else ⟨0, 5⟩, 2, 4⟩

/-- C24 in 3-D: with the poles in the last dimension, a halo point beyond the pole gets the value of the point as far on this side, at the opposite longitude and the same height. -/
theorem C24_polar_sclr_mirror_3d {K' : Type} [Field K'] [LinearOrder K'] (B : Bnd 3) (hk : B.kl 2 = .polar) (lo hi : Fin 3 → Int) (dv : Bool) (a : Sca 3 K') (i j : Int) (m : Int) (hm : 0 ≤ m ∧ m < B.halo)
    (hw : B.f 2 ≤ B.l 2) (hO : Ot B.b 2 lo hi ![i, j, B.f 2 - 1 - m]) :
    fillS B 2 lo hi dv a ![i, j, B.f 2 - 1 - m] = a ![polarNb B.pole i, j, B.f 2 + m] := by
  have e : (![i, j, B.f 2 - 1 - m] : Idx 3) 2 = B.f 2 - 1 - m := rfl
  unfold fillS
  rw [asgN_of_not (by rintro ⟨h, -⟩; rw [e] at h; omega), asgN_of ⟨by rw [e]; omega, hO⟩]
  unfold valSL
  rw [hk]
  show a _ = _
  congr 1
  funext c
  fin_cases c <;> simp [acrossPole, stepIdx]

/-- C24 fails in 3-D with the poles in the second dimension: the point across the pole is looked up in the height instead of the longitude. The value beyond the pole at
longitude 1 and height 0 should come from longitude 5 at height 0; it comes from longitude 1 at height 4. -/
theorem C24_fails_polar_3d_second_dim : ∃ (a : Sca 3 ℚ), xchngSclr globeSecond [1, 0, 2] 2 false a ![1, -1, 0] ≠ a ![polarNb globeSecond.pole 1, 0, 0] ∧
    xchngSclr globeSecond [1, 0, 2] 2 false a ![1, -1, 0] = a ![1, 0, polarNb globeSecond.pole 0] := by
  refine ⟨fun x => if x 2 = 4 then 1 else 0, ?_, ?_⟩ <;> decide +kernel

example : fillS globeLast 2 (fun _ => 2) (fun _ => 2) false (fun x => (x 0 : ℚ)) ![1, 3, -1] = 5 := by
  have := C24_polar_sclr_mirror_3d globeLast rfl (fun _ => 2) (fun _ => 2) false (fun x => (x 0 : ℚ)) 1 3 0 (by decide) (by decide) (by unfold Ot; decide)
  exact this.trans (by decide +kernel)

end Mpdata
