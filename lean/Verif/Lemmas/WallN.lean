import Verif.Lemmas.MirrorN
import Verif.Lemmas.BoundsN
/-! # Rigid walls: the exchanges produce mirror images, and a run between walls equals the run of the specification on the mirrored fields -/
set_option linter.unusedSectionVars false
namespace Mpdata
variable {n : Nat} {K : Type} [Field K] [LinearOrder K]

/-- the continuation rule of scalars across the boundaries of dimension `d` -/
def EvenIn (wall : Fin n → Bool) (P : Fin n → Nat) (d : Fin n) (f : Sca n K) : Prop :=
  (wall d = false → ∀ x, f (stepIdx x d (P d)) = f x) ∧ (wall d = true → (∀ x, f (stepIdx x d (2 * P d)) = f x) ∧ ∀ x, f (mirC d x) = f x)
/-- the continuation rule of the normal component across the boundaries of dimension `d` -/
def OddIn (wall : Fin n → Bool) (P : Fin n → Nat) (d : Fin n) (f : Sca n K) : Prop :=
  (wall d = false → ∀ x, f (stepIdx x d (P d)) = f x) ∧ (wall d = true → (∀ x, f (stepIdx x d (2 * P d)) = f x) ∧ ∀ x, f (mirF d x) = -f x)

theorem ContS.evenIn {wall : Fin n → Bool} {P : Fin n → Nat} {a : Sca n K} (h : ContS wall P a) (d : Fin n) : EvenIn wall P d a :=
  ⟨fun hw x => h.cyc x d hw, fun hw => ⟨fun x => h.per x d hw, fun x => h.even x d hw⟩⟩
theorem ContV.oddIn {wall : Fin n → Bool} {P : Fin n → Nat} {A : Vec n K} (h : ContV wall P A) (d : Fin n) : OddIn wall P d (A d) :=
  ⟨fun hw x => h.cyc d x d hw, fun hw => ⟨fun x => h.per d x d hw, fun x => h.odd x d hw⟩⟩
theorem ContV.evenIn {wall : Fin n → Bool} {P : Fin n → Nat} {A : Vec n K} (h : ContV wall P A) {c d : Fin n} (hcd : c ≠ d) : EvenIn wall P d (A c) :=
  ⟨fun hw x => h.cyc c x d hw, fun hw => ⟨fun x => h.per c x d hw, fun x => h.even c x d hcd hw⟩⟩

section fills
variable {wall : Fin n → Bool} {b : Fin n → Rng} {P : Fin n → Nat} {H : Int}

/-- one dimension of an exchange extends agreement with a continued field into the halo of that dimension -/
theorem bcS_step (hb : ∀ d, b d = ⟨0, P d⟩) (d : Fin n) (hHP : H ≤ P d) {lo hi lo0 hi0 : Fin n → Int} (q : Int) (hq : q ≤ H)
    (h0 : lo0 d = 0 ∧ hi0 d = 0) (hlo : ∀ e, e ≠ d → lo0 e ≤ lo e ∧ hi0 e ≤ hi e) {a f : Sca n K} (hf : EvenIn wall P d f) (h : AgN (Bx b lo0 hi0) a f) :
    AgN (Bx b (fun e => if e = d then q else lo0 e) (fun e => if e = d then q else hi0 e)) (bcS wall b H d lo hi a) f := by
  intro x hx
  have hxd := hx d
  simp only [if_true] at hxd
  have hbd := hb d
  have hother : ∀ e, e ≠ d → (b e).first - lo0 e ≤ x e ∧ x e ≤ (b e).last + hi0 e := by
    intro e he; have := hx e; simpa only [if_neg he] using this
  have hOt : Ot b d lo hi x := by
    intro e he; have := hother e he; have := hlo e he; omega
  have hin : ∀ k : Int, (b d).first ≤ x d + k → x d + k ≤ (b d).last → a (stepIdx x d k) = f (stepIdx x d k) := by
    intro k h1 h2
    apply h
    intro e
    by_cases he : e = d
    · subst he; rw [stepIdx_self]; omega
    · rw [stepIdx_other _ he]; exact hother e he
  have hf0 : (b d).first = 0 := by rw [hbd]
  have hl0 : (b d).last = P d := by rw [hbd]
  rw [hf0, hl0] at hxd hin
  unfold bcS
  by_cases hw : wall d = true
  · rw [if_pos hw]
    obtain ⟨hper, hev⟩ := hf.2 hw
    unfold rigS asgN
    simp only [hf0, hl0]
    by_cases hR : (P d : Int) + 1 ≤ x d ∧ x d ≤ P d + H
    · rw [if_pos ⟨hR, hOt⟩, if_neg, hin _ (by omega) (by omega)]
      · have e1 : stepIdx x d (2 * ((P d : Int) - x d)) = stepIdx (mirC d x) d (2 * P d) := by
          funext e; simp only [stepIdx, mirC]; split_ifs with he <;> first | rfl | (subst he; ring)
        rw [e1, hper, hev]
      · rw [stepIdx_self]; intro hc; have := hc.1; omega
    · rw [if_neg (fun hc => hR hc.1)]
      by_cases hL : 0 - H ≤ x d ∧ x d ≤ 0 - 1
      · rw [if_pos ⟨hL, hOt⟩, hin _ (by omega) (by omega)]
        have e1 : stepIdx x d (2 * (0 - x d)) = mirC d x := by
          funext e; simp only [stepIdx, mirC]
          split_ifs with he
          · subst he; ring
          · rfl
        rw [e1, hev]
      · rw [if_neg (fun hc => hL hc.1)]
        have := hin 0 (by omega) (by omega)
        rwa [stepIdx_zero] at this
  · rw [if_neg hw]
    have hper := hf.1 (by simpa using hw)
    unfold cycS asgN
    simp only [hf0, hl0, sub_zero]
    by_cases hR : (P d : Int) + 1 ≤ x d ∧ x d ≤ P d + H
    · rw [if_pos ⟨hR, hOt⟩, if_neg, hin _ (by omega) (by omega)]
      · have := hper (stepIdx x d (-P d))
        rw [stepIdx_add, neg_add_cancel, stepIdx_zero] at this
        exact this.symm
      · rw [stepIdx_self]; intro hc; have := hc.1; omega
    · rw [if_neg (fun hc => hR hc.1)]
      by_cases hL : 0 - H ≤ x d ∧ x d ≤ 0 - 1
      · rw [if_pos ⟨hL, hOt⟩, hin _ (by omega) (by omega), hper]
      · rw [if_neg (fun hc => hL hc.1)]
        have := hin 0 (by omega) (by omega)
        rwa [stepIdx_zero] at this

theorem bcS_fold (hb : ∀ d, b d = ⟨0, P d⟩) (hHP : ∀ d, H ≤ P d) {lo hi : Fin n → Int} (q : Int) (hq : q ≤ H)
    {f : Sca n K} (ds : List (Fin n)) :
    ∀ (lo0 hi0 : Fin n → Int) (a : Sca n K), ds.Nodup → (∀ d ∈ ds, EvenIn wall P d f) → (∀ d ∈ ds, lo0 d = 0 ∧ hi0 d = 0) → (∀ d ∈ ds, q ≤ lo d ∧ q ≤ hi d) →
      (∀ e, lo0 e ≤ lo e ∧ hi0 e ≤ hi e) → AgN (Bx b lo0 hi0) a f →
      AgN (Bx b (fun e => if e ∈ ds then q else lo0 e) (fun e => if e ∈ ds then q else hi0 e)) (ds.foldl (fun a d => bcS wall b H d lo hi a) a) f := by
  induction ds with
  | nil => intro lo0 hi0 a _ _ _ _ _ h; simpa using h
  | cons d ds ih =>
    intro lo0 hi0 a hnd hf h0 hqd hw h
    rw [List.nodup_cons] at hnd
    have h1 := bcS_step hb d (hHP d) q hq (h0 d (by simp)) (fun e _ => hw e) (hf d (by simp)) h (lo := lo) (hi := hi)
    have h2 := ih _ _ _ hnd.2 (fun e he => hf e (by simp [he])) (fun e he => by
        have hne : e ≠ d := fun hc => hnd.1 (hc ▸ he)
        simp only [if_neg hne]; exact h0 e (by simp [he])) (fun e he => hqd e (by simp [he])) (fun e => by
        by_cases he : e = d
        · subst he; simp only [if_true]; exact hqd e (by simp)
        · simp only [if_neg he]; exact hw e) h1
    simp only [List.foldl_cons]
    refine h2.mono (fun x hx => Bx.mono hx ?_)
    intro e
    by_cases he : e = d
    · subst he; simp
    · simp only [List.mem_cons, he, false_or, if_false]
      split_ifs <;> omega

theorem bcS_same (d : Fin n) {lo hi : Fin n → Int} (a : Sca n K) (x : Idx n) (h : (b d).first ≤ x d ∧ x d ≤ (b d).last) : bcS wall b H d lo hi a x = a x := by
  unfold bcS
  split
  · unfold rigS asgN
    simp only
    rw [if_neg (fun hc => by have := hc.1; omega), if_neg (fun hc => by have := hc.1; omega)]
  · exact cycS_same d a x h

theorem bcS_fold_same {lo hi : Fin n → Int} (ds : List (Fin n)) : ∀ (a : Sca n K) (x : Idx n), (∀ d ∈ ds, (b d).first ≤ x d ∧ x d ≤ (b d).last) →
    ds.foldl (fun a d => bcS wall b H d lo hi a) a x = a x := by
  induction ds with
  | nil => intro a x _; rfl
  | cons d ds ih =>
    intro a x h
    rw [List.foldl_cons, ih _ _ (fun e he => h e (by simp [he])), bcS_same d a x (h d (by simp))]

theorem bcXchngS_agree (hb : ∀ d, b d = ⟨0, P d⟩) (hHP : ∀ d, H ≤ P d) (hH : 0 ≤ H) (ds : List (Fin n)) (hnd : ds.Nodup) (hall : ∀ d, d ∈ ds)
    {a f : Sca n K} (hf : ContS wall P f) (h : AgN (cellBox b) a f) : AgN (RS b H) (bcXchngS wall b H ds a) f := by
  have := bcS_fold (lo := fun _ => H) (hi := fun _ => H) hb hHP H le_rfl ds (fun _ => 0) (fun _ => 0) a hnd (fun d _ => hf.evenIn d) (fun _ _ => ⟨rfl, rfl⟩)
    (fun _ _ => ⟨le_rfl, le_rfl⟩) (fun _ => ⟨hH, hH⟩) h
  exact this.mono (fun x hx => Bx.mono hx (fun e => by simp [hall e]))

theorem bcV_agree (hb : ∀ d, b d = ⟨0, P d⟩) (hHP : ∀ d, H ≤ P d) (d : Fin n) {a f : Sca n K} (hf : OddIn wall P d f)
    (h : AgN (Bx b (fun _ => 0) (fun e => if e = d then -1 else 0)) a f) : AgN (RA b H d) (bcV wall b H d (fun _ => 0) (fun _ => 0) false a) f := by
  intro x hx
  have hxd := hx d
  simp only [if_true] at hxd
  have hbd := hb d
  have hHd := hHP d
  have hother : ∀ e, e ≠ d → (b e).first - 0 ≤ x e ∧ x e ≤ (b e).last + 0 := by
    intro e he; have := hx e; simpa only [if_neg he] using this
  have hOt : Ot b d (fun _ => 0) (fun _ => 0) x := hother
  have hin : ∀ k : Int, (b d).first ≤ x d + k → x d + k ≤ (b d).last - 1 → a (stepIdx x d k) = f (stepIdx x d k) := by
    intro k h1 h2
    apply h
    intro e
    by_cases he : e = d
    · subst he; rw [stepIdx_self]; simp only [if_true]; omega
    · rw [stepIdx_other _ he]; simp only [if_neg he]; exact hother e he
  have hf0 : (b d).first = 0 := by rw [hbd]
  have hl0 : (b d).last = P d := by rw [hbd]
  rw [hf0, hl0] at hxd hin
  unfold bcV
  by_cases hw : wall d = true
  · rw [if_pos hw]
    obtain ⟨hper, hodd⟩ := hf.2 hw
    unfold rigV asgN
    simp only [hf0, hl0, Bool.false_eq_true, if_false, add_zero, sub_zero]
    by_cases hR : (P d : Int) ≤ x d ∧ x d ≤ P d + H - 1
    · rw [if_pos ⟨hR, hOt⟩, if_neg, hin _ (by omega) (by omega)]
      · have e1 : stepIdx x d (2 * ((P d : Int) - x d) - 1) = stepIdx (mirF d x) d (2 * P d) := by
          funext e; simp only [stepIdx, mirF]; split_ifs with he <;> first | rfl | (subst he; ring)
        rw [e1, hper, hodd, neg_neg]
      · rw [stepIdx_self]; intro hc; have := hc.1; omega
    · rw [if_neg (fun hc => hR hc.1)]
      by_cases hL : 0 - H ≤ x d ∧ x d ≤ 0 - 1
      · rw [if_pos ⟨hL, hOt⟩, hin _ (by omega) (by omega)]
        have e1 : stepIdx x d (2 * (0 - x d) - 1) = mirF d x := by
          funext e; simp only [stepIdx, mirF]
          split_ifs with he
          · subst he; ring
          · rfl
        rw [e1, hodd, neg_neg]
      · rw [if_neg (fun hc => hL hc.1)]
        have := hin 0 (by omega) (by omega)
        rwa [stepIdx_zero] at this
  · rw [if_neg hw]
    have hper := hf.1 (by simpa using hw)
    unfold cycV asgN
    simp only [hf0, hl0, sub_zero]
    by_cases hR : (P d : Int) ≤ x d ∧ x d ≤ P d + H - 1
    · rw [if_pos ⟨hR, hOt⟩, if_neg, hin _ (by omega) (by omega)]
      · have := hper (stepIdx x d (-P d))
        rw [stepIdx_add, neg_add_cancel, stepIdx_zero] at this
        exact this.symm
      · rw [stepIdx_self]; intro hc; have := hc.1; omega
    · rw [if_neg (fun hc => hR hc.1)]
      by_cases hL : 0 - H ≤ x d ∧ x d ≤ 0 - 1
      · rw [if_pos ⟨hL, hOt⟩, hin _ (by omega) (by omega), hper]
      · rw [if_neg (fun hc => hL hc.1)]
        have := hin 0 (by omega) (by omega)
        rwa [stepIdx_zero] at this

theorem bcV_same (d : Fin n) (ad : Bool) (a : Sca n K) (x : Idx n) (e : Fin n) (he : e ≠ d) (h : ¬ ((b e).first ≤ x e ∧ x e ≤ (b e).last)) :
    bcV wall b H d (fun _ => 0) (fun _ => 0) ad a x = a x := by
  have hno : ¬ Ot b d (fun _ => 0) (fun _ => 0) x := by
    intro hc; have := hc e he; apply h; simp only at this; omega
  unfold bcV
  split
  · unfold rigV asgN
    simp only
    rw [if_neg (fun hc => hno hc.2), if_neg (fun hc => hno hc.2)]
  · exact cycV_same d a x e he h

theorem bcXchngA_agree (hb : ∀ d, b d = ⟨0, P d⟩) (hHP : ∀ d, H ≤ P d) {A F : Vec n K} (hf : ContV wall P F)
    (h : ∀ d, AgN (Bx b (fun _ => 0) (fun e => if e = d then -1 else 0)) (A d) (F d)) (d : Fin n) : AgN (RA b H d) (bcXchngA wall b H false A d) (F d) :=
  bcV_agree hb hHP d (hf.oddIn d) (h d)

theorem bcXchngA_agree' (hb : ∀ d, b d = ⟨0, P d⟩) (hHP : ∀ d, H ≤ P d) (hH : 1 ≤ H) {A F : Vec n K} (hf : ContV wall P F)
    (h : ∀ d, AgN (RN b d) (A d) (F d)) (d : Fin n) : AgN (RN b d) (bcXchngA wall b H false A d) (F d) := by
  intro x hx
  by_cases hc : ∀ e, e ≠ d → (b e).first ≤ x e ∧ x e ≤ (b e).last
  · refine bcV_agree hb hHP d (hf.oddIn d) ((h d).mono (fun y hy => Bx.mono hy (by widths))) x ?_
    intro e
    have := hx e
    by_cases he : e = d
    · subst he; simp only [if_true] at *; omega
    · have := hc e he; simp only [if_neg he]; omega
  · push Not at hc
    obtain ⟨e, he, h1⟩ := hc
    show bcV wall b H d _ _ false (A d) x = _
    rw [bcV_same d false (A d) x e he (fun hh => by have := h1 hh.1; omega)]
    exact h d x hx

theorem bcXchngN_agree (hb : ∀ d, b d = ⟨0, P d⟩) (hHP : ∀ d, H ≤ P d) (ext : Int) (he0 : 0 ≤ ext) (heH : ext + 1 ≤ H) {A F : Vec n K}
    (hf : ContV wall P F)
    (h : ∀ d, AgN (Bx b (fun e => if e = d then ext + 1 else 0) (fun e => if e = d then ext else 0)) (A d) (F d)) (d : Fin n) :
    AgN (Bx b (fun _ => ext + 1) (fun e => if e = d then ext else ext + 1)) (bcXchngN wall b H ext A d) (F d) := by
  have := bcS_fold (lo := fun _ => ext + 1) (hi := fun e => if e = d then ext else ext + 1) hb hHP (ext + 1) heH
    ((List.finRange n).filter (fun e => decide (e ≠ d))) _ _ (A d) ((List.nodup_finRange n).filter _)
    (fun e he => by
      have : e ≠ d := by simpa using he
      exact hf.evenIn this.symm)
    (fun e he => by
      have : e ≠ d := by simpa using he
      simp [this])
    (fun e he => by
      have : e ≠ d := by simpa using he
      simp [this])
    (fun e => by constructor <;> split_ifs <;> omega) (h d)
  refine this.mono (fun x hx => Bx.mono hx (fun e => ?_))
  by_cases he : e = d
  · subst he; simp
  · simp [he]

theorem bcXchngN_same (ext : Int) (A : Vec n K) (d : Fin n) (x : Idx n) (h : ∀ e, e ≠ d → (b e).first ≤ x e ∧ x e ≤ (b e).last) :
    bcXchngN wall b H ext A d x = A d x := by
  unfold bcXchngN
  exact bcS_fold_same _ _ _ (fun e he => h e (by simpa using he))
end fills

/-! ### continued fields stay continued -/
section
variable {wall : Fin n → Bool} {P : Fin n → Nat} {p : SpecN.Par n K} [IsStrictOrderedRing K]

/-- the shift that maps a continued field to itself -/
def perOf (wall : Fin n → Bool) (P : Fin n → Nat) (d : Fin n) : Nat := if wall d then 2 * P d else P d

theorem contS_iff {a : Sca n K} : ContS wall P a ↔ PeriodicN (perOf wall P) a ∧ ∀ w, wall w = true → mirS w a = a := by
  constructor
  · intro h
    refine ⟨fun x d => ?_, fun w hw => funext fun x => h.even x w hw⟩
    unfold perOf
    by_cases hw : wall d = true
    · rw [if_pos hw]; exact_mod_cast h.per x d hw
    · rw [if_neg hw]; exact h.cyc x d (by simpa using hw)
  · rintro ⟨h1, h2⟩
    refine ⟨fun x d hw => ?_, fun x d hw => ?_, fun x d hw => congrFun (h2 d hw) x⟩
    · have := h1 x d; simpa [perOf, hw] using this
    · have := h1 x d; simpa [perOf, hw] using this

theorem contV_iff {A : Vec n K} : ContV wall P A ↔ (∀ c, PeriodicN (perOf wall P) (A c)) ∧ ∀ w, wall w = true → mirV w A = A := by
  constructor
  · intro h
    refine ⟨fun c x d => ?_, fun w hw => ?_⟩
    · unfold perOf
      by_cases hw : wall d = true
      · rw [if_pos hw]; exact_mod_cast h.per c x d hw
      · rw [if_neg hw]; exact h.cyc c x d (by simpa using hw)
    · funext d x
      unfold mirV
      split_ifs with hd
      · subst hd; rw [h.odd x d hw, neg_neg]
      · exact h.even d x w hd hw
  · rintro ⟨h1, h2⟩
    refine ⟨fun c x d hw => ?_, fun c x d hw => ?_, fun x d hw => ?_, fun c x d hcd hw => ?_⟩
    · have := h1 c x d; simpa [perOf, hw] using this
    · have := h1 c x d; simpa [perOf, hw] using this
    · have := congrFun (congrFun (h2 d hw) d) x
      rw [mirV_self] at this
      rw [← this, neg_neg]
    · have := congrFun (congrFun (h2 d hw) c) x
      rwa [mirV_other hcd] at this

/-- parameters given as continued fields -/
structure ParCont (wall : Fin n → Bool) (P : Fin n → Nat) (p : SpecN.Par n K) : Prop where
  G : ContS wall P p.st.G
  ndt : ContV wall P p.st.ndt
  ndtt : ContV wall P p.st.ndtt

theorem ParCont.per (h : ParCont wall P p) : ParPerN p (perOf wall P) := ⟨(contS_iff.1 h.G).1, (contV_iff.1 h.ndt).1, (contV_iff.1 h.ndtt).1⟩
theorem ParCont.mir (h : ParCont wall P p) {w : Fin n} (hw : wall w = true) : p.mir w = p := by
  have hst : p.st.mir w = p.st := by
    show (⟨_, _, _⟩ : Stat n K) = ⟨p.st.G, p.st.ndt, p.st.ndtt⟩
    rw [(contS_iff.1 h.G).2 w hw, (contV_iff.1 h.ndt).2 w hw, (contV_iff.1 h.ndtt).2 w hw]
  unfold SpecN.Par.mir; rw [hst]

theorem passesN_cont (hF : FGood p.o p.F) (hM : FMir p.F) (h : ParCont wall P p) {psi0 : Sca n K} {GC : Vec n K} (h0 : ContS wall P psi0) (hg : ContV wall P GC) (j : Nat) :
    ContS wall P (SpecN.passes p psi0 GC j).psi ∧ ContS wall P (SpecN.passes p psi0 GC j).old ∧ ContV wall P (SpecN.passes p psi0 GC j).U := by
  rw [contS_iff] at h0
  rw [contV_iff] at hg
  obtain ⟨q1, q2, q3⟩ := passesN_periodic hF h.per h0.1 hg.1 j
  have key : ∀ w, wall w = true → _ := fun w hw => passesN_mir w hF hM psi0 GC j
  refine ⟨contS_iff.2 ⟨q1, fun w hw => ?_⟩, contS_iff.2 ⟨q2, fun w hw => ?_⟩, contV_iff.2 ⟨q3, fun w hw => ?_⟩⟩ <;>
    · have k := key w hw
      rw [h.mir hw, h0.2 w hw, hg.2 w hw] at k
      first | exact k.1.symm | exact k.2.1.symm | exact k.2.2.symm

theorem velocityN_cont (hF : FGood p.o p.F) (hM : FMir p.F) (h : ParCont wall P p) {psi old : Sca n K} {U : Vec n K} (h1 : ContS wall P psi) (h2 : ContS wall P old)
    (h3 : ContV wall P U) : ContV wall P (SpecN.velocity p psi old U) := by
  rw [contS_iff] at h1 h2
  rw [contV_iff] at h3
  refine contV_iff.2 ⟨velocityN_periodic hF h.per h1.1 h2.1 h3.1, fun w hw => ?_⟩
  have := velocityN_mir w hM psi old U
  rw [h.mir hw, h1.2 w hw, h2.2 w hw, h3.2 w hw] at this
  exact this.symm

theorem specN_run_cont (hF : FGood p.o p.F) (hM : FMir p.F) (h : ParCont wall P p) (N : Nat) (filt : Nat → Bool) {psi : Sca n K} {GC : Vec n K}
    (h0 : ContS wall P psi) (hg : ContV wall P GC) (t : Nat) : ContS wall P (SpecN.run p N filt GC t psi) := by
  induction t with
  | zero => exact h0
  | succ t ih => exact (passesN_cont hF hM h ih hg _).1
end

/-! ### the program between walls -/
section
variable {wall : Fin n → Bool} {c : CfgN n K} {p : SpecN.Par n K} {P : Fin n → Nat} {ds : List (Fin n)}

/-- the same solver, with the flag of the advector exchange ignored -/
def noAd (c : CfgN n K) : CfgN n K := { c with fillA := fun _ => c.fillA false }

theorem advanceN_noAd (c : CfgN n K) (hf : isset c.o oFct = false) (m : MemN n K) : advanceN (noAd c) m = advanceN c m := by
  have h1 : ∀ k m, fctAdjustN (noAd c) k m = fctAdjustN c k m := by
    intro k m; unfold fctAdjustN
    have : isset (noAd c).o oFct = false := hf
    rw [this, hf]; rfl
  have h2 : ∀ k m, advIterN (noAd c) k m = advIterN c k m := by
    intro k m; unfold advIterN corrIterN; simp only [h1]; rfl
  have h3 : ∀ q k m, advLoopN (noAd c) q k m = advLoopN c q k m := by
    intro q
    induction q with
    | zero => intro k m; rfl
    | succ q ih => intro k m; unfold advLoopN; simp only [h2, ih]; rfl
  unfold advanceN
  simp only [h3]; rfl

theorem WallSetupN.par (h : WallSetupN wall c p P ds) : ParCont wall P p := ⟨h.contG, h.contNdt, h.contNdtt⟩

theorem WallSetupN.impl (h : WallSetupN wall c p P ds) (hF : FGood p.o p.F) :
    ImplN (noAd c) ⟨p, id, fun _ => id, id⟩ (solverHalo c.o) False (ContS wall P) (ContV wall P) := by
  have hg := solverHalo_ge c.o
  have hHP : ∀ d, (solverHalo c.o : Int) ≤ P d := fun d => by exact_mod_cast h.hhP d
  refine ⟨h.ho, h.heps, h.hF, ?_, h.hG, h.hndt, h.hndtt, hg.2.1, hg.2.2, ?_, ?_, fun hc => hc.elim, ?_, ?_, ?_, fun _ _ h => h, fun _ h => h⟩
  · show FLocal c.o c.F
    rw [h.ho, h.hF]; exact hF.toFLocal
  · intro a b hb hab
    show AgN _ (c.fillS a) _
    rw [h.hS]
    exact bcXchngS_agree h.hbox hHP (by omega) ds h.hds.1 h.hds.2 hb hab
  · intro ad a b hb hab d
    show AgN _ (c.fillA false a d) _
    rw [h.hA]
    exact bcXchngA_agree h.hbox hHP hb (fun d => (hab d).mono (fun x hx => Bx.mono hx (by widths))) d
  · intro ad a b hb hab d
    show AgN _ (c.fillA false a d) _
    rw [h.hA]
    exact bcXchngA_agree' h.hbox hHP hg.1 hb hab d
  · intro a b hb hab d
    show AgN _ (c.fillN 0 a d) _
    rw [h.hN]
    have := bcXchngN_agree h.hbox hHP 0 le_rfl hg.1 hb (fun d => (hab d).mono (fun x hx => Bx.mono hx (by widths))) d
    exact this.mono (fun x hx => Bx.mono hx (by widths))
  · intro a b hb hab d x hx
    show c.fillN 0 a d x = _
    rw [h.hN, bcXchngN_same]
    · exact hab d x hx
    · intro e he
      have := hx e
      simp only [if_neg he] at this
      show (c.box e).first ≤ x e ∧ x e ≤ (c.box e).last
      change (c.box e).first - 0 ≤ x e ∧ x e ≤ (c.box e).last + 0 at this
      omega

theorem WallSetupN.filt (h : WallSetupN wall c p P ds) (b : Bool) : WallSetupN wall { c with filter := b } p P ds :=
  ⟨h.ho, h.heps, h.hF, h.hbox, h.hhP, h.hds, h.hS, h.hA, h.hN, h.contG, h.contNdt, h.contNdtt, h.hG, h.hndt, h.hndtt⟩

variable [IsStrictOrderedRing K]

/-- one step -/
theorem wallN_step (h : WallSetupN wall c p P ds) (hF : FGood p.o p.F) (hM : FMir p.F) (hf : isset c.o oFct = false) (hn : 1 ≤ c.nIters) (hx : HaloCovered c.o c.nIters)
    {psi0 : Sca n K} {GC : Vec n K} (h0 : ContS wall P psi0) (hg : ContV wall P GC) (m : MemN n K) (hpsi : AgN (cellBox c.box) m.psi psi0)
    (hGC : ∀ d, AgN (RG c.box (solverHalo c.o) d) (m.GC d) (GC d)) :
    AgN (cellBox c.box) (advanceN c m).psi (SpecN.step p (if c.filter then 1 else c.nIters) psi0 GC) := by
  have hper := passesN_cont hF hM h.par h0 hg
  have hcov : CoverN False (noAd c).o (noAd c).nIters := by
    left
    show c.nIters ≤ 2 ∨ (isset c.o oDiv3 = false ∧ (isset c.o oFct = true ∨ isset c.o oDiv2 = false))
    rcases hx with hx | hx | hx
    · exact Or.inl hx
    · rw [hf] at hx; exact absurd hx (by simp)
    · exact Or.inr ⟨hx.2, Or.inr hx.1⟩
  have := advanceN_spec (h.impl hF) hn m psi0 GC hcov hpsi hGC h0 (fun j => by rw [refN_id_passes]; exact (hper j).1)
    (fun j => by rw [refN_id_passes]; exact velocityN_cont hF hM h.par (hper j).1 (hper j).2.1 (hper j).2.2)
  rw [refN_id_passes, advanceN_noAd c hf] at this
  exact this

theorem wall_cellBox_iff (h : WallSetupN wall c p P ds) (x : Idx n) : cellBox c.box x ↔ InGrid P x := by
  unfold cellBox Bx InGrid
  simp only [h.hbox]
  constructor <;> intro hh d <;> have := hh d <;> omega

/-- the advector halos before the loop -/
theorem wallN_prep (h : WallSetupN wall c p P ds) {A GC : Vec n K} (hg : ContV wall P GC) (hGC : ∀ d x, InFaces P d x → A d x = GC d x) (d : Fin n) :
    AgN (RG c.box (solverHalo c.o) d) (prepGC c (solverHalo c.o) A d) (GC d) := by
  have hgh := solverHalo_ge c.o
  have hHP : ∀ d, (solverHalo c.o : Int) ≤ P d := fun d => by exact_mod_cast h.hhP d
  unfold prepGC
  rw [h.hA, h.hN]
  have h1 := bcXchngA_agree h.hbox hHP (A := A) hg (fun d x hx => hGC d x (by
    refine ⟨?_, ?_⟩
    · rw [← wall_cellBox_iff h]; exact Bx.mono hx (by widths)
    · have := hx d; rw [h.hbox] at this; simp only [if_true] at this; omega))
  have h2 := bcXchngN_agree h.hbox hHP ((solverHalo c.o : Int) - 1) (by omega) (by omega) (A := bcXchngA wall c.box (solverHalo c.o) false A) hg
    (fun d => (h1 d).mono (fun x hx => Bx.mono hx (by widths))) d
  exact h2.mono (fun x hx => Bx.mono hx (by widths))

/-- a run of any length computes the run of the specification on the continued fields -/
theorem wallN_run (h : WallSetupN wall c p P ds) (hF : FGood p.o p.F) (hM : FMir p.F) (hf : isset c.o oFct = false) (hn : 1 ≤ c.nIters) (hx : HaloCovered c.o c.nIters)
    (filt : Nat → Bool) {psi0 : Sca n K} {GC : Vec n K} (h0 : ContS wall P psi0) (hg : ContV wall P GC) (m : MemN n K)
    (hpsi : ∀ x, InGrid P x → m.psi x = psi0 x) (hGC : ∀ d x, InFaces P d x → m.GC d x = GC d x) (t : Nat) :
    ∀ x, InGrid P x → (runProgN c filt t { m with GC := prepGC c (solverHalo c.o) m.GC }).psi x = SpecN.run p c.nIters filt GC t psi0 x := by
  induction t with
  | zero => exact hpsi
  | succ t ih =>
    unfold runProgN SpecN.run
    have := wallN_step (h.filt (filt t)) hF hM hf hn hx (specN_run_cont hF hM h.par c.nIters filt h0 hg t) hg
      (runProgN c filt t { m with GC := prepGC c (solverHalo c.o) m.GC }) (fun x hx => ih x ((wall_cellBox_iff h x).1 hx))
      (by rw [runProgN_GC]; exact wallN_prep h hg hGC)
    intro x hx
    exact this x ((wall_cellBox_iff h x).2 hx)
end
end Mpdata
