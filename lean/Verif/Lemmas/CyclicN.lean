import Verif.Lemmas.RefineN
import Verif.Lemmas.Fct
import Mathlib.Algebra.BigOperators.Fin
/-! # Cyclic boundary conditions in N dimensions: the exchanges produce periodic fields, and a cyclic run equals the run of the specification -/
set_option linter.unusedSectionVars false
namespace Mpdata
variable {n : Nat} {K : Type} [Field K] [LinearOrder K]

section fills
variable {b : Fin n → Rng} {P : Fin n → Nat} {H : Int}

/-- one dimension of an exchange extends agreement with a periodic field into the halo of that dimension -/
theorem cycS_step (hb : ∀ d, (b d).last = (b d).first + P d) (d : Fin n) (hHP : H ≤ P d) {lo hi lo0 hi0 : Fin n → Int} (q : Int) (hq : q ≤ H) (hq0 : 0 ≤ q)
    (h0 : lo0 d = 0 ∧ hi0 d = 0) (hlo : ∀ e, e ≠ d → lo0 e ≤ lo e ∧ hi0 e ≤ hi e) {a f : Sca n K} (hf : PeriodicN P f) (h : AgN (Bx b lo0 hi0) a f) :
    AgN (Bx b (fun e => if e = d then q else lo0 e) (fun e => if e = d then q else hi0 e)) (cycS b H d lo hi a) f := by
  intro x hx
  have hxd := hx d
  simp only [if_true] at hxd
  have hbd := hb d
  have hother : ∀ e, e ≠ d → (b e).first - lo0 e ≤ x e ∧ x e ≤ (b e).last + hi0 e := by
    intro e he; have := hx e; simpa only [if_neg he] using this
  have hOt : Ot b d lo hi x := by
    intro e he; have := hother e he; have := hlo e he; omega
  have hin : ∀ k : Int, (b d).first ≤ x d + k → x d + k ≤ (b d).last → a (stepIdx x d k) = f (stepIdx x d k) := by
    intro k h1 h2
    apply h
    intro e
    by_cases he : e = d
    · subst he; rw [stepIdx_self]; omega
    · rw [stepIdx_other _ he]; exact hother e he
  have hP : (b d).last - (b d).first = P d := by omega
  unfold cycS asgN
  simp only [hP]
  by_cases hR : (b d).last + 1 ≤ x d ∧ x d ≤ (b d).last + H
  · rw [if_pos ⟨hR, hOt⟩, if_neg, hin _ (by omega) (by omega)]
    · have := hf.mul x d (-1)
      rw [show (-1 : Int) * P d = -P d by ring] at this
      exact this
    · rw [stepIdx_self]; intro hc; have := hc.1; omega
  · rw [if_neg (fun hc => hR hc.1)]
    by_cases hL : (b d).first - H ≤ x d ∧ x d ≤ (b d).first - 1
    · rw [if_pos ⟨hL, hOt⟩, hin _ (by omega) (by omega), hf]
    · rw [if_neg (fun hc => hL hc.1)]
      have := hin 0 (by omega) (by omega)
      rwa [stepIdx_zero] at this

theorem cycS_fold (hb : ∀ d, (b d).last = (b d).first + P d) (hHP : ∀ d, H ≤ P d) {lo hi : Fin n → Int} (q : Int) (hq : q ≤ H) (hq0 : 0 ≤ q)
    {f : Sca n K} (hf : PeriodicN P f) (ds : List (Fin n)) :
    ∀ (lo0 hi0 : Fin n → Int) (a : Sca n K), ds.Nodup → (∀ d ∈ ds, lo0 d = 0 ∧ hi0 d = 0) → (∀ d ∈ ds, q ≤ lo d ∧ q ≤ hi d) → (∀ e, lo0 e ≤ lo e ∧ hi0 e ≤ hi e) →
      AgN (Bx b lo0 hi0) a f →
      AgN (Bx b (fun e => if e ∈ ds then q else lo0 e) (fun e => if e ∈ ds then q else hi0 e)) (ds.foldl (fun a d => cycS b H d lo hi a) a) f := by
  induction ds with
  | nil => intro lo0 hi0 a _ _ _ _ h; simpa using h
  | cons d ds ih =>
    intro lo0 hi0 a hnd h0 hqd hw h
    rw [List.nodup_cons] at hnd
    have h1 := cycS_step hb d (hHP d) q hq hq0 (h0 d (by simp)) (fun e _ => hw e) hf h (lo := lo) (hi := hi)
    have h2 := ih _ _ _ hnd.2 (fun e he => by
        have hne : e ≠ d := fun hc => hnd.1 (hc ▸ he)
        simp only [if_neg hne]; exact h0 e (by simp [he])) (fun e he => hqd e (by simp [he])) (fun e => by
        by_cases he : e = d
        · subst he; simp only [if_true]; exact hqd e (by simp)
        · simp only [if_neg he]; exact hw e) h1
    simp only [List.foldl_cons]
    refine h2.mono (fun x hx => Bx.mono hx ?_)
    intro e
    by_cases he : e = d
    · subst he; simp
    · simp only [List.mem_cons, he, false_or, if_false]
      split_ifs <;> omega

theorem cycS_same (d : Fin n) {lo hi : Fin n → Int} (a : Sca n K) (x : Idx n) (h : (b d).first ≤ x d ∧ x d ≤ (b d).last) : cycS b H d lo hi a x = a x := by
  unfold cycS asgN
  simp only
  rw [if_neg (fun hc => by have := hc.1; omega), if_neg (fun hc => by have := hc.1; omega)]

theorem cycS_fold_same {lo hi : Fin n → Int} (ds : List (Fin n)) : ∀ (a : Sca n K) (x : Idx n), (∀ d ∈ ds, (b d).first ≤ x d ∧ x d ≤ (b d).last) →
    ds.foldl (fun a d => cycS b H d lo hi a) a x = a x := by
  induction ds with
  | nil => intro a x _; rfl
  | cons d ds ih =>
    intro a x h
    rw [List.foldl_cons, ih _ _ (fun e he => h e (by simp [he])), cycS_same d a x (h d (by simp))]

theorem cycXchngS_agree (hb : ∀ d, (b d).last = (b d).first + P d) (hHP : ∀ d, H ≤ P d) (hH : 0 ≤ H) (ds : List (Fin n)) (hnd : ds.Nodup) (hall : ∀ d, d ∈ ds)
    {a f : Sca n K} (hf : PeriodicN P f) (h : AgN (cellBox b) a f) : AgN (RS b H) (cycXchngS b H ds a) f := by
  have := cycS_fold (lo := fun _ => H) (hi := fun _ => H) hb hHP H le_rfl hH hf ds (fun _ => 0) (fun _ => 0) a hnd (fun _ _ => ⟨rfl, rfl⟩) (fun _ _ => ⟨le_rfl, le_rfl⟩)
    (fun _ => ⟨hH, hH⟩) h
  exact this.mono (fun x hx => Bx.mono hx (fun e => by simp [hall e]))

theorem cycV_agree (hb : ∀ d, (b d).last = (b d).first + P d) (hHP : ∀ d, H ≤ P d) (d : Fin n) {a f : Sca n K} (hf : PeriodicN P f)
    (h : AgN (Bx b (fun _ => 0) (fun e => if e = d then -1 else 0)) a f) : AgN (RA b H d) (cycV b H d (fun _ => 0) (fun _ => 0) a) f := by
  intro x hx
  have hxd := hx d
  simp only [if_true] at hxd
  have hbd := hb d
  have hHd := hHP d
  have hother : ∀ e, e ≠ d → (b e).first - 0 ≤ x e ∧ x e ≤ (b e).last + 0 := by
    intro e he; have := hx e; simpa only [if_neg he] using this
  have hOt : Ot b d (fun _ => 0) (fun _ => 0) x := hother
  have hin : ∀ k : Int, (b d).first ≤ x d + k → x d + k ≤ (b d).last - 1 → a (stepIdx x d k) = f (stepIdx x d k) := by
    intro k h1 h2
    apply h
    intro e
    by_cases he : e = d
    · subst he; rw [stepIdx_self]; simp only [if_true]; omega
    · rw [stepIdx_other _ he]; simp only [if_neg he]; exact hother e he
  have hP : (b d).last - (b d).first = P d := by omega
  unfold cycV asgN
  simp only [hP]
  by_cases hR : (b d).last ≤ x d ∧ x d ≤ (b d).last + H - 1
  · rw [if_pos ⟨hR, hOt⟩, if_neg, hin _ (by omega) (by omega)]
    · have := hf.mul x d (-1)
      rw [show (-1 : Int) * P d = -P d by ring] at this
      exact this
    · rw [stepIdx_self]; intro hc; have := hc.1; omega
  · rw [if_neg (fun hc => hR hc.1)]
    by_cases hL : (b d).first - H ≤ x d ∧ x d ≤ (b d).first - 1
    · rw [if_pos ⟨hL, hOt⟩, hin _ (by omega) (by omega), hf]
    · rw [if_neg (fun hc => hL hc.1)]
      have := hin 0 (by omega) (by omega)
      rwa [stepIdx_zero] at this

theorem cycV_same (d : Fin n) (a : Sca n K) (x : Idx n) (e : Fin n) (he : e ≠ d) (h : ¬ ((b e).first ≤ x e ∧ x e ≤ (b e).last)) :
    cycV b H d (fun _ => 0) (fun _ => 0) a x = a x := by
  have hno : ¬ Ot b d (fun _ => 0) (fun _ => 0) x := by
    intro hc; have := hc e he; apply h; simp only at this; omega
  unfold cycV asgN
  simp only
  rw [if_neg (fun hc => hno hc.2), if_neg (fun hc => hno hc.2)]

theorem cycXchngA_agree (hb : ∀ d, (b d).last = (b d).first + P d) (hHP : ∀ d, H ≤ P d) {A F : Vec n K} (hf : ∀ d, PeriodicN P (F d))
    (h : ∀ d, AgN (Bx b (fun _ => 0) (fun e => if e = d then -1 else 0)) (A d) (F d)) (d : Fin n) : AgN (RA b H d) (cycXchngA b H A d) (F d) :=
  cycV_agree hb hHP d (hf d) (h d)

theorem cycXchngA_agree' (hb : ∀ d, (b d).last = (b d).first + P d) (hHP : ∀ d, H ≤ P d) (hH : 1 ≤ H) {A F : Vec n K} (hf : ∀ d, PeriodicN P (F d))
    (h : ∀ d, AgN (RN b d) (A d) (F d)) (d : Fin n) : AgN (RN b d) (cycXchngA b H A d) (F d) := by
  intro x hx
  by_cases hc : ∀ e, e ≠ d → (b e).first ≤ x e ∧ x e ≤ (b e).last
  · refine cycV_agree hb hHP d (hf d) ((h d).mono (fun y hy => Bx.mono hy (by widths))) x ?_
    intro e
    have := hx e
    by_cases he : e = d
    · subst he; simp only [if_true] at *; omega
    · have := hc e he; simp only [if_neg he]; omega
  · push Not at hc
    obtain ⟨e, he, h1⟩ := hc
    show cycV b H d _ _ (A d) x = _
    rw [cycV_same d (A d) x e he (fun hh => by have := h1 hh.1; omega)]
    exact h d x hx

theorem cycXchngN_agree (hb : ∀ d, (b d).last = (b d).first + P d) (hHP : ∀ d, H ≤ P d) (ext : Int) (he0 : 0 ≤ ext) (heH : ext + 1 ≤ H) {A F : Vec n K}
    (hf : ∀ d, PeriodicN P (F d))
    (h : ∀ d, AgN (Bx b (fun e => if e = d then ext + 1 else 0) (fun e => if e = d then ext else 0)) (A d) (F d)) (d : Fin n) :
    AgN (Bx b (fun _ => ext + 1) (fun e => if e = d then ext else ext + 1)) (cycXchngN b H ext A d) (F d) := by
  have := cycS_fold (lo := fun _ => ext + 1) (hi := fun e => if e = d then ext else ext + 1) hb hHP (ext + 1) heH (by omega) (hf d)
    ((List.finRange n).filter (fun e => decide (e ≠ d))) _ _ (A d) ((List.nodup_finRange n).filter _)
    (fun e he => by
      have : e ≠ d := by simpa using he
      simp [this])
    (fun e he => by
      have : e ≠ d := by simpa using he
      simp [this])
    (fun e => by constructor <;> split_ifs <;> omega) (h d)
  refine this.mono (fun x hx => Bx.mono hx (fun e => ?_))
  by_cases he : e = d
  · subst he; simp
  · simp [he]

theorem cycXchngN_same (ext : Int) (A : Vec n K) (d : Fin n) (x : Idx n) (h : ∀ e, e ≠ d → (b e).first ≤ x e ∧ x e ≤ (b e).last) :
    cycXchngN b H ext A d x = A d x := by
  unfold cycXchngN
  exact cycS_fold_same _ _ _ (fun e he => h e (by simpa using he))

end fills

/-- translating arguments -/
def shN {V : Type} (e : Fin n) (k : Int) (a : Idx n → V) : Idx n → V := fun x => a (stepIdx x e k)
def Stat.sh (e : Fin n) (k : Int) (st : Stat n K) : Stat n K := ⟨shN e k st.G, fun d => shN e k (st.ndt d), fun d => shN e k (st.ndtt d)⟩

/-- what the dimension-specific formulae have in common -/
structure FGood (o : OptsT) (F : Formulae n K) : Prop extends FLocal o F where
  vel_shift : ∀ (d : Fin n) (st : Stat n K) (psi old : Sca n K) (U : Vec n K) (x : Idx n) (e : Fin n) (k : Int),
    F.vel d st psi old U (stepIdx x e k) = F.vel d (st.sh e k) (shN e k psi) (shN e k old) (fun d => shN e k (U d)) x
  donor_eq : ∀ (psi : Sca n K) (flx : Vec n K) (G : Sca n K) (x : Idx n),
    F.donor psi flx G x = psi x + (∑ d, (flx d (stepIdx x d (-1)) - flx d x)) / gFacN o G x

theorem view2_shift (d : Fin 2) (x : Idx 2) (e : Fin 2) (k : Int) (a : Sca 2 K) : view2 d (stepIdx x e k) a = view2 d x (shN e k a) := by
  funext i j
  unfold view2 shN
  rw [stepIdx_comm x e d, stepIdx_comm _ e (d + 1)]
theorem view3_shift (d : Fin 3) (x : Idx 3) (e : Fin 3) (k : Int) (a : Sca 3 K) : view3 d (stepIdx x e k) a = view3 d x (shN e k a) := by
  funext i j l
  unfold view3 shN
  rw [stepIdx_comm x e d, stepIdx_comm _ e (d + 1), stepIdx_comm _ e (d + 2)]

section
variable [IsStrictOrderedRing K]
theorem formulae2_good (o : OptsT) (si : SptlIntrp) (te : TmprlExtrp) (tiny : K)
    (hfot : isset o oFot = true → isset o oTot = true ∨ isset o oDiv3 = true) : FGood o (formulae2 o si te tiny) where
  toFLocal := formulae2_local o si te tiny hfot
  vel_shift d st psi old U x e k := by
    simp only [formulae2, view2_shift]; rfl
  donor_eq psi flx G x := by
    have e : (![x 0, x 1] : Idx 2) = x := by funext i; fin_cases i <;> rfl
    have e0 : (![x 0 - 1, x 1] : Idx 2) = stepIdx x 0 (-1) := by funext i; fin_cases i <;> simp [stepIdx] <;> omega
    have e1 : (![x 0, x 1 - 1] : Idx 2) = stepIdx x 1 (-1) := by funext i; fin_cases i <;> simp [stepIdx] <;> omega
    simp only [formulae2, donorStep2, cur2, gFac2, pi2, if_true, e, e0, e1, donorSum2_eq, Fin.sum_univ_two, gFacN]
    congr 2; ring
theorem formulae3_good (o : OptsT) (si : SptlIntrp) (te : TmprlExtrp) (tiny : K) : FGood o (formulae3 o si te tiny) where
  toFLocal := formulae3_local o si te tiny
  vel_shift d st psi old U x e k := by
    simp only [formulae3, view3_shift]; rfl
  donor_eq psi flx G x := by
    have e : (![x 0, x 1, x 2] : Idx 3) = x := by funext i; fin_cases i <;> rfl
    have e0 : (![x 0 - 1, x 1, x 2] : Idx 3) = stepIdx x 0 (-1) := by funext i; fin_cases i <;> simp [stepIdx] <;> omega
    have e1 : (![x 0, x 1 - 1, x 2] : Idx 3) = stepIdx x 1 (-1) := by funext i; fin_cases i <;> simp [stepIdx] <;> omega
    have e2 : (![x 0, x 1, x 2 - 1] : Idx 3) = stepIdx x 2 (-1) := by funext i; fin_cases i <;> simp [stepIdx] <;> omega
    simp only [formulae3, donorStep3, cur3, gFac3, pi3, if_true, e, e0, e1, e2, donorSum3_eq, Fin.sum_univ_three, gFacN]
    congr 2; ring
end

/-! ### translation equivariance of the scheme and periodicity -/
section
variable (p : SpecN.Par n K)
def SpecN.Par.sh (e : Fin n) (k : Int) : SpecN.Par n K := ⟨p.o, p.eps, p.F, p.st.sh e k⟩

theorem nbMax_sh (psi : Sca n K) (e : Fin n) (k : Int) : nbMax (shN e k psi) = shN e k (nbMax psi) := by
  funext x; unfold nbMax shN; simp only [stepIdx_comm _ e]
theorem nbMin_sh (psi : Sca n K) (e : Fin n) (k : Int) : nbMin (shN e k psi) = shN e k (nbMin psi) := by
  funext x; unfold nbMin shN; simp only [stepIdx_comm _ e]
theorem makeFluxN_sh (o : OptsT) (psi : Sca n K) (A : Vec n K) (e : Fin n) (k : Int) :
    makeFluxN o (shN e k psi) (fun d => shN e k (A d)) = fun d => shN e k (makeFluxN o psi A d) := by
  funext d x; unfold makeFluxN shN; simp only [stepIdx_comm _ e]

theorem gcMonoN_eq (o : OptsT) (psi u w : Sca n K) (A : Vec n K) (d : Fin n) (x : Idx n) :
    gcMonoN o psi u w A d x = A d x * monoCoef o (psi x) (psi (stepIdx x d 1)) (u x) (w x) (u (stepIdx x d 1)) (w (stepIdx x d 1)) (A d x) := by
  unfold gcMonoN monoCoef; simp only; split <;> rfl

theorem limitedN_sh (psi0 psi : Sca n K) (A : Vec n K) (e : Fin n) (k : Int) :
    SpecN.limited (p.sh e k) (shN e k psi0) (shN e k psi) (fun d => shN e k (A d)) = fun d => shN e k (SpecN.limited p psi0 psi A d) := by
  funext d x
  unfold SpecN.limited
  have h1 : (p.sh e k).o = p.o := rfl
  have h2 : (p.sh e k).eps = p.eps := rfl
  have h3 : (p.sh e k).st.G = shN e k p.st.G := rfl
  have hflx : (if isset p.o oIga = true then (fun d => shN e k (A d)) else makeFluxN p.o (shN e k psi) (fun d => shN e k (A d)))
      = fun d => shN e k ((if isset p.o oIga = true then A else makeFluxN p.o psi A) d) := by
    split
    · rfl
    · exact makeFluxN_sh _ _ _ _ _
  simp only [h1, h2, h3, hflx, nbMax_sh, nbMin_sh]
  generalize (if isset p.o oIga = true then A else makeFluxN p.o psi A) = flx
  have hU : betaUpN p.o p.eps (shN e k psi) (shN e k (nbMax psi0)) (fun d => shN e k (flx d)) (shN e k p.st.G)
      = shN e k (betaUpN p.o p.eps psi (nbMax psi0) flx p.st.G) := by
    funext x; unfold betaUpN gFacN; rw [nbMax_sh]; simp only [shN, stepIdx_comm _ e]
  have hD : betaDnN p.o p.eps (shN e k psi) (shN e k (nbMin psi0)) (fun d => shN e k (flx d)) (shN e k p.st.G)
      = shN e k (betaDnN p.o p.eps psi (nbMin psi0) flx p.st.G) := by
    funext x; unfold betaDnN gFacN; rw [nbMin_sh]; simp only [shN, stepIdx_comm _ e]
  rw [hU, hD, gcMonoN_eq]
  simp only [shN, gcMonoN_eq, stepIdx_comm _ e]

variable {p}
theorem donorN_sh (hF : FGood p.o p.F) (psi : Sca n K) (flx : Vec n K) (G : Sca n K) (e : Fin n) (k : Int) :
    p.F.donor (shN e k psi) (fun d => shN e k (flx d)) (shN e k G) = shN e k (p.F.donor psi flx G) := by
  funext x
  simp only [hF.donor_eq, shN, gFacN, stepIdx_comm _ e]

theorem passesN_sh (hF : FGood p.o p.F) (psi0 : Sca n K) (GC : Vec n K) (e : Fin n) (k : Int) (j : Nat) :
    (SpecN.passes (p.sh e k) (shN e k psi0) (fun d => shN e k (GC d)) j).psi = shN e k (SpecN.passes p psi0 GC j).psi ∧
    (SpecN.passes (p.sh e k) (shN e k psi0) (fun d => shN e k (GC d)) j).old = shN e k (SpecN.passes p psi0 GC j).old ∧
    (SpecN.passes (p.sh e k) (shN e k psi0) (fun d => shN e k (GC d)) j).U = fun d => shN e k ((SpecN.passes p psi0 GC j).U d) := by
  induction j with
  | zero =>
    refine ⟨?_, rfl, rfl⟩
    show p.F.donor _ (makeFluxN p.o _ _) (shN e k p.st.G) = _
    rw [makeFluxN_sh, donorN_sh hF]; rfl
  | succ j ih =>
    obtain ⟨i1, i2, i3⟩ := ih
    have hv : SpecN.velocity (p.sh e k) (shN e k (SpecN.passes p psi0 GC j).psi) (shN e k (SpecN.passes p psi0 GC j).old)
        (fun d => shN e k ((SpecN.passes p psi0 GC j).U d)) = fun d => shN e k (SpecN.velocity p (SpecN.passes p psi0 GC j).psi (SpecN.passes p psi0 GC j).old
          (SpecN.passes p psi0 GC j).U d) := by
      funext d x
      exact (hF.vel_shift d p.st _ _ _ x e k).symm
    simp only [SpecN.passes, i1, i2, i3, hv]
    refine ⟨?_, trivial, trivial⟩
    unfold SpecN.corrective
    have h1 : (p.sh e k).o = p.o := rfl
    have h3 : (p.sh e k).st.G = shN e k p.st.G := rfl
    simp only [limitedN_sh, h1, h3]
    generalize SpecN.velocity p _ _ _ = A
    have hC : (if isset p.o oFct = true then (fun d => shN e k (SpecN.limited p psi0 (SpecN.passes p psi0 GC j).psi A d)) else (fun d => shN e k (A d)))
        = fun d => shN e k ((if isset p.o oFct = true then SpecN.limited p psi0 (SpecN.passes p psi0 GC j).psi A else A) d) := by
      split <;> rfl
    simp only [hC]
    generalize (if isset p.o oFct = true then SpecN.limited p psi0 (SpecN.passes p psi0 GC j).psi A else A) = C
    have hX : (if isset p.o oIga = true then (fun d => shN e k (C d)) else makeFluxN p.o (shN e k (SpecN.passes p psi0 GC j).psi) (fun d => shN e k (C d)))
        = fun d => shN e k ((if isset p.o oIga = true then C else makeFluxN p.o (SpecN.passes p psi0 GC j).psi C) d) := by
      split
      · rfl
      · exact makeFluxN_sh _ _ _ _ _
    rw [hX]
    exact donorN_sh hF _ _ _ _ _

theorem shN_per {V : Type} {P : Fin n → Nat} {a : Idx n → V} (h : PeriodicN P a) (d : Fin n) : shN d (P d) a = a := by
  funext x; exact h x d

/-- parameters given as periodic fields -/
structure ParPerN (p : SpecN.Par n K) (P : Fin n → Nat) : Prop where
  G : PeriodicN P p.st.G
  ndt : ∀ d, PeriodicN P (p.st.ndt d)
  ndtt : ∀ d, PeriodicN P (p.st.ndtt d)

theorem par_sh_per {P : Fin n → Nat} (h : ParPerN p P) (d : Fin n) : p.sh d (P d) = p := by
  have hst : p.st.sh d (P d) = p.st := by
    show (⟨_, _, _⟩ : Stat n K) = ⟨p.st.G, p.st.ndt, p.st.ndtt⟩
    congr 1
    · exact shN_per h.G d
    · funext e; exact shN_per (h.ndt e) d
    · funext e; exact shN_per (h.ndtt e) d
  unfold SpecN.Par.sh; rw [hst]

theorem passesN_periodic (hF : FGood p.o p.F) {P : Fin n → Nat} (h : ParPerN p P) {psi0 : Sca n K} {GC : Vec n K} (h0 : PeriodicN P psi0) (hg : ∀ d, PeriodicN P (GC d)) (j : Nat) :
    PeriodicN P (SpecN.passes p psi0 GC j).psi ∧ PeriodicN P (SpecN.passes p psi0 GC j).old ∧ ∀ d, PeriodicN P ((SpecN.passes p psi0 GC j).U d) := by
  have key : ∀ e, _ := fun e => passesN_sh hF psi0 GC e (P e) j
  have e1 : ∀ e, shN e (P e) psi0 = psi0 := fun e => shN_per h0 e
  have e2 : ∀ e, (fun d => shN e (P e) (GC d)) = GC := fun e => by funext d; exact shN_per (hg d) e
  simp only [e1, e2, par_sh_per h] at key
  refine ⟨fun x e => (congrFun (key e).1 x).symm, fun x e => (congrFun (key e).2.1 x).symm, fun d x e => ?_⟩
  exact (congrFun (congrFun (key e).2.2 d) x).symm

theorem velocityN_periodic (hF : FGood p.o p.F) {P : Fin n → Nat} (h : ParPerN p P) {psi old : Sca n K} {U : Vec n K} (h1 : PeriodicN P psi) (h2 : PeriodicN P old)
    (h3 : ∀ d, PeriodicN P (U d)) (d : Fin n) : PeriodicN P (SpecN.velocity p psi old U d) := by
  intro x e
  unfold SpecN.velocity
  rw [hF.vel_shift, shN_per h1, shN_per h2]
  have e3 : (fun d => shN e (P e) (U d)) = U := by funext d; exact shN_per (h3 d) e
  have e4 : p.st.sh e (P e) = p.st := congrArg SpecN.Par.st (par_sh_per h e)
  rw [e3, e4]
end

/-! ### the program with cyclic boundaries -/
section
variable {c : CfgN n K} {p : SpecN.Par n K} {P : Fin n → Nat} {ds : List (Fin n)}

theorem solverHalo_ge (o : OptsT) : (1 : Int) ≤ solverHalo o ∧ (mpdataHalo o : Int) ≤ solverHalo o ∧ (isset o oFct = true → (2 : Int) ≤ solverHalo o) := by
  have h := mpdataHalo_ge o
  refine ⟨?_, ?_, ?_⟩
  · have : mpdataHalo o ≤ solverHalo o := le_max_left _ _
    omega
  · have : mpdataHalo o ≤ solverHalo o := le_max_left _ _
    omega
  · intro hf
    have : 2 ≤ solverHalo o := by unfold solverHalo; rw [hf]; exact le_max_right _ _
    omega

theorem CyclicSetupN.hb (h : CyclicSetupN c p P ds) (d : Fin n) : (c.box d).last = (c.box d).first + P d := by
  rw [h.hbox]; simp

theorem CyclicSetupN.impl (h : CyclicSetupN c p P ds) (hF : FGood p.o p.F) :
    ImplN c ⟨p, id, fun _ => id, id⟩ (solverHalo c.o) True (PeriodicN P) (fun A => ∀ d, PeriodicN P (A d)) := by
  have hg := solverHalo_ge c.o
  have hHP : ∀ d, (solverHalo c.o : Int) ≤ P d := fun d => by exact_mod_cast h.hhP d
  refine ⟨h.ho, h.heps, h.hF, ?_, h.hG, h.hndt, h.hndtt, hg.2.1, hg.2.2, ?_, ?_, ?_, ?_, ?_, ?_, fun _ _ h => h, fun _ h => h⟩
  · rw [h.ho, h.hF]; exact hF.toFLocal
  · intro a b hb hab
    rw [h.hS]
    exact cycXchngS_agree h.hb hHP (by omega) ds h.hds.1 h.hds.2 hb hab
  · intro ad a b hb hab d
    rw [h.hA]
    exact cycXchngA_agree h.hb hHP hb (fun d => (hab d).mono (fun x hx => Bx.mono hx (by widths))) d
  · intro _ ad a b hb hab d
    rw [h.hA]
    exact cycXchngA_agree h.hb hHP hb hab d
  · intro ad a b hb hab d
    rw [h.hA]
    exact cycXchngA_agree' h.hb hHP hg.1 hb hab d
  · intro a b hb hab d
    rw [h.hN]
    have := cycXchngN_agree h.hb hHP 0 le_rfl hg.1 hb (fun d => (hab d).mono (fun x hx => Bx.mono hx (by widths))) d
    exact this.mono (fun x hx => Bx.mono hx (by widths))
  · intro a b hb hab d x hx
    rw [h.hN, cycXchngN_same]
    · exact hab d x hx
    · intro e he
      have := hx e
      simp only [if_neg he] at this; omega

theorem refN_id_passes (p : SpecN.Par n K) (N : Nat) (psi0 : Sca n K) (GC : Vec n K) (j : Nat) :
    RefN.passes ⟨p, id, fun _ => id, id⟩ N psi0 GC j = SpecN.passes p psi0 GC j := by
  induction j with
  | zero => rfl
  | succ j ih =>
    simp only [RefN.passes, SpecN.passes, ih, id, RefN.vel]
    simp

theorem CyclicSetupN.par (h : CyclicSetupN c p P ds) : ParPerN p P := ⟨h.perG, h.perNdt, h.perNdtt⟩

theorem HaloCovered.cyclic {o : OptsT} {N : Nat} (h : HaloCovered o N) : CoverN True o N := by
  rcases h with h | h | h
  · exact Or.inl (Or.inl h)
  · exact Or.inr ⟨trivial, h⟩
  · exact Or.inl (Or.inr ⟨h.2, Or.inr h.1⟩)

/-- one step from any memory holding the right field and a filled advector -/
theorem cycN_step (h : CyclicSetupN c p P ds) (hF : FGood p.o p.F) (hn : 1 ≤ c.nIters) (hx : HaloCovered c.o c.nIters) {psi0 : Sca n K} {GC : Vec n K}
    (h0 : PeriodicN P psi0) (hg : ∀ d, PeriodicN P (GC d)) (m : MemN n K) (hpsi : AgN (cellBox c.box) m.psi psi0)
    (hGC : ∀ d, AgN (RG c.box (solverHalo c.o) d) (m.GC d) (GC d)) :
    AgN (cellBox c.box) (advanceN c m).psi (SpecN.step p (if c.filter then 1 else c.nIters) psi0 GC) := by
  have hper := passesN_periodic hF h.par h0 hg
  have := advanceN_spec (h.impl hF) hn m psi0 GC hx.cyclic hpsi hGC h0 (fun j => by rw [refN_id_passes]; exact (hper j).1)
    (fun j => by rw [refN_id_passes]; exact velocityN_periodic hF h.par (hper j).1 (hper j).2.1 (hper j).2.2)
  rw [refN_id_passes] at this
  exact this

theorem CyclicSetupN.filt (h : CyclicSetupN c p P ds) (b : Bool) : CyclicSetupN { c with filter := b } p P ds :=
  ⟨h.ho, h.heps, h.hF, h.hbox, h.hhP, h.hds, h.hS, h.hA, h.hN, h.perG, h.perNdt, h.perNdtt, h.hG, h.hndt, h.hndtt⟩

theorem advanceN_GC (c : CfgN n K) (m : MemN n K) : (advanceN c m).GC = m.GC := by
  have h1 : ∀ m, (fctInitN c m).GC = m.GC := by intro m; unfold fctInitN; split <;> rfl
  have h2 : ∀ k m, (fctAdjustN c k m).GC = m.GC := by
    intro k m; unfold fctAdjustN; split
    · simp only; split <;> simp
    · rfl
  have h3 : ∀ k m, (advIterN c k m).GC = m.GC := by
    intro k m; unfold advIterN corrIterN
    simp only
    split <;> split <;> simp only [h2] <;> (try (split <;> (try split))) <;> simp only [setCorrN_GC]
  have h4 : ∀ q k m, (advLoopN c q k m).GC = m.GC := by
    intro q
    induction q with
    | zero => intro k m; rfl
    | succ q ih =>
      intro k m
      unfold advLoopN
      simp only
      split
      · exact h3 k m
      · rw [ih, h3]
  unfold advanceN
  simp only [h4, h1]

theorem runProgN_GC (c : CfgN n K) (filt : Nat → Bool) (t : Nat) (m : MemN n K) : (runProgN c filt t m).GC = m.GC := by
  induction t with
  | zero => rfl
  | succ t ih => unfold runProgN; rw [advanceN_GC, ih]

theorem cellBox_iff (h : CyclicSetupN c p P ds) (x : Idx n) : cellBox c.box x ↔ InGrid P x := by
  unfold cellBox Bx InGrid
  simp only [h.hbox]
  constructor <;> intro hh d <;> have := hh d <;> omega

/-- the advector halos before the loop -/
theorem cycN_prep (h : CyclicSetupN c p P ds) {A GC : Vec n K} (hg : ∀ d, PeriodicN P (GC d)) (hGC : ∀ d x, InFaces P d x → A d x = GC d x) (d : Fin n) :
    AgN (RG c.box (solverHalo c.o) d) (prepGC c (solverHalo c.o) A d) (GC d) := by
  have hgh := solverHalo_ge c.o
  have hHP : ∀ d, (solverHalo c.o : Int) ≤ P d := fun d => by exact_mod_cast h.hhP d
  unfold prepGC
  rw [h.hA, h.hN]
  have h1 := cycXchngA_agree h.hb hHP (A := A) hg (fun d x hx => hGC d x (by
    refine ⟨?_, ?_⟩
    · rw [← cellBox_iff h]; exact Bx.mono hx (by widths)
    · have := hx d; rw [h.hbox] at this; simp only [if_true] at this; omega))
  have h2 := cycXchngN_agree h.hb hHP ((solverHalo c.o : Int) - 1) (by omega) (by omega) (A := cycXchngA c.box (solverHalo c.o) A) hg
    (fun d => (h1 d).mono (fun x hx => Bx.mono hx (by widths))) d
  exact h2.mono (fun x hx => Bx.mono hx (by widths))

theorem specN_run_periodic (hF : FGood p.o p.F) (hp : ParPerN p P) (N : Nat) (filt : Nat → Bool) {psi : Sca n K} {GC : Vec n K}
    (h0 : PeriodicN P psi) (hg : ∀ d, PeriodicN P (GC d)) (t : Nat) : PeriodicN P (SpecN.run p N filt GC t psi) := by
  induction t with
  | zero => exact h0
  | succ t ih => exact (passesN_periodic hF hp ih hg _).1

/-- a cyclic run of any length computes the run of the specification -/
theorem cycN_run (h : CyclicSetupN c p P ds) (hF : FGood p.o p.F) (hn : 1 ≤ c.nIters) (hx : HaloCovered c.o c.nIters) (filt : Nat → Bool)
    {psi0 : Sca n K} {GC : Vec n K} (h0 : PeriodicN P psi0) (hg : ∀ d, PeriodicN P (GC d)) (m : MemN n K)
    (hpsi : ∀ x, InGrid P x → m.psi x = psi0 x) (hGC : ∀ d x, InFaces P d x → m.GC d x = GC d x) (t : Nat) :
    ∀ x, InGrid P x → (runProgN c filt t { m with GC := prepGC c (solverHalo c.o) m.GC }).psi x = SpecN.run p c.nIters filt GC t psi0 x := by
  induction t with
  | zero => exact hpsi
  | succ t ih =>
    unfold runProgN SpecN.run
    have := cycN_step (h.filt (filt t)) hF hn hx (specN_run_periodic hF h.par c.nIters filt h0 hg t) hg
      (runProgN c filt t { m with GC := prepGC c (solverHalo c.o) m.GC }) (fun x hx => ih x ((cellBox_iff h x).1 hx))
      (by rw [runProgN_GC]; exact cycN_prep h hg hGC)
    intro x hx
    exact this x ((cellBox_iff h x).2 hx)
end
end Mpdata
