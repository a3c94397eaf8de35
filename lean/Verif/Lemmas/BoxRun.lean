import Verif.Lemmas.BsqRun
import Verif.Lemmas.VipBudget
import Verif.Props.WallN
/-! # A box with rigid walls on all sides: the advector of the incompressible solver is its own mirror image, and what a step does to linear functionals of the scalars -/
set_option linter.unusedSectionVars false
namespace Mpdata.PP
open Prs (inBox)
variable {K : Type} [Field K] [LinearOrder K] [IsStrictOrderedRing K] {n : Nat}

/-! ## Velocities beyond the walls -/
section
variable [NeZero n]

/-- `xchng_pres` beyond rigid walls, as deep as the halo -/
theorem pres_deep (N : Fin n → Nat) {halo ext : Int} (he : 0 ≤ ext) (hN : ∀ d, halo ≤ (N d : Int) - 1) (a : Sca n K) (d : Fin n) {y : Idx n}
    (hy : ∀ e, e ≠ d → 0 ≤ y e ∧ y e ≤ (N e : Int) - 1) :
    (-halo ≤ y d → y d < 0 → xchngPres (bnd N (fun _ => .rigid) halo) (List.finRange n) ext a y = 2 * a (stepIdx y d (-y d)) - a (stepIdx y d (2 * -y d))) ∧
    ((N d : Int) - 1 < y d → y d ≤ (N d : Int) - 1 + halo →
      xchngPres (bnd N (fun _ => .rigid) halo) (List.finRange n) ext a y = 2 * a (stepIdx y d ((N d : Int) - 1 - y d)) - a (stepIdx y d (2 * ((N d : Int) - 1 - y d)))) := by
  have off : ∀ (k : Int) (e : Fin n), e ≠ d → stepIdx y d k e = y e := by intro k e he; unfold stepIdx; simp [he]
  have atd : ∀ k : Int, stepIdx y d k d = y d + k := by intro k; unfold stepIdx; simp
  have hNd := hN d
  have box : ∀ k : Int, 0 ≤ y d + k → y d + k ≤ (N d : Int) - 1 → inBox N (stepIdx y d k) := by
    intro k h1 h2 e
    by_cases h : e = d
    · subst h; rw [atd]; exact ⟨h1, h2⟩
    · rw [off k e h]; exact hy e h
  obtain ⟨a', h1, h2⟩ := pres_row (bnd N (fun _ => .rigid) halo) ext a d (y := y) (fun e he => hy e he)
  have hO : Ot (bnd N (fun _ => .rigid) halo).b d (fun _ => ext) (fun _ => ext) y := fun e he => by
    have := hy e he
    show (0 : Int) - ext ≤ y e ∧ y e ≤ (N e : Int) - 1 + ext
    omega
  have dL : presDepthL (bnd N (fun _ => .rigid) halo) d = halo := if_neg (by simp [bnd])
  have dR : presDepthR (bnd N (fun _ => .rigid) halo) d = halo := if_neg (by simp [bnd])
  rw [h2]
  unfold fillP
  constructor
  · intro p1 p2
    rw [asgN_of_not (fun h => by have := h.1.1; rw [bnd_l] at this; omega), asgN_of ⟨by rw [dL, bnd_f]; omega, hO⟩]
    show 2 * a' (stepIdx y d (0 - y d)) - a' (stepIdx y d (2 * (0 - y d))) = _
    rw [h1 _ (box (0 - y d) (by omega) (by omega)), h1 _ (box (2 * (0 - y d)) (by omega) (by omega)), zero_sub]
  · intro p1 p2
    rw [asgN_of ⟨by rw [dR, bnd_l]; omega, hO⟩]
    have keepL : ∀ z : Idx n, inBox N z → asgN (fun x => ((bnd N (fun _ => .rigid) halo).f d - presDepthL (bnd N (fun _ => .rigid) halo) d ≤ x d ∧ x d ≤ (bnd N (fun _ => .rigid) halo).f d - 1) ∧
        Ot (bnd N (fun _ => .rigid) halo).b d (fun _ => ext) (fun _ => ext) x) (valPL (bnd N (fun _ => .rigid) halo) d a') a' z = a' z := by
      intro z hz
      exact asgN_of_not (fun h => by have h1 := h.1.2; have h3 := (hz d).1; rw [bnd_f] at h1; omega)
    generalize asgN (fun x => ((bnd N (fun _ => .rigid) halo).f d - presDepthL (bnd N (fun _ => .rigid) halo) d ≤ x d ∧ x d ≤ (bnd N (fun _ => .rigid) halo).f d - 1) ∧
        Ot (bnd N (fun _ => .rigid) halo).b d (fun _ => ext) (fun _ => ext) x) (valPL (bnd N (fun _ => .rigid) halo) d a') a' = A at keepL
    show 2 * A (stepIdx y d ((N d : Int) - 1 - y d)) - A (stepIdx y d (2 * ((N d : Int) - 1 - y d))) = _
    have b1 := box ((N d : Int) - 1 - y d) (by omega) (by omega)
    have b2 := box (2 * ((N d : Int) - 1 - y d)) (by omega) (by omega)
    rw [keepL _ b1, keepL _ b2, h1 _ b1, h1 _ b2]

/-- with rigid walls the exchange of transverse components is the one of the advection benchmarks -/
theorem nrml_rigid (P : Fin n → Nat) (halo ext : Int) (A : Vec n K) :
    xchngNrml (bnd (fun d => P d + 1) (fun _ => .rigid) halo) ext A = bcXchngN (fun _ => true) (fun d => ⟨0, P d⟩) halo ext A := by
  have hb : (fun d => (⟨0, ((P d + 1 : Nat) : Int) - 1⟩ : Rng)) = fun d => ⟨0, P d⟩ := by funext d; push_cast; simp
  rw [← hb]
  rfl

theorem alngCyc_rigid (N : Fin n → Nat) (halo : Int) (A : Vec n K) : alngCyc (bnd N (fun _ => .rigid) halo) A = A := by
  unfold alngCyc
  have : ∀ l : List (Fin n), l.foldl (fun (A : Vec n K) d => if (bnd N (fun _ => BcKind.rigid) halo).kl d = .cyclic then fillA (bnd N (fun _ => .rigid) halo) d false A else A) A = A := by
    intro l
    induction l with
    | nil => rfl
    | cons d l ih => rw [List.foldl_cons, if_neg (by simp [bnd])]; exact ih
  exact this _

/-- face values made of point values that are odd in the walls agree with the continuation of their own interior -/
theorem faces_odd {P : Fin n → Nat} {H : Int} (hH1 : 1 ≤ H) (hHP : ∀ d, H ≤ P d) (hP : ∀ d, 1 ≤ P d) {V : Vec n K} {F : Vec n K} {κ : Fin n → K}
    (hV : ∀ d x, Bx (fun d => ⟨0, P d⟩) (fun e => if e = d then H else 0) (fun e => if e = d then H - 1 else 0) x → V d x = κ d * (F d x + F d (stepIdx x d 1)))
    (h0 : ∀ d (y : Idx n), (∀ e, e ≠ d → 0 ≤ y e ∧ y e ≤ P e) → -H ≤ y d → y d ≤ 0 → F d y = -F d (stepIdx y d (2 * -y d)))
    (h1 : ∀ d (y : Idx n), (∀ e, e ≠ d → 0 ≤ y e ∧ y e ≤ P e) → (P d : Int) ≤ y d → y d ≤ P d + H → F d y = -F d (stepIdx y d (2 * ((P d : Int) - y d)))) (d : Fin n) :
    AgN (RA (fun d => ⟨0, P d⟩) H d) (V d) (extV P V d) := by
  intro x hx
  have off : ∀ (y : Idx n) (k : Int) (e : Fin n), e ≠ d → stepIdx y d k e = y e := by intro y k e he; unfold stepIdx; simp [he]
  have atd : ∀ (y : Idx n) (k : Int), stepIdx y d k d = y d + k := by intro y k; unfold stepIdx; simp
  have hc := extV_cont hP V
  have hPd := hP d
  have hH := hHP d
  have hxo : ∀ e, e ≠ d → 0 ≤ x e ∧ x e ≤ P e := fun e he => by have := hx e; simp only [if_neg he] at this; omega
  have hxd : -H ≤ x d ∧ x d ≤ P d + (H - 1) := by have := hx d; simp only [if_true] at this; omega
  have inF : ∀ k : Int, 0 ≤ x d + k → x d + k < P d → InFaces P d (stepIdx x d k) := by
    intro k p1 p2
    refine ⟨fun e => ?_, by rw [atd]; exact p2⟩
    by_cases he : e = d
    · subst he; rw [atd]; omega
    · rw [off _ _ e he]; exact hxo e he
  have inR : ∀ k : Int, 0 ≤ x d + k → x d + k < P d → Bx (fun d => (⟨0, P d⟩ : Rng)) (fun e => if e = d then H else 0) (fun e => if e = d then H - 1 else 0) (stepIdx x d k) := by
    intro k p1 p2 e
    by_cases he : e = d
    · subst he; rw [atd]; simp only [if_true]; omega
    · rw [off _ _ e he]; simp only [if_neg he]; have := hxo e he; omega
  rcases lt_or_ge (x d) 0 with hneg | hpos
  · have e1 : mirF d x = stepIdx x d (-1 - 2 * x d) := by
      funext e; unfold mirF stepIdx; split_ifs with he <;> simp [he] <;> omega
    have e2 := hc.odd x d rfl
    rw [e1, ← extV_eq hP V d _ (inF _ (by omega) (by omega)), hV d _ (inR _ (by omega) (by omega)), step_step] at e2
    have e3 : extV P V d x = -(κ d * (F d (stepIdx x d (-1 - 2 * x d)) + F d (stepIdx x d (-1 - 2 * x d + 1)))) := by rw [e2]; ring
    rw [e3, hV d x hx, h0 d x hxo hxd.1 (by omega), h0 d (stepIdx x d 1) (fun e he => by rw [off _ _ e he]; exact hxo e he) (by rw [atd]; omega) (by rw [atd]; omega), step_step, atd]
    rw [show (1 + 2 * -(x d + 1) : Int) = -1 - 2 * x d by ring, show (2 * -x d : Int) = -1 - 2 * x d + 1 by ring]
    ring
  · rcases lt_or_ge (x d) (P d : Int) with hlt | hge
    · exact extV_eq hP V d x ⟨fun e => by by_cases he : e = d; · subst he; omega
                                          · exact hxo e he, hlt⟩
    · have e0 := hc.per d (stepIdx x d (-(2 * (P d : Int)))) d rfl
      rw [step_step, show (-(2 * (P d : Int)) + 2 * (P d : Int)) = 0 by ring, step_zero] at e0
      have e1 : mirF d (stepIdx x d (-(2 * (P d : Int)))) = stepIdx x d (2 * (P d - x d) - 1) := by
        funext e; unfold mirF stepIdx; split_ifs with he <;> simp [he] <;> omega
      have e2 := hc.odd (stepIdx x d (-(2 * (P d : Int)))) d rfl
      rw [e1, ← extV_eq hP V d _ (inF _ (by omega) (by omega)), hV d _ (inR _ (by omega) (by omega)), step_step] at e2
      have e3 : extV P V d x = -(κ d * (F d (stepIdx x d (2 * (P d - x d) - 1)) + F d (stepIdx x d (2 * (P d - x d) - 1 + 1)))) := by rw [e0, e2]; ring
      rw [e3, hV d x hx, h1 d x hxo hge (by omega), h1 d (stepIdx x d 1) (fun e he => by rw [off _ _ e he]; exact hxo e he) (by rw [atd]; omega) (by rw [atd]; omega), step_step, atd]
      rw [show (1 + 2 * ((P d : Int) - (x d + 1)) : Int) = 2 * (P d - x d) - 1 by ring, show (2 * ((P d : Int) - x d) : Int) = 2 * (P d - x d) - 1 + 1 by ring]
      ring

variable {u : VP.User K (Idx n) n} {P : Fin n → Nat} {a : CfgN n K} {p0 : SpecN.Par n K} {ds : List (Fin n)} {tol : K} {cap : Nat} {prs : Scheme}

theorem setup_of_wall (h : WallSetupN (fun _ => true) a p0 P ds) (hd : u.den = none) (hi : Function.Injective u.vip) : Setup u (fun d => P d + 1) (solverHalo a.o) a := by
  have hH := (solverHalo_ge a.o).1
  refine ⟨fun d => ?_, hH, fun d => by rw [h.hbox d]; push_cast; simp, fun f x hx => ?_, hd, hi⟩
  · have := h.hhP d; omega
  · rw [h.hS]
    exact bcS_fold_same ds f x (fun d _ => by
      rw [h.hbox d]
      have := hx d
      push_cast at this
      exact ⟨this.1, by simpa using this.2⟩)

/-- the G-factor is its own mirror image in the walls -/
theorem box_G (h : WallSetupN (fun _ => true) a p0 P ds) (d : Fin n) {y : Idx n} (hy : ∀ e, e ≠ d → 0 ≤ y e ∧ y e ≤ P e) :
    (-(solverHalo a.o : Int) ≤ y d → y d ≤ 0 → gFacN a.o a.st.G y = gFacN a.o a.st.G (stepIdx y d (2 * -y d))) ∧
    ((P d : Int) ≤ y d → y d ≤ P d + solverHalo a.o → gFacN a.o a.st.G y = gFacN a.o a.st.G (stepIdx y d (2 * ((P d : Int) - y d)))) := by
  have hH := (solverHalo_ge a.o).1
  have hP : (solverHalo a.o : Int) ≤ P d := by exact_mod_cast h.hhP d
  have hc := contS_gFac (p := p0) h.contG
  have eqG : ∀ k : Int, -(solverHalo a.o : Int) ≤ y d + k → y d + k ≤ P d + solverHalo a.o → gFacN a.o a.st.G (stepIdx y d k) = gFacN p0.o p0.st.G (stepIdx y d k) := by
    intro k k1 k2
    unfold gFacN
    rw [h.ho, h.hG (stepIdx y d k) (fun e => by
      rw [h.hbox]
      unfold stepIdx
      by_cases he : e = d
      · subst he; simp only [if_true]; omega
      · simp only [if_neg he]; have := hy e he; omega)]
  have e0 : y = stepIdx y d 0 := (step_zero y d).symm
  have m0 : mirC d y = stepIdx y d (2 * -y d) := by funext e; unfold mirC stepIdx; split_ifs with he <;> simp [he] <;> omega
  constructor
  · intro h1 h2
    rw [eqG _ (by omega) (by omega), ← m0, hc.even y d rfl]
    conv_lhs => rw [e0]
    rw [eqG 0 (by omega) (by omega), ← e0]
  · intro h1 h2
    rw [eqG _ (by omega) (by omega), show (2 * ((P d : Int) - y d)) = 2 * -y d + 2 * (P d : Int) by ring, ← step_step, hc.per _ d rfl, ← m0, hc.even y d rfl]
    conv_lhs => rw [e0]
    rw [eqG 0 (by omega) (by omega), ← e0]

/-- in a box with rigid walls the advector of every step, halos included, is the continuation of its interior -/
theorem box_gc (h : WallSetupN (fun _ => true) a p0 P ds) (dt : K) (f : Fin n → Idx n → K) (dst : Fin n → Idx n → K)
    (hf : ∀ d x, inBox (fun d => P d + 1) x → (x d = 0 ∨ x d = P d) → f d x = 0) :
    let c := solver u (fun d => P d + 1) (fun _ => .rigid) (solverHalo a.o) a tol cap prs
    ∃ V : Vec n K, ∀ d, AgN (RG a.box (solverHalo a.o) d) (VP.interp c.toCfg dt (fun d => c.xchngP (f d)) dst d) (extV P V d) := by
  intro c
  have hH := (solverHalo_ge a.o).1
  have hHP : ∀ d, (solverHalo a.o : Int) ≤ P d := fun d => by exact_mod_cast h.hhP d
  have hP : ∀ d, 1 ≤ P d := fun d => by have := h.hhP d; omega
  have hb : a.box = fun d => ⟨0, P d⟩ := funext h.hbox
  have off : ∀ (d : Fin n) (y : Idx n) (k : Int) (e : Fin n), e ≠ d → stepIdx y d k e = y e := by intro d y k e he; unfold stepIdx; simp [he]
  have atd : ∀ (d : Fin n) (y : Idx n) (k : Int), stepIdx y d k d = y d + k := by intro d y k; unfold stepIdx; simp
  set V : Vec n K := fun d x => if c.face d x then intrpFace dt (c.dx d) (c.G x) (c.G (c.sh x d 1)) (c.xchngP (f d) x) (c.xchngP (f d) (c.sh x d 1)) else dst d x with hVd
  have box : ∀ (d : Fin n) (y : Idx n), (∀ e, e ≠ d → 0 ≤ y e ∧ y e ≤ P e) → ∀ k : Int, 0 ≤ y d + k → y d + k ≤ P d → inBox (fun d => P d + 1) (stepIdx y d k) := by
    intro d y hy k h1 h2 e
    push_cast
    by_cases he : e = d
    · subst he; rw [atd]; omega
    · rw [off d y k e he]; have := hy e he; omega
  have keep : ∀ d x, inBox (fun d => P d + 1) x → c.xchngP (f d) x = f d x := fun d x hx => C60_pres_keeps_domain (bnd (fun d => P d + 1) (fun _ => .rigid) (solverHalo a.o)) _ _ (f d) hx
  have odd := faces_odd (P := P) (H := solverHalo a.o) hH hHP hP (V := V) (F := fun d y => c.G y * c.xchngP (f d) y) (κ := fun d => dt / c.dx d * (1 / 2))
    (fun d x hx => by
      have hface : c.face d x = true := by
        show decide (Bx a.box (fun e => if e = d then (solverHalo a.o : Int) else solverHalo a.o - 1) (fun _ => (solverHalo a.o : Int) - 1) x) = true
        rw [decide_eq_true_iff, hb]
        intro e
        have := hx e
        by_cases he : e = d
        · simp only [if_pos he] at this ⊢; omega
        · simp only [if_neg he] at this ⊢; omega
      show (if c.face d x then _ else _) = _
      rw [if_pos hface]
      rfl)
    (fun d y hy h1 h2 => by
      show c.G y * c.xchngP (f d) y = -(c.G _ * c.xchngP (f d) _)
      have hG : c.G y = c.G (stepIdx y d (2 * -y d)) := (box_G h d hy).1 h1 h2
      have hd := hHP d
      rw [← hG, keep d (stepIdx y d (2 * -y d)) (box d y hy _ (by omega) (by omega))]
      rcases lt_or_eq_of_le h2 with hlt | heq
      · have := (pres_deep (fun d => P d + 1) (halo := solverHalo a.o) (ext := (solverHalo a.o : Int) - 1) (by omega) (fun d => by have := hHP d; push_cast; omega) (f d) d (y := y)
          (fun e he => by have := hy e he; push_cast; omega)).1 h1 hlt
        have e2 : c.xchngP (f d) y = 2 * f d (stepIdx y d (-y d)) - f d (stepIdx y d (2 * -y d)) := this
        rw [e2, hf d _ (box d y hy _ (by omega) (by omega)) (Or.inl (by rw [atd]; omega))]
        ring
      · have e1 : stepIdx y d (2 * -y d) = y := by rw [heq]; exact step_zero y d
        have by' : inBox (fun d => P d + 1) y := by have := box d y hy 0 (by omega) (by omega); rwa [step_zero] at this
        rw [e1, keep d y by', hf d y by' (Or.inl heq)]
        ring)
    (fun d y hy h1 h2 => by
      show c.G y * c.xchngP (f d) y = -(c.G _ * c.xchngP (f d) _)
      have hG : c.G y = c.G (stepIdx y d (2 * ((P d : Int) - y d))) := (box_G h d hy).2 h1 h2
      have hd := hHP d
      rw [← hG, keep d (stepIdx y d (2 * ((P d : Int) - y d))) (box d y hy _ (by omega) (by omega))]
      rcases lt_or_eq_of_le h1 with hlt | heq
      · have := (pres_deep (fun d => P d + 1) (halo := solverHalo a.o) (ext := (solverHalo a.o : Int) - 1) (by omega) (fun d => by have := hHP d; push_cast; omega) (f d) d (y := y)
          (fun e he => by have := hy e he; push_cast; omega)).2 (by push_cast; omega) (by push_cast; omega)
        have e2 : c.xchngP (f d) y = 2 * f d (stepIdx y d ((P d : Int) - y d)) - f d (stepIdx y d (2 * ((P d : Int) - y d))) := by
          rw [show (((P d + 1 : Nat) : Int) - 1 - y d) = (P d : Int) - y d by push_cast; ring] at this
          exact this
        rw [e2, hf d _ (box d y hy _ (by omega) (by omega)) (Or.inr (by rw [atd]; omega))]
        ring
      · have e1 : stepIdx y d (2 * ((P d : Int) - y d)) = y := by rw [heq, sub_self]; exact step_zero y d
        have by' : inBox (fun d => P d + 1) y := by have := box d y hy 0 (by omega) (by omega); rwa [step_zero] at this
        rw [e1, keep d y by', hf d y by' (Or.inr heq.symm)]
        ring)
  refine ⟨V, fun d => ?_⟩
  have e1 : VP.interp c.toCfg dt (fun d => c.xchngP (f d)) dst d = bcXchngN (fun _ => true) (fun d => ⟨0, P d⟩) (solverHalo a.o) ((solverHalo a.o : Int) - 1) V d := by
    show xchngNrml (bnd (fun d => P d + 1) (fun _ => .rigid) (solverHalo a.o)) ((solverHalo a.o : Int) - 1) (alngCyc (bnd (fun d => P d + 1) (fun _ => .rigid) (solverHalo a.o)) V) d = _
    rw [alngCyc_rigid, nrml_rigid]
  rw [e1, hb]
  have h2 := bcXchngN_agree (wall := fun _ => true) (b := fun d => (⟨0, P d⟩ : Rng)) (fun _ => rfl) hHP ((solverHalo a.o : Int) - 1) (by omega) (by omega) (extV_cont hP V)
    (fun d => (odd d).mono (fun x hx e => by have := hx e; by_cases he : e = d <;> simp only [he, if_true, if_false] at this ⊢ <;> omega)) d
  exact h2.mono (fun x hx e => by have := hx e; by_cases he : e = d <;> simp only [he, if_true, if_false] at this ⊢ <;> omega)
end

/-! ## What a step does to a linear functional of a scalar -/
section
variable [NeZero n] {T : Type} {c : Cfg K n T} {S : (Idx n → K) → K}

/-- the right-hand side in force: zero for equations without one -/
def effR (c : VP.Cfg K (Idx n) n T) (rhs : Nat → Idx n → K) (e : Nat) : Idx n → K := fun x => if VP.hasRhs c e then rhs e x else 0

theorem app_tot (ok : Ok c) (hS : ∀ f g, (∀ x, inBox c.N x → f x = g x) → S f = S g) (lin : ∀ f g (k : K), S (fun x => f x + k * g x) = S f + k * S g) (dt : K) (s : VP.St K (Idx n) n T) (e : Nat) :
    S ((VP.appRhs c.toCfg dt s).psi e) = S (s.psi e) + dt * S (effR c.toCfg s.rhs e) := by
  rw [← lin]
  refine hS _ _ (fun x hx => ?_)
  show (if VP.hasRhs c.toCfg e then VP.asgG c.toCfg (fun x => s.psi e x + dt * s.rhs e x) (s.psi e) else s.psi e) x = s.psi e x + dt * (if VP.hasRhs c.toCfg e then s.rhs e x else 0)
  split_ifs with h
  · unfold VP.asgG; rw [if_pos ((ok.grid x).2 hx)]
  · ring

theorem upd_tot (ok : Ok c) (hS : ∀ f g, (∀ x, inBox c.N x → f x = g x) → S f = S g) (dt : K) (at1 : Bool) (s : VP.St K (Idx n) n T) (e : Nat) :
    S ((VP.updRhs c.toCfg dt at1 s).psi e) = S (s.psi e) := by
  refine hS _ _ (fun x hx => ?_)
  show (if e < c.nEqns then c.xchng (s.psi e) else s.psi e) x = s.psi e x
  split_ifs
  · exact ok.xchng _ x hx
  · rfl

theorem vabExpl_psi (c : VP.Cfg K (Idx n) n T) (s : VP.St K (Idx n) n T) : (VP.vabExplS c s).psi = s.psi ∧ (VP.vabExplS c s).rhs = s.rhs := by
  unfold VP.vabExplS; split_ifs <;> exact ⟨rfl, rfl⟩

/-- before advection -/
theorem anteStep_tot (ok : Ok c) (hS : ∀ f g, (∀ x, inBox c.N x → f x = g x) → S f = S g) (lin : ∀ f g (k : K), S (fun x => f x + k * g x) = S f + k * S g) (dt : K)
    (s : VP.St K (Idx n) n T) (e : Nat) (he : ∀ d, c.vip d ≠ e) :
    S ((VP.anteStep c.toCfg dt s).psi e) = S (s.psi e) + (match c.sch with
      | .eulerA => 0
      | .eulerB => dt * S (effR c.toCfg (VP.anteStep c.toCfg dt s).rhs e)
      | .trapez => dt / 2 * S (effR c.toCfg s.rhs e)) ∧ (c.sch = .trapez → (VP.anteStep c.toCfg dt s).rhs = s.rhs) := by
  have hv := vabExpl_psi c.toCfg (VP.fillSt c.toCfg s)
  have h0 : (VP.vabExplS c.toCfg (VP.fillSt c.toCfg s)).psi = s.psi := hv.1
  have h0r : (VP.vabExplS c.toCfg (VP.fillSt c.toCfg s)).rhs = s.rhs := hv.2
  have ha : ∀ r : VP.St K (Idx n) n T, (VP.vabApplyS c.toCfg dt r).psi e = r.psi e := fun r =>
    asgVip_other (c := c.toCfg) (fun d x v => (vabApply dt v (r.vrhs d x)).1) r.psi e he
  unfold VP.anteStep
  cases hsch : c.sch
  · refine ⟨?_, fun h => by cases h⟩
    show S ((VP.vabApplyS c.toCfg dt (VP.updRhs c.toCfg dt false _)).psi e) = _
    rw [ha, upd_tot ok hS, h0]; simp
  · refine ⟨?_, fun h => by cases h⟩
    show S ((VP.vabApplyS c.toCfg dt (VP.appRhs c.toCfg dt (VP.updRhs c.toCfg dt false _))).psi e) = _
    rw [ha, app_tot ok hS lin, upd_tot ok hS, h0]; rfl
  · refine ⟨?_, fun _ => h0r⟩
    show S ((VP.vabApplyS c.toCfg dt (VP.appRhs c.toCfg (dt / 2) _)).psi e) = _
    rw [ha, app_tot ok hS lin, h0, h0r]

theorem advEqs_tot (filt : Bool) (l : List Nat) (e : Nat) : ∀ s : VP.St K (Idx n) n T, (∀ t psi old, S (c.advop s.GC s.ndt s.ndtt filt t psi old).2.1 = S psi) →
    S ((l.foldl (VP.advEq c.toCfg filt) s).psi e) = S (s.psi e) := by
  induction l with
  | nil => exact fun _ _ => rfl
  | cons q l ih =>
    intro s h
    rw [List.foldl_cons, ih (VP.advEq c.toCfg filt s q) h]
    show S ((fun e' => if e' = q then (c.advop s.GC s.ndt s.ndtt filt s.tmp (s.psi q) (s.old q)).2.1 else s.psi e') e) = _
    by_cases hq : e = q
    · subst hq; simp only [if_true]; exact h _ _ _
    · simp only [if_neg hq]

/-- a step up to the final treatment of the velocities -/
theorem rhs_tot (ok : Ok c) (hS : ∀ f g, (∀ x, inBox c.N x → f x = g x) → S f = S g)
    (lin : ∀ f g (k : K), S (fun x => f x + k * g x) = S f + k * S g) (filt : Bool) (first : K) (more : List K) (q : VP.St K (Idx n) n T)
    (hadv : ∀ ndt ndtt t psi old, S (c.advop ((first :: more).foldl (VP.calcGc c.toCfg) q).GC ndt ndtt filt t psi old).2.1 = S psi) (e : Nat) (he : ∀ d, c.vip d ≠ e) :
    let dt := (first :: more).getLast (by simp)
    S ((postRhs c.toCfg dt (preStep c.toCfg filt first more q)).psi e) = S (q.psi e) + (if c.sch = .trapez then dt / 2 * (S (effR c.toCfg q.rhs e) +
      S (effR c.toCfg (postRhs c.toCfg dt (preStep c.toCfg filt first more q)).rhs e)) else dt * S (effR c.toCfg (postRhs c.toCfg dt (preStep c.toCfg filt first more q)).rhs e)) := by
  intro dt
  set s1 := (first :: more).foldl (VP.calcGc c.toCfg) q with hs1
  set s2 := VP.calcNdt c.toCfg dt s1 with hs2
  have p1 := VP.calcGcs_same c.toCfg (first :: more) q
  have p2 := VP.calcNdt_same c.toCfg dt s1
  have g2 : s2.GC = s1.GC := (calcNdt_frame c.toCfg dt s1).2.2
  set s3 := VP.anteStep c.toCfg dt s2 with hs3
  have k3 := (VP.anteStep_keep c.toCfg dt s2).1
  set s4 := (VP.eqOrder c.toCfg).foldl (VP.advEq c.toCfg filt) s3 with hs4
  have e4 : S (s4.psi e) = S (s3.psi e) := advEqs_tot filt _ e s3 (by rw [show s3.GC = s1.GC from k3.trans g2]; exact hadv _ _)
  have r4 : s4.rhs = s3.rhs := (VP.advEqs_rhs c.toCfg filt _ s3).1
  set s5 : VP.St K (Idx n) n T := { s4 with timestep := s4.timestep + 1, ds1 := if c.vc.div3 then s4.ds0 else s4.ds1, ds0 := dt } with hs5
  obtain ⟨a1, a2⟩ := anteStep_tot ok hS lin dt s2 e he
  have q2 : s2.psi = q.psi := p2.psi.trans p1.psi
  have q2r : s2.rhs = q.rhs := p2.rhs.trans p1.rhs
  show S ((postRhs c.toCfg dt s5).psi e) = S (q.psi e) + (if c.sch = .trapez then dt / 2 * (S (effR c.toCfg q.rhs e) + S (effR c.toCfg (postRhs c.toCfg dt s5).rhs e))
    else dt * S (effR c.toCfg (postRhs c.toCfg dt s5).rhs e))
  rw [q2, q2r] at a1
  unfold postRhs
  cases hsch : c.sch
  · rw [hsch] at a1
    rw [if_neg (by intro h; cases h)]
    show S ((VP.appRhs c.toCfg dt s5).psi e) = S (q.psi e) + dt * S (effR c.toCfg s5.rhs e)
    rw [app_tot ok hS lin]
    show S (s4.psi e) + _ = _
    rw [e4, a1]; ring
  · rw [hsch] at a1
    rw [if_neg (by intro h; cases h)]
    show S (s4.psi e) = S (q.psi e) + dt * S (effR c.toCfg s4.rhs e)
    rw [e4, a1, r4]
  · rw [hsch] at a1
    rw [if_pos rfl]
    show S ((VP.appRhs c.toCfg (dt / 2) (VP.updRhs c.toCfg (dt / 2) true s5)).psi e) = S (q.psi e) + dt / 2 * (_ + S (effR c.toCfg (VP.updRhs c.toCfg (dt / 2) true s5).rhs e))
    rw [app_tot ok hS lin, upd_tot ok hS]
    show S (s4.psi e) + _ = _
    rw [e4, a1]; ring

/-- a step of the incompressible solver -/
theorem step_tot (ok : Ok c) (two : ∀ d, 2 ≤ c.N d) (ne : Nonempty (Prs.Pts c.N)) (hpost : ∀ dt s, c.post dt s = s) (hS : ∀ f g, (∀ x, inBox c.N x → f x = g x) → S f = S g)
    (lin : ∀ f g (k : K), S (fun x => f x + k * g x) = S f + k * S g) (filt : Bool) (first : K) (more : List K) {q p : St K n T} (hst : step c ne filt first more q = some p)
    (hadv : ∀ ndt ndtt t psi old, S (c.advop ((first :: more).foldl (VP.calcGc c.toCfg) q.toSt).GC ndt ndtt filt t psi old).2.1 = S psi) (e : Nat) (he : ∀ d, c.vip d ≠ e) :
    S (p.psi e) = S (q.psi e) + (if c.sch = .trapez then (first :: more).getLast (by simp) / 2 * (S (effR c.toCfg q.rhs e) + S (effR c.toCfg p.rhs e))
      else (first :: more).getLast (by simp) * S (effR c.toCfg p.rhs e)) := by
  unfold step at hst
  obtain ⟨r, r1, r2, r3, _, _⟩ := fnlz_vel ok two ne _ hst
  rw [hpost] at r1
  have pe : p.psi e = r.psi e := by rw [show p.psi = p.toSt.psi from rfl, r1]
  have pr : p.rhs = r.rhs := by rw [show p.rhs = p.toSt.rhs from rfl, r1]
  rw [pe, pr, r3, r2 e he]
  exact rhs_tot ok hS lin filt first more q.toSt hadv e he

/-- equation `e` is not forced: no right-hand side, or the forcing leaves zeros at the grid points zero -/
def Unforced (c : VP.Cfg K (Idx n) n T) (e : Nat) : Prop :=
  VP.hasRhs c e = false ∨ ∀ dt at1 psi z, (∀ x, c.grid x = true → z e x = 0) → ∀ x, c.grid x = true → c.force dt at1 psi z e x = 0

theorem upd_unforced (c : VP.Cfg K (Idx n) n T) {e : Nat} (h : Unforced c e) (dt : K) (at1 : Bool) (s : VP.St K (Idx n) n T) {x : Idx n} (hx : c.grid x = true) :
    effR c (VP.updRhs c dt at1 s).rhs e x = 0 := by
  unfold effR
  split_ifs with hr
  · rcases h with h | h
    · rw [h] at hr; cases hr
    · refine h _ _ _ _ (fun y hy => ?_) x hx
      show (if VP.hasRhs c e then VP.asgG c (fun _ => 0) (s.rhs e) else s.rhs e) y = 0
      rw [if_pos hr]; unfold VP.asgG; rw [if_pos hy]
  · rfl

/-- the right-hand side of an equation that is not forced, after a step -/
theorem step_unforced (ok : Ok c) (two : ∀ d, 2 ≤ c.N d) (ne : Nonempty (Prs.Pts c.N)) (hpost : ∀ dt s, c.post dt s = s) (filt : Bool) (first : K) (more : List K) {q p : St K n T}
    (hst : step c ne filt first more q = some p) {e : Nat} (h : Unforced c.toCfg e) {x : Idx n} (hx : inBox c.N x) : effR c.toCfg p.rhs e x = 0 := by
  unfold step at hst
  obtain ⟨r, r1, r2, r3, _, _⟩ := fnlz_vel ok two ne _ hst
  rw [hpost] at r1
  have pr : p.rhs = r.rhs := by rw [show p.rhs = p.toSt.rhs from rfl, r1]
  have gx := (ok.grid x).2 hx
  rw [pr, r3]
  set dt := (first :: more).getLast (by simp) with hdt
  set s2 := VP.calcNdt c.toCfg dt ((first :: more).foldl (VP.calcGc c.toCfg) q.toSt) with hs2
  have r4 := (VP.advEqs_rhs c.toCfg filt (VP.eqOrder c.toCfg) (VP.anteStep c.toCfg dt s2)).1
  show effR c.toCfg (postRhs c.toCfg dt (preStep c.toCfg filt first more q.toSt)).rhs e x = 0
  unfold postRhs
  have pre : (preStep c.toCfg filt first more q.toSt).rhs = (VP.anteStep c.toCfg dt s2).rhs := r4
  cases hsch : c.sch
  · show effR c.toCfg (preStep c.toCfg filt first more q.toSt).rhs e x = 0
    rw [pre]
    unfold VP.anteStep
    simp only [hsch]
    exact upd_unforced c.toCfg h dt false (VP.vabExplS c.toCfg (VP.fillSt c.toCfg s2)) gx
  · show effR c.toCfg (preStep c.toCfg filt first more q.toSt).rhs e x = 0
    rw [pre]
    unfold VP.anteStep
    simp only [hsch]
    exact upd_unforced c.toCfg h dt false (VP.vabExplS c.toCfg (VP.fillSt c.toCfg s2)) gx
  · exact upd_unforced c.toCfg h (dt / 2) true (preStep c.toCfg filt first more q.toSt) gx

/-- the state before the first step -/
theorem ante_scalar (ok : Ok c) (ne : Nonempty (Prs.Pts c.N)) (dt : K) {s p : St K n T} (h : anteLoop c ne dt s = some p) (e : Nat) (he : ∀ d, c.vip d ≠ e) :
    (∀ x, inBox c.N x → p.psi e x = s.psi e x) ∧ (c.sch = .trapez → ∀ x, inBox c.N x → Unforced c.toCfg e → effR c.toCfg p.rhs e x = 0) := by
  unfold anteLoop at h
  simp only at h
  split at h
  · cases h
  · rename_i s1 h1
    obtain ⟨f1, f2⟩ := solve_frame h1
    have h := Option.some.inj h
    subst h
    refine ⟨fun x hx => ?_, fun hsch x hx hu => ?_⟩
    · show (VP.anteLoop c.toCfg dt (apply c dt true s1).toSt).psi e x = _
      rw [vpAnte_psi ok dt _ e hx, apply_other c dt true s1 he, f1]
    · show effR c.toCfg (VP.anteLoop c.toCfg dt (apply c dt true s1).toSt).rhs e x = 0
      unfold VP.anteLoop VP.vabInitS
      simp only [hsch]
      exact upd_unforced c.toCfg hu _ _ _ ((ok.grid x).2 hx)
end
end Mpdata.PP
