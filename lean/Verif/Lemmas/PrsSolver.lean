import Verif.Lemmas.PrsCyc
import Verif.Props.VipRun
/-! Lemmas on incompressible solvers with cyclic boundaries in all dimensions. -/
set_option linter.unusedSectionVars false
set_option linter.unusedVariables false
namespace Mpdata.PP
open Prs (inBox)
variable {K : Type} [Field K] [LinearOrder K] [IsStrictOrderedRing K] {n : Nat} [NeZero n]

/-- cyclic in all dimensions, period `P` -/
abbrev cycSolver (u : VP.User K (Idx n) n) (P : Fin n → Nat) (a : CfgN n K) (tol : K) (cap : Nat) (prs : Scheme) : Cfg K n (MemN n K) :=
  solver u (fun d => P d + 1) (fun _ => .cyclic) (solverHalo a.o) a tol cap prs

theorem cycB (P : Fin n → Nat) (halo : Int) {a : CfgN n K} (h : ∀ d, a.box d = ⟨0, P d⟩) : (bnd (fun d => P d + 1) (fun _ => .cyclic) halo).b = a.box := by
  funext d
  rw [h d]
  show (⟨0, ((P d + 1 : Nat) : Int) - 1⟩ : Rng) = _
  congr 1
  push_cast; ring

theorem cycA_eq (B : Bnd n) (d : Fin n) (hl : B.kl d = .cyclic) (hr : B.kr d = .cyclic) (a : Sca n K) : cycA B d a = cycV B.b B.halo d (fun _ => 0) (fun _ => 0) a := by
  have eL : ∀ m, alngL B d false m ↔ (B.b d).first - B.halo ≤ m ∧ m ≤ (B.b d).first - 1 := by intro m; unfold alngL; rw [hl]; rfl
  have eR : ∀ m, alngR B d false m ↔ (B.b d).last ≤ m ∧ m ≤ (B.b d).last + B.halo - 1 := by intro m; unfold alngR; rw [hr]; rfl
  have vL : ∀ A : Vec n K, valAL B d A = fun x => A d (stepIdx x d ((B.b d).last - (B.b d).first)) := by intro A; funext x; unfold valAL; rw [hl]; rfl
  have vR : ∀ A : Vec n K, valAR B d false A = fun x => A d (stepIdx x d (-((B.b d).last - (B.b d).first))) := by intro A; funext x; unfold valAR; rw [hr]; rfl
  unfold cycA fillA cycV
  simp only [hl, hr, if_false, reduceCtorEq, Function.update_self, vL, vR]
  funext x
  unfold asgN
  simp only [eL, eR]

theorem solver_cyc {u : VP.User K (Idx n) n} {a : CfgN n K} {p : SpecN.Par n K} {P : Fin n → Nat} {ds : List (Fin n)} (h : CyclicSetupN a p P ds) (tol : K) (cap : Nat) (prs : Scheme) :
    (cycSolver u P a tol cap prs).toCfg = VP.solverN u (solverHalo a.o) a := by
  have hb := cycB P (solverHalo a.o) h.hbox
  have e1 : xchngPres (bnd (fun d => P d + 1) (fun _ => .cyclic) (solverHalo a.o)) (List.finRange n) ((solverHalo a.o : Int) - 1) = (VP.cycXchngP a.box (solverHalo a.o) ((solverHalo a.o : Int) - 1) : Sca n K → Sca n K) := by
    funext f
    rw [← hb]
    rfl
  have e2 : (fun v : Vec n K => xchngNrml (bnd (fun d => P d + 1) (fun _ => .cyclic) (solverHalo a.o)) ((solverHalo a.o : Int) - 1) (alngCyc (bnd (fun d => P d + 1) (fun _ => .cyclic) (solverHalo a.o)) v)) =
      fun v => a.fillN ((solverHalo a.o : Int) - 1) (a.fillA false v) := by
    funext v
    rw [h.hN, h.hA, ← hb]
    have e3 : alngCyc (bnd (fun d => P d + 1) (fun _ => .cyclic) (solverHalo a.o)) v = cycXchngA (bnd (fun d => P d + 1) (fun _ => .cyclic) (solverHalo a.o)).b (solverHalo a.o) v := by
      funext d
      rw [alngCyc_at _ (fun _ => Iff.rfl), if_pos (show (bnd (fun d => P d + 1) (fun _ => BcKind.cyclic) (solverHalo a.o)).kl d = .cyclic from rfl)]
      exact cycA_eq (bnd (fun d => P d + 1) (fun _ => BcKind.cyclic) (solverHalo a.o)) d rfl rfl (v d)
    rw [e3]
    rfl
  show ({ VP.solverN u (solverHalo a.o) a with xchngP := _, fillGC := _ } : VP.Cfg K (Idx n) n (MemN n K)) = _
  rw [e1, e2]
  rfl

theorem cycXchngS_in (b : Fin n → Rng) (halo : Int) {x : Idx n} (hx : cellBox b x) : ∀ (ds : List (Fin n)) (a : Sca n K), cycXchngS b halo ds a x = a x := by
  intro ds
  unfold cycXchngS
  induction ds with
  | nil => intro a; rfl
  | cons d ds ih =>
    intro a
    rw [List.foldl_cons, ih]
    have h0 := hx d
    simp only at h0
    unfold cycS asgN
    simp only
    rw [if_neg (fun h => by have := h.1; omega), if_neg (fun h => by have := h.1; omega)]

theorem cyc_of {S : Prop} {u : VP.User K (Idx n) n} {a : CfgN n K} {p : SpecN.Par n K} {P : Fin n → Nat} {ds : List (Fin n)} (h : VP.ProgN S u a P) (hc : CyclicSetupN a p P ds)
    (hF : FGood p.o p.F) (hden : u.den = none) (hinj : Function.Injective u.vip) (tol : K) (cap : Nat) (prs : Scheme) :
    Cyc (cycSolver u P a tol cap prs) P (Bx a.box (fun _ => solverHalo a.o) (fun _ => solverHalo a.o))
      (fun d => Bx a.box (fun _ => solverHalo a.o) (fun e => if e = d then (solverHalo a.o : Int) - 1 else solverHalo a.o)) (gFacN p.o p.st.G) u.coeff u.relax (VP.advN u p a.nIters) := by
  have hL := h.link hc hF
  have hg : ∀ x, decide (cellBox a.box x) = true ↔ InGrid P x := fun x => by rw [← cellBox_iff hc]; exact decide_eq_true_iff
  have pos : ∀ d, 1 ≤ P d := fun d => by
    have h1 := VP.one_le_haloI a.o
    have := hc.hhP d; omega
  have ok : Ok (cycSolver u P a tol cap prs) :=
    ⟨fun x => (hg x).trans (grid_box (fun d => rfl) x).symm, hden, hinj, fun f x hx => by
      show a.fillS f x = f x
      rw [hc.hS]
      exact cycXchngS_in _ _ ((cellBox_iff hc x).2 ((grid_box (fun d => rfl) x).1 hx)) _ _, fun _ _ _ => rfl, fun _ _ => ⟨rfl, rfl, rfl, rfl⟩⟩
  refine ⟨ok, ?_, h.wf, fun _ => rfl, pos, fun _ => rfl, ⟨gFacN p.o p.st.G, VP.perTN.1 hL.perG, fun x hx => ?_⟩, fun dt d => ?_, rfl⟩
  · rw [solver_cyc hc]
    exact hL
  · show gFacN a.o a.st.G x = _
    unfold gFacN
    rw [hc.ho, hc.hG x (fun e => by have := hx e; rw [hc.hbox]; constructor <;> simp <;> omega)]
  · exact Ext.map ⟨u.coeff, VP.perTN.1 hL.perC, fun x _ => rfl⟩ (fun k => if u.vab = .impl then 1 / (1 + 1 / 2 * dt * k) else 1)

end Mpdata.PP
