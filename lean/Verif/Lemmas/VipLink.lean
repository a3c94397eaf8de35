import Verif.Lemmas.VipSim
import Verif.Lemmas.Run1
import Verif.Props.HaloN
/-! The 1-D, 2-D and 3-D cyclic solvers meet the interface of the simulation. -/
set_option linter.unusedSectionVars false
set_option linter.unusedVariables false
namespace Mpdata.VP
variable {K : Type} [Field K] [LinearOrder K] {n : Nat}

theorem pass1_periodic {p : Spec1.Par K} {N : Int} (hp : ParPeriodic p N) {psi GC : Int → K} (h0 : Spec1.Periodic N psi) (hg : Spec1.Periodic N GC) (k : Nat) :
    Spec1.Periodic N (Spec1.step p k psi GC) := (passes_periodic p hp h0 hg _).1

theorem par1_setup {a : Cfg1 K} {p : Spec1.Par K} {N : Int} (h : CyclicSetup a p N) (d3 f : Bool) {ndt ndtt ndt' ndtt' : Fin 1 → Int → K}
    (h1 : d3 = true → Spec1.Periodic N (ndt' 0)) (h2 : d3 = true → Spec1.Periodic N (ndtt' 0))
    (h3 : d3 = true → ∀ x, a.ijk.first - solverHalo a.o ≤ x → x ≤ a.ijk.last + solverHalo a.o - 1 → ndt 0 x = ndt' 0 x)
    (h4 : d3 = true → ∀ x, a.ijk.first - solverHalo a.o ≤ x → x ≤ a.ijk.last + solverHalo a.o - 1 → ndtt 0 x = ndtt' 0 x) :
    CyclicSetup { a with filter := f, ndtGC := if d3 then ndt 0 else fun _ => 0, ndttGC := if d3 then ndtt 0 else fun _ => 0 } (par1 p d3 ndt' ndtt') N := by
  refine ⟨h.ho, h.hsi, h.hte, h.htiny, h.heps, h.hN, h.hhN, h.hS, h.hV, ⟨h.per.G, ?_, ?_⟩, h.hG, ?_, ?_⟩
  · cases d3
    · intro i; rfl
    · exact h1 rfl
  · cases d3
    · intro i; rfl
    · exact h2 rfl
  · cases d3
    · intro i _ _; rfl
    · exact h3 rfl
  · cases d3
    · intro i _ _; rfl
    · exact h4 rfl

/-- the translation by one period in 1-D -/
def tr1 (N : Int) : Unit → Int → Int := fun _ x => x + N

theorem perT1 {N : Int} {f : Int → K} : PerT (tr1 N) f ↔ Spec1.Periodic N f := ⟨fun h i => h () i, fun h _ i => h i⟩

theorem link1 {a : Cfg1 K} {p : Spec1.Par K} {N : Int} (h : CyclicSetup a p N) (hn : 1 ≤ a.nIters) (hx : HaloCovered a.o a.nIters) (u : User K Int 1)
    {coeff : Int → K} {relax : Fin 1 → Int → K} (pc : Spec1.Periodic N coeff) (pr : ∀ d, Spec1.Periodic N (relax d))
    (hc : ∀ x, a.ijk.Mem x → u.coeff x = coeff x) (hr : ∀ d x, a.ijk.Mem x → u.relax d x = relax d x)
    (hf : ForceOk (solver1 u a) (tr1 N) (fun x => a.ijk.first - solverHalo a.o ≤ x ∧ x ≤ a.ijk.last + solverHalo a.o)) :
    Link (solver1 u a) (tr1 N) (fun x => a.ijk.first - solverHalo a.o ≤ x ∧ x ≤ a.ijk.last + solverHalo a.o)
      (fun _ x => a.ijk.first - solverHalo a.o ≤ x ∧ x ≤ a.ijk.last + solverHalo a.o - 1) (fun _ => 1) coeff relax (adv1 u p a.nIters) := by
  have hg : ∀ x, (solver1 u a).grid x = true ↔ a.ijk.first ≤ x ∧ x ≤ a.ijk.last := fun x => decide_eq_true_iff
  have him : ∀ x, a.ijk.first ≤ x → x ≤ a.ijk.last - 1 → a.im.Mem x := fun x h1 h2 => by simp [Cfg1.im, Rng.Mem]; omega
  refine ⟨?_, fun _ _ => rfl, perT1.2 pc, fun d => perT1.2 (pr d), ?_, ?_, ?_, ?_, ?_, ?_, ?_, ?_, hf⟩
  · intro i x d k; show x + N + k = x + k + N; ring
  · intro x hx; exact hc x ((hg x).1 hx)
  · intro d x hx; exact hr d x ((hg x).1 hx)
  · intro x hx; have := (hg x).1 hx; constructor <;> omega
  · intro A B hb hab x hx
    show a.fillS A x = B x
    rw [h.hS]
    exact cycFillS_periodic h.hN h.hhN (perT1.1 hb) (fun i h1 h2 => hab i ((hg i).2 ⟨h1, h2⟩)) x hx.1 hx.2
  · intro A x hx
    have := (hg x).1 hx
    show a.fillS A x = A x
    rw [h.hS]
    unfold cycFillS
    simp only [asg_ite]
    have hN := h.hN
    split_ifs <;> first | rfl | omega
  · intro dt A B dst hb hab d x hx
    show a.fillV false (fun x => if decide (a.im.Mem x) = true then intrpFace dt (u.dx 0) 1 1 (A 0 x) (A 0 (x + 1)) else dst 0 x) x = intrpFace dt (u.dx d) 1 1 (B d x) (B d (x + 1))
    obtain rfl : d = 0 := Subsingleton.elim _ _
    refine cyc_GC_fill h (GC := fun x => intrpFace dt (u.dx 0) 1 1 (B 0 x) (B 0 (x + 1))) ?_ ?_ x hx.1 hx.2
    · intro i
      show intrpFace dt (u.dx 0) 1 1 (B 0 (i + N)) (B 0 (i + N + 1)) = _
      rw [show i + N + 1 = (i + 1) + N by ring, perT1.1 (hb 0) i, perT1.1 (hb 0) (i + 1)]
    · intro i h1 h2
      show (if decide (a.im.Mem i) = true then intrpFace dt (u.dx 0) 1 1 (A 0 i) (A 0 (i + 1)) else dst 0 i) = intrpFace dt (u.dx 0) 1 1 (B 0 i) (B 0 (i + 1))
      rw [if_pos (decide_eq_true (him i h1 h2)), hab 0 i ((hg i).2 ⟨h1, by omega⟩), hab 0 (i + 1) ((hg _).2 ⟨by omega, by omega⟩)]
  · intro _ v d x hx
    show a.fillV false (asg a.im (fun _ => 0) (v 0)) x = 0
    refine cyc_GC_fill h (GC := fun _ => 0) (fun _ => rfl) ?_ x hx.1 hx.2
    intro i h1 h2
    rw [asg_ite]
    simp only [Cfg1.im]
    exact if_pos ⟨by omega, by omega⟩
  · intro GC ndt ndtt GC' ndt' ndtt' f t psi old psi' p1 p2 hpsi hGC q1 q2 q3 q4
    have hs := par1_setup (ndt := ndt) (ndtt := ndtt) (ndt' := ndt') (ndtt' := ndtt') h u.vc.div3 f (fun hd => perT1.1 (q1 hd 0)) (fun hd => perT1.1 (q2 hd 0)) (fun hd x h1 h2 => q3 hd 0 x ⟨h1, h2⟩) (fun hd x h1 h2 => q4 hd 0 x ⟨h1, h2⟩)
    constructor
    · intro x hxx
      have hxx := (hg x).1 hxx
      exact cyc_step hs hn hx (perT1.1 p1) (perT1.1 (p2 0)) { t with psi := psi, psiN := old, GC := GC 0 } (fun i h1 h2 => hpsi i ((hg i).2 ⟨h1, h2⟩)) (fun i h1 h2 => hGC 0 i ⟨h1, h2⟩) x hxx.1 hxx.2
    · exact perT1.2 (pass1_periodic hs.per (perT1.1 p1) (perT1.1 (p2 0)) _)

/-- translations by one period in every dimension -/
def trN (P : Fin n → Nat) : Fin n → Idx n → Idx n := fun d x => stepIdx x d (P d)

theorem perTN {P : Fin n → Nat} {f : Idx n → K} : PerT (trN P) f ↔ PeriodicN P f := ⟨fun h x d => h d x, fun h d x => h x d⟩

theorem stepIdx_comm (x : Idx n) (d e : Fin n) (j k : Int) : stepIdx (stepIdx x d j) e k = stepIdx (stepIdx x e k) d j := by
  funext f
  unfold stepIdx
  by_cases h1 : f = d <;> by_cases h2 : f = e <;> simp [h1, h2] <;> omega

theorem parN_setup {a : CfgN n K} {p : SpecN.Par n K} {P : Fin n → Nat} {ds : List (Fin n)} (h : CyclicSetupN a p P ds) (d3 f : Bool) {ndt ndtt ndt' ndtt' : Vec n K}
    (h1 : d3 = true → ∀ d, PeriodicN P (ndt' d)) (h2 : d3 = true → ∀ d, PeriodicN P (ndtt' d))
    (h3 : d3 = true → ∀ d x, Bx a.box (fun _ => solverHalo a.o) (fun e => if e = d then (solverHalo a.o : Int) - 1 else solverHalo a.o) x → ndt d x = ndt' d x)
    (h4 : d3 = true → ∀ d x, Bx a.box (fun _ => solverHalo a.o) (fun e => if e = d then (solverHalo a.o : Int) - 1 else solverHalo a.o) x → ndtt d x = ndtt' d x) :
    CyclicSetupN { a with filter := f, st := { a.st with ndt := if d3 then ndt else fun _ _ => 0, ndtt := if d3 then ndtt else fun _ _ => 0 } } (parN p d3 ndt' ndtt') P ds := by
  refine ⟨h.ho, h.heps, h.hF, h.hbox, h.hhP, h.hds, h.hS, h.hA, h.hN, h.perG, ?_, ?_, h.hG, ?_, ?_⟩
  · cases d3
    · intro d x e; rfl
    · exact h1 rfl
  · cases d3
    · intro d x e; rfl
    · exact h2 rfl
  · cases d3
    · intro d x _; rfl
    · exact h3 rfl
  · cases d3
    · intro d x _; rfl
    · exact h4 rfl

theorem gFac_per {p : SpecN.Par n K} {P : Fin n → Nat} (h : PeriodicN P p.st.G) : PeriodicN P (gFacN p.o p.st.G) := by
  intro x d; unfold gFacN; rw [h x d]

theorem linkN {a : CfgN n K} {p : SpecN.Par n K} {P : Fin n → Nat} {ds : List (Fin n)} (h : CyclicSetupN a p P ds) (hF : FGood p.o p.F) (hn : 1 ≤ a.nIters) (hx : HaloCovered a.o a.nIters)
    (u : User K (Idx n) n) {coeff : Idx n → K} {relax : Fin n → Idx n → K} (pc : PeriodicN P coeff) (pr : ∀ d, PeriodicN P (relax d))
    (hc : ∀ x, InGrid P x → u.coeff x = coeff x) (hr : ∀ d x, InGrid P x → u.relax d x = relax d x)
    (hf : ForceOk (solverN u (solverHalo a.o) a) (trN P) (Bx a.box (fun _ => solverHalo a.o) (fun _ => solverHalo a.o))) :
    Link (solverN u (solverHalo a.o) a) (trN P) (Bx a.box (fun _ => solverHalo a.o) (fun _ => solverHalo a.o))
      (fun d => Bx a.box (fun _ => solverHalo a.o) (fun e => if e = d then (solverHalo a.o : Int) - 1 else solverHalo a.o)) (gFacN p.o p.st.G) coeff relax (advN u p a.nIters) := by
  have hg : ∀ x, (solverN u (solverHalo a.o) a).grid x = true ↔ InGrid P x := fun x => by
    rw [← cellBox_iff h]; exact decide_eq_true_iff
  have hgh := solverHalo_ge a.o
  have hHP : ∀ d, (solverHalo a.o : Int) ≤ P d := fun d => by exact_mod_cast h.hhP d
  have hGe : ∀ x, InGrid P x → gFacN a.o a.st.G x = gFacN p.o p.st.G x := by
    intro x hx
    unfold gFacN
    rw [h.ho, h.hG x (fun e => by have := hx e; rw [h.hbox]; constructor <;> simp <;> omega)]
  have pgc : ∀ (dt : K) (B : Vec n K), (∀ d, PerT (trN P) (B d)) → ∀ d, PeriodicN P (fun x => intrpFace dt (u.dx d) (gFacN p.o p.st.G x) (gFacN p.o p.st.G (stepIdx x d 1)) (B d x) (B d (stepIdx x d 1))) := by
    intro dt B hb d x e
    have b1 := perTN.1 (hb d)
    have g1 := gFac_per (p := p) h.perG
    show intrpFace dt (u.dx d) (gFacN p.o p.st.G (stepIdx x e (P e))) (gFacN p.o p.st.G (stepIdx (stepIdx x e (P e)) d 1)) (B d (stepIdx x e (P e))) (B d (stepIdx (stepIdx x e (P e)) d 1)) = _
    rw [stepIdx_comm x e d, b1 x e, b1 _ e, g1 x e, g1 _ e]
  have nb : ∀ d x, InFaces P d x → InGrid P (stepIdx x d 1) := by
    intro d x hx e
    have h1 := hx.1 e
    have h2 := hx.2
    have h3 := hx.1 d
    unfold stepIdx
    by_cases he : e = d
    · subst he; simp; omega
    · simp [he]; exact h1
  have prep : ∀ (A GC : Vec n K), (∀ d, PeriodicN P (GC d)) → (∀ d x, InFaces P d x → A d x = GC d x) →
      ∀ d x, Bx a.box (fun _ => (solverHalo a.o : Int)) (fun e => if e = d then (solverHalo a.o : Int) - 1 else solverHalo a.o) x → a.fillN (solverHalo a.o - 1) (a.fillA false A) d x = GC d x := by
    intro A GC q1 q2 d x hx
    exact cycN_prep h q1 q2 d x hx
  refine ⟨?_, perTN.2 (gFac_per h.perG), perTN.2 pc, fun d => perTN.2 (pr d), ?_, ?_, ?_, ?_, ?_, ?_, ?_, ?_, hf⟩
  · intro i x d k; exact stepIdx_comm x i d _ _
  · intro x hx; exact hc x ((hg x).1 hx)
  · intro d x hx; exact hr d x ((hg x).1 hx)
  · intro x hx e; have := (hg x).1 hx e; rw [h.hbox]; constructor <;> simp <;> omega
  · intro A B hb hab x hx
    show a.fillS A x = B x
    rw [h.hS]
    exact cycXchngS_agree h.hb hHP (by omega) ds h.hds.1 h.hds.2 (perTN.1 hb) (fun y hy => hab y ((hg y).2 ((cellBox_iff h y).1 hy))) x hx
  · intro A x hx
    have := (hg x).1 hx
    exact cycS_fold_same _ _ _ (fun e _ => by have := this e; rw [h.hbox]; exact this)
  · intro dt A B dst hb hab d x hx
    refine prep _ _ (pgc dt B hb) ?_ d x hx
    intro d x hx
    have h1 := nb d x hx
    show (if decide (Bx a.box (fun e => if e = d then (solverHalo a.o : Int) else solverHalo a.o - 1) (fun _ => solverHalo a.o - 1) x) = true then intrpFace dt (u.dx d) (gFacN a.o a.st.G x) (gFacN a.o a.st.G (stepIdx x d 1)) (A d x) (A d (stepIdx x d 1)) else dst d x) = _
    rw [if_pos, hGe x hx.1, hGe _ h1, hab d x ((hg x).2 hx.1), hab d _ ((hg _).2 h1)]
    refine decide_eq_true ?_
    intro e
    have := hx.1 e
    rw [h.hbox]
    simp only
    split_ifs <;> constructor <;> omega
  · intro _ v d x hx
    refine prep _ (fun _ _ => 0) (fun _ _ _ => rfl) ?_ d x hx
    intro d x hx
    show asgN (faceBox a.box d) (fun _ => 0) (v d) x = 0
    unfold asgN
    rw [if_pos]
    intro e
    have h1 := hx.1 e
    have h2 := hx.2
    rw [h.hbox]
    simp only
    by_cases he : e = d
    · subst he; simp only [if_true]; constructor <;> omega
    · simp only [if_neg he]; constructor <;> omega
  · intro GC ndt ndtt GC' ndt' ndtt' f t psi old psi' p1 p2 hpsi hGC q1 q2 q3 q4
    have hs := parN_setup (ndt := ndt) (ndtt := ndtt) (ndt' := ndt') (ndtt' := ndtt') h u.vc.div3 f (fun hd d => perTN.1 (q1 hd d)) (fun hd d => perTN.1 (q2 hd d)) q3 q4
    constructor
    · intro x hxx
      have hxx := (hg x).1 hxx
      exact cycN_step hs hF hn hx (perTN.1 p1) (fun d => perTN.1 (p2 d)) { t with psi := psi, psiN := old, GC := GC } (fun y hy => hpsi y ((hg y).2 ((cellBox_iff h y).1 hy))) hGC x ((cellBox_iff h x).2 hxx)
    · exact perTN.2 (passesN_periodic (p := parN p u.vc.div3 ndt' ndtt') hF hs.par (perTN.1 p1) (fun d => perTN.1 (p2 d)) _).1

end Mpdata.VP
