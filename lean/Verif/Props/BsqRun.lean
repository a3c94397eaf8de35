import Verif.Lemmas.BsqRun
import Verif.Lemmas.Still
import Verif.Props.Boussinesq
import Verif.Props.PrsStep
/-! # C63 (Boussinesq solvers): hydrostatic balance, non-divergent velocities; C44 in whole runs

`bsqExpl` and `bsqImpl` (Model/BsqProg.lean) are the explicit and the implicit Boussinesq solver as whole programs: boundaries of any kind in each dimension, the minimal-residual pressure solver. -/
set_option linter.unusedSectionVars false
set_option linter.unusedVariables false
namespace Mpdata
namespace PP
open Prs (inBox)
variable {K : Type} [Field K] [LinearOrder K] [IsStrictOrderedRing K]

/-- A Boussinesq solver: the halo is the one the solver allocates, halos are filled as the boundary kinds require, the domain is wider than the halo, at least one MPDATA pass; the velocities are
distinct equations, no momentum formulation. -/
structure BsqSetup {n : Nat} [NeZero n] (u : VP.User K (Idx n) n) (a : CfgN n K) (N : Fin n → Nat) (kind : Fin n → BcKind) (ds : List (Fin n)) : Prop where
  bc : BcSolver a (bnd N kind (solverHalo a.o)) ds
  wide : ∀ d, solverHalo a.o < (N d : Int)
  iters : 1 ≤ a.nIters
  den : u.den = none
  inj : Function.Injective u.vip
  vip : ∀ d, u.vip d < u.nEqns

section lemmas
variable {n : Nat} [NeZero n] {u : VP.User K (Idx n) n} {a : CfgN n K} {N : Fin n → Nat} {kind : Fin n → BcKind} {ds : List (Fin n)}

theorem bnd_wide {h : Int} (h1 : 1 ≤ h) (hw : ∀ d, h < (N d : Int)) : Wide (bnd N kind h) := by
  refine ⟨h1, fun d => ?_, fun d hd => ?_⟩
  · show h ≤ (N d : Int) - 1 - 0
    have := hw d; omega
  · exfalso
    rcases hd with hd | hd <;> · revert hd; show (match kind d with | .cyclic => _ | .rigid => _ | .opened => _) = _ → False; cases kind d <;> simp

theorem BsqSetup.setup (h : BsqSetup u a N kind ds) : Setup u N (solverHalo a.o) a := by
  have h1 : (1 : Int) ≤ solverHalo a.o := VP.one_le_haloI _
  refine ⟨fun d => by have := h.wide d; omega, h1, fun d => ?_, fun f x hx => ?_, h.den, h.inj⟩
  · rw [← h.bc.box]; rfl
  · rw [h.bc.s]
    exact C60_sclr_keeps_domain _ ds _ _ _ (fun e => by have := hx e; show 0 ≤ x e ∧ x e ≤ (N e : Int) - 1; omega)

theorem xchngSclr_zero (B : Bnd n) (ds : List (Fin n)) (ext : Int) : xchngSclr B ds ext false (fun _ => (0 : K)) = fun _ => 0 := by
  unfold xchngSclr
  induction ds with
  | nil => rfl
  | cons d l ih =>
    rw [List.foldl_cons]
    have u0 : ∀ (P : Idx n → Prop) [DecidablePred P] (val : Sca n K), (∀ x, val x = 0) → asgN P val (fun _ => 0) = fun _ => 0 := by
      intro P _ val hv
      funext x; unfold asgN; split_ifs
      · exact hv x
      · rfl
    have : fillS B d (fun _ => ext) (fun _ => ext) false (fun _ => (0 : K)) = fun _ => 0 := by
      unfold fillS
      rw [u0 _ _ (fun x => by unfold valSL; split <;> simp)]
      exact u0 _ _ (fun x => by unfold valSR; split <;> simp)
    rw [this]; exact ih

theorem BsqSetup.fillZ (h : BsqSetup u a N kind ds) : FillZ N a := by
  intro f hf x hx k k0 k1
  have h1 : (1 : Int) ≤ solverHalo a.o := VP.one_le_haloI _
  have hW : Wide (bnd N kind (solverHalo a.o)) := bnd_wide h1 h.wide
  rw [h.bc.s, C60_sclr_no_stale _ hW ds h.bc.all false f (fun _ => 0) (fun y hy => hf y (fun e => by have := hy e; change 0 ≤ y e ∧ y e ≤ (N e : Int) - 1 at this; omega)), xchngSclr_zero]
  intro e
  have he := hx e
  show 0 - solverHalo a.o ≤ stepIdx x (vert n) k e ∧ stepIdx x (vert n) k e ≤ (N e : Int) - 1 + solverHalo a.o
  unfold stepIdx
  split_ifs <;> omega

theorem BsqSetup.still (h : BsqSetup u a N kind ds) (hv : ∀ d st psi old GC x, GC d x = 0 → a.F.vel d st psi old GC x = 0)
    (hd : ∀ psi flx G x, (∀ d, flx d x = 0 ∧ flx d (stepIdx x d (-1)) = 0) → a.F.donor psi flx G x = psi x) (f : Bool) (st : Stat n K) : StillOk { a with filter := f, st := st } :=
  stillOk_of (c := { a with filter := f, st := st }) ⟨h.bc.box, h.bc.halo, h.bc.all, h.bc.s, h.bc.a, h.bc.n⟩ (bnd_wide (kind := kind) (VP.one_le_haloI _) h.wide) hv hd

end lemmas

/-! ## Hydrostatic balance -/

/-- the environment of a fluid at rest: no heat flux, no damping towards a moving state, time steps that are not negative; an absorber of temperature perturbations is allowed -/
structure QuietEnv {n : Nat} (u : VP.User K (Idx n) n) (b : Bous K n) (N : Fin n → Nat) : Prop where
  tht : b.tht < u.nEqns
  hflux : ∀ x, inBox N x → b.hflux x = 0
  thtAbs : ∀ x, inBox N x → 0 ≤ b.thtAbs x
  vab : u.vab = .noab ∨ ∀ d x, inBox N x → u.coeff x * u.relax d x = 0

/-- C63, explicit solver, 2-D: a fluid at rest with the environmental temperature profile, whatever the stratification, never moves: for every boundary kinds, resolution, time steps, number of
steps, initial content of halos and temporaries and every option set without the third-order divergence-form terms, the pressure solver always converges and all fields (other advected scalars are
arbitrary) are, exactly, the initial ones. -/
theorem C63_hydrostatic_expl_2d_partial (u : VP.User K (Idx 2) 2) (b : Bous K 2) (N : Fin 2 → Nat) (kind : Fin 2 → BcKind) (a : CfgN 2 K) (h : BsqSetup u a N kind [0, 1])
    (si : SptlIntrp) (te : TmprlExtrp) (tiny : K) (hF : a.F = formulae2 a.o si te tiny) (h3 : isset a.o oDiv3 = false) (h3t : isset a.o oDiv3dt = false) (hd3 : u.vc.div3 = false)
    (hq : QuietEnv u b N) (tol : K) (htol : 0 ≤ tol) (cap : Nat) (prs : Scheme) (hcap : 1 ≤ cap) (ne : Nonempty (Prs.Pts N)) (dt0 : K) (filt : Nat → Bool) (first : Nat → K) (more : Nat → List K)
    (hts : u.vc.varDt = true ∨ ∀ t, more t = []) (hdt : ∀ t, 0 ≤ dtOf first more t) (s : St K 2 (MemN 2 K)) (hs : s.timestep = 0)
    (hv : ∀ d x, inBox N x → s.psi (u.vip d) x = 0) (hth : ∀ x, inBox N x → s.psi b.tht x = b.thtE x) (t : Nat) :
    ∃ p, run (bsqExpl u b N kind (solverHalo a.o) a tol cap prs) ne dt0 filt first more s t = some p ∧ ∀ e, e < u.nEqns → ∀ x, inBox N x → p.psi e x = s.psi e x := by
  have hA := h.still (fun d st psi old GC x hz => by rw [hF]; exact velZ_2 _ _ _ _ h3 h3t d st psi old GC x hz) (fun psi flx G x hz => by rw [hF]; exact donorZ_2 _ _ _ _ psi flx G x hz)
  have S := expl_still (kind := kind) (tol := tol) (cap := cap) (prs := prs) (p0 := s.psi) h.setup h.vip hA h.iters hd3 hq.vab h.fillZ hq.tht hq.hflux hq.thtAbs hv hth
  obtain ⟨p, hp, hp'⟩ := S.run ne htol hcap dt0 filt first more hts (fun t _ => div_nonneg (hdt t) (by norm_num)) (s := s) (fun _ _ _ _ => rfl) hs t
  exact ⟨p, hp, hp'.psi⟩

/-- C63, explicit solver, 3-D. -/
theorem C63_hydrostatic_expl_3d_partial (u : VP.User K (Idx 3) 3) (b : Bous K 3) (N : Fin 3 → Nat) (kind : Fin 3 → BcKind) (a : CfgN 3 K) (h : BsqSetup u a N kind [1, 0, 2])
    (si : SptlIntrp) (te : TmprlExtrp) (tiny : K) (hF : a.F = formulae3 a.o si te tiny) (h3 : isset a.o oDiv3 = false) (h3t : isset a.o oDiv3dt = false) (hd3 : u.vc.div3 = false)
    (hq : QuietEnv u b N) (tol : K) (htol : 0 ≤ tol) (cap : Nat) (prs : Scheme) (hcap : 1 ≤ cap) (ne : Nonempty (Prs.Pts N)) (dt0 : K) (filt : Nat → Bool) (first : Nat → K) (more : Nat → List K)
    (hts : u.vc.varDt = true ∨ ∀ t, more t = []) (hdt : ∀ t, 0 ≤ dtOf first more t) (s : St K 3 (MemN 3 K)) (hs : s.timestep = 0)
    (hv : ∀ d x, inBox N x → s.psi (u.vip d) x = 0) (hth : ∀ x, inBox N x → s.psi b.tht x = b.thtE x) (t : Nat) :
    ∃ p, run (bsqExpl u b N kind (solverHalo a.o) a tol cap prs) ne dt0 filt first more s t = some p ∧ ∀ e, e < u.nEqns → ∀ x, inBox N x → p.psi e x = s.psi e x := by
  have hA := h.still (fun d st psi old GC x hz => by rw [hF]; exact velZ_3 _ _ _ _ h3 h3t d st psi old GC x hz) (fun psi flx G x hz => by rw [hF]; exact donorZ_3 _ _ _ _ psi flx G x hz)
  have S := expl_still (kind := kind) (tol := tol) (cap := cap) (prs := prs) (p0 := s.psi) h.setup h.vip hA h.iters hd3 hq.vab h.fillZ hq.tht hq.hflux hq.thtAbs hv hth
  obtain ⟨p, hp, hp'⟩ := S.run ne htol hcap dt0 filt first more hts (fun t _ => div_nonneg (hdt t) (by norm_num)) (s := s) (fun _ _ _ _ => rfl) hs t
  exact ⟨p, hp, hp'.psi⟩

/-- C63, implicit solver (which carries the temperature perturbation), 2-D: rest with zero perturbation is kept exactly. -/
theorem C63_hydrostatic_impl_2d_partial (u : VP.User K (Idx 2) 2) (b : Bous K 2) (N : Fin 2 → Nat) (kind : Fin 2 → BcKind) (a : CfgN 2 K) (h : BsqSetup u a N kind [0, 1])
    (si : SptlIntrp) (te : TmprlExtrp) (tiny : K) (hF : a.F = formulae2 a.o si te tiny) (h3 : isset a.o oDiv3 = false) (h3t : isset a.o oDiv3dt = false) (hd3 : u.vc.div3 = false)
    (hq : QuietEnv u b N) (hno : isset u.norhs (bit b.tht) = false) (htv : ∀ d, u.vip d ≠ b.tht)
    (tol : K) (htol : 0 ≤ tol) (cap : Nat) (prs : Scheme) (hcap : 1 ≤ cap) (ne : Nonempty (Prs.Pts N)) (dt0 : K) (filt : Nat → Bool) (first : Nat → K) (more : Nat → List K)
    (hts : u.vc.varDt = true ∨ ∀ t, more t = []) (s : St K 2 (MemN 2 K)) (hs : s.timestep = 0)
    (hv : ∀ d x, inBox N x → s.psi (u.vip d) x = 0) (hth : ∀ x, inBox N x → s.psi b.tht x = 0) (t : Nat) :
    ∃ p, run (bsqImpl u b N kind (solverHalo a.o) a tol cap prs) ne dt0 filt first more s t = some p ∧ ∀ e, e < u.nEqns → ∀ x, inBox N x → p.psi e x = s.psi e x := by
  have hA := h.still (fun d st psi old GC x hz => by rw [hF]; exact velZ_2 _ _ _ _ h3 h3t d st psi old GC x hz) (fun psi flx G x hz => by rw [hF]; exact donorZ_2 _ _ _ _ psi flx G x hz)
  have S := impl_still (kind := kind) (tol := tol) (cap := cap) (prs := prs) (p0 := s.psi) h.setup h.vip hA h.iters hd3 hq.vab hq.tht hno htv hq.hflux hv hth
  obtain ⟨p, hp, hp'⟩ := S.run ne htol hcap dt0 filt first more hts (fun t _ => trivial) (s := s) (fun _ _ _ _ => rfl) hs t
  exact ⟨p, hp, hp'.psi⟩

/-- C63, implicit solver, 3-D. -/
theorem C63_hydrostatic_impl_3d_partial (u : VP.User K (Idx 3) 3) (b : Bous K 3) (N : Fin 3 → Nat) (kind : Fin 3 → BcKind) (a : CfgN 3 K) (h : BsqSetup u a N kind [1, 0, 2])
    (si : SptlIntrp) (te : TmprlExtrp) (tiny : K) (hF : a.F = formulae3 a.o si te tiny) (h3 : isset a.o oDiv3 = false) (h3t : isset a.o oDiv3dt = false) (hd3 : u.vc.div3 = false)
    (hq : QuietEnv u b N) (hno : isset u.norhs (bit b.tht) = false) (htv : ∀ d, u.vip d ≠ b.tht)
    (tol : K) (htol : 0 ≤ tol) (cap : Nat) (prs : Scheme) (hcap : 1 ≤ cap) (ne : Nonempty (Prs.Pts N)) (dt0 : K) (filt : Nat → Bool) (first : Nat → K) (more : Nat → List K)
    (hts : u.vc.varDt = true ∨ ∀ t, more t = []) (s : St K 3 (MemN 3 K)) (hs : s.timestep = 0)
    (hv : ∀ d x, inBox N x → s.psi (u.vip d) x = 0) (hth : ∀ x, inBox N x → s.psi b.tht x = 0) (t : Nat) :
    ∃ p, run (bsqImpl u b N kind (solverHalo a.o) a tol cap prs) ne dt0 filt first more s t = some p ∧ ∀ e, e < u.nEqns → ∀ x, inBox N x → p.psi e x = s.psi e x := by
  have hA := h.still (fun d st psi old GC x hz => by rw [hF]; exact velZ_3 _ _ _ _ h3 h3t d st psi old GC x hz) (fun psi flx G x hz => by rw [hF]; exact donorZ_3 _ _ _ _ psi flx G x hz)
  have S := impl_still (kind := kind) (tol := tol) (cap := cap) (prs := prs) (p0 := s.psi) h.setup h.vip hA h.iters hd3 hq.vab hq.tht hno htv hq.hflux hv hth
  obtain ⟨p, hp, hp'⟩ := S.run ne htol hcap dt0 filt first more hts (fun t _ => trivial) (s := s) (fun _ _ _ _ => rfl) hs t
  exact ⟨p, hp, hp'.psi⟩

/-! ## Non-divergence -/

section nd
variable {n : Nat} [NeZero n]

/-- C63: at the end of every step of the explicit solver, whatever the buoyancy, the velocities are non-divergent within the solver's accuracy in every cell, vanish across rigid walls and keep their
values at open boundaries. -/
theorem C63_expl_velocity_nondivergent (u : VP.User K (Idx n) n) (b : Bous K n) (N : Fin n → Nat) (kind : Fin n → BcKind) (halo : Int) (a : CfgN n K) (tol : K) (cap : Nat) (prs : Scheme) (δ : K) (hδ : Guarantees prs N tol δ) (h : Setup u N halo a)
    (hf : NoAbsorberOnOpen u N kind) (ne : Nonempty (Prs.Pts N)) (dt0 : K) (filt : Nat → Bool) (first : Nat → K) (more : Nat → List K) (s p : St K n (MemN n K)) (t : Nat)
    (hr : run (bsqExpl u b N kind halo a tol cap prs) ne dt0 filt first more s t = some p) :
    (∀ x, inBox N x → |flowDiv N (fun d => kind d = .cyclic) u.dx (gFacN a.o a.st.G) (fun d => p.psi (u.vip d)) x| ≤ δ) ∧
    (∀ d x, inBox N x → (x d = 0 ∨ x d = (N d : Int) - 1) → (kind d = .rigid → p.psi (u.vip d) x = 0) ∧ (kind d = .opened → p.psi (u.vip d) x = s.psi (u.vip d) x)) :=
  C62_velocity_nondivergent { u with force := forceExpl b (u.vip (vert n)) (fun x => decide (cellBox a.box x)) a.fillS } N kind halo a tol cap prs δ hδ (h.force _) hf ne dt0 filt first more s p t hr

/-- C63: the same for the implicit solver, whose pressure equation contains the buoyancy response, if the vertical boundaries are not open. -/
theorem C63_impl_velocity_nondivergent_partial (u : VP.User K (Idx n) n) (b : Bous K n) (N : Fin n → Nat) (kind : Fin n → BcKind) (halo : Int) (a : CfgN n K) (tol : K) (cap : Nat) (prs : Scheme) (δ : K) (hδ : Guarantees prs N tol δ) (h : Setup u N halo a)
    (htv : ∀ d, u.vip d ≠ b.tht) (hf : NoAbsorberOnOpen u N kind) (hvt : kind (vert n) ≠ .opened) (ne : Nonempty (Prs.Pts N)) (dt0 : K) (filt : Nat → Bool) (first : Nat → K) (more : Nat → List K)
    (s p : St K n (MemN n K)) (t : Nat) (hr : run (bsqImpl u b N kind halo a tol cap prs) ne dt0 filt first more s t = some p) :
    (∀ x, inBox N x → |flowDiv N (fun d => kind d = .cyclic) u.dx (gFacN a.o a.st.G) (fun d => p.psi (u.vip d)) x| ≤ δ) ∧
    (∀ d x, inBox N x → (x d = 0 ∨ x d = (N d : Int) - 1) → (kind d = .rigid → p.psi (u.vip d) x = 0) ∧ (kind d = .opened → p.psi (u.vip d) x = s.psi (u.vip d) x)) := by
  have ok : Ok (bsqImpl u b N kind halo a tol cap prs) := impl_ok h htv
  obtain ⟨_, g⟩ := run_good ok (impl_edgeFree hf hvt) ne dt0 filt first more t hr
  refine ⟨fun x hx => ?_, fun d x hx hw => ⟨fun hk => ?_, fun hk => ?_⟩⟩
  · have h1 := g.div δ hδ x hx
    rw [dvg_flowDiv _ h.two _ hx] at h1
    exact h1
  · have h1 := g.edge d x hx ⟨by show kind d ≠ _; rw [hk]; decide, hw⟩
    refine h1.trans (if_neg ?_)
    show kind d ≠ _
    rw [hk]; decide
  · have h1 := g.edge d x hx ⟨by show kind d ≠ _; rw [hk]; decide, hw⟩
    exact h1.trans (if_pos hk)

/-- C63: and the advectors of the implicit solver's next step have divergence of at most the accuracy times a known factor. -/
theorem C63_impl_advector_nondivergent_partial (u : VP.User K (Idx n) n) (b : Bous K n) (N : Fin n → Nat) (kind : Fin n → BcKind) (halo : Int) (a : CfgN n K) (tol : K) (cap : Nat) (prs : Scheme) (δ : K) (hδ : Guarantees prs N tol δ) (h : Setup u N halo a)
    (htv : ∀ d, u.vip d ≠ b.tht) (hf : NoAbsorberOnOpen u N kind) (hvt : kind (vert n) ≠ .opened) (hb : GAtBoundary N kind (gFacN a.o a.st.G)) (ne : Nonempty (Prs.Pts N)) (dt0 : K) (filt : Nat → Bool)
    (first : Nat → K) (more : Nat → List K) (h1 : OneDt u more) (s p : St K n (MemN n K)) (h0 : s.ds0 = 0) (t : Nat)
    (hr : run (bsqImpl u b N kind halo a tol cap prs) ne dt0 filt first more s (t + 1) = some p)
    (x : Idx n) (hx : inBox N x) (hG : gFacN a.o a.st.G x ≠ 0) (hc : ∀ d, kind d = .cyclic → 0 < x d ∧ x d < (N d : Int) - 1) :
    |divN p.GC x| ≤ |dtOf first more t| * |gFacN a.o a.st.G x| * (δ * (1 + 2 * |wOf first more t|)) := by
  have ok : Ok (bsqImpl u b N kind halo a tol cap prs) := impl_ok h htv
  obtain ⟨w, hb1, hb2, hb3⟩ := run_advector ok (impl_faces h) ⟨hb.cyclic, hb.rigidL, hb.rigidR, hb.openL, hb.openR⟩ (impl_edgeFree hf hvt) ne dt0 filt first more h1 h0 hx hG t (.inr hc) hδ hr
  have : w = wOf first more t := by
    cases t with
    | zero => exact hb2 rfl
    | succ t => exact (hb3 t rfl)
  rw [← this]
  exact hb1

/-! ## The implicit equations in whole runs -/

/-- the parameters of the implicit equations at the point `x` -/
def parAt (u : VP.User K (Idx n) n) (b : Bous K n) (a : CfgN n K) (dt : K) (x : Idx n) : Bsq.Par K :=
  { dt := dt, g := b.g, Tref := b.Tref, dthtE := dthtE u b a x, alpha := b.thtAbs x, hflux := b.hflux x, c := if u.vab = .impl then u.coeff x else 0, r := u.relax (vert n) x }

/-- C44: in every step of every run of the implicit solver, at every point of the grid that is not on a vertical wall: `q` being the state before the step and `A` the one after advection, the vertical
velocity and the temperature perturbation the step ends with are those after advection plus half the time step times the forces of the new state (buoyancy, absorber, pressure gradient; advection of the
environmental profile, heat flux, absorber), the pressure gradient being the centred one of the potential the solver found. The array kept for the next step is the new tendency of temperature. -/
theorem C44_run_implicit (u : VP.User K (Idx n) n) (b : Bous K n) (N : Fin n → Nat) (kind : Fin n → BcKind) (halo : Int) (a : CfgN n K) (tol : K) (cap : Nat) (prs : Scheme) (h : Setup u N halo a)
    (hs : u.sch = .trapez) (ht : b.tht < u.nEqns) (htv : ∀ d, u.vip d ≠ b.tht) (hvip : u.vip (vert n) < u.nEqns) (hno : isset u.norhs (bit b.tht) = false)
    (hnw : isset u.norhs (bit (u.vip (vert n))) = false) (ne : Nonempty (Prs.Pts N)) (dt0 : K) (filt : Nat → Bool) (first : Nat → K) (more : Nat → List K) (s p : St K n (MemN n K)) (t : Nat)
    (hr : run (bsqImpl u b N kind halo a tol cap prs) ne dt0 filt first more s (t + 1) = some p) :
    ∃ q, run (bsqImpl u b N kind halo a tol cap prs) ne dt0 filt first more s t = some q ∧
      let A := preStep (bsqImpl u b N kind halo a tol cap prs).toCfg (filt t) (first t) (more t) q.toSt
      let dt := dtOf first more t
      let w := u.vip (vert n)
      ∀ x, inBox N x → dt ≠ 0 → b.Tref ≠ 0 → 1 + 1 / 2 * dt * b.thtAbs x ≠ 0 →
        (p.psi b.tht x = A.psi b.tht x + dt / 2 * Bsq.forceTht (parAt u b a dt x) (p.psi w x) (p.psi b.tht x) ∧
          p.rhs b.tht x = Bsq.forceTht (parAt u b a dt x) (p.psi w x) (p.psi b.tht x)) ∧
        (¬ (kind (vert n) ≠ .cyclic ∧ (x (vert n) = 0 ∨ x (vert n) = (N (vert n) : Int) - 1)) → Bsq.divisor (parAt u b a dt x) ≠ 0 →
          p.psi w x = A.psi w x + dt / 2 * Bsq.forceW (parAt u b a dt x) (slope N (fun d => kind d = .cyclic) p.Phi (vert n) x / u.dx (vert n)) (p.psi w x) (p.psi b.tht x)) := by
  obtain ⟨q, hq, hst⟩ := run_pred hr
  refine ⟨q, hq, ?_⟩
  intro A dt w x hx hdt hT ha
  have ok : Ok (bsqImpl u b N kind halo a tol cap prs) := impl_ok h htv
  obtain ⟨i1, i2, i3⟩ := impl_postRhs (b := b) (kind := kind) (tol := tol) (cap := cap) h hs ht htv hvip hno hnw dt A hx
  obtain ⟨r, r1, r2, r3, _, r4⟩ := fnlz_vel ok h.two ne dt hst
  have gx : decide (cellBox a.box x) = true := (ok.grid x).2 hx
  have e1 : r.psi b.tht x = A.psi b.tht x + dt / 2 * b.hflux x := by rw [r2 b.tht htv]; exact i1
  have e2 : p.psi w x = r.psi w x := by
    show p.toSt.psi w x = _
    rw [r1]
    show (if w = b.tht then _ else r.psi w x) = _
    rw [if_neg (htv (vert n))]
  have e3 : p.psi b.tht x = (r.psi b.tht x - 1 / 2 * dt * r.psi w x * dthtE u b a x) / (1 + 1 / 2 * dt * b.thtAbs x) := by
    show p.toSt.psi b.tht x = _
    rw [r1]
    show (if b.tht = b.tht then (if decide (cellBox a.box x) = true then _ else _) else _) = _
    rw [if_pos rfl, if_pos gx]
  have e4 : p.rhs b.tht x = b.hflux x + (- p.psi w x * dthtE u b a x - b.thtAbs x * p.psi b.tht x) := by
    have e5 : p.rhs b.tht x = (if b.tht = b.tht then (if decide (cellBox a.box x) = true then r.rhs b.tht x + (- p.toSt.psi w x * dthtE u b a x - b.thtAbs x * p.toSt.psi b.tht x) else r.rhs b.tht x) else r.rhs b.tht x) := by
      show p.toSt.rhs b.tht x = _
      rw [r1]; rfl
    rw [e5, if_pos rfl, if_pos gx, r3]
    show (postRhs (bsqImpl u b N kind halo a tol cap prs).toCfg dt A).rhs b.tht x + _ = _
    rw [i2]
  have hth : p.psi b.tht x * (1 + 1 / 2 * dt * b.thtAbs x) = A.psi b.tht x + dt / 2 * b.hflux x - 1 / 2 * dt * p.psi w x * dthtE u b a x := by
    rw [e3, div_mul_cancel₀ _ ha, e1, e2]
  refine ⟨⟨?_, ?_⟩, fun hw hD => ?_⟩
  · unfold Bsq.forceTht parAt
    simp only
    linear_combination hth
  · rw [e4]; unfold Bsq.forceTht parAt; simp only; ring
  · have hD' : Bsq.divisor (parAt u b a dt x) = 1 + 1 / 2 * dt * (if u.vab = .impl then u.coeff x else 0) + 1 / 4 * dt * dt * b.g / b.Tref * dthtE u b a x / (1 + 1 / 2 * dt * b.thtAbs x) := rfl
    have hn : (bsqImpl u b N kind halo a tol cap prs).nrm dt (vert n) x = 1 / Bsq.divisor (parAt u b a dt x) := by
      show nrmImpl u b (dthtE u b a) dt (vert n) x = _
      unfold nrmImpl
      rw [hD']
      split_ifs <;> first | rfl | contradiction | rw [mul_zero, add_zero]
    set S : Bsq.St K := ⟨A.psi w x, A.psi b.tht x, 0, 0, 0⟩ with hS
    set gp := slope N (fun d => kind d = .cyclic) p.Phi (vert n) x / u.dx (vert n) with hgp
    have f1 : p.psi w x = (Bsq.postStep (parAt u b a dt x) gp S).w := by
      rw [e2]
      refine (r4 (vert n) x hx hw).trans ?_
      rw [hn]
      show 1 / Bsq.divisor (parAt u b a dt x) * ((postRhs (bsqImpl u b N kind halo a tol cap prs).toCfg dt A).psi w x + (if u.vab = .impl then 1 / 2 * dt * u.coeff x * u.relax (vert n) x else 0) - gp) = _
      rw [i3]
      show _ = (A.psi w x + dt / 2 * (b.g * (A.psi b.tht x + 1 / 2 * dt * b.hflux x) / (b.Tref * (1 + 1 / 2 * dt * b.thtAbs x))) + 1 / 2 * dt * (if u.vab = .impl then u.coeff x else 0) * u.relax (vert n) x - gp) /
        Bsq.divisor (parAt u b a dt x)
      split_ifs <;> ring
    have f2 : p.psi b.tht x = (Bsq.postStep (parAt u b a dt x) gp S).tht := by
      rw [eq_div_of_mul_eq ha hth, f1]; rfl
    rw [f1, f2]
    exact (Bsq.C44_implicit_solves (parAt u b a dt x) gp S hdt hT ha hD).1

/-- C44: in every step of every run of the explicit solver, at every grid point: the temperature the step ends with is the advected one plus half the time step times its tendency (heat flux and
relaxation towards the environment, of the new temperature); the vertical velocity is the advected one plus half the time step times the buoyancy of the new temperature and the other forces kept for
the next step (C62_momentum_equation); with the filter, away from the lowest and highest points, the buoyancy is averaged with weights 1/4, 1/2, 1/4 (for the lowest and highest points see Props/BsqFilter.lean). -/
theorem C44_run_explicit (u : VP.User K (Idx n) n) (b : Bous K n) (N : Fin n → Nat) (kind : Fin n → BcKind) (halo : Int) (a : CfgN n K) (tol : K) (cap : Nat) (prs : Scheme) (h : Setup u N halo a)
    (hs : u.sch = .trapez) (ht : b.tht < u.nEqns) (htv : ∀ d, u.vip d ≠ b.tht) (hvip : ∀ d, u.vip d < u.nEqns) (hno : isset u.norhs (bit b.tht) = false)
    (hnw : isset u.norhs (bit (u.vip (vert n))) = false) (ne : Nonempty (Prs.Pts N)) (dt0 : K) (filt : Nat → Bool) (first : Nat → K) (more : Nat → List K) (s p : St K n (MemN n K)) (t : Nat)
    (hdt : dtOf first more t ≠ 0) (ha : ∀ x, inBox N x → 1 + 1 / 2 * dtOf first more t * b.thtAbs x ≠ 0)
    (hr : run (bsqExpl u b N kind halo a tol cap prs) ne dt0 filt first more s (t + 1) = some p) :
    ∃ q, run (bsqExpl u b N kind halo a tol cap prs) ne dt0 filt first more s t = some q ∧
      let A := preStep (bsqExpl u b N kind halo a tol cap prs).toCfg (filt t) (first t) (more t) q.toSt
      let dt := dtOf first more t
      let w := u.vip (vert n)
      let buoy : Idx n → K := fun x => b.g * (p.psi b.tht x - b.thtE x) / b.Tref
      ∀ x, inBox N x →
        (p.rhs b.tht x = b.hflux x - b.thtAbs x * (p.psi b.tht x - b.thtE x) ∧ p.psi b.tht x = A.psi b.tht x + dt / 2 * p.rhs b.tht x) ∧
        p.psi w x = A.psi w x + dt / 2 * (p.rhs w x + p.vrhs (vert n) x) ∧
        (b.filter = false → p.rhs w x = buoy x) ∧
        (b.filter = true → 0 < x (vert n) → x (vert n) < (N (vert n) : Int) - 1 →
          p.rhs w x = 1 / 4 * buoy (stepIdx x (vert n) 1) + 1 / 2 * buoy x + 1 / 4 * buoy (stepIdx x (vert n) (-1))) ∧
        (b.filter = true → p.rhs w x = buoyFilt (fun x => decide (cellBox a.box x)) a.fillS b.tmp buoy x) := by
  set u' : VP.User K (Idx n) n := { u with force := forceExpl b (u.vip (vert n)) (fun x => decide (cellBox a.box x)) a.fillS } with hu'
  obtain ⟨q, hq, hm⟩ := C62_momentum_equation u' N kind halo a tol cap prs (h.force _) hs hvip ne dt0 filt first more s p t hr
  refine ⟨q, hq, ?_⟩
  intro A dt w buoy
  have ok : Ok (bsqExpl u b N kind halo a tol cap prs) := expl_ok h
  obtain ⟨q', hq', hst⟩ := run_pred hr
  have : q' = q := Option.some.inj (hq'.symm.trans hq)
  subst this
  obtain ⟨r, r1, r2, r3, _, _⟩ := fnlz_vel ok h.two ne dt hst
  have r1' : p.toSt = r := r1
  set c := bsqExpl u b N kind halo a tol cap prs with hc
  have hsch : c.sch = .trapez := hs
  set psi : Nat → Idx n → K := fun e => if e < c.nEqns then c.xchng (A.psi e) else A.psi e with hpsi
  set z : Nat → Idx n → K := fun e => if VP.hasRhs c.toCfg e then VP.asgG c.toCfg (fun _ => 0) (A.rhs e) else A.rhs e with hz
  have rt : VP.hasRhs c.toCfg b.tht = true := by
    show (decide (b.tht < u.nEqns) && !isset u.norhs (bit b.tht)) = true
    rw [hno]; simpa using ht
  have rw' : VP.hasRhs c.toCfg w = true := by
    show (decide (w < u.nEqns) && !isset u.norhs (bit w)) = true
    rw [hnw]; simpa using hvip (vert n)
  have e0 : postRhs c.toCfg dt A = VP.appRhs c.toCfg (dt / 2) (VP.updRhs c.toCfg (dt / 2) true A) := by
    unfold postRhs; rw [hsch]
  have pr : p.rhs = forceExpl b w (fun x => decide (cellBox a.box x)) a.fillS (dt / 2) true psi z := by
    show p.toSt.rhs = _
    rw [r1', r3]
    show (postRhs c.toCfg dt A).rhs = _
    rw [e0]; rfl
  have gr : ∀ x, inBox N x → decide (cellBox a.box x) = true := fun x hx => (ok.grid x).2 hx
  have pt : ∀ x, inBox N x → psi b.tht x = A.psi b.tht x := fun x hx => by
    rw [hpsi]; beta_reduce; rw [if_pos (show b.tht < c.nEqns from ht)]; exact ok.xchng _ x hx
  have z0 : ∀ e, VP.hasRhs c.toCfg e = true → ∀ x, inBox N x → z e x = 0 := fun e he x hx => by
    rw [hz]; beta_reduce; rw [if_pos he]; exact if_pos (gr x hx)
  have hd : (2 : K) * (dt / 2) = dt := by ring
  have R1 : ∀ x, inBox N x → p.rhs b.tht x = b.hflux x - b.thtAbs x * thtAt1 b dt (psi b.tht) x := fun x hx => by
    rw [pr]; unfold forceExpl addRhs
    simp only [if_neg (fun hh : b.tht = w => htv (vert n) hh.symm), if_true, gr x hx, z0 _ rt x hx, zero_add, hd]
  have T1 : ∀ x, inBox N x → p.psi b.tht x = A.psi b.tht x + dt / 2 * p.rhs b.tht x := fun x hx => by
    have e1 : p.psi b.tht x = (postRhs c.toCfg dt A).psi b.tht x := by
      show p.toSt.psi b.tht x = _
      rw [r1', r2 b.tht htv]
      rfl
    have e2 : p.rhs b.tht x = (VP.updRhs c.toCfg (dt / 2) true A).rhs b.tht x := by rw [pr]; rfl
    rw [e1, e0, e2]
    show (if VP.hasRhs c.toCfg b.tht then VP.asgG c.toCfg (fun x => psi b.tht x + dt / 2 * (VP.updRhs c.toCfg (dt / 2) true A).rhs b.tht x) (psi b.tht) else psi b.tht) x = _
    rw [if_pos rt]
    refine (if_pos (gr x hx)).trans ?_
    beta_reduce
    rw [pt x hx]
  have T2 : ∀ x, inBox N x → thtAt1 b dt (psi b.tht) x = p.psi b.tht x - b.thtE x := fun x hx => by
    have hne := ha x hx
    have k := T1 x hx
    rw [R1 x hx] at k
    unfold thtAt1 at k ⊢
    rw [pt x hx] at k ⊢
    have e3 : (A.psi b.tht x + 1 / 2 * dt * b.hflux x + 1 / 2 * dt * b.thtAbs x * b.thtE x) / (1 + 1 / 2 * dt * b.thtAbs x) * (1 + 1 / 2 * dt * b.thtAbs x) =
      A.psi b.tht x + 1 / 2 * dt * b.hflux x + 1 / 2 * dt * b.thtAbs x * b.thtE x := div_mul_cancel₀ _ hne
    linear_combination e3 - k
  have B1 : ∀ x, inBox N x → buoyE b dt true (psi b.tht) x = buoy x := fun x hx => by
    unfold buoyE; rw [if_pos rfl, T2 x hx]
  have W : ∀ x, inBox N x → p.rhs w x = (if b.filter then buoyFilt (fun x => decide (cellBox a.box x)) a.fillS b.tmp (buoyE b dt true (psi b.tht)) else buoyE b dt true (psi b.tht)) x := fun x hx => by
    rw [pr]; unfold forceExpl addRhs
    simp only [if_neg (show ¬ w = b.tht from htv (vert n)), if_true, gr x hx, z0 _ rw' x hx, zero_add, hd]
  intro x hx
  refine ⟨⟨?_, T1 x hx⟩, ?_, fun hf => ?_, fun hf h0 h1 => ?_, fun hf => ?_⟩
  · rw [R1 x hx, T2 x hx]
  · have := (hm (vert n) x hx hdt).2.1
    have e3 : (if isset u'.norhs (bit (u'.vip (vert n))) = true then 0 else p.rhs w x) = p.rhs w x := if_neg (by rw [show isset u'.norhs (bit (u'.vip (vert n))) = false from hnw]; decide)
    refine this.trans ?_
    show A.psi w x + dt / 2 * ((if isset u'.norhs (bit (u'.vip (vert n))) = true then 0 else p.rhs w x) + p.vrhs (vert n) x) = _
    rw [e3]
  · rw [W x hx, hf]; exact B1 x hx
  · rw [W x hx, hf, if_pos rfl]
    unfold buoyFilt
    have nb : ∀ k : Int, -1 ≤ k → k ≤ 1 → inBox N (stepIdx x (vert n) k) := fun k k0 k1 => box_step hx (vert n) k (by omega) (by omega)
    have st : ∀ y, inBox N y → a.fillS (fun x => if decide (cellBox a.box x) = true then buoyE b dt true (psi b.tht) x else b.tmp x) y = buoy y := fun y hy => by
      rw [h.fill _ y hy, if_pos (gr y hy), B1 y hy]
    simp only [st _ (nb 1 (by norm_num) (by norm_num)), st _ (nb (-1) (by norm_num) (by norm_num)), st x hx]
    ring
  · rw [W x hx, hf, if_pos rfl]
    have e : (fun y => if decide (cellBox a.box y) = true then buoyE b dt true (psi b.tht) y else b.tmp y) = fun y => if decide (cellBox a.box y) = true then buoy y else b.tmp y := by
      funext y
      by_cases hy : decide (cellBox a.box y) = true
      · rw [if_pos hy, if_pos hy, B1 y ((ok.grid y).1 hy)]
      · rw [if_neg hy, if_neg hy]
    unfold buoyFilt
    rw [e]

end nd

/-! ### Concrete cases -/

/-- a stably stratified environment with a sponge for temperature at the top of the channel of Props/PrsRun.lean; the scalar is the temperature -/
def chB : Bous ℚ 2 :=
  { tht := 2, g := 10, Tref := 300, thtE := fun x => 300 + 3 * x 1, thtAbs := fun x => if x 1 = 2 then 1 / 10 else 0, hflux := fun _ => 0, filter := true, tmp := fun x => x 0 }

theorem chSetup : BsqSetup chU chA chN chK [0, 1] where
  bc := ⟨rfl, rfl, by decide, fun _ => rfl, fun _ _ => rfl, fun _ _ => rfl⟩
  wide := by decide
  iters := by decide
  den := rfl
  inj := fun d e h => Fin.ext h
  vip := fun d => Nat.lt_succ_of_lt d.2

theorem chQuiet : QuietEnv chU chB chN where
  tht := by decide
  hflux := fun _ _ => rfl
  thtAbs := fun x _ => by show (0 : ℚ) ≤ if x 1 = 2 then 1 / 10 else 0; split_ifs <;> norm_num
  vab := .inl rfl

/-- hydrostatic balance in the channel: the theorem applies -/
example (s : St ℚ 2 (MemN 2 ℚ)) (hs : s.timestep = 0) (hv : ∀ d x, inBox chN x → s.psi (chU.vip d) x = 0) (hth : ∀ x, inBox chN x → s.psi 2 x = 300 + 3 * x 1) (t : Nat) :
    ∃ p, run (bsqExpl chU chB chN chK 1 chA (1/50) 20 (.gcr 0)) chNe (1/4) (fun _ => false) (fun _ => 1/4) (fun _ => []) s t = some p ∧ ∀ e, e < 3 → ∀ x, inBox chN x → p.psi e x = s.psi e x :=
  C63_hydrostatic_expl_2d_partial chU chB chN chK chA chSetup .exact .noextrp (1/1000) rfl (by decide) (by decide) rfl chQuiet (1/50) (by norm_num) 20 (.gcr 0) (by norm_num) chNe (1/4) _ _ _ (.inr fun _ => rfl)
    (fun _ => show (0 : ℚ) ≤ 1/4 by norm_num) s hs hv hth t
/-- there are such states -/
example : ∃ s : St ℚ 2 (MemN 2 ℚ), s.timestep = 0 ∧ (∀ d x, inBox chN x → s.psi (chU.vip d) x = 0) ∧ ∀ x, inBox chN x → s.psi 2 x = 300 + 3 * x 1 :=
  ⟨{ chS with psi := fun e x => if e = 2 then 300 + 3 * x 1 else if inBox chN x then 0 else 7 }, rfl, fun d x hx => by
    show (if d.1 = 2 then _ else if inBox chN x then (0 : ℚ) else 7) = 0
    rw [if_neg (by have := d.2; omega), if_pos hx], fun _ _ => rfl⟩
/-- the hypotheses on the implicit solver hold in the channel, and its initial projection of a divergent flow succeeds -/
example : NoAbsorberOnOpen chU chN chK ∧ chK (vert 2) ≠ .opened ∧ (∀ d, chU.vip d ≠ chB.tht) ∧
    (run (bsqImpl chU chB chN chK 1 chA (1/50) 20 (.gcr 0)) chNe (1/4) (fun _ => false) (fun _ => 1/4) (fun _ => []) chS 0).isSome = true :=
  ⟨fun h => absurd h (by decide), by decide, by decide, by decide +kernel⟩
/-- hypotheses of `C44_run_implicit`, `C44_run_explicit` -/
example : chU.sch = .trapez ∧ chB.tht < chU.nEqns ∧ isset chU.norhs (bit chB.tht) = false ∧ isset chU.norhs (bit (chU.vip (vert 2))) = false ∧
    (∀ x, inBox chN x → 1 + 1 / 2 * (1/4) * chB.thtAbs x ≠ 0) ∧ chB.Tref ≠ 0 :=
  ⟨rfl, by decide, by decide, by decide, fun x _ => by show 1 + 1 / 2 * (1 / 4) * (if x 1 = 2 then (1 / 10 : ℚ) else 0) ≠ 0; split_ifs <;> norm_num, by decide⟩

end PP
end Mpdata
