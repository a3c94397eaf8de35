import Verif.Lemmas.BsqRun
/-! # C62: the momentum equations in whole runs of incompressible solvers -/
set_option linter.unusedSectionVars false
set_option linter.unusedVariables false
namespace Mpdata
namespace PP
open Prs (inBox)
variable {K : Type} [Field K] [LinearOrder K] [IsStrictOrderedRing K] {n : Nat}

theorem card_pts (N : Fin n → Nat) : Fintype.card (Prs.Pts N) = ∏ d, N d := by
  rw [Fintype.card_of_subtype (Fintype.piFinset fun d => Finset.Icc 0 ((N d : Int) - 1)) (fun x => by
    rw [Fintype.mem_piFinset]; exact forall_congr' fun d => Finset.mem_Icc), Fintype.card_piFinset]
  refine Finset.prod_congr rfl fun d _ => ?_
  rw [Int.card_Icc]; omega

theorem calcGcs_fields {T : Type} (c : VP.Cfg K (Idx n) n T) (l : List K) : ∀ s : VP.St K (Idx n) n T, (l.foldl (VP.calcGc c) s).psi = s.psi ∧ (l.foldl (VP.calcGc c) s).rhs = s.rhs ∧ (l.foldl (VP.calcGc c) s).vrhs = s.vrhs := by
  induction l with
  | nil => exact fun s => ⟨rfl, rfl, rfl⟩
  | cons dt l ih => intro s; rw [List.foldl_cons]; exact ih (VP.calcGc c s dt)

theorem calcNdt_fields {T : Type} (c : VP.Cfg K (Idx n) n T) (dt : K) (s : VP.St K (Idx n) n T) : (VP.calcNdt c dt s).psi = s.psi ∧ (VP.calcNdt c dt s).rhs = s.rhs ∧ (VP.calcNdt c dt s).vrhs = s.vrhs := by
  unfold VP.calcNdt
  simp only
  split_ifs <;> exact ⟨rfl, rfl, rfl⟩

variable [NeZero n]

/-- one step, from any state -/
theorem momentum_step (u : VP.User K (Idx n) n) (N : Fin n → Nat) (kind : Fin n → BcKind) (halo : Int) (a : CfgN n K) (tol : K) (cap : Nat) (prs : Scheme) (h : Setup u N halo a)
    (hs : u.sch = .trapez) (hvip : ∀ d, u.vip d < u.nEqns) (ne : Nonempty (Prs.Pts N)) (filt : Bool) (first : K) (more : List K) (q p : St K n (MemN n K))
    (hst : step (solver u N kind halo a tol cap prs) ne filt first more q = some p) :
      let c := (solver u N kind halo a tol cap prs).toCfg
      let dt := (first :: more).getLast (by simp)
      let B := VP.anteStep c dt (VP.calcNdt c dt ((first :: more).foldl (VP.calcGc c) q.toSt))
      let A := (VP.eqOrder c).foldl (VP.advEq c (filt)) B
      let R : VP.St K (Idx n) n (MemN n K) → Fin n → Idx n → K := fun s d x => if isset u.norhs (bit (u.vip d)) then 0 else s.rhs (u.vip d) x
      ∀ d x, inBox N x → dt ≠ 0 →
        B.psi (u.vip d) x = q.psi (u.vip d) x + dt / 2 * (R q.toSt d x + q.vrhs d x + if u.vab = .expl then - 2 * u.coeff x * (q.psi (u.vip d) x - u.relax d x) else 0) ∧
        p.psi (u.vip d) x = A.psi (u.vip d) x + dt / 2 * (R p.toSt d x + p.vrhs d x) ∧
        (¬ (kind d ≠ .cyclic ∧ (x d = 0 ∨ x d = (N d : Int) - 1)) → (u.vab = .impl → 1 + 1 / 2 * dt * u.coeff x ≠ 0) →
          p.vrhs d x = (if u.vab = .impl then - u.coeff x * (p.psi (u.vip d) x - u.relax d x) else 0) - slope N (fun d => kind d = .cyclic) p.Phi d x / u.dx d / (dt / 2)) := by
  intro c dt B A R d x hx hdt
  have ok : Ok (solver u N kind halo a tol cap prs) := h.ok
  have gx : c.grid x = true := (ok.grid x).2 hx
  have hsch : c.sch = .trapez := hs
  have h2 : (2 : K) ≠ 0 := two_ne_zero
  set q2 := VP.calcNdt c dt ((first :: more).foldl (VP.calcGc c) q.toSt) with hq2
  have f0 := calcGcs_fields c (first :: more) q.toSt
  have f1 := calcNdt_fields c dt ((first :: more).foldl (VP.calcGc c) q.toSt)
  have q2p : q2.psi = q.psi := f1.1.trans f0.1
  have q2r : q2.rhs = q.rhs := f1.2.1.trans f0.2.1
  have q2v : q2.vrhs = q.vrhs := f1.2.2.trans f0.2.2
  have hR : ∀ e, VP.hasRhs c (u.vip e) = !isset u.norhs (bit (u.vip e)) := fun e => by
    show (decide (u.vip e < u.nEqns) && _) = _
    rw [decide_eq_true (hvip e), Bool.true_and]; rfl
  have app : ∀ (s : VP.St K (Idx n) n (MemN n K)), (VP.appRhs c (dt / 2) s).psi (u.vip d) x = s.psi (u.vip d) x + dt / 2 * R s d x := fun s => by
    show (if VP.hasRhs c (u.vip d) then VP.asgG c (fun x => s.psi (u.vip d) x + dt / 2 * s.rhs (u.vip d) x) (s.psi (u.vip d)) else s.psi (u.vip d)) x = s.psi (u.vip d) x + dt / 2 * (if isset u.norhs (bit (u.vip d)) then 0 else s.rhs (u.vip d) x)
    rw [hR d]
    cases isset u.norhs (bit (u.vip d))
    · exact if_pos gx
    · simp
  refine ⟨?_, ?_⟩
  · have e0 : B = VP.vabApplyS c dt (VP.appRhs c (dt / 2) (VP.vabExplS c (VP.fillSt c q2))) := by
      show VP.anteStep c dt q2 = _
      unfold VP.anteStep; rw [hsch]
    set q3 := VP.vabExplS c (VP.fillSt c q2) with hq3
    have p3 : q3.psi = q.psi := by rw [hq3]; unfold VP.vabExplS; split_ifs <;> exact q2p
    have r3 : q3.rhs = q.rhs := by rw [hq3]; unfold VP.vabExplS; split_ifs <;> exact q2r
    have v3 : q3.vrhs d x = q.vrhs d x + if u.vab = .expl then - 2 * u.coeff x * (q.psi (u.vip d) x - u.relax d x) else 0 := by
      rw [hq3]; unfold VP.vabExplS
      by_cases hv : u.vab = .expl
      · rw [if_pos (show c.vab = .expl from hv), if_pos hv]
        refine (if_pos gx).trans ?_
        show q2.vrhs d x + -2 * u.coeff x * (q2.psi (u.vip d) x - u.relax d x) = _
        rw [q2p, q2v]
      · rw [if_neg (show ¬ c.vab = .expl from hv), if_neg hv, add_zero]
        show q2.vrhs d x = _
        rw [q2v]
    rw [e0]
    show VP.asgVip c (fun d x v => v + 1 / 2 * dt * q3.vrhs d x) (VP.appRhs c (dt / 2) q3).psi (c.vip d) x = _
    rw [asgVip_at ok.inj]
    refine (if_pos gx).trans ?_
    show (VP.appRhs c (dt / 2) q3).psi (u.vip d) x + 1 / 2 * dt * q3.vrhs d x = _
    have : R q3 d x = R q.toSt d x := by
      show (if isset u.norhs (bit (u.vip d)) then 0 else q3.rhs (u.vip d) x) = _
      rw [r3]
    rw [app, v3, p3, this]; ring
  · obtain ⟨r, r1, r2, r3, r4, r5⟩ := fnlz_vel ok h.two ne dt hst
    have r1' : p.toSt = r := r1
    set A' : VP.St K (Idx n) n (MemN n K) := preStep c filt first more q.toSt with hA'
    have eA : A'.psi = A.psi := rfl
    have eP : (postRhs c dt A').psi (u.vip d) x = A.psi (u.vip d) x + dt / 2 * R (postRhs c dt A') d x := by
      have e0 : postRhs c dt A' = VP.appRhs c (dt / 2) (VP.updRhs c (dt / 2) true A') := by
        unfold postRhs; rw [hsch]
      rw [e0, app]
      have e1 : (VP.updRhs c (dt / 2) true A').psi (u.vip d) x = A.psi (u.vip d) x := by
        show (if u.vip d < u.nEqns then c.xchng (A'.psi (u.vip d)) else A'.psi (u.vip d)) x = _
        rw [if_pos (hvip d)]; exact ok.xchng _ x hx
      rw [e1]; rfl
    have eR : R (postRhs c dt A') d x = R p.toSt d x := by
      show (if isset u.norhs (bit (u.vip d)) then 0 else (postRhs c dt A').rhs (u.vip d) x) = (if isset u.norhs (bit (u.vip d)) then 0 else p.toSt.rhs (u.vip d) x)
      rw [r1', r3]
    have v1 : p.vrhs d x = (p.psi (u.vip d) x - (postRhs c dt A').psi (u.vip d) x) / (1 / 2 * dt) := by
      show p.toSt.vrhs d x = (p.toSt.psi (u.vip d) x - _) / _
      rw [r1']; exact r4 d x hx
    have hh : (1 / 2 * dt : K) ≠ 0 := by positivity
    have v2 : 1 / 2 * dt * p.vrhs d x = p.psi (u.vip d) x - (postRhs c dt A').psi (u.vip d) x := by
      rw [v1, mul_div_cancel₀ _ hh]
    refine ⟨?_, fun hw hnz => ?_⟩
    · rw [← eR]
      linear_combination eP - v2
    · set sl := slope N (fun d => kind d = .cyclic) p.Phi d x / u.dx d with hsl
      have w1 : p.psi (u.vip d) x = nrmBase u dt d x * ((postRhs c dt A').psi (u.vip d) x + (if u.vab = .impl then 1 / 2 * dt * u.coeff x * u.relax d x else 0) - sl) := by
        show p.toSt.psi (u.vip d) x = _
        rw [r1']; exact r5 d x hx hw
      have key : 1 / 2 * dt * p.vrhs d x = 1 / 2 * dt * ((if u.vab = .impl then - u.coeff x * (p.psi (u.vip d) x - u.relax d x) else 0) - sl / (dt / 2)) := by
        rw [v2]
        have e2 : 1 / 2 * dt * (sl / (dt / 2)) = sl := by field_simp
        unfold nrmBase at w1
        by_cases hv : u.vab = .impl
        · rw [if_pos hv, if_pos hv] at w1
          rw [if_pos hv, mul_sub, e2]
          have := hnz hv
          have w2 : p.psi (u.vip d) x * (1 + 1 / 2 * dt * u.coeff x) = (postRhs c dt A').psi (u.vip d) x + 1 / 2 * dt * u.coeff x * u.relax d x - sl := by
            rw [w1, one_div, mul_comm, mul_inv_cancel_left₀ this]
          linear_combination w2
        · rw [if_neg hv, if_neg hv] at w1
          rw [if_neg hv, zero_sub, mul_neg, e2]
          linear_combination w1
      exact mul_left_cancel₀ hh key

/-- C62, trapezoidal scheme: in every step of every run, at every grid point and for every velocity component. `q` is the state before the step, `B` the one handed to advection, `A` the one advection
returns, `p` the one after the step. (1) What is advected is the velocity plus half the time step times the forces kept from the previous step: right-hand side, pressure and absorber. (2) The step ends
with the advected velocity plus half the time step times the forces it keeps. (3) Away from walls these are minus the centred pressure gradient, for the potential found, and the relaxation by the
implicit absorber of the velocity the step ends with. -/
theorem C62_momentum_equation (u : VP.User K (Idx n) n) (N : Fin n → Nat) (kind : Fin n → BcKind) (halo : Int) (a : CfgN n K) (tol : K) (cap : Nat) (prs : Scheme) (h : Setup u N halo a)
    (hs : u.sch = .trapez) (hvip : ∀ d, u.vip d < u.nEqns) (ne : Nonempty (Prs.Pts N)) (dt0 : K) (filt : Nat → Bool) (first : Nat → K) (more : Nat → List K) (s p : St K n (MemN n K)) (t : Nat)
    (hr : run (solver u N kind halo a tol cap prs) ne dt0 filt first more s (t + 1) = some p) :
    ∃ q, run (solver u N kind halo a tol cap prs) ne dt0 filt first more s t = some q ∧
      let c := (solver u N kind halo a tol cap prs).toCfg
      let dt := dtOf first more t
      let B := VP.anteStep c dt (VP.calcNdt c dt ((first t :: more t).foldl (VP.calcGc c) q.toSt))
      let A := (VP.eqOrder c).foldl (VP.advEq c (filt t)) B
      let R : VP.St K (Idx n) n (MemN n K) → Fin n → Idx n → K := fun s d x => if isset u.norhs (bit (u.vip d)) then 0 else s.rhs (u.vip d) x
      ∀ d x, inBox N x → dt ≠ 0 →
        B.psi (u.vip d) x = q.psi (u.vip d) x + dt / 2 * (R q.toSt d x + q.vrhs d x + if u.vab = .expl then - 2 * u.coeff x * (q.psi (u.vip d) x - u.relax d x) else 0) ∧
        p.psi (u.vip d) x = A.psi (u.vip d) x + dt / 2 * (R p.toSt d x + p.vrhs d x) ∧
        (¬ (kind d ≠ .cyclic ∧ (x d = 0 ∨ x d = (N d : Int) - 1)) → (u.vab = .impl → 1 + 1 / 2 * dt * u.coeff x ≠ 0) →
          p.vrhs d x = (if u.vab = .impl then - u.coeff x * (p.psi (u.vip d) x - u.relax d x) else 0) - slope N (fun d => kind d = .cyclic) p.Phi d x / u.dx d / (dt / 2)) := by
  obtain ⟨q, hq, hst⟩ := run_pred hr
  exact ⟨q, hq, momentum_step u N kind halo a tol cap prs h hs hvip ne (filt t) (first t) (more t) q p hst⟩

/-- C62: at the start of a run the potential is minus the kinetic energy per mass up to a constant, its mean over the grid is zero, and the forces kept for the first step are minus its centred gradient
plus the relaxation by the implicit absorber. -/
theorem C62_initial_pressure (u : VP.User K (Idx n) n) (N : Fin n → Nat) (kind : Fin n → BcKind) (halo : Int) (a : CfgN n K) (tol : K) (cap : Nat) (prs : Scheme) (h : Setup u N halo a)
    (hvip : ∀ d, u.vip d < u.nEqns) (ne : Nonempty (Prs.Pts N)) (dt0 : K) (filt : Nat → Bool) (first : Nat → K) (more : Nat → List K) (s p : St K n (MemN n K))
    (hr : run (solver u N kind halo a tol cap prs) ne dt0 filt first more s 0 = some p) :
    (∃ k, ∀ x, inBox N x → p.Phi x = k - ∑ d, 1 / 2 * (p.psi (u.vip d) x) ^ 2) ∧ ∑ x : Prs.Pts N, p.Phi x.1 = 0 ∧
    ∀ d x, inBox N x → p.vrhs d x = (if u.vab = .impl then - u.coeff x * (p.psi (u.vip d) x - u.relax d x) else 0) - slope N (fun d => kind d = .cyclic) p.Phi d x / u.dx d := by
  have ok : Ok (solver u N kind halo a tol cap prs) := h.ok
  have hr' : anteLoop (solver u N kind halo a tol cap prs) ne dt0 s = some p := hr
  unfold anteLoop at hr'
  simp only at hr'
  split at hr'
  · cases hr'
  · rename_i s1 h1
    simp only [Option.some.injEq] at hr'
    set c := (solver u N kind halo a tol cap prs) with hc
    set s2 := apply c dt0 true s1 with hs2
    set s3 : VP.St K (Idx n) n (MemN n K) := VP.anteLoop c.toCfg dt0 s2.toSt with hs3
    have gr : ∀ x, inBox N x → c.grid x = true := fun x hx => (ok.grid x).2 hx
    set P : Idx n → K := fun x => 0 - ∑ d, 1 / 2 * (s3.psi (u.vip d) x) ^ 2 with hP
    set mean := (∑ x : Prs.Pts N, P x.1) / (∏ d, (N d : K)) with hm
    have ePsi : p.psi = s3.psi := by rw [← hr']; rfl
    have ePhi : ∀ x, inBox N x → p.Phi x = P x - mean := fun x hx => by
      rw [← hr']; exact if_pos (gr x hx)
    refine ⟨⟨- mean, fun x hx => ?_⟩, ?_, fun d x hx => ?_⟩
    · rw [ePhi x hx, hP, ePsi]; ring
    · have e0 : ∑ x : Prs.Pts N, p.Phi x.1 = ∑ x : Prs.Pts N, (P x.1 - mean) := Finset.sum_congr rfl fun x _ => ePhi x.1 x.2
      have hN : (∏ d, (N d : K)) ≠ 0 := Finset.prod_ne_zero_iff.2 fun d _ => by have := h.two d; exact_mod_cast (by omega : N d ≠ 0)
      rw [e0, Finset.sum_sub_distrib, Finset.sum_const, Finset.card_univ, card_pts, nsmul_eq_mul, Nat.cast_prod, hm, mul_div_cancel₀ _ hN, sub_self]
    · have e1 : p.vrhs d x = s3.vrhs d x - slope N (fun d => kind d = .cyclic) p.Phi d x / u.dx d := by
        rw [← grad_slope h.two kind u.dx p.Phi d hx]
        rw [← hr']
        exact if_pos (gr x hx)
      have e2 : s3.vrhs d x = if u.vab = .impl then - u.coeff x * (s3.psi (u.vip d) x - u.relax d x) else 0 := by
        obtain ⟨r, hr⟩ : ∃ r, s3 = VP.vabInitS c.toCfg r := ⟨_, rfl⟩
        rw [hr]
        refine (if_pos (gr x hx)).trans ?_
        show (if u.vab = .impl then vabInit (u.coeff x) (u.relax d x) (r.psi (u.vip d) x) else 0) = (if u.vab = .impl then -u.coeff x * (r.psi (u.vip d) x - u.relax d x) else 0)
        unfold vabInit
        rw [neg_mul]
      rw [e1, e2, ePsi]

/-- the hypotheses hold in the channel of Props/PrsRun.lean, with a divergent initial flow -/
example : chU.sch = .trapez ∧ (∀ d, chU.vip d < chU.nEqns) ∧
    (run (solver chU chN chK 1 chA (1/50) 20 .mr) chNe (1/4) (fun _ => false) (fun _ => 1/4) (fun _ => []) chS 0).isSome = true :=
  ⟨rfl, fun d => Nat.lt_succ_of_lt d.2, by decide +kernel⟩

end PP
end Mpdata
