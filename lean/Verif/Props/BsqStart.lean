import Verif.Props.BsqRun
/-! # Properties: tendencies at the start of a run of the Boussinesq solvers, and the environmental stratification (C44) -/
namespace Mpdata
namespace PP
open Mpdata.Prs (inBox)
variable {n : Nat} [NeZero n] {K : Type} [Field K] [LinearOrder K] [IsStrictOrderedRing K]

/-- C44: the stratification in the implicit equations is the vertical one: at every grid point that is neither lowest nor highest it is the difference of the environmental temperature just above and
just below divided by twice the vertical grid step. -/
theorem C44_env_gradient (u : VP.User K (Idx n) n) (b : Bous K n) (N : Fin n → Nat) (halo : Int) (a : CfgN n K) (h : Setup u N halo a) (dt : K) (x : Idx n) (hx : inBox N x)
    (h0 : 0 < x (vert n)) (h1 : x (vert n) < (N (vert n) : Int) - 1) :
    (parAt u b a dt x).dthtE = (b.thtE (stepIdx x (vert n) 1) - b.thtE (stepIdx x (vert n) (-1))) / (2 * u.dx (vert n)) := by
  have key : ∀ k, 0 ≤ x (vert n) + k → x (vert n) + k < N (vert n) → inBox N (stepIdx x (vert n) k) := by
    intro k k0 k1 d
    have := hx d
    unfold stepIdx
    split_ifs with hd
    · subst hd; exact ⟨k0, by omega⟩
    · exact this
  show calcGrad u.dx (a.fillS b.thtE) (vert n) x = _
  unfold calcGrad gradC
  rw [h.fill _ _ (key 1 (by omega) (by omega)), h.fill _ _ (key (-1) (by omega) (by omega))]
  rw [div_div, mul_comm (u.dx _)]

/-- C44: at the start of a run of the implicit solver the tendencies are the forces of the initial state: advection of the environmental profile, heat flux and absorber for temperature, buoyancy for the
vertical velocity. -/
theorem C44_run_implicit_start (u : VP.User K (Idx n) n) (b : Bous K n) (N : Fin n → Nat) (kind : Fin n → BcKind) (halo : Int) (a : CfgN n K) (tol : K) (cap : Nat) (prs : Scheme) (h : Setup u N halo a)
    (hs : u.sch = .trapez) (ht : b.tht < u.nEqns) (htv : ∀ d, u.vip d ≠ b.tht) (hvip : u.vip (vert n) < u.nEqns) (hno : isset u.norhs (bit b.tht) = false)
    (hnw : isset u.norhs (bit (u.vip (vert n))) = false) (ne : Nonempty (Prs.Pts N)) (dt0 : K) (filt : Nat → Bool) (first : Nat → K) (more : Nat → List K) (s p : St K n (MemN n K))
    (hr : run (bsqImpl u b N kind halo a tol cap prs) ne dt0 filt first more s 0 = some p) (x : Idx n) (hx : inBox N x) (dt : K) :
    p.rhs b.tht x = Bsq.forceTht (parAt u b a dt x) (p.psi (u.vip (vert n)) x) (p.psi b.tht x) ∧ p.rhs (u.vip (vert n)) x = b.g * p.psi b.tht x / b.Tref := by
  have ok : Ok (bsqImpl u b N kind halo a tol cap prs) := impl_ok h htv
  have gx : decide (cellBox a.box x) = true := (ok.grid x).2 hx
  set c := bsqImpl u b N kind halo a tol cap prs with hc
  have hsch : c.sch = .trapez := hs
  have r1 : VP.hasRhs c.toCfg b.tht = true := by
    show (decide (b.tht < u.nEqns) && !isset u.norhs (bit b.tht)) = true
    rw [hno]; simpa using ht
  have r2 : VP.hasRhs c.toCfg (u.vip (vert n)) = true := by
    show (decide (u.vip (vert n) < u.nEqns) && !isset u.norhs (bit (u.vip (vert n)))) = true
    rw [hnw]; simpa using hvip
  have : anteLoop c ne dt0 s = some p := hr
  unfold anteLoop at this
  simp only at this
  split at this
  · cases this
  · rename_i s1 h1
    have e := Option.some.inj this
    have key : ∃ z : Nat → Idx n → K, z b.tht x = 0 ∧ z (u.vip (vert n)) x = 0 ∧
        p.rhs = forceImpl b (u.vip (vert n)) (fun x => decide (cellBox a.box x)) (dthtE u b a) (dt0 / 2) false p.psi z := by
      rw [← e]
      unfold iniPressure VP.anteLoop VP.vabInitS
      simp only [hsch]
      unfold VP.updRhs
      refine ⟨_, ?_, ?_, rfl⟩
      · beta_reduce; rw [if_pos r1]; exact if_pos gx
      · beta_reduce; rw [if_pos r2]; exact if_pos gx
    obtain ⟨z, z1, z2, hz⟩ := key
    rw [hz]
    unfold forceImpl addRhs Bsq.forceTht parAt
    simp only [Bool.false_eq_true, if_false, if_true, if_neg (fun hh : b.tht = u.vip (vert n) => htv (vert n) hh.symm), if_neg (htv (vert n)), gx, z1, z2, zero_add, and_self]

/-- C44: at the start of a run of the explicit solver the tendencies are the forces of the initial state: heat flux and relaxation towards the environment for temperature, buoyancy of the
departure from the environment for the vertical velocity, filtered if asked for. -/
theorem C44_run_explicit_start (u : VP.User K (Idx n) n) (b : Bous K n) (N : Fin n → Nat) (kind : Fin n → BcKind) (halo : Int) (a : CfgN n K) (tol : K) (cap : Nat) (prs : Scheme) (h : Setup u N halo a)
    (hs : u.sch = .trapez) (ht : b.tht < u.nEqns) (htv : ∀ d, u.vip d ≠ b.tht) (hvip : u.vip (vert n) < u.nEqns) (hno : isset u.norhs (bit b.tht) = false)
    (hnw : isset u.norhs (bit (u.vip (vert n))) = false) (ne : Nonempty (Prs.Pts N)) (dt0 : K) (filt : Nat → Bool) (first : Nat → K) (more : Nat → List K) (s p : St K n (MemN n K))
    (hr : run (bsqExpl u b N kind halo a tol cap prs) ne dt0 filt first more s 0 = some p) (x : Idx n) (hx : inBox N x) :
    let buoy : Idx n → K := fun x => b.g * (p.psi b.tht x - b.thtE x) / b.Tref
    p.rhs b.tht x = b.hflux x - b.thtAbs x * (p.psi b.tht x - b.thtE x) ∧
      p.rhs (u.vip (vert n)) x = (if b.filter then buoyFilt (fun x => decide (cellBox a.box x)) a.fillS b.tmp buoy else buoy) x := by
  intro buoy
  have ok : Ok (bsqExpl u b N kind halo a tol cap prs) := expl_ok h
  have gx : decide (cellBox a.box x) = true := (ok.grid x).2 hx
  set c := bsqExpl u b N kind halo a tol cap prs with hc
  have hsch : c.sch = .trapez := hs
  have r1 : VP.hasRhs c.toCfg b.tht = true := by
    show (decide (b.tht < u.nEqns) && !isset u.norhs (bit b.tht)) = true
    rw [hno]; simpa using ht
  have r2 : VP.hasRhs c.toCfg (u.vip (vert n)) = true := by
    show (decide (u.vip (vert n) < u.nEqns) && !isset u.norhs (bit (u.vip (vert n)))) = true
    rw [hnw]; simpa using hvip
  have : anteLoop c ne dt0 s = some p := hr
  unfold anteLoop at this
  simp only at this
  split at this
  · cases this
  · rename_i s1 h1
    have e := Option.some.inj this
    have key : ∃ z : Nat → Idx n → K, z b.tht x = 0 ∧ z (u.vip (vert n)) x = 0 ∧
        p.rhs = forceExpl b (u.vip (vert n)) (fun x => decide (cellBox a.box x)) a.fillS (dt0 / 2) false p.psi z := by
      rw [← e]
      unfold iniPressure VP.anteLoop VP.vabInitS
      simp only [hsch]
      unfold VP.updRhs
      refine ⟨_, ?_, ?_, rfl⟩
      · beta_reduce; rw [if_pos r1]; exact if_pos gx
      · beta_reduce; rw [if_pos r2]; exact if_pos gx
    obtain ⟨z, z1, z2, hz⟩ := key
    rw [hz]
    unfold forceExpl addRhs buoyE
    simp only [Bool.false_eq_true, if_false, if_true, if_neg (fun hh : b.tht = u.vip (vert n) => htv (vert n) hh.symm), if_neg (htv (vert n)), gx, z1, z2, zero_add, true_and]
    rfl

/-- in the channel with an environment that warms by 3 per grid step the stratification is 3 divided by the grid step -/
example : (parAt chU chB chA (1/4) ![2, 1]).dthtE = (chB.thtE ![2, 2] - chB.thtE ![2, 0]) / (2 * chU.dx 1) := by
  have := C44_env_gradient chU chB chN (solverHalo chA.o) chA chSetup.setup (1/4) ![2, 1] (by unfold inBox; decide) (by decide) (by decide)
  rw [this]
  congr 2

/-- the implicit solver starts in the channel and its tendencies are the forces of the initial state -/
example : ∃ p, run (bsqImpl chU chB chN chK 1 chA (1/50) 20 (.gcr 0)) chNe (1/4) (fun _ => false) (fun _ => 1/4) (fun _ => []) chS 0 = some p ∧
    ∀ x, inBox chN x → p.rhs 1 x = 10 * p.psi 2 x / 300 := by
  have h : (run (bsqImpl chU chB chN chK 1 chA (1/50) 20 (.gcr 0)) chNe (1/4) (fun _ => false) (fun _ => 1/4) (fun _ => []) chS 0).isSome = true := by decide +kernel
  obtain ⟨p, hp⟩ := Option.isSome_iff_exists.1 h
  exact ⟨p, hp, fun x hx => (C44_run_implicit_start chU chB chN chK 1 chA (1/50) 20 (.gcr 0) chSetup.setup rfl (by decide) (by decide) (by decide) (by decide) (by decide) chNe (1/4) _ _ _ chS p hp x hx (1/4)).2⟩

end PP
end Mpdata
