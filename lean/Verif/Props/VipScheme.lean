import Verif.Lemmas.VipScheme
import Verif.Props.VipRun
/-! # C66: solvers with forced equations and prognosed velocities compute the intended scheme

`scheme` (`Verif.Spec.VipScheme`) gives a step as formulae on the unbounded grid; advection in it is the plain scheme of `Spec1` or `SpecN`. -/
namespace Mpdata
namespace VP
variable {K : Type} [Field K] [LinearOrder K] [IsStrictOrderedRing K]

/-- further conditions: velocity components are different variables, the absorber's coefficient is not negative, trial time steps occur only if the time step may vary, time steps are positive, right-hand sides
of equations that have none are not used by the forcing -/
structure Sound {X : Type} {n : Nat} (u : User K X n) (first : Nat → K) (more : Nat → List K) : Prop where
  vip : Function.Injective u.vip
  coeff : ∀ x, 0 ≤ u.coeff x
  trial : u.vc.varDt = false ∧ u.vc.div3 = false → ∀ t, more t = []
  pos : ∀ t, 0 < (first t :: more t).getLast (by simp)
  own : ForceOwn u

/-- **C66, 1-D**: after any number of steps every field of a cyclic solver has at every grid point the value given by the formulae of the scheme, applied to the periodic initial data -/
theorem C66_scheme_1d_partial (u : User K Int 1) (a : Cfg1 K) (p : Spec1.Par K) (N : Nat) (h : Prog1 u a p N) (psi0 : Nat → Int → K) (h0 : ∀ e, Spec1.Periodic N (psi0 e))
    (s : St K Int 1 (Mem1 K)) (hs : Begin (solver1 u a) psi0 s) (dt0 : K) (filt : Nat → Bool) (first : Nat → K) (more : Nat → List K) (hu : Sound u first more) (t e : Nat) (he : e < u.nEqns)
    (x : Int) (hx : a.ijk.Mem x) :
    (run (solver1 u a) dt0 filt first more s t).psi e x =
      (scheme u (fun i _ k => i + k) (fun _ => 1) (adv1 u p a.nIters) dt0 filt (fun t => (first t :: more t).getLast (by simp)) psi0 t).now e x :=
  (C61_cyclic_is_periodic_1d_partial u a p N h psi0 h0 s hs dt0 filt first more t e he x hx).trans
    (congrFun (congrFun (run_agr (c := ideal1 u a p) (plain_ideal _ _ _ _ _) hu.vip hu.own hu.coeff dt0 filt first more hu.trial hu.pos psi0 t).psi e) x)

/-- **C66, 2-D** -/
theorem C66_scheme_2d_partial (u : User K (Idx 2) 2) (a : CfgN 2 K) (p : SpecN.Par 2 K) (P : Fin 2 → Nat) (h : Prog2 u a p P) (psi0 : Nat → Idx 2 → K) (h0 : ∀ e, PeriodicN P (psi0 e))
    (s : St K (Idx 2) 2 (MemN 2 K)) (hs : Begin (solverN u (solverHalo a.o) a) psi0 s) (dt0 : K) (filt : Nat → Bool) (first : Nat → K) (more : Nat → List K) (hu : Sound u first more)
    (t e : Nat) (he : e < u.nEqns) (x : Idx 2) (hx : InGrid P x) :
    (run (solverN u (solverHalo a.o) a) dt0 filt first more s t).psi e x =
      (scheme u stepIdx (gFacN p.o p.st.G) (advN u p a.nIters) dt0 filt (fun t => (first t :: more t).getLast (by simp)) psi0 t).now e x :=
  (C61_cyclic_is_periodic_2d_partial u a p P h psi0 h0 s hs dt0 filt first more t e he x hx).trans
    (congrFun (congrFun (run_agr (c := idealN u a p) (plain_ideal _ _ _ _ _) hu.vip hu.own hu.coeff dt0 filt first more hu.trial hu.pos psi0 t).psi e) x)

/-- **C66, 3-D** -/
theorem C66_scheme_3d_partial (u : User K (Idx 3) 3) (a : CfgN 3 K) (p : SpecN.Par 3 K) (P : Fin 3 → Nat) (h : Prog3 u a p P) (psi0 : Nat → Idx 3 → K) (h0 : ∀ e, PeriodicN P (psi0 e))
    (s : St K (Idx 3) 3 (MemN 3 K)) (hs : Begin (solverN u (solverHalo a.o) a) psi0 s) (dt0 : K) (filt : Nat → Bool) (first : Nat → K) (more : Nat → List K) (hu : Sound u first more)
    (t e : Nat) (he : e < u.nEqns) (x : Idx 3) (hx : InGrid P x) :
    (run (solverN u (solverHalo a.o) a) dt0 filt first more s t).psi e x =
      (scheme u stepIdx (gFacN p.o p.st.G) (advN u p a.nIters) dt0 filt (fun t => (first t :: more t).getLast (by simp)) psi0 t).now e x :=
  (C61_cyclic_is_periodic_3d_partial u a p P h psi0 h0 s hs dt0 filt first more t e he x hx).trans
    (congrFun (congrFun (run_agr (c := idealN u a p) (plain_ideal _ _ _ _ _) hu.vip hu.own hu.coeff dt0 filt first more hu.trial hu.pos psi0 t).psi e) x)

/-- the conditions are met by the demonstration solvers of `Props/VipRun`, with a varying time step and two trial steps each -/
example : Sound derU (fun t => 1 / (t + 1 : ℚ)) (fun t => [1 / (t + 2 : ℚ)]) ∧ Sound derU3 (fun t => 1 / (t + 1 : ℚ)) (fun t => [1 / (t + 2 : ℚ)]) := by
  have hp : ∀ t : Nat, 0 < ((1 / (t + 1 : ℚ)) :: [1 / (t + 2 : ℚ)]).getLast (by simp) := fun t => by
    show (0 : ℚ) < 1 / (t + 2)
    positivity
  refine ⟨⟨fun d d' _ => Subsingleton.elim d d', fun _ => by simp [derU], fun h => by simp [derU] at h, hp, fun _ _ _ _ _ h e he => h e he⟩,
    ⟨fun d d' h => Fin.ext h, fun _ => by simp [derU3], fun h => by simp [derU3] at h, hp, fun _ _ _ _ _ h e he => h e he⟩⟩

end VP
end Mpdata
