import Verif.Props.VipRun
import Verif.Props.PositiveDiv
/-! # C61: sign of unforced fields in 2-D and 3-D without the flux limiter -/
namespace Mpdata.VP

open Mpdata

variable {K : Type} [Field K] [LinearOrder K] [IsStrictOrderedRing K] {n : Nat} [NeZero n]

theorem nonnegN_geom {S : Prop} {u : User K (Idx n) n} {a : CfgN n K} {p : SpecN.Par n K} {P : Fin n → Nat} {ds : List (Fin n)} (h : ProgN S u a P) (hcy : CyclicSetupN a p P ds) (hF : FGood p.o p.F)
    (hep : 0 ≤ a.eps) (hb : BasicOptsN a.o) (hn : 1 ≤ a.nIters) (w : K) (hw0 : 0 ≤ w) (hw : (n : K) * (2 * w) ≤ 1)
    (hv : ∀ u ≤ w / 2, ∀ (st : Stat n K) (psi old : Sca n K) (U : Vec n K), (∀ x, 0 ≤ psi x) → (∀ d x, |U d x| ≤ u) → ∀ d x, |p.F.vel d st psi old U x| ≤ 2 * u)
    {psi0 : Nat → Idx n → K} (h0 : ∀ e, PeriodicN P (psi0 e)) {s : St K (Idx n) n (MemN n K)} (hs : Begin (solverN u (solverHalo a.o) a) psi0 s)
    (dt0 : K) (filt : Nat → Bool) (first : Nat → K) (more : Nat → List K) (e : Nat) (he : e < u.nEqns) (hu : Unforced u e) (t : Nat)
    (hc : ∀ q, q < t → ∀ d x, InGrid P x → |(run (solverN u (solverHalo a.o) a) dt0 filt first more s (q + 1)).GC d x| ≤ w / 2 ^ (a.nIters - 1))
    (hp : ∀ x, InGrid P x → 0 ≤ s.psi e x) {x : Idx n} (hx : InGrid P x) :
    0 ≤ (run (solverN u (solverHalo a.o) a) dt0 filt first more s t).psi e x := by
  have hh : (1 : Int) ≤ solverHalo a.o := one_le_haloI _
  have hP : ∀ d, 1 ≤ P d := fun d => by have := hcy.hhP d; omega
  rw [cycN h hcy hF h0 hs dt0 filt first more t e he hx]
  have hL := h.link hcy hF
  refine (run_pred hL h.wf (Unforced.inert (c := solverN u (solverHalo a.o) a) hu) dt0 filt first more (fun f => ∀ i, 0 ≤ f i) hs.ts hs.ds0 hs.ds1 (fun e => perTN.2 (h0 e)) hs.psi t ?_ ?_).1 x
  · intro q hq psi hpsi
    obtain ⟨g1, g2⟩ := step_relG hL h.wf (filt q) (first q) (more q) (run_rel hL h.wf dt0 filt first more hs.ts hs.ds0 hs.ds1 (fun e => perTN.2 (h0 e)) hs.psi q)
    generalize hC : (step (ideal (solverN u (solverHalo a.o) a) (gFacN p.o p.st.G) u.coeff u.relax (advN u p a.nIters)) (filt q) (first q) (more q) (run (ideal (solverN u (solverHalo a.o) a) (gFacN p.o p.st.G) u.coeff u.relax (advN u p a.nIters)) dt0 filt first more (start psi0) q)).GC = C at g1 g2
    have hC' : (run (ideal (solverN u (solverHalo a.o) a) (gFacN p.o p.st.G) u.coeff u.relax (advN u p a.nIters)) dt0 filt first more (start psi0) (q + 1)).GC = C := hC
    rw [hC']
    refine (passesN_nonneg_geom (p := parN p u.vc.div3 _ _) hF (hcy.ho ▸ hb.iga) (hcy.ho ▸ hb.nug) (hcy.heps ▸ hep) w hw0 hw (a.nIters - 1) C (fun d y => ?_)
      (fun u hu psi old U => hv u hu _ psi old U) psi hpsi _ ?_).1
    · refine forall_of_period hP (perTN.1 (g1 d)) (Q := fun v => |v| ≤ w / 2 ^ (a.nIters - 1)) (fun y hy => ?_) y
      have hm := mem_period.1 hy
      have hbx := hcy.hbox
      rw [show C d y = (run (solverN u (solverHalo a.o) a) dt0 filt first more s (q + 1)).GC d y from (g2 d y (fun e' => ?_)).symm]
      · exact hc q hq d y (inGrid_of_period hy)
      · have := hm e'
        rw [hbx e']
        by_cases h1 : e' = d
        · subst h1; simp; omega
        · simp [h1]; omega
    · split <;> omega
  · refine forall_of_period hP (h0 e) (Q := fun v => 0 ≤ v) (fun y hy => ?_)
    rw [← hs.psi e he y (decide_eq_true ((cellBox_iff hcy _).2 (inGrid_of_period hy)))]
    exact hp y (inGrid_of_period hy)

/-- C61, 2-D: sign without the flux limiter (partial: no infinite gauge, no divergence form, G = 1): an unforced equation that is non-negative at the beginning stays non-negative as long
as in no step the modulus of the advectors computed by the program exceeds `1/4 / 2^(passes - 1)`. -/
theorem C61_nonneg_nofct_2d_partial (u : User K (Idx 2) 2) (a : CfgN 2 K) (p : SpecN.Par 2 K) (P : Fin 2 → Nat) (h : Prog2 u a p P) (si : SptlIntrp) (te : TmprlExtrp) (tiny : K)
    (ht : 0 ≤ tiny) (hform : p.F = formulae2 p.o si te tiny) (hep : 0 ≤ a.eps) (hb : BasicOptsN a.o) (hn : 1 ≤ a.nIters)
    (psi0 : Nat → Idx 2 → K) (h0 : ∀ e, PeriodicN P (psi0 e)) (s : St K (Idx 2) 2 (MemN 2 K)) (hs : Begin (solverN u (solverHalo a.o) a) psi0 s)
    (dt0 : K) (filt : Nat → Bool) (first : Nat → K) (more : Nat → List K) (e : Nat) (he : e < u.nEqns) (hu : Unforced u e) (t : Nat)
    (hc : ∀ q, q < t → ∀ d x, InGrid P x → |(run (solverN u (solverHalo a.o) a) dt0 filt first more s (q + 1)).GC d x| ≤ 1 / 4 / 2 ^ (a.nIters - 1))
    (hp : ∀ x, InGrid P x → 0 ≤ s.psi e x) (x : Idx 2) (hx : InGrid P x) :
    0 ≤ (run (solverN u (solverHalo a.o) a) dt0 filt first more s t).psi e x := by
  refine nonnegN_geom h h.solver.setup h.solver.good hep hb hn (1 / 4) (by norm_num) (by norm_num) ?_ h0 hs dt0 filt first more e he hu t hc hp hx
  intro u hu st psi old U hpsi hU d x
  have hu0 : 0 ≤ u := (abs_nonneg _).trans (hU d x)
  rw [hform]
  refine (antidiff2_bound p.o (h.solver.setup.ho ▸ hb) si te tiny ht _ _ _ _ _ _ _ _ ?_ u (by linarith) ?_ ?_ 0 0).trans ?_
  · exact fun _ _ => hpsi _
  · exact fun _ _ => hU _ _
  · exact fun _ _ => hU _ _
  · unfold velBound2
    have := mul_le_mul_of_nonneg_left hu hu0
    have := mul_self_nonneg u
    split_ifs <;> nlinarith

/-- C61, 3-D: sign without the flux limiter, with advectors of modulus at most `1/6 / 2^(passes - 1)`. -/
theorem C61_nonneg_nofct_3d_partial (u : User K (Idx 3) 3) (a : CfgN 3 K) (p : SpecN.Par 3 K) (P : Fin 3 → Nat) (h : Prog3 u a p P) (si : SptlIntrp) (te : TmprlExtrp) (tiny : K)
    (ht : 0 ≤ tiny) (hform : p.F = formulae3 p.o si te tiny) (hep : 0 ≤ a.eps) (hb : BasicOptsN a.o) (hn : 1 ≤ a.nIters)
    (psi0 : Nat → Idx 3 → K) (h0 : ∀ e, PeriodicN P (psi0 e)) (s : St K (Idx 3) 3 (MemN 3 K)) (hs : Begin (solverN u (solverHalo a.o) a) psi0 s)
    (dt0 : K) (filt : Nat → Bool) (first : Nat → K) (more : Nat → List K) (e : Nat) (he : e < u.nEqns) (hu : Unforced u e) (t : Nat)
    (hc : ∀ q, q < t → ∀ d x, InGrid P x → |(run (solverN u (solverHalo a.o) a) dt0 filt first more s (q + 1)).GC d x| ≤ 1 / 6 / 2 ^ (a.nIters - 1))
    (hp : ∀ x, InGrid P x → 0 ≤ s.psi e x) (x : Idx 3) (hx : InGrid P x) :
    0 ≤ (run (solverN u (solverHalo a.o) a) dt0 filt first more s t).psi e x := by
  refine nonnegN_geom h h.solver.setup h.solver.good hep hb hn (1 / 6) (by norm_num) (by norm_num) ?_ h0 hs dt0 filt first more e he hu t hc hp hx
  intro u hu st psi old U hpsi hU d x
  have hu0 : 0 ≤ u := (abs_nonneg _).trans (hU d x)
  rw [hform]
  refine (antidiff3_bound p.o (h.solver.setup.ho ▸ hb) si te tiny ht _ _ _ _ _ _ _ _ _ _ ?_ u (by linarith) ?_ ?_ ?_ 0 0 0).trans ?_
  · exact fun _ _ _ => hpsi _
  · exact fun _ _ _ => hU _ _
  · exact fun _ _ _ => hU _ _
  · exact fun _ _ _ => hU _ _
  · unfold velBound3
    have := mul_le_mul_of_nonneg_left hu hu0
    have := mul_self_nonneg u
    split_ifs <;> nlinarith

/-- the hypotheses on the solver hold for three passes with `tot` and `dfl` and an implicit absorber; the fourth equation is unforced up to the absorber acting on the momenta -/
example : Prog3 derU3 (demo3 (oTot ||| oDfl) 3)
    ⟨oTot ||| oDfl, 1/1000, formulae3 (oTot ||| oDfl) .exact .noextrp (1/1000), ⟨fun _ => 1, fun _ _ => 0, fun _ _ => 0⟩⟩ (fun _ => 4) ∧ BasicOptsN (oTot ||| oDfl) :=
  ⟨⟨⟨⟨rfl, rfl, rfl, fun _ => rfl, fun d => by decide, by decide, rfl, fun _ => rfl, fun _ => rfl, fun _ _ => rfl, fun _ _ _ => rfl, fun _ _ _ => rfl, fun _ _ => rfl,
    fun _ _ _ => rfl, fun _ _ _ => rfl⟩, ⟨_, _, _, rfl⟩⟩, by decide, by unfold HaloCovered; decide,
    ⟨fun d => by simp only [derU3]; omega, fun e he => by simp only [derU3, Option.some.injEq] at he ⊢; omega⟩, fun _ _ => rfl, fun _ _ _ => rfl, forceOk_id rfl⟩,
    ⟨⟨by decide, by decide, by decide, by decide⟩, by decide⟩⟩

end Mpdata.VP
