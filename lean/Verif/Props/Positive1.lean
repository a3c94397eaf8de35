import Verif.Props.Fct1
import Mathlib.Tactic.LinearCombination
/-! # C13: positive definiteness of 1-D MPDATA (G = 1) -/
set_option linter.unusedSectionVars false
namespace Mpdata
variable {K : Type} [Field K] [LinearOrder K] [IsStrictOrderedRing K]
open Spec1

theorem frac_abs_le_one (o : OptsT) (tiny nom den : K) (ht : 0 ≤ tiny) (h : |nom| ≤ den) : |frac o tiny nom den| ≤ 1 := by
  have hd : 0 ≤ den := (abs_nonneg _).trans h
  have key : ∀ d : K, den ≤ d → |nom / d| ≤ 1 := by
    intro d hdd
    have h0 : 0 ≤ d := hd.trans hdd
    rw [abs_div, abs_of_nonneg h0]
    exact div_le_one_of_le₀ (h.trans hdd) h0
  unfold frac
  split
  · split
    · exact key _ le_rfl
    · simp
  · exact key _ (by linarith)

theorem ndxPsi_bound (o : OptsT) (tiny : K) (ht : 0 ≤ tiny) (higa : isset o oIga = false) (psi : Int → K)
    (hp : ∀ i, 0 ≤ psi i) (i : Int) : |ndxPsi1 o tiny psi i| ≤ 2 := by
  have h1 := hp i
  have h2 := hp (i + 1)
  have hb : |psi (i + 1) - psi i| ≤ psi (i + 1) + psi i := by rw [abs_le]; constructor <;> linarith
  unfold ndxPsi1
  simp only [higa, Bool.false_eq_true, if_false, abs_of_nonneg (hp _), ite_self]
  have := frac_abs_le_one o tiny _ _ ht hb
  rw [abs_mul, abs_two]; linarith

theorem ndxxPsi_bound (o : OptsT) (tiny : K) (ht : 0 ≤ tiny) (higa : isset o oIga = false) (psi : Int → K)
    (hp : ∀ i, 0 ≤ psi i) (i : Int) : |ndxxPsi1 o tiny psi i| ≤ 2 := by
  have h1 := hp i
  have h2 := hp (i + 1)
  have h3 := hp (i + 2)
  have h4 := hp (i - 1)
  have hb : |psi (i + 2) - psi (i + 1) - psi i + psi (i - 1)| ≤ psi (i + 2) + psi (i + 1) + psi i + psi (i - 1) := by
    rw [abs_le]; constructor <;> linarith
  unfold ndxxPsi1
  simp only [higa, Bool.false_eq_true, if_false, abs_of_nonneg (hp _), ite_self]
  have := frac_abs_le_one o tiny _ _ ht hb
  rw [abs_mul, abs_two]; linarith

theorem coeff_bound (C : K) (h : |C| ≤ 1) : |(3 * C * |C| / 1 - 2 * C ^ 3 / 1 ^ 2 - C) / 6| ≤ |C| * (1 - |C|) / 6 := by
  have hc2 : C ^ 2 = |C| ^ 2 := (sq_abs C).symm
  have e : (3 * C * |C| / 1 - 2 * C ^ 3 / 1 ^ 2 - C) = C * (-(1 - |C|) * (1 - 2 * |C|)) := by
    have : C ^ 3 = C * |C| ^ 2 := by rw [← hc2]; ring
    rw [this]; ring
  rw [e, abs_div, abs_mul, abs_mul, abs_neg, abs_of_nonneg (sub_nonneg.2 h)]
  have h0 := abs_nonneg C
  have : abs (1 - 2 * |C|) ≤ 1 := by rw [abs_le]; constructor <;> linarith
  rw [abs_of_pos (by norm_num : (0 : K) < 6)]
  apply div_le_div_of_nonneg_right _ (by norm_num)
  have := mul_le_mul_of_nonneg_left this (mul_nonneg h0 (sub_nonneg.2 h))
  nlinarith

/-- options for which the bound below holds: no infinite gauge, G = 1, not in divergence form -/
structure BasicOpts (o : OptsT) : Prop where
  iga : isset o oIga = false
  nug : isset o oNug = false
  div2 : isset o oDiv2 = false
  div3 : isset o oDiv3 = false

theorem velocity_bound (p : Par K) (hb : BasicOpts p.o) (ht : 0 ≤ p.tiny) (psi U : Int → K) (hp : ∀ i, 0 ≤ psi i) (i : Int)
    (hU : |U i| ≤ 1) :
    |velocity p psi U i| ≤ 4 / 3 * (|U i| * (1 - |U i|)) + (if isset p.o oDfl then |U i| * |U (i + 1) - U (i - 1)| / 4 else 0) := by
  have b1 := ndxPsi_bound p.o p.tiny ht hb.iga psi hp i
  have b2 := ndxxPsi_bound p.o p.tiny ht hb.iga psi hp i
  have h0 := abs_nonneg (U i)
  have h1 := sub_nonneg.2 hU
  have h01 := mul_nonneg h0 h1
  have hg : gBarX1 p.o p.G i = 1 := by unfold gBarX1; simp [hb.nug]
  have t1 : |(|U i| / 2 * (1 - |U i| / 1) * ndxPsi1 p.o p.tiny psi i)| ≤ |U i| * (1 - |U i|) := by
    rw [abs_mul, div_one, abs_of_nonneg (mul_nonneg (by linarith : (0:K) ≤ |U i| / 2) h1)]
    have := mul_le_mul_of_nonneg_left b1 (mul_nonneg (by linarith : (0:K) ≤ |U i| / 2) h1)
    linarith
  have t2 : |tot1 p.o p.tiny psi U p.G i| ≤ |U i| * (1 - |U i|) / 3 := by
    unfold tot1
    split
    · unfold ndxxPsiCoeff1
      rw [hg, abs_mul]
      have c := coeff_bound (U i) hU
      calc _ ≤ 2 * (|U i| * (1 - |U i|) / 6) := mul_le_mul b2 c (abs_nonneg _) (by norm_num)
        _ = _ := by ring
    · rw [abs_zero]; linarith
  have t3 : |dfl1 p.o psi U p.G i| ≤ (if isset p.o oDfl then |U i| * |U (i + 1) - U (i - 1)| / 4 else 0) := by
    unfold dfl1
    split
    · simp only [hb.iga, Bool.false_eq_true, if_false, gFac1, hb.nug]
      have : -(1 / 2) * U i / (1 + 1) * (U (i + 1) - U (i - 1)) = -(U i * (U (i + 1) - U (i - 1)) / 4) := by ring
      rw [this, abs_neg, abs_div, abs_mul, abs_of_pos (by norm_num : (0 : K) < 4)]
    · simp
  unfold velocity antidiff1
  simp only [hb.div2, hb.div3, Bool.or_self, Bool.false_eq_true, if_false, hg]
  have a1 := abs_add_le (|U i| / 2 * (1 - |U i| / 1) * ndxPsi1 p.o p.tiny psi i + tot1 p.o p.tiny psi U p.G i) (dfl1 p.o psi U p.G i)
  have a2 := abs_add_le (|U i| / 2 * (1 - |U i| / 1) * ndxPsi1 p.o p.tiny psi i) (tot1 p.o p.tiny psi U p.G i)
  linarith

theorem quarter (c : K) : c * (1 - c) ≤ 1 / 4 := by nlinarith [sq_nonneg (c - 1 / 2)]

/-- a donor pass with face velocities of modulus at most 1/2 keeps a non-negative field non-negative -/
theorem donor_half_nonneg (o : OptsT) (hnug : isset o oNug = false) (psi C G : Int → K) (hC : ∀ i, |C i| ≤ 1 / 2)
    (hp : ∀ i, 0 ≤ psi i) (i : Int) : 0 ≤ donorStep1 o psi (makeFlux1 o psi C) G i := by
  apply C09_sign_1d
  · simp [gFac1, hnug]
  · have e : gFac1 o G i = 1 := by simp [gFac1, hnug]
    rw [e]
    unfold outflow
    have h1 := pos_sub_neg o (C i)
    have h2 := pos_sub_neg o (C (i - 1))
    have := negpart_nonpos o (C i)
    have := pospart_nonneg o (C (i - 1))
    have := hC i
    have := hC (i - 1)
    linarith
  · exact hp _
  · exact hp _
  · exact hp _

theorem passes_nonneg (p : Par K) (hb : BasicOpts p.o) (ht : 0 ≤ p.tiny) (he : 0 ≤ p.eps) (GC psi0 : Int → K)
    (hout : ∀ i, outflow p.o (GC (i - 1)) (GC i) ≤ 1) (h1 : ∀ i, |GC i| ≤ 1)
    (hd : isset p.o oDfl = true → ∀ i, |GC i| ≤ 1 / 2) (hp : ∀ i, 0 ≤ psi0 i) (k : Nat) :
    (∀ i, 0 ≤ (passes p psi0 GC k).1 i) ∧ (∀ i, |(passes p psi0 GC k).2 i| ≤ 1) ∧
    (isset p.o oDfl = true → ∀ i, |(passes p psi0 GC k).2 i| ≤ 1 / 2) := by
  have hg : ∀ i, gFac1 p.o p.G i = 1 := by intro i; simp [gFac1, hb.nug]
  induction k with
  | zero =>
    refine ⟨fun i => ?_, h1, hd⟩
    exact C09_sign_1d p.o psi0 GC p.G i (by rw [hg]; norm_num) (by rw [hg]; exact hout i) (hp _) (hp _) (hp _)
  | succ k ih =>
    obtain ⟨i1, i2, i3⟩ := ih
    have hA : ∀ i, |velocity p (passes p psi0 GC k).1 (passes p psi0 GC k).2 i| ≤ 1 / 2 := by
      intro i
      have hv := velocity_bound p hb ht _ _ i1 i (i2 i)
      have hq := quarter |(passes p psi0 GC k).2 i|
      cases hdf : isset p.o oDfl
      · simp only [hdf, Bool.false_eq_true, if_false] at hv; linarith
      · simp only [hdf, if_true] at hv
        have a := i3 hdf i
        have b : |(passes p psi0 GC k).2 (i + 1) - (passes p psi0 GC k).2 (i - 1)| ≤ 1 := by
          have := i3 hdf (i + 1)
          have := i3 hdf (i - 1)
          have := abs_sub ((passes p psi0 GC k).2 (i + 1)) ((passes p psi0 GC k).2 (i - 1))
          linarith
        have := mul_le_mul a b (abs_nonneg _) (by norm_num : (0 : K) ≤ 1 / 2)
        linarith
    refine ⟨?_, fun i => (hA i).trans (by norm_num), fun _ => hA⟩
    intro i
    show 0 ≤ corrective p psi0 _ _ i
    unfold corrective
    simp only [hb.iga, Bool.false_eq_true, if_false]
    apply donor_half_nonneg p.o hb.nug _ _ _ _ i1
    intro j
    split
    · exact (C16_limiter_weakens_1d p (fun i => by rw [hg]; norm_num) he _ _ _ j).1.trans (hA j)
    · exact hA j

/-- C13, 1-D, about the program: without infinite gauge and with G = 1, on a cyclic domain with outflow Courant number
at most 1 in every cell (at most 1/2 in every face with the divergent-flow option), a non-negative field stays non-negative for
any number of passes and time steps, with or without tot, fct, abs, pfc, npa, khn, and whatever the temporaries contain.
`tiny > 0` unless the pfc option is used: otherwise the C++ divides 0 by 0. -/
theorem C13_positive_definite_1d (c : Cfg1 K) (p : Par K) (N : Nat) (h : CyclicSetup c p N)
    (hn : 1 ≤ c.nIters) (hb : BasicOpts c.o) (ht : 0 < c.tiny) (he : 0 < c.eps) (filt : Nat → Bool) (m : Mem1 K)
    (hper : m.psi c.ijk.last = m.psi c.ijk.first)
    (hpos : ∀ i, c.ijk.first ≤ i → i ≤ c.ijk.last → 0 ≤ m.psi i)
    (hin : ∀ i, c.ijk.first < i → i < c.ijk.last → outflow c.o (m.GC (i - 1)) (m.GC i) ≤ 1)
    (hedge : outflow c.o (m.GC (c.ijk.last - 1)) (m.GC c.ijk.first) ≤ 1)
    (hd : isset c.o oDfl = true → ∀ i, c.ijk.first ≤ i → i < c.ijk.last → |m.GC i| ≤ 1 / 2) (hN : 0 < N) (t : Nat) :
    ∀ i, c.ijk.first ≤ i → i ≤ c.ijk.last → 0 ≤ (runProg1 c filt t { m with GC := c.fillV false m.GC }).psi i := by
  have hl : c.ijk.last = c.ijk.first + N := by have := h.hN; omega
  have ho := h.ho
  have hN' : (0 : Int) < N := by exact_mod_cast hN
  have hr := cyc_run h hn (.inr (.inr ⟨hb.div2, hb.div3⟩)) filt (perExt_periodic c.ijk.first N m.psi)
    (perExt_periodic c.ijk.first N m.GC) m
    (by rw [hl]; exact perExt_agree' _ _ _ (by rw [← hl]; exact hper)) (by rw [hl]; exact perExt_agree _ _ _) t
  have hout : ∀ i, outflow p.o (perExt c.ijk.first N m.GC (i - 1)) (perExt c.ijk.first N m.GC i) ≤ 1 := by
    intro i
    have a := Int.emod_nonneg (i - c.ijk.first) hN'.ne'
    have b := Int.emod_lt_of_pos (i - c.ijk.first) hN'
    unfold perExt
    rw [← ho]
    by_cases h0 : (i - c.ijk.first) % (N : Int) = 0
    · have : (i - 1 - c.ijk.first) % (N : Int) = N - 1 := by
        have e : i - 1 - c.ijk.first = (N - 1) + N * ((i - c.ijk.first) / N - 1) := by
          have := Int.emod_add_mul_ediv (i - c.ijk.first) N
          rw [h0] at this
          linear_combination -this
        rw [e, Int.add_mul_emod_self_left, Int.emod_eq_of_lt (by omega) (by omega)]
      rw [h0, this, add_zero, show c.ijk.first + ((N : Int) - 1) = c.ijk.last - 1 by omega]
      exact hedge
    · have : (i - 1 - c.ijk.first) % (N : Int) = (i - c.ijk.first) % N - 1 := by
        have e : i - 1 - c.ijk.first = ((i - c.ijk.first) % N - 1) + N * ((i - c.ijk.first) / N) := by
          have := Int.emod_add_mul_ediv (i - c.ijk.first) N
          linear_combination -this
        rw [e, Int.add_mul_emod_self_left, Int.emod_eq_of_lt (by omega) (by omega)]
      rw [this, show c.ijk.first + ((i - c.ijk.first) % (N : Int) - 1) = c.ijk.first + (i - c.ijk.first) % (N : Int) - 1 by ring]
      exact hin _ (by omega) (by omega)
  have h1 : ∀ i, |perExt c.ijk.first N m.GC i| ≤ 1 := by
    intro i
    have a := hout i
    have b := hout (i + 1)
    rw [add_sub_cancel_right] at b
    unfold outflow at a b
    have s := pos_add_neg p.o (perExt c.ijk.first N m.GC i)
    have := pospart_nonneg p.o (perExt c.ijk.first N m.GC i)
    have := pospart_nonneg p.o (perExt c.ijk.first N m.GC (i + 1))
    have := negpart_nonpos p.o (perExt c.ijk.first N m.GC i)
    have := negpart_nonpos p.o (perExt c.ijk.first N m.GC (i - 1))
    rw [abs_le]; constructor <;> linarith
  have hdd : isset p.o oDfl = true → ∀ i, |perExt c.ijk.first N m.GC i| ≤ 1 / 2 := by
    intro hh i
    have a := Int.emod_nonneg (i - c.ijk.first) hN'.ne'
    have b := Int.emod_lt_of_pos (i - c.ijk.first) hN'
    exact hd (by rw [ho]; exact hh) _ (by omega) (by omega)
  have hrun : ∀ t i, 0 ≤ Spec1.run p c.nIters filt (perExt c.ijk.first N m.GC) t (perExt c.ijk.first N m.psi) i := by
    intro t
    induction t with
    | zero =>
      intro i
      have a := Int.emod_nonneg (i - c.ijk.first) hN'.ne'
      have b := Int.emod_lt_of_pos (i - c.ijk.first) hN'
      exact hpos _ (by omega) (by omega)
    | succ t ih =>
      exact (passes_nonneg p (by rw [← ho]; exact hb) (by rw [← h.htiny]; exact ht.le) (by rw [← h.heps]; exact he.le)
        _ _ hout h1 hdd ih _).1
  intro i a b
  rw [hr i a b]
  exact hrun t i

/-- hypotheses met by a three-pass third-order solver with a non-uniform advector of modulus up to 1 -/
example : BasicOpts oTot ∧
    let GC : Int → ℚ := fun i => if i % 4 = 0 then 3/4 else if i % 4 = 1 then 1 else if i % 4 = 2 then 1/2 else -1/4
    (∀ i, 0 < i → i < 4 → outflow oTot (GC (i - 1)) (GC i) ≤ 1) ∧ outflow oTot (GC 3) (GC 0) ≤ 1 := by
  refine ⟨⟨by decide, by decide, by decide, by decide⟩, fun i h1 h2 => ?_, ?_⟩
  · have : i = 1 ∨ i = 2 ∨ i = 3 := by omega
    rcases this with h | h | h <;> subst h <;> decide +kernel
  · decide +kernel

theorem fct_passes_nonneg (p : Par K) (hf : isset p.o oFct = true) (hg : ∀ i, 0 < gFac1 p.o p.G i) (he : 0 ≤ p.eps) (GC psi0 : Int → K)
    (hout : ∀ i, outflow p.o (GC (i - 1)) (GC i) ≤ gFac1 p.o p.G i) (hp : ∀ i, 0 ≤ psi0 i) (k : Nat) : ∀ i, 0 ≤ (passes p psi0 GC k).1 i := by
  induction k with
  | zero => exact fun i => C09_sign_1d p.o psi0 GC p.G i (hg i) (hout i) (hp _) (hp _) (hp _)
  | succ k ih =>
    intro i
    have h3 : ∀ a : Int → K, (∀ j, 0 ≤ a j) → 0 ≤ min3 a i := fun a ha => by unfold min3; exact le_min (le_min (ha _) (ha _)) (ha _)
    exact (le_min (h3 _ hp) (h3 _ ih)).trans (C14_fct_local_bounds_1d p hf hg he psi0 (passes p psi0 GC k).1 _ i (fun j _ _ => .inr (.inr (ih j)))).1

/-- C13 with fct, 1-D, about the program: with the flux limiter a non-negative field stays non-negative for every other option (infinite gauge and the divergence
forms included), any positive G, number of passes and steps, as long as the outflow from any cell does not exceed G in the first pass. `GC` is periodic, the memory
holds one period of it. -/
theorem C13_fct_positive_1d (c : Cfg1 K) (p : Par K) (N : Nat) (h : CyclicSetup c p N) (hn : 1 ≤ c.nIters) (hf : isset c.o oFct = true)
    (hg : ∀ i, 0 < gFac1 p.o p.G i) (he : 0 ≤ c.eps) (filt : Nat → Bool) (psi0 GC : Int → K) (h0 : Periodic N psi0) (hp : Periodic N GC)
    (hc : ∀ i, max 0 (GC i) - min 0 (GC (i - 1)) ≤ gFac1 p.o p.G i) (m : Mem1 K)
    (hpsi : ∀ i, c.ijk.first ≤ i → i ≤ c.ijk.last → m.psi i = psi0 i) (hGC : ∀ i, c.ijk.first ≤ i → i ≤ c.ijk.last - 1 → m.GC i = GC i)
    (hpos : ∀ i, 0 ≤ psi0 i) (t : Nat) :
    ∀ i, c.ijk.first ≤ i → i ≤ c.ijk.last → 0 ≤ (runProg1 c filt t { m with GC := c.fillV false m.GC }).psi i := by
  intro i h1 h2
  rw [cyc_run h hn (.inr (.inl hf)) filt h0 hp m hpsi hGC t i h1 h2]
  have : ∀ t i, 0 ≤ Spec1.run p c.nIters filt GC t psi0 i := by
    intro t
    induction t with
    | zero => exact hpos
    | succ t ih =>
      refine fct_passes_nonneg p (h.ho ▸ hf) hg (h.heps ▸ he) GC _ (fun i => ?_) ih _
      have := hc i
      unfold outflow
      rwa [pospart_eq, negpart_eq]
  exact this t i

/-- with the infinite-gauge option positivity is lost: the restriction is needed -/
theorem C13_iga_not_positive :
    let m : Mem1 ℚ := { demoMem 7 with psi := fun i => if i % 4 = 0 then 5 else 0, GC := fun _ => 1/4 }
    (advance1 (demo1 oIga 2) m).psi 3 < 0 := by
  decide +kernel

end Mpdata
