import Verif.Model.Solver
import Verif.Lemmas.Opts
/-! Lemmas on time levels and the solve loop. -/
namespace Mpdata

theorem slot_eq (i : Int) : (slot i : Int) = i % 2 := by
  unfold slot arrvecIdx nTlev
  have h2 := Int.emod_nonneg (i + (2:Nat)) (show (2:Int)^64 ≠ 0 by norm_num)
  rw [Int.natCast_mod, Int.toNat_of_nonneg h2, Int.emod_emod_of_dvd _ (by norm_num)]
  simp

theorem slot_eq_iff (i j : Int) : slot i = slot j ↔ i % 2 = j % 2 := by
  rw [← slot_eq, ← slot_eq]; exact Int.ofNat_inj.symm

theorem slot_succ_ne (i : Int) : slot (i + 1) ≠ slot i := by
  rw [Ne, slot_eq_iff]; omega

theorem slot_pred (i : Int) : slot (i - 1) = slot (i + 1) := by
  rw [slot_eq_iff]; omega

theorem cycN_parity (n : Int) : cycN n % 2 = (n + 1) % 2 := by
  unfold cycN nTlev
  have := Int.tmod_add_mul_tdiv (n+1) 2
  push_cast
  omega

theorem slot_cycN (n : Int) : slot (cycN n) = slot (n + 1) := by
  rw [slot_eq_iff]; exact cycN_parity n

theorem slot_cyc_succ (n : Int) : slot (cycN n + 1) = slot n := by
  rw [slot_eq_iff]; have := cycN_parity n; omega

theorem slot_cyc_pred (n : Int) : slot (cycN n - 1) = slot n := by
  rw [slot_eq_iff]; have := cycN_parity n; omega

/-! ### specification of the advection of one field (used by the property file) -/

/-- corrective passes: `k` left, next is number `iter` -/
def specIters {X} (c : Cfg X) (ts e : Nat) : (k iter : Nat) → (cur prev : X) → X
  | 0, _, cur, _ => cur
  | k + 1, iter, cur, prev =>
    specIters c ts e k (iter + 1) (c.pass ts e iter (c.xchng cur) prev) (c.xchng cur)

/-- number of passes in step `ts` -/
def nPasses {X} (c : Cfg X) (ts : Nat) : Nat := if filterStep c ts then 1 else c.nIters

theorem advIters_spec {X} (c : Cfg X) (e : Nat) (k iter : Nat) (hi : iter ≠ 0) (s : St X)
    (hf : filterStep c s.timestep = false) :
    let s' := advIters c e k iter s
    s'.timestep = s.timestep ∧
    s'.psi e (slot (s'.n e + 1)) = specIters c s.timestep e k iter (s.psi e (slot (s.n e + 1))) (s.state e) ∧
    (∀ e', e' ≠ e → (∀ m, s'.psi e' m = s.psi e' m) ∧ s'.n e' = s.n e') ∧
    s'.n e % 2 = (s.n e + k) % 2 ∧
    s'.memN % 2 = (if isLastEqn c e then s.memN + k else s.memN) % 2 := by
  induction k generalizing iter s with
  | zero => simp [advIters, specIters]
  | succ k ih =>
    simp only [advIters, hi, ne_eq, not_false_eq_true, if_true, if_false, specIters]
    generalize hs1 : (cycle c e s) = s1
    have h1n : s1.n e = cycN (s.n e) := by rw [← hs1]; simp [cycle]
    have h1p : s1.psi = s.psi := by rw [← hs1]; rfl
    have h1t : s1.timestep = s.timestep := by rw [← hs1]; rfl
    have hts : ((s1.write e (s1.n e) (c.xchng (s1.state e))).write e
        ((s1.write e (s1.n e) (c.xchng (s1.state e))).n e + 1)
        (c.pass (s1.write e (s1.n e) (c.xchng (s1.state e))).timestep e iter
          ((s1.write e (s1.n e) (c.xchng (s1.state e))).state e)
          ((s1.write e (s1.n e) (c.xchng (s1.state e))).psi e
            (slot ((s1.write e (s1.n e) (c.xchng (s1.state e))).n e - 1))))).timestep = s.timestep := by
      simp [St.write, h1t]
    rw [hts, hf]
    simp only [Bool.false_eq_true, if_false]
    generalize hs2 : ((s1.write e (s1.n e) (c.xchng (s1.state e))).write e _ _) = s2
    have h2t : s2.timestep = s.timestep := by rw [← hs2]; exact hts
    have hst1 : s1.state e = s.psi e (slot (s.n e + 1)) := by
      simp [St.state, h1p, h1n, slot_cycN]
    have hpassarg : (s1.write e (s1.n e) (c.xchng (s1.state e))).state e = c.xchng (s.psi e (slot (s.n e + 1))) := by
      simp [St.state, St.write, ← hst1]
    have hprev : (s1.write e (s1.n e) (c.xchng (s1.state e))).psi e
        (slot ((s1.write e (s1.n e) (c.xchng (s1.state e))).n e - 1)) = s.state e := by
      have : slot (cycN (s.n e) - 1) ≠ slot (cycN (s.n e)) := by
        rw [slot_pred]; exact slot_succ_ne _
      simp [St.write, St.state, h1p, h1n, this]
      rw [slot_cyc_pred]
    have h2n : s2.n = s1.n := by rw [← hs2]; rfl
    have h2m : s2.memN = s1.memN := by rw [← hs2]; rfl
    have h2new : s2.psi e (slot (s2.n e + 1)) = c.pass s.timestep e iter
        (c.xchng (s.psi e (slot (s.n e + 1)))) (s.state e) := by
      rw [h2n, ← hs2, hpassarg, hprev]
      simp [St.write, h1t]
    have h2cur : s2.state e = c.xchng (s.psi e (slot (s.n e + 1))) := by
      have hne : slot (s1.n e) ≠ slot (s1.n e + 1) := fun h => slot_succ_ne _ h.symm
      rw [← hs2]
      simp only [St.state, St.write]
      simp [hne, ← hst1, St.state]
    have h2o : ∀ e', e' ≠ e → (∀ m, s2.psi e' m = s.psi e' m) ∧ s2.n e' = s.n e' := by
      intro e' he
      refine ⟨fun m => ?_, ?_⟩
      · rw [← hs2]; simp [St.write, he, h1p]
      · rw [h2n, ← hs1]; simp [cycle, he]
    have := ih (iter + 1) (by omega) s2 (by rw [h2t]; exact hf)
    obtain ⟨a1, a2, a3, a4, a5⟩ := this
    refine ⟨by rw [a1, h2t], ?_, ?_, ?_, ?_⟩
    · rw [a2, h2t, h2new, h2cur]
    · intro e' he
      obtain ⟨b1, b2⟩ := a3 e' he
      obtain ⟨c1, c2⟩ := h2o e' he
      exact ⟨fun m => by rw [b1, c1], by rw [b2, c2]⟩
    · rw [a4, h2n, h1n]; have := cycN_parity (s.n e); push_cast; omega
    · rw [a5, h2m, ← hs1]
      simp only [cycle]
      have := cycN_parity s.memN
      split <;> (push_cast; omega)

theorem solveLoopBody_spec {X} (c : Cfg X) (e : Nat) (s : St X) (hit : 1 ≤ c.nIters) :
    let s' := solveLoopBody c e s
    let x0 := c.xchng (c.scale (c.hintScale e) (s.state e))
    let m := nPasses c s.timestep
    s'.timestep = s.timestep ∧
    s'.state e = c.scale (-(c.hintScale e))
      (specIters c s.timestep e (m - 1) 1 (c.pass0 s.timestep e x0) x0) ∧
    (∀ e', e' ≠ e → (∀ k, s'.psi e' k = s.psi e' k) ∧ s'.n e' = s.n e') ∧
    s'.n e % 2 = (s.n e + m) % 2 ∧
    s'.memN % 2 = (if isLastEqn c e then s.memN + m else s.memN) % 2 := by
  intro s' x0 m
  obtain ⟨k, hk⟩ : ∃ k, c.nIters = k + 1 := ⟨c.nIters - 1, by omega⟩
  generalize hs1 : (s.write e (s.n e) (c.scale (c.hintScale e) (s.state e))) = s1
  generalize hs2 : s1.write e (s1.n e) (c.xchng (s1.state e)) = s2
  have h1s : s1.state e = c.scale (c.hintScale e) (s.state e) := by rw [← hs1]; simp [St.state, St.write]
  have h2s : s2.state e = x0 := by
    have : (s1.write e (s1.n e) (c.xchng (s1.state e))).state e = c.xchng (s1.state e) := by
      simp [St.state, St.write]
    rw [← hs2, this, h1s]
  have h2n : s2.n = s.n := by rw [← hs2, ← hs1]; rfl
  have h2m : s2.memN = s.memN := by rw [← hs2, ← hs1]; rfl
  have h2t : s2.timestep = s.timestep := by rw [← hs2, ← hs1]; rfl
  have h2o : ∀ e', e' ≠ e → ∀ k, s2.psi e' k = s.psi e' k := by
    intro e' he k; rw [← hs2, ← hs1]; simp [St.write, he]
  -- first pass
  generalize hs3 : s2.write e (s2.n e + 1) (c.pass0 s2.timestep e (s2.state e)) = s3
  have h3new : s3.psi e (slot (s3.n e + 1)) = c.pass0 s.timestep e x0 := by
    rw [← hs3]; simp [St.write, h2s, h2t]
  have h3s : s3.state e = x0 := by
    have hne : slot (s2.n e) ≠ slot (s2.n e + 1) := fun h => slot_succ_ne _ h.symm
    rw [← hs3]
    simp only [St.state, St.write]
    rw [if_neg (by simp [hne])]
    exact h2s
  have h3n : s3.n = s.n := by rw [← hs3, ← h2n]; rfl
  have h3m : s3.memN = s.memN := by rw [← hs3, ← h2m]; rfl
  have h3t : s3.timestep = s.timestep := by rw [← hs3, ← h2t]; rfl
  have h3o : ∀ e', e' ≠ e → ∀ k, s3.psi e' k = s.psi e' k := by
    intro e' he k; rw [← hs3]; simp [St.write, he]; exact h2o e' he k
  have hadv : advIters c e c.nIters 0 s2 =
      if filterStep c s.timestep then s3 else advIters c e k 1 s3 := by
    rw [hk]
    simp only [advIters, ne_eq, not_true_eq_false, if_false, if_true]
    rw [hs3, h3t]
  have hm : ∃ s4, advIters c e c.nIters 0 s2 = s4 ∧ s4.timestep = s.timestep ∧
      s4.psi e (slot (s4.n e + 1)) = specIters c s.timestep e (m - 1) 1 (c.pass0 s.timestep e x0) x0 ∧
      (∀ e', e' ≠ e → (∀ k, s4.psi e' k = s.psi e' k) ∧ s4.n e' = s.n e') ∧
      s4.n e % 2 = (s.n e + (m - 1 : Nat)) % 2 ∧
      s4.memN % 2 = (if isLastEqn c e then s.memN + (m - 1 : Nat) else s.memN) % 2 := by
    rw [hadv]
    cases hf : filterStep c s.timestep with
    | true =>
      have hm1 : m = 1 := by simp [m, nPasses, hf]
      refine ⟨s3, by simp, h3t, ?_, ?_, ?_, ?_⟩
      · rw [h3new, hm1]; rfl
      · intro e' he; exact ⟨h3o e' he, by rw [h3n]⟩
      · rw [h3n, hm1]; simp
      · rw [h3m, hm1]; simp
    | false =>
      have hm1 : m - 1 = k := by simp [m, nPasses, hf, hk]
      obtain ⟨a1, a2, a3, a4, a5⟩ := advIters_spec c e k 1 (by omega) s3 (by rw [h3t]; exact hf)
      refine ⟨advIters c e k 1 s3, by simp, by rw [a1, h3t], ?_, ?_, ?_, ?_⟩
      · rw [a2, h3t, h3new, h3s, hm1]
      · intro e' he
        obtain ⟨b1, b2⟩ := a3 e' he
        exact ⟨fun q => by rw [b1, h3o e' he], by rw [b2, h3n]⟩
      · rw [a4, h3n, hm1]
      · rw [a5, h3m, hm1]
  obtain ⟨s4, h4, h4t, h4new, h4o, h4n, h4m⟩ := hm
  have hs' : s' = (cycle c e s4).write e ((cycle c e s4).n e) (c.scale (-(c.hintScale e)) ((cycle c e s4).state e)) := by
    simp only [s', solveLoopBody]
    rw [hs1, hs2, h4]
  have hcyc : (cycle c e s4).n e = cycN (s4.n e) := by simp [cycle]
  have m1 : 1 ≤ m := by simp only [m, nPasses]; split <;> omega
  refine ⟨?_, ?_, ?_, ?_, ?_⟩
  · rw [hs']; simp [St.write, cycle, h4t]
  · rw [hs']
    have : (cycle c e s4).state e = s4.psi e (slot (s4.n e + 1)) := by
      simp only [St.state, hcyc, slot_cycN]; rfl
    rw [this, h4new]
    simp [St.state, St.write]
  · intro e' he
    obtain ⟨b1, b2⟩ := h4o e' he
    refine ⟨fun q => ?_, ?_⟩
    · rw [hs']; simp [St.write, he, cycle, b1]
    · rw [hs']; simp [St.write, cycle, he, b2]
  · rw [hs']
    have : ((cycle c e s4).write e ((cycle c e s4).n e)
      (c.scale (-(c.hintScale e)) ((cycle c e s4).state e))).n e = cycN (s4.n e) := by
      simp [St.write, cycle]
    rw [this]
    have := cycN_parity (s4.n e)
    omega
  · rw [hs']
    have : ((cycle c e s4).write e ((cycle c e s4).n e)
      (c.scale (-(c.hintScale e)) ((cycle c e s4).state e))).memN =
        if isLastEqn c e then cycN s4.memN else s4.memN := by
      simp [St.write, cycle]
    rw [this]
    have := cycN_parity s4.memN
    split <;> rename_i h <;> simp only [h, if_true, Bool.false_eq_true, if_false] at h4m ⊢ <;> omega

/-! ### the last equation -/

/-- the mask names only existing equations -/
def DelayedOk {X} (c : Cfg X) : Prop := ∀ k, isset c.delayed (bit k) = true → k < c.nEqns

theorem isLast_cases {X} (c : Cfg X) (hd : DelayedOk c) (hn : 1 ≤ c.nEqns) :
    ∃ e0, e0 < c.nEqns ∧ ∀ e, e < c.nEqns → (isLastEqn c e = true ↔ e = e0) := by
  by_cases h : c.delayed = 0
  · refine ⟨c.nEqns - 1, by omega, fun e he => ?_⟩
    simp [isLastEqn, mostSignificant, h]
    omega
  · have hm : mostSignificant c.delayed = Nat.log2 c.delayed + 1 := by simp [mostSignificant, h]
    have hlt : Nat.log2 c.delayed < c.nEqns := hd _ (by rw [isset_bit]; exact Nat.testBit_log2 h)
    refine ⟨Nat.log2 c.delayed, hlt, fun e he => ?_⟩
    simp [isLastEqn, hm]

end Mpdata

namespace Mpdata

/-- field-level effect of `solve_loop_body` (specification): scale, exchange, passes, unscale -/
def advect {X} (c : Cfg X) (ts e : Nat) (x : X) : X :=
  let x0 := c.xchng (c.scale (c.hintScale e) x)
  c.scale (-(c.hintScale e)) (specIters c ts e (nPasses c ts - 1) 1 (c.pass0 ts e x0) x0)

theorem fold_bodies {X} (c : Cfg X) (hit : 1 ≤ c.nIters) (es : List Nat) (hnd : es.Nodup) (s : St X) :
    let s' := (es.map Ev.body).foldl (doEvent c) s
    s'.timestep = s.timestep ∧
    (∀ e, s'.state e = if e ∈ es then advect c s.timestep e (s.state e) else s.state e) ∧
    (∀ e, s'.n e % 2 = (if e ∈ es then s.n e + nPasses c s.timestep else s.n e) % 2) ∧
    (∀ e, e ∉ es → s'.n e = s.n e ∧ ∀ k, s'.psi e k = s.psi e k) ∧
    ((∀ e ∈ es, isLastEqn c e = false) → s'.memN % 2 = s.memN % 2) ∧
    (∀ e0 ∈ es, (∀ e ∈ es, isLastEqn c e = true ↔ e = e0) →
      s'.memN % 2 = (s.memN + nPasses c s.timestep) % 2) := by
  induction es generalizing s with
  | nil => simp
  | cons a es ih =>
    simp only [List.map_cons, List.foldl_cons]
    obtain ⟨b1, b2, b3, b4, b5⟩ := solveLoopBody_spec c a s hit
    have hs1 : doEvent c s (.body a) = solveLoopBody c a s := rfl
    rw [hs1]
    generalize solveLoopBody c a s = s1 at *
    obtain ⟨hna, hnd'⟩ := List.nodup_cons.1 hnd
    obtain ⟨i1, i2, i3, i4, i5, i6⟩ := ih hnd' s1
    refine ⟨by rw [i1, b1], ?_, ?_, ?_, ?_, ?_⟩
    · intro e
      rw [i2 e, b1]
      by_cases hea : e = a
      · subst hea
        simp only [hna, if_false, List.mem_cons, true_or, if_true]
        exact b2
      · have hst : s1.state e = s.state e := by
          obtain ⟨q1, q2⟩ := b3 e hea
          simp [St.state, q1, q2]
        simp only [List.mem_cons, hea, false_or, hst]
    · intro e
      rw [i3 e, b1]
      by_cases hea : e = a
      · subst hea
        simp only [hna, if_false, List.mem_cons, true_or, if_true]
        exact b4
      · obtain ⟨q1, q2⟩ := b3 e hea
        simp only [List.mem_cons, hea, false_or, q2]
    · intro e he
      simp only [List.mem_cons, not_or] at he
      obtain ⟨q1, q2⟩ := b3 e he.1
      obtain ⟨r1, r2⟩ := i4 e he.2
      exact ⟨by rw [r1, q2], fun k => by rw [r2, q1]⟩
    · intro hno
      rw [i5 (fun e he => hno e (by simp [he])), b5]
      simp [hno a (by simp)]
    · intro e0 he0 hiff
      by_cases hea : e0 = a
      · subst hea
        rw [i5 ?_, b5]
        · have : isLastEqn c e0 = true := (hiff e0 (by simp)).2 rfl
          simp [this]
        · intro e he
          have hne : e ≠ e0 := fun h => hna (h ▸ he)
          by_contra hcon
          exact hne ((hiff e (by simp [he])).1 (by simpa using hcon))
      · have hmem : e0 ∈ es := by simpa [hea] using he0
        rw [i6 e0 hmem (fun e he => hiff e (by simp [he])), b1]
        have hla : isLastEqn c a = false := by
          by_contra hcon
          exact hea ((hiff a (by simp)).1 (by simpa using hcon)).symm
        rw [hla] at b5
        simp at b5
        omega

theorem filterMap_body (l : List Nat) (p : Nat → Bool) :
    l.filterMap (fun e => if p e then none else some (Ev.body e)) = (l.filter (fun e => !p e)).map Ev.body := by
  induction l with
  | nil => rfl
  | cons a l ih => cases h : p a <;> simp [h, ih]

theorem applyHook_spec {X} (c : Cfg X) (h : (Nat → X) → (Nat → X)) (s : St X) :
    let s' := applyHook c h s
    s'.timestep = s.timestep ∧ s'.n = s.n ∧ s'.memN = s.memN ∧
    (∀ e, s'.state e = if e < c.nEqns then h (fun e => s.state e) e else s.state e) := by
  refine ⟨rfl, rfl, rfl, fun e => ?_⟩
  by_cases he : e < c.nEqns <;> simp [applyHook, St.state, he]

theorem solveLoop_add {S : Type} (ts : S → Nat) (step : S → S)
    (panic : Nat → Bool) (a b : Nat) (s : S) :
    solveLoop ts step panic b (solveLoop ts step panic a s) = solveLoop ts step panic (a + b) s := by
  induction a generalizing s with
  | zero => simp [solveLoop]
  | succ a ih =>
    rw [Nat.succ_add]
    simp only [solveLoop]
    split
    · rename_i hpn
      cases b with
      | zero => simp [solveLoop]
      | succ b => simp [solveLoop, hpn]
    · exact ih (step s)

theorem solveLoop_nopanic {S : Type} (ts : S → Nat) (step : S → S) (k : Nat) (s : S) :
    solveLoop ts step (fun _ => false) k s = step^[k] s := by
  induction k generalizing s with
  | zero => rfl
  | succ k ih => simp [solveLoop, ih, Function.iterate_succ]

theorem iterate_ts {S : Type} (ts : S → Nat) (step : S → S) (hstep : ∀ s, ts (step s) = ts s + 1)
    (k : Nat) (s : S) : ts (step^[k] s) = ts s + k := by
  induction k generalizing s with
  | zero => rfl
  | succ k ih => rw [Function.iterate_succ_apply, ih, hstep]; omega

end Mpdata
