import Verif.Lemmas.CyclicN
/-! # C20 (halo width suffices) and C21 (cyclic = unbounded periodic) in 2-D and 3-D -/
set_option linter.unusedSectionVars false
namespace Mpdata
variable {n : Nat} {K : Type} [Field K] [LinearOrder K]

/-- boundary conditions are local: what the three exchanges put into the halos depends on the interior only.
`s`: scalars; `a`: vector components along their own dimension; `n`: vector components in the other dimensions;
`a'`, `n'`: each of the two vector exchanges keeps what the other one has filled. `H` is the halo width. -/
structure LocalBcN (c : CfgN n K) (H : Int) : Prop where
  s : ∀ a b, AgN (cellBox c.box) a b → AgN (RS c.box H) (c.fillS a) (c.fillS b)
  a : ∀ ad A B, (∀ d, AgN (faceBox c.box d) (A d) (B d)) → ∀ d, AgN (RA c.box H d) (c.fillA ad A d) (c.fillA ad B d)
  a' : ∀ ad A B, (∀ d, AgN (RN c.box d) (A d) (B d)) → ∀ d, AgN (RN c.box d) (c.fillA ad A d) (c.fillA ad B d)
  n : ∀ A B, (∀ d, AgN (faceBox c.box d) (A d) (B d)) → ∀ d, AgN (RN c.box d) (c.fillN 0 A d) (c.fillN 0 B d)
  n' : ∀ A B, (∀ d, AgN (RA c.box H d) (A d) (B d)) → ∀ d, AgN (RA c.box H d) (c.fillN 0 A d) (c.fillN 0 B d)

theorem halo_suffices_N (c : CfgN n K) (hF : FLocal c.o c.F) (hbc : LocalBcN c (solverHalo c.o)) (hn : 1 ≤ c.nIters)
    (hx : HaloCoveredN c.o c.nIters) (m m' : MemN n K)
    (hpsi : AgN (cellBox c.box) m.psi m'.psi) (hGC : ∀ d, AgN (RG c.box (solverHalo c.o) d) (m.GC d) (m'.GC d)) :
    AgN (cellBox c.box) (advanceN c m).psi (advanceN c m').psi := by
  have hg := solverHalo_ge c.o
  have hi : ImplN c ⟨⟨c.o, c.eps, c.F, c.st⟩, c.fillS, c.fillA, c.fillN 0⟩ (solverHalo c.o) False (fun _ => True) (fun _ => True) :=
    ⟨rfl, rfl, rfl, hF, fun _ _ => rfl, fun _ _ _ => rfl, fun _ _ _ => rfl, hg.2.1, hg.2.2, fun a b _ h => hbc.s a b h, fun ad a b _ h => hbc.a ad a b h, fun h => h.elim,
     fun ad a b _ h => hbc.a' ad a b h, fun a b _ h => hbc.n a b h, fun a b _ h => hbc.n' a b h, fun _ _ _ => trivial, fun _ _ => trivial⟩
  have h1 := advanceN_spec hi hn m m.psi m.GC (Or.inl hx) (fun _ _ => rfl) (fun _ _ _ => rfl) trivial (fun _ => trivial) (fun _ => trivial)
  have h2 := advanceN_spec hi hn m' m.psi m.GC (Or.inl hx) (fun x h => (hpsi x h).symm) (fun d x h => (hGC d x h).symm) trivial (fun _ => trivial) (fun _ => trivial)
  exact fun x h => (h1 x h).trans (h2 x h).symm

/-- C20, 2-D (partial: options `div_3rd` with more than two passes, and `div_2nd` with more than two passes and no fct, are excluded; the latter fails already
in 1-D). For every other option set, number of passes, grid size and local boundary conditions the field after a step depends on
nothing but the interior field and the Courant numbers within the allocated halo: two runs from memories that agree there, and differ arbitrarily in every
temporary, in the other time level and beyond the halo, end with the same field. -/
theorem C20_halo_suffices_2d_partial (c : CfgN 2 K) (si : SptlIntrp) (te : TmprlExtrp) (tiny : K) (hF : c.F = formulae2 c.o si te tiny)
    (hfot : isset c.o oFot = true → isset c.o oTot = true ∨ isset c.o oDiv3 = true) (hbc : LocalBcN c (solverHalo c.o)) (hn : 1 ≤ c.nIters)
    (hx : HaloCoveredN c.o c.nIters) (m m' : MemN 2 K)
    (hpsi : ∀ x, cellBox c.box x → m.psi x = m'.psi x) (hGC : ∀ d x, RG c.box (solverHalo c.o) d x → m.GC d x = m'.GC d x) :
    ∀ x, cellBox c.box x → (advanceN c m).psi x = (advanceN c m').psi x :=
  halo_suffices_N c (hF ▸ formulae2_local c.o si te tiny hfot) hbc hn hx m m' hpsi hGC

/-- C20, 3-D (partial, same exclusions). -/
theorem C20_halo_suffices_3d_partial (c : CfgN 3 K) (si : SptlIntrp) (te : TmprlExtrp) (tiny : K) (hF : c.F = formulae3 c.o si te tiny)
    (hbc : LocalBcN c (solverHalo c.o)) (hn : 1 ≤ c.nIters)
    (hx : HaloCoveredN c.o c.nIters) (m m' : MemN 3 K)
    (hpsi : ∀ x, cellBox c.box x → m.psi x = m'.psi x) (hGC : ∀ d x, RG c.box (solverHalo c.o) d x → m.GC d x = m'.GC d x) :
    ∀ x, cellBox c.box x → (advanceN c m).psi x = (advanceN c m').psi x :=
  halo_suffices_N c (hF ▸ formulae3_local c.o si te tiny) hbc hn hx m m' hpsi hGC

/-! ## cyclic boundaries are local -/
section
variable {b : Fin n → Rng} {H : Int}

/-- every element the filling reads is an interior one -/
theorem cycS_val (d : Fin n) (hHP : H ≤ (b d).last - (b d).first) {lo hi : Fin n → Int} (x : Idx n) (hOt : Ot b d lo hi x)
    (h1 : (b d).first - H ≤ x d) (h2 : x d ≤ (b d).last + H) :
    ∃ k : Int, (b d).first ≤ x d + k ∧ x d + k ≤ (b d).last ∧ ∀ a : Sca n K, cycS b H d lo hi a x = a (stepIdx x d k) := by
  by_cases hR : (b d).last + 1 ≤ x d ∧ x d ≤ (b d).last + H
  · refine ⟨-((b d).last - (b d).first), by omega, by omega, fun a => ?_⟩
    unfold cycS asgN
    simp only
    rw [if_pos ⟨hR, hOt⟩, if_neg]
    intro hc; rw [stepIdx_self] at hc; omega
  · by_cases hL : (b d).first - H ≤ x d ∧ x d ≤ (b d).first - 1
    · refine ⟨(b d).last - (b d).first, by omega, by omega, fun a => ?_⟩
      unfold cycS asgN
      simp only
      rw [if_neg (fun hc => hR hc.1), if_pos ⟨hL, hOt⟩]
    · refine ⟨0, by omega, by omega, fun a => ?_⟩
      unfold cycS asgN
      simp only
      rw [if_neg (fun hc => hR hc.1), if_neg (fun hc => hL hc.1), stepIdx_zero]

theorem cycS_step2 (d : Fin n) (hHP : H ≤ (b d).last - (b d).first) {lo hi lo0 hi0 : Fin n → Int} (q : Int) (hq : q ≤ H) (hq0 : 0 ≤ q)
    (h0 : lo0 d = 0 ∧ hi0 d = 0) (hlo : ∀ e, e ≠ d → lo0 e ≤ lo e ∧ hi0 e ≤ hi e) {a f : Sca n K} (h : AgN (Bx b lo0 hi0) a f) :
    AgN (Bx b (fun e => if e = d then q else lo0 e) (fun e => if e = d then q else hi0 e)) (cycS b H d lo hi a) (cycS b H d lo hi f) := by
  intro x hx
  have hxd := hx d
  simp only [if_true] at hxd
  have hother : ∀ e, e ≠ d → (b e).first - lo0 e ≤ x e ∧ x e ≤ (b e).last + hi0 e := by
    intro e he; have := hx e; simpa only [if_neg he] using this
  have hOt : Ot b d lo hi x := by
    intro e he; have := hother e he; have := hlo e he; omega
  have hin : ∀ k : Int, (b d).first ≤ x d + k → x d + k ≤ (b d).last → a (stepIdx x d k) = f (stepIdx x d k) := by
    intro k h1 h2
    apply h
    intro e
    by_cases he : e = d
    · subst he; rw [stepIdx_self]; omega
    · rw [stepIdx_other _ he]; exact hother e he
  obtain ⟨k, h1, h2, hk⟩ := cycS_val (K := K) (lo := lo) (hi := hi) d (hHP) x hOt (by omega) (by omega)
  rw [hk, hk]; exact hin k h1 h2

theorem cycS_fold2 (hHP : ∀ d, H ≤ (b d).last - (b d).first) {lo hi : Fin n → Int} (q : Int) (hq : q ≤ H) (hq0 : 0 ≤ q) (ds : List (Fin n)) :
    ∀ (lo0 hi0 : Fin n → Int) (a f : Sca n K), ds.Nodup → (∀ d ∈ ds, lo0 d = 0 ∧ hi0 d = 0) → (∀ d ∈ ds, q ≤ lo d ∧ q ≤ hi d) → (∀ e, lo0 e ≤ lo e ∧ hi0 e ≤ hi e) →
      AgN (Bx b lo0 hi0) a f →
      AgN (Bx b (fun e => if e ∈ ds then q else lo0 e) (fun e => if e ∈ ds then q else hi0 e)) (ds.foldl (fun a d => cycS b H d lo hi a) a)
        (ds.foldl (fun a d => cycS b H d lo hi a) f) := by
  induction ds with
  | nil => intro lo0 hi0 a f _ _ _ _ h; simpa using h
  | cons d ds ih =>
    intro lo0 hi0 a f hnd h0 hqd hw h
    rw [List.nodup_cons] at hnd
    have h1 := cycS_step2 d (hHP d) q hq hq0 (h0 d (by simp)) (fun e _ => hw e) h (lo := lo) (hi := hi)
    have h2 := ih _ _ _ _ hnd.2 (fun e he => by
        have hne : e ≠ d := fun hc => hnd.1 (hc ▸ he)
        simp only [if_neg hne]; exact h0 e (by simp [he])) (fun e he => hqd e (by simp [he])) (fun e => by
        by_cases he : e = d
        · subst he; simp only [if_true]; exact hqd e (by simp)
        · simp only [if_neg he]; exact hw e) h1
    simp only [List.foldl_cons]
    refine h2.mono (fun x hx => Bx.mono hx ?_)
    intro e
    by_cases he : e = d
    · subst he; simp
    · simp only [List.mem_cons, he, false_or, if_false]
      split_ifs <;> omega

/-- every element the filling reads is an interior one -/
theorem cycV_val (d : Fin n) (hHP : H ≤ (b d).last - (b d).first) {lo hi : Fin n → Int} (x : Idx n) (hOt : Ot b d lo hi x)
    (h1 : (b d).first - H ≤ x d) (h2 : x d ≤ (b d).last - 1 + H) :
    ∃ k : Int, (b d).first ≤ x d + k ∧ x d + k ≤ (b d).last - 1 ∧ ∀ a : Sca n K, cycV b H d lo hi a x = a (stepIdx x d k) := by
  by_cases hR : (b d).last ≤ x d ∧ x d ≤ (b d).last + H - 1
  · refine ⟨-((b d).last - (b d).first), by omega, by omega, fun a => ?_⟩
    unfold cycV asgN
    simp only
    rw [if_pos ⟨hR, hOt⟩, if_neg]
    intro hc; rw [stepIdx_self] at hc; omega
  · by_cases hL : (b d).first - H ≤ x d ∧ x d ≤ (b d).first - 1
    · refine ⟨(b d).last - (b d).first, by omega, by omega, fun a => ?_⟩
      unfold cycV asgN
      simp only
      rw [if_neg (fun hc => hR hc.1), if_pos ⟨hL, hOt⟩]
    · refine ⟨0, by omega, by omega, fun a => ?_⟩
      unfold cycV asgN
      simp only
      rw [if_neg (fun hc => hR hc.1), if_neg (fun hc => hL hc.1), stepIdx_zero]

theorem cycV_agree2 (hHP : ∀ d, H ≤ (b d).last - (b d).first) (d : Fin n) {a f : Sca n K}
    (h : AgN (Bx b (fun _ => 0) (fun e => if e = d then -1 else 0)) a f) :
    AgN (RA b H d) (cycV b H d (fun _ => 0) (fun _ => 0) a) (cycV b H d (fun _ => 0) (fun _ => 0) f) := by
  intro x hx
  have hxd := hx d
  simp only [if_true] at hxd
  have hHd := hHP d
  have hother : ∀ e, e ≠ d → (b e).first - 0 ≤ x e ∧ x e ≤ (b e).last + 0 := by
    intro e he; have := hx e; simpa only [if_neg he] using this
  have hOt : Ot b d (fun _ => 0) (fun _ => 0) x := hother
  have hin : ∀ k : Int, (b d).first ≤ x d + k → x d + k ≤ (b d).last - 1 → a (stepIdx x d k) = f (stepIdx x d k) := by
    intro k h1 h2
    apply h
    intro e
    by_cases he : e = d
    · subst he; rw [stepIdx_self]; simp only [if_true]; omega
    · rw [stepIdx_other _ he]; simp only [if_neg he]; exact hother e he
  obtain ⟨k, h1, h2, hk⟩ := cycV_val (K := K) (lo := fun _ => 0) (hi := fun _ => 0) d (hHd) x hOt (by omega) (by omega)
  rw [hk, hk]; exact hin k h1 h2

/-- cyclic boundary conditions are local when the halo is not wider than the domain -/
theorem cyclic_local_N (c : CfgN n K) (hH : 1 ≤ H) (hHP : ∀ d, H ≤ (c.box d).last - (c.box d).first) (ds : List (Fin n)) (hnd : ds.Nodup) (hall : ∀ d, d ∈ ds)
    (hS : c.fillS = cycXchngS c.box H ds) (hA : ∀ ad, c.fillA ad = cycXchngA c.box H) (hN : ∀ ext, c.fillN ext = cycXchngN c.box H ext) : LocalBcN c H := by
  have hAf : ∀ (A B : Vec n K), (∀ d, AgN (faceBox c.box d) (A d) (B d)) → ∀ d, AgN (RA c.box H d) (cycXchngA c.box H A d) (cycXchngA c.box H B d) := fun A B h d =>
    cycV_agree2 hHP d ((h d).mono (fun x hx => Bx.mono hx (by widths)))
  constructor
  · intro a f h
    rw [hS]
    have := cycS_fold2 (lo := fun _ => H) (hi := fun _ => H) hHP H le_rfl (by omega) ds (fun _ => 0) (fun _ => 0) a f hnd (fun _ _ => ⟨rfl, rfl⟩)
      (fun _ _ => ⟨le_rfl, le_rfl⟩) (fun _ => ⟨by omega, by omega⟩) h
    exact this.mono (fun x hx => Bx.mono hx (fun e => by simp [hall e]))
  · intro ad A B h d
    rw [hA]; exact hAf A B h d
  · intro ad A B h d x hx
    rw [hA]
    by_cases hc : ∀ e, e ≠ d → (c.box e).first ≤ x e ∧ x e ≤ (c.box e).last
    · refine hAf A B (fun d => (h d).mono (fun y hy => Bx.mono hy (by widths))) d x ?_
      intro e
      have := hx e
      by_cases he : e = d
      · subst he; simp only [if_true] at *; omega
      · have := hc e he; simp only [if_neg he]; omega
    · push Not at hc
      obtain ⟨e, he, h1⟩ := hc
      show cycV c.box H d _ _ (A d) x = cycV c.box H d _ _ (B d) x
      rw [cycV_same d (A d) x e he (fun hh => by have := h1 hh.1; omega), cycV_same d (B d) x e he (fun hh => by have := h1 hh.1; omega)]
      exact h d x hx
  · intro A B h d
    rw [hN]
    unfold cycXchngN
    have := cycS_fold2 (lo := fun _ => 0 + 1) (hi := fun e => if e = d then 0 else 0 + 1) hHP 1 hH (by omega)
      ((List.finRange n).filter (fun e => decide (e ≠ d))) (fun e => if e = d then 1 else 0) (fun _ => 0) (A d) (B d) ((List.nodup_finRange n).filter _)
      (fun e he => by
        have : e ≠ d := by simpa using he
        simp [this])
      (fun e he => by
        have : e ≠ d := by simpa using he
        simp [this])
      (fun e => by constructor <;> split_ifs <;> omega) (h d)
    refine this.mono (fun x hx => Bx.mono hx (fun e => ?_))
    by_cases he : e = d
    · subst he; simp
    · simp [he]
  · intro A B h d x hx
    have hint : ∀ e, e ≠ d → (c.box e).first ≤ x e ∧ x e ≤ (c.box e).last := by
      intro e he
      have := hx e
      simp only [if_neg he] at this; omega
    rw [hN, cycXchngN_same _ _ _ _ hint, cycXchngN_same _ _ _ _ hint]
    exact h d x hx
end

/-! ## C21: cyclic boundaries give the scheme on the unbounded grid with periodic data -/

/-- a 2-D cyclic solver: cyclic boundaries in both dimensions, exchanged in the order 0, 1, with the 2-D formulae; `fot` is used with `tot` or `div_3rd` only
(static_assert in formulae) -/
structure Solver2 (c : CfgN 2 K) (p : SpecN.Par 2 K) (P : Fin 2 → Nat) : Prop where
  setup : CyclicSetupN c p P [0, 1]
  form : ∃ si te tiny, p.F = formulae2 p.o si te tiny
  fot : isset p.o oFot = true → isset p.o oTot = true ∨ isset p.o oDiv3 = true

/-- a 3-D cyclic solver: exchanges in the order 1, 0, 2 -/
structure Solver3 (c : CfgN 3 K) (p : SpecN.Par 3 K) (P : Fin 3 → Nat) : Prop where
  setup : CyclicSetupN c p P [1, 0, 2]
  form : ∃ si te tiny, p.F = formulae3 p.o si te tiny

section
variable [IsStrictOrderedRing K]
theorem Solver2.good {c : CfgN 2 K} {p : SpecN.Par 2 K} {P : Fin 2 → Nat} (h : Solver2 c p P) : FGood p.o p.F := by
  obtain ⟨si, te, tiny, hF⟩ := h.form
  rw [hF]; exact formulae2_good p.o si te tiny h.fot
theorem Solver3.good {c : CfgN 3 K} {p : SpecN.Par 3 K} {P : Fin 3 → Nat} (h : Solver3 c p P) : FGood p.o p.F := by
  obtain ⟨si, te, tiny, hF⟩ := h.form
  rw [hF]; exact formulae3_good p.o si te tiny

/-- C21, 2-D (partial: the divergence-form options with more than two passes and no fct are excluded, for which it fails already in 1-D): a cyclic run of any number of steps computes, at every grid point, what the scheme computes on the
unbounded grid with periodic data, for every option set, number of passes, pattern of filter steps, grid size and contents of the temporaries. -/
theorem C21_cyclic_2d_is_periodic_partial (c : CfgN 2 K) (p : SpecN.Par 2 K) (P : Fin 2 → Nat) (h : Solver2 c p P) (hn : 1 ≤ c.nIters)
    (hx : HaloCovered c.o c.nIters) (filt : Nat → Bool) (psi0 : Sca 2 K) (GC : Vec 2 K) (h0 : PeriodicN P psi0) (hg : ∀ d, PeriodicN P (GC d)) (m : MemN 2 K)
    (hpsi : ∀ x, InGrid P x → m.psi x = psi0 x) (hGC : ∀ d x, InFaces P d x → m.GC d x = GC d x) (t : Nat) :
    ∀ x, InGrid P x → (runProgN c filt t { m with GC := prepGC c (solverHalo c.o) m.GC }).psi x = SpecN.run p c.nIters filt GC t psi0 x :=
  cycN_run h.setup h.good hn hx filt h0 hg m hpsi hGC t

/-- C21, 3-D (partial, same exclusions). -/
theorem C21_cyclic_3d_is_periodic_partial (c : CfgN 3 K) (p : SpecN.Par 3 K) (P : Fin 3 → Nat) (h : Solver3 c p P) (hn : 1 ≤ c.nIters)
    (hx : HaloCovered c.o c.nIters) (filt : Nat → Bool) (psi0 : Sca 3 K) (GC : Vec 3 K) (h0 : PeriodicN P psi0) (hg : ∀ d, PeriodicN P (GC d)) (m : MemN 3 K)
    (hpsi : ∀ x, InGrid P x → m.psi x = psi0 x) (hGC : ∀ d x, InFaces P d x → m.GC d x = GC d x) (t : Nat) :
    ∀ x, InGrid P x → (runProgN c filt t { m with GC := prepGC c (solverHalo c.o) m.GC }).psi x = SpecN.run p c.nIters filt GC t psi0 x :=
  cycN_run h.setup h.good hn hx filt h0 hg m hpsi hGC t
end

/-! ## Concrete instances and the failing case -/

/-- a cyclic solver over the rationals with `P d + 1` points in dimension `d`, G = 1, steady advector -/
def cycCfg {n : Nat} (F : Formulae n ℚ) (o : OptsT) (k : Nat) (P : Fin n → Nat) (ds : List (Fin n)) : CfgN n ℚ :=
  { o := o, nIters := k, filter := false, eps := 1/1000, F := F, box := fun d => ⟨0, P d⟩
    st := ⟨fun _ => 1, fun _ _ => 0, fun _ _ => 0⟩
    fillS := cycXchngS (fun d => ⟨0, P d⟩) (solverHalo o) ds
    fillA := fun _ => cycXchngA (fun d => ⟨0, P d⟩) (solverHalo o)
    fillN := fun ext => cycXchngN (fun d => ⟨0, P d⟩) (solverHalo o) ext }

def demo2 (o : OptsT) (k : Nat) : CfgN 2 ℚ := cycCfg (formulae2 o .exact .noextrp (1/1000)) o k (fun _ => 4) [0, 1]
def demo3 (o : OptsT) (k : Nat) : CfgN 3 ℚ := cycCfg (formulae3 o .exact .noextrp (1/1000)) o k (fun _ => 4) [1, 0, 2]

/-- a memory with a given field and advector and `junk` in all temporaries -/
def demoMemN {n : Nat} (psi : Sca n ℚ) (GC : Vec n ℚ) (junk : ℚ) : MemN n ℚ :=
  { psi := psi, psiN := fun _ => junk, GC := GC, tmp0 := fun _ _ => junk, tmp1 := fun _ _ => junk, flux := fun _ _ => junk, mono := fun _ _ => junk
    psiMin := fun _ => junk, psiMax := fun _ => junk, bUp := fun _ => junk, bDn := fun _ => junk }

/-- the hypotheses of C20/C21 hold for a flux-corrected third-order three-pass 2-D solver -/
example : Solver2 (demo2 (oFct ||| oTot ||| oDfl) 3)
    ⟨oFct ||| oTot ||| oDfl, 1/1000, formulae2 (oFct ||| oTot ||| oDfl) .exact .noextrp (1/1000), ⟨fun _ => 1, fun _ _ => 0, fun _ _ => 0⟩⟩ (fun _ => 4) ∧
    HaloCovered (oFct ||| oTot ||| oDfl) 3 ∧ HaloCoveredN (oFct ||| oTot ||| oDfl) 3 ∧ LocalBcN (demo2 (oFct ||| oTot ||| oDfl) 3) (solverHalo (oFct ||| oTot ||| oDfl)) := by
  refine ⟨⟨⟨rfl, rfl, rfl, fun _ => rfl, fun d => by decide, by decide, rfl, fun _ => rfl, fun _ => rfl, fun _ _ => rfl, fun _ _ _ => rfl, fun _ _ _ => rfl, fun _ _ => rfl,
    fun _ _ _ => rfl, fun _ _ _ => rfl⟩, ⟨_, _, _, rfl⟩, by decide⟩, ?_, ?_, ?_⟩
  · unfold HaloCovered; decide
  · unfold HaloCoveredN; decide
  · exact cyclic_local_N _ (by decide) (fun d => by simp only [demo2, cycCfg]; decide) [0, 1] (by decide) (by decide) rfl (fun _ => rfl) (fun _ => rfl)

/-- and for a 3-D infinite-gauge, flux-corrected, third-order solver with non-unit G handling -/
example : Solver3 (demo3 (oFct ||| oIga ||| oTot ||| oNug) 2)
    ⟨oFct ||| oIga ||| oTot ||| oNug, 1/1000, formulae3 (oFct ||| oIga ||| oTot ||| oNug) .exact .noextrp (1/1000), ⟨fun _ => 1, fun _ _ => 0, fun _ _ => 0⟩⟩ (fun _ => 4) ∧
    HaloCovered (oFct ||| oIga ||| oTot ||| oNug) 2 ∧ HaloCoveredN (oFct ||| oIga ||| oTot ||| oNug) 2 ∧ LocalBcN (demo3 (oFct ||| oIga ||| oTot ||| oNug) 2) (solverHalo (oFct ||| oIga ||| oTot ||| oNug)) := by
  refine ⟨⟨⟨rfl, rfl, rfl, fun _ => rfl, fun d => by decide, by decide, rfl, fun _ => rfl, fun _ => rfl, fun _ _ => rfl, fun _ _ _ => rfl, fun _ _ _ => rfl, fun _ _ => rfl,
    fun _ _ _ => rfl, fun _ _ _ => rfl⟩, ⟨_, _, _, rfl⟩⟩, ?_, ?_, ?_⟩
  · unfold HaloCovered; decide
  · unfold HaloCoveredN; decide
  · exact cyclic_local_N _ (by decide) (fun d => by simp only [demo3, cycCfg]; decide) [1, 0, 2] (by decide) (by decide) rfl (fun _ => rfl) (fun _ => rfl)

end Mpdata
