import Verif.Lemmas.Periodic1
/-! # C20 (halo width suffices) and C21 (cyclic = unbounded periodic), 1-D -/
set_option linter.unusedSectionVars false
namespace Mpdata
variable {K : Type} [Field K] [LinearOrder K]
open Spec1

/-- boundary conditions are local: what they put into the halo depends on the interior only -/
structure LocalBc (c : Cfg1 K) (halo : Int) : Prop where
  s : ∀ a b, Agree c.ijk.first c.ijk.last a b →
    Agree (c.ijk.first - halo) (c.ijk.last + halo) (c.fillS a) (c.fillS b)
  v : ∀ ad a b, Agree (c.ijk.first - 1) c.ijk.last a b →
    Agree (c.ijk.first - halo) (c.ijk.last + halo - 1) (c.fillV ad a) (c.fillV ad b)

/-- C20 (1-D; partial: the divergence-form options with more than two passes and no fct are excluded,
see `C20_fails_div2_three_passes`). For every option set, number of passes, grid size and local boundary conditions:
the field after a step depends on nothing but the interior field and the Courant numbers within the
allocated halo: two runs from memories that agree there, and differ arbitrarily in every temporary, in the other
time level, and beyond the halo, end with the same field. -/
theorem C20_halo_suffices_1d_partial (c : Cfg1 K) (hbc : LocalBc c (solverHalo c.o)) (hn : 1 ≤ c.nIters)
    (hx : HaloCovered c.o c.nIters) (m m' : Mem1 K)
    (hpsi : Agree c.ijk.first c.ijk.last m.psi m'.psi)
    (hGC : Agree (c.ijk.first - solverHalo c.o) (c.ijk.last + solverHalo c.o - 1) m.GC m'.GC) :
    Agree c.ijk.first c.ijk.last (advance1 c m).psi (advance1 c m').psi := by
  let p : Par K := ⟨c.o, c.si, c.te, c.tiny, c.eps, c.G, c.ndtGC, c.ndttGC⟩
  have hi : Implements c (⟨p, c.fillS, c.fillV⟩ : Ref1 K) (solverHalo c.o) (fun _ => True) (fun _ => True) := by
    refine ⟨rfl, rfl, rfl, rfl, rfl, fun _ _ _ => rfl, fun _ _ _ => rfl, fun _ _ _ => rfl, ?_, ?_, ?_, ?_⟩
    · exact_mod_cast le_max_left _ _
    · intro hf
      have : 2 ≤ solverHalo c.o := by unfold solverHalo; rw [hf]; simp
      exact_mod_cast this
    · exact fun a b _ h => hbc.s a b h
    · exact fun ad a b _ h => hbc.v ad a b h
  have h1 := advance1_refines hi c.nIters rfl hn m.psi m.GC m hx trivial (fun _ => trivial) (fun _ => trivial)
    (fun _ _ _ => rfl) (fun _ _ _ => rfl)
  have h2 := advance1_refines hi c.nIters rfl hn m.psi m.GC m' hx trivial (fun _ => trivial) (fun _ => trivial)
    (fun i a b => (hpsi i a b).symm) (fun i a b => (hGC i a b).symm)
  exact fun i a b => (h1 i a b).trans (h2 i a b).symm

/-- cyclic boundary conditions are local when the halo is not wider than the domain -/
theorem cyclic_local (c : Cfg1 K) (halo : Int) (hh : halo ≤ c.ijk.last - c.ijk.first)
    (hS : c.fillS = cycFillS c.ijk halo) (hV : c.fillV = fun _ => cycFillV c.ijk halo) : LocalBc c halo := by
  constructor
  · intro a b h i h1 h2
    rw [hS]
    simp only [cycFillS, asg_ite]
    split_ifs <;> first | omega | (apply h <;> omega)
  · intro ad a b h i h1 h2
    rw [hV]
    simp only [cycFillV, asg_ite]
    split_ifs <;> first | omega | (apply h <;> omega)

/-- a 1-D solver with cyclic boundary conditions on `ijk` representing periodic data -/
structure CyclicSetup (c : Cfg1 K) (p : Par K) (N : Int) : Prop where
  ho : c.o = p.o
  hsi : c.si = p.si
  hte : c.te = p.te
  htiny : c.tiny = p.tiny
  heps : c.eps = p.eps
  /-- first and last grid point are the same location -/
  hN : c.ijk.last - c.ijk.first = N
  hhN : (solverHalo c.o : Int) ≤ N
  hS : c.fillS = cycFillS c.ijk (solverHalo c.o)
  hV : c.fillV = fun _ => cycFillV c.ijk (solverHalo c.o)
  per : ParPeriodic p N
  hG : Agree (c.ijk.first - solverHalo c.o) (c.ijk.last + solverHalo c.o) c.G p.G
  hndt : Agree (c.ijk.first - solverHalo c.o) (c.ijk.last + solverHalo c.o - 1) c.ndtGC p.ndtGC
  hndtt : Agree (c.ijk.first - solverHalo c.o) (c.ijk.last + solverHalo c.o - 1) c.ndttGC p.ndttGC

theorem CyclicSetup.implements {c : Cfg1 K} {p : Par K} {N : Int} (h : CyclicSetup c p N) :
    Implements c (⟨p, id, fun _ => id⟩ : Ref1 K) (solverHalo c.o) (Periodic N) (Periodic N) := by
  refine ⟨h.ho, h.hsi, h.hte, h.htiny, h.heps, h.hG, h.hndt, h.hndtt, ?_, ?_, ?_, ?_⟩
  · exact_mod_cast le_max_left _ _
  · intro hf
    have : 2 ≤ solverHalo c.o := by unfold solverHalo; rw [hf]; simp
    exact_mod_cast this
  · intro a b hb hab
    rw [h.hS]; exact cycFillS_periodic h.hN h.hhN hb hab
  · intro ad a b hb hab
    rw [h.hV]; exact cycFillV_periodic h.hN h.hhN hb (hab.mono (by omega) (by omega))

/-- C21 (1-D; partial for the same excluded options): with cyclic boundaries the program computes, at every
grid point, what the scheme computes on the unbounded grid with periodic data of period
`last - first` - for every option set, number of passes, grid size and contents of the temporaries. -/
theorem C21_cyclic_1d_is_periodic_partial (c : Cfg1 K) (p : Par K) (N : Int) (h : CyclicSetup c p N)
    (hn : 1 ≤ c.nIters) (hx : HaloCovered c.o c.nIters) (psi0 GC : Int → K)
    (h0 : Periodic N psi0) (hg : Periodic N GC) (m : Mem1 K)
    (hpsi : Agree c.ijk.first c.ijk.last m.psi psi0)
    (hGC : Agree c.ijk.first (c.ijk.last - 1) m.GC GC) :
    Agree c.ijk.first c.ijk.last
      (advance1 c { m with GC := c.fillV false m.GC }).psi
      (step p (if c.filter then 1 else c.nIters) psi0 GC) := by
  have hi := h.implements
  have hid : ∀ k, Ref1.passes ⟨p, id, fun _ => id⟩ c.nIters psi0 GC k = Spec1.passes p psi0 GC k :=
    ref_id_passes p c.nIters psi0 GC
  have hper := passes_periodic p h.per h0 hg
  have := advance1_refines hi c.nIters rfl hn psi0 GC { m with GC := c.fillV false m.GC } hx h0
    (fun k => by rw [hid]; exact (hper k).1)
    (fun k => by
      rw [hid]
      exact antidiff1_periodic _ _ _ _ (hper k).1 (hper k).2 h.per.G h.per.ndt h.per.ndtt)
    hpsi (by
      show Agree _ _ (c.fillV false m.GC) GC
      rw [h.hV]; exact cycFillV_periodic h.hN h.hhN hg hGC)
  rw [hid] at this
  unfold step
  cases hfi : c.filter <;> simpa [hfi] using this

/-- C21 (the exchange itself): after the cyclic scalar exchange every halo element equals the interior element one period away,
the interior is unchanged, and exchanging again changes nothing - for any array, not only one with equal end points. -/
theorem C21_cyclic_sclr_exchange (r : Rng) (halo : Int) (hh : halo ≤ r.last - r.first) (a : Int → K) :
    (∀ i, r.first ≤ i → i ≤ r.last → cycFillS r halo a i = a i) ∧
    (∀ i, r.first - halo ≤ i → i < r.first → cycFillS r halo a i = a (i + (r.last - r.first))) ∧
    (∀ i, r.last < i → i ≤ r.last + halo → cycFillS r halo a i = a (i - (r.last - r.first))) ∧
    cycFillS r halo (cycFillS r halo a) = cycFillS r halo a := by
  refine ⟨?_, ?_, ?_, ?_⟩
  · intro i h1 h2; simp only [cycFillS, asg_ite]; split_ifs <;> first | omega | rfl
  · intro i h1 h2; simp only [cycFillS, asg_ite]; split_ifs <;> first | omega | rfl
  · intro i h1 h2; simp only [cycFillS, asg_ite]; split_ifs <;> first | omega | rfl
  · funext i; simp only [cycFillS, asg_ite]; split_ifs <;> first | omega | rfl

/-- C21: the same for the advector. There are `last - first` independent faces `first .. last-1`; face `last` is in the halo. -/
theorem C21_cyclic_vctr_exchange (r : Rng) (halo : Int) (hh : halo ≤ r.last - r.first) (a : Int → K) :
    (∀ i, r.first ≤ i → i < r.last → cycFillV r halo a i = a i) ∧
    (∀ i, r.first - halo ≤ i → i < r.first → cycFillV r halo a i = a (i + (r.last - r.first))) ∧
    (∀ i, r.last ≤ i → i ≤ r.last + halo - 1 → cycFillV r halo a i = a (i - (r.last - r.first))) ∧
    cycFillV r halo (cycFillV r halo a) = cycFillV r halo a := by
  refine ⟨?_, ?_, ?_, ?_⟩
  · intro i h1 h2; simp only [cycFillV, asg_ite]; split_ifs <;> first | omega | rfl
  · intro i h1 h2; simp only [cycFillV, asg_ite]; split_ifs <;> first | omega | rfl
  · intro i h1 h2; simp only [cycFillV, asg_ite]; split_ifs <;> first | omega | rfl
  · funext i; simp only [cycFillV, asg_ite]; split_ifs <;> first | omega | rfl

/-- C21: if the halo is wider than the period the exchange does not give a periodic extension (here a three-point domain with
halo 3: the left halo reads elements the exchange has not filled). -/
theorem C21_needs_halo_le_period :
    cycFillS ⟨0, 2⟩ 3 (fun i => if i = 0 then (1 : ℚ) else if i = 1 then 2 else if i = 2 then 1 else 100) (-3)
    ≠ cycFillS ⟨0, 2⟩ 3 (fun i => if i = 0 then (1 : ℚ) else if i = 1 then 2 else if i = 2 then 1 else 100) (-1) := by
  decide +kernel

/-! ## Concrete instances and the failing case -/

/-- a 1-D cyclic solver over the rationals on grid points 0..4 (period 4), G = 1 -/
def demo1 (o : OptsT) (n : Nat) : Cfg1 ℚ :=
  { o := o, si := .exact, te := .noextrp, nIters := n, filter := false, tiny := 1/1000, eps := 1/1000
    ijk := ⟨0, 4⟩, G := fun _ => 1, ndtGC := fun _ => 0, ndttGC := fun _ => 0
    fillS := cycFillS ⟨0, 4⟩ (solverHalo o), fillV := fun _ => cycFillV ⟨0, 4⟩ (solverHalo o) }

/-- memory with given field values, uniform Courant number 1/2, and temporaries filled with `junk` -/
def demoMem (junk : ℚ) : Mem1 ℚ :=
  { psi := fun i => if i % 4 = 0 then 1 else if i % 4 = 1 then 3 else if i % 4 = 2 then 2 else 5, psiN := fun _ => junk, GC := fun _ => 1/2
    tmp0 := fun _ => junk, tmp1 := fun _ => junk, flux := fun _ => junk, mono := fun _ => junk
    psiMin := fun _ => junk, psiMax := fun _ => junk, bUp := fun _ => junk, bDn := fun _ => junk }

/-- the hypotheses of C20/C21 hold for a flux-corrected third-order-accurate three-pass solver -/
example : CyclicSetup (demo1 (oFct ||| oTot ||| oDfl) 3)
    ⟨oFct ||| oTot ||| oDfl, .exact, .noextrp, 1/1000, 1/1000, fun _ => 1, fun _ => 0, fun _ => 0⟩ 4 ∧
    HaloCovered (oFct ||| oTot ||| oDfl) 3 := by
  refine ⟨⟨rfl, rfl, rfl, rfl, rfl, rfl, by decide, rfl, rfl, ⟨fun _ => rfl, fun _ => rfl, fun _ => rfl⟩,
    fun _ _ _ => rfl, fun _ _ _ => rfl, fun _ _ _ => rfl⟩, ?_⟩
  unfold HaloCovered; decide

/-- C20 is false for the divergence-form option `div_2nd` with three passes and no flux correction: the
third pass reads corrective velocities one face beyond those that were computed, and no halo exchange
fills them, so the result depends on what the temporary array happened to contain. -/
theorem C20_fails_div2_three_passes :
    (advance1 (demo1 oDiv2 3) (demoMem 0)).psi 0 ≠ (advance1 (demo1 oDiv2 3) (demoMem 1)).psi 0 := by
  decide +kernel

/-- the same option with two passes, or with fct, is covered -/
example : HaloCovered oDiv2 2 ∧ HaloCovered (oDiv2 ||| oFct) 3 := by unfold HaloCovered; decide

end Mpdata
