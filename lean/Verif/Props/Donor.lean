import Verif.Lemmas.Donor
/-! # C08 (conservation), C09 (sign), C10 (no new extrema), C11 (npa, khn) for the donor-cell pass,
on an unbounded grid in 1-D, 2-D and 3-D. -/
set_option linter.unusedSectionVars false
namespace Mpdata
variable {K : Type} [Field K] [LinearOrder K] [IsStrictOrderedRing K]

/-! ## C11: options that only select an implementation -/

/-- C11: `npa` (sign parts via abs) computes the same sign parts as the min/max version. -/
theorem C11_npa_pospart (o o' : OptsT) (x : K) : pospart o x = pospart o' x := by rw [pospart_eq, pospart_eq]
theorem C11_npa_negpart (o o' : OptsT) (x : K) : negpart o x = negpart o' x := by rw [negpart_eq, negpart_eq]

/-- C11: `npa` and `khn` do not change the donor-cell update in exact arithmetic, 1-D -/
theorem C11_equiv_1d (o o' : OptsT) (hnug : isset o oNug = isset o' oNug) (psi GC G : Int → K) (i : Int) :
    donorStep1 o psi (makeFlux1 o psi GC) G i = donorStep1 o' psi (makeFlux1 o' psi GC) G i := by
  simp only [donorStep1, donorSum1_eq, makeFlux1, donorF, gFac1, hnug,
    C11_npa_pospart o o', C11_npa_negpart o o']
/-- hypotheses met: the basic options and pds, both without nug -/
example := C11_equiv_1d (K := ℚ) oAbs (oAbs ||| oNpa) (by decide) (fun i => i) (fun i => (-1) ^ i.natAbs) (fun _ => 1) 3

/-- C11, 2-D -/
theorem C11_equiv_2d (o o' : OptsT) (hnug : isset o oNug = isset o' oNug)
    (psi GC0 GC1 G : Int → Int → K) (i j : Int) :
    donorStep2 o psi (fun a b => makeFlux2 o 0 psi GC0 a b) (fun a b => makeFlux2 o 1 psi GC1 b a) G i j
    = donorStep2 o' psi (fun a b => makeFlux2 o' 0 psi GC0 a b) (fun a b => makeFlux2 o' 1 psi GC1 b a) G i j := by
  simp only [donorStep2, donorSum2_eq, makeFlux2, donorF, gFac2, hnug,
    C11_npa_pospart o o', C11_npa_negpart o o']
example := C11_equiv_2d (K := ℚ) oNug (oNug ||| oNpa) (by decide) (fun i j => i * j) (fun i j => i - j) (fun i j => i + j) (fun _ _ => 2) 3 4

/-- C11, 3-D -/
theorem C11_equiv_3d (o o' : OptsT) (hnug : isset o oNug = isset o' oNug)
    (psi GC0 GC1 GC2 G : Int → Int → Int → K) (i j k : Int) :
    donorStep3 o psi (fun a b c => makeFlux3 o 0 psi GC0 a b c) (fun a b c => makeFlux3 o 1 psi GC1 b c a)
      (fun a b c => makeFlux3 o 2 psi GC2 c a b) G i j k
    = donorStep3 o' psi (fun a b c => makeFlux3 o' 0 psi GC0 a b c) (fun a b c => makeFlux3 o' 1 psi GC1 b c a)
      (fun a b c => makeFlux3 o' 2 psi GC2 c a b) G i j k := by
  simp only [donorStep3, donorSum3_eq, makeFlux3, donorF, gFac3, hnug,
    C11_npa_pospart o o', C11_npa_negpart o o']

/-- the two implementations really are different code paths -/
example : isset (oNpa ||| oKhn) oNpa = true ∧ isset (oNpa ||| oKhn) oKhn = true ∧
    isset 0 oNpa = false ∧ isset 0 oKhn = false := by decide

/-! ## C08: conservation on periodic domains, for *any* fluxes -/

/-- C08/C12 core, 1-D: any update from face fluxes that are periodic conserves the G-weighted sum over one period,
whatever the fluxes are (upwind, corrective, limited, ...). -/
theorem C08_conservation_1d (o : OptsT) (psi flx G : Int → K) (f : Int) (N : Nat)
    (hG : ∀ i, f ≤ i → i < f + N → gFac1 o G i ≠ 0) (hflx : flx (f + N - 1) = flx (f - 1)) :
    ∑ i ∈ Finset.range N, gFac1 o G (f + i) * donorStep1 o psi flx G (f + i)
      = ∑ i ∈ Finset.range N, gFac1 o G (f + i) * psi (f + i) := by
  have h1 : ∀ i ∈ Finset.range N, gFac1 o G (f + i) * donorStep1 o psi flx G (f + i)
      = gFac1 o G (f + i) * psi (f + i) + (-(flx (f + i)) + flx (f + i - 1)) := by
    intro i hi
    have hi' := Finset.mem_range.1 hi
    have := hG (f + i) (by omega) (by omega)
    unfold donorStep1
    rw [donorSum1_eq]
    field_simp
  rw [Finset.sum_congr rfl h1, Finset.sum_add_distrib, sum_face_diff, hflx]
  ring
/-- hypotheses met: three cells whose first and last face carry the same flux -/
example := C08_conservation_1d (K := ℚ) oNug (fun i => i ^ 2) (fun i => if i = 0 then 5 else 1) (fun _ => 2) 0 3 (fun i _ _ => by unfold gFac1; split_ifs <;> norm_num) (by norm_num)

/-- C08/C12 core, 2-D -/
theorem C08_conservation_2d (o : OptsT) (psi flx0 flx1 G : Int → Int → K) (f0 f1 : Int) (N M : Nat)
    (hG : ∀ i j, f0 ≤ i → i < f0 + N → f1 ≤ j → j < f1 + M → gFac2 o 0 G i j ≠ 0)
    (h0 : ∀ j, f1 ≤ j → j < f1 + M → flx0 (f0 + N - 1) j = flx0 (f0 - 1) j)
    (h1 : ∀ i, f0 ≤ i → i < f0 + N → flx1 i (f1 + M - 1) = flx1 i (f1 - 1)) :
    ∑ i ∈ Finset.range N, ∑ j ∈ Finset.range M,
        gFac2 o 0 G (f0 + i) (f1 + j) * donorStep2 o psi flx0 flx1 G (f0 + i) (f1 + j)
      = ∑ i ∈ Finset.range N, ∑ j ∈ Finset.range M, gFac2 o 0 G (f0 + i) (f1 + j) * psi (f0 + i) (f1 + j) := by
  have e : ∀ i ∈ Finset.range N, ∀ j ∈ Finset.range M,
      gFac2 o 0 G (f0 + i) (f1 + j) * donorStep2 o psi flx0 flx1 G (f0 + i) (f1 + j)
      = gFac2 o 0 G (f0 + i) (f1 + j) * psi (f0 + i) (f1 + j)
        + ((-(flx0 (f0 + i) (f1 + j)) + flx0 (f0 + i - 1) (f1 + j))
        + (-(flx1 (f0 + i) (f1 + j)) + flx1 (f0 + i) (f1 + j - 1))) := by
    intro i hi j hj
    have hi' := Finset.mem_range.1 hi
    have hj' := Finset.mem_range.1 hj
    have := hG (f0 + i) (f1 + j) (by omega) (by omega) (by omega) (by omega)
    unfold donorStep2
    rw [donorSum2_eq]
    field_simp
  rw [Finset.sum_congr rfl (fun i hi => Finset.sum_congr rfl (e i hi))]
  simp only [Finset.sum_add_distrib]
  have z0 : ∑ i ∈ Finset.range N, ∑ j ∈ Finset.range M,
      (-(flx0 (f0 + i) (f1 + j)) + flx0 (f0 + i - 1) (f1 + j)) = 0 := by
    rw [Finset.sum_comm]
    apply Finset.sum_eq_zero
    intro j hj
    have hj' := Finset.mem_range.1 hj
    rw [sum_face_diff (fun i => flx0 i (f1 + j)), h0 _ (by omega) (by omega)]
    ring
  have z1 : ∑ i ∈ Finset.range N, ∑ j ∈ Finset.range M,
      (-(flx1 (f0 + i) (f1 + j)) + flx1 (f0 + i) (f1 + j - 1)) = 0 := by
    apply Finset.sum_eq_zero
    intro i hi
    have hi' := Finset.mem_range.1 hi
    rw [sum_face_diff (fun j => flx1 (f0 + i) j), h1 _ (by omega) (by omega)]
    ring
  simp only [Finset.sum_add_distrib] at z0 z1
  rw [z0, z1]
  ring
example := C08_conservation_2d (K := ℚ) oNug (fun i j => i * j) (fun i _ => if i = 0 then 5 else 1) (fun i j => if j = 0 then i else 1) (fun _ _ => 2) 0 0 3 3
  (fun i j _ _ _ _ => by unfold gFac2; split_ifs <;> norm_num) (fun j _ _ => by norm_num) (fun i _ _ => by norm_num)

/-- C08/C12 core, 3-D -/
theorem C08_conservation_3d (o : OptsT) (psi flx0 flx1 flx2 G : Int → Int → Int → K) (f0 f1 f2 : Int) (N M L : Nat)
    (hG : ∀ i j k, gFac3 o 0 G i j k ≠ 0)
    (h0 : ∀ j k, flx0 (f0 + N - 1) j k = flx0 (f0 - 1) j k)
    (h1 : ∀ i k, flx1 i (f1 + M - 1) k = flx1 i (f1 - 1) k)
    (h2 : ∀ i j, flx2 i j (f2 + L - 1) = flx2 i j (f2 - 1)) :
    ∑ i ∈ Finset.range N, ∑ j ∈ Finset.range M, ∑ k ∈ Finset.range L,
        gFac3 o 0 G (f0 + i) (f1 + j) (f2 + k) * donorStep3 o psi flx0 flx1 flx2 G (f0 + i) (f1 + j) (f2 + k)
      = ∑ i ∈ Finset.range N, ∑ j ∈ Finset.range M, ∑ k ∈ Finset.range L,
        gFac3 o 0 G (f0 + i) (f1 + j) (f2 + k) * psi (f0 + i) (f1 + j) (f2 + k) := by
  have e : ∀ i j k : Int, gFac3 o 0 G i j k * donorStep3 o psi flx0 flx1 flx2 G i j k
      = gFac3 o 0 G i j k * psi i j k + ((-(flx0 i j k) + flx0 (i - 1) j k)
        + (-(flx1 i j k) + flx1 i (j - 1) k) + (-(flx2 i j k) + flx2 i j (k - 1))) := by
    intro i j k
    have := hG i j k
    unfold donorStep3
    rw [donorSum3_eq]
    field_simp
  simp only [e, Finset.sum_add_distrib]
  have z0 : ∑ i ∈ Finset.range N, ∑ j ∈ Finset.range M, ∑ k ∈ Finset.range L,
      (-(flx0 (f0 + i) (f1 + j) (f2 + k)) + flx0 (f0 + i - 1) (f1 + j) (f2 + k)) = 0 := by
    rw [Finset.sum_comm]
    apply Finset.sum_eq_zero
    intro j _
    rw [Finset.sum_comm]
    apply Finset.sum_eq_zero
    intro k _
    rw [sum_face_diff (fun i => flx0 i (f1 + j) (f2 + k)), h0]
    ring
  have z1 : ∑ i ∈ Finset.range N, ∑ j ∈ Finset.range M, ∑ k ∈ Finset.range L,
      (-(flx1 (f0 + i) (f1 + j) (f2 + k)) + flx1 (f0 + i) (f1 + j - 1) (f2 + k)) = 0 := by
    apply Finset.sum_eq_zero
    intro i _
    rw [Finset.sum_comm]
    apply Finset.sum_eq_zero
    intro k _
    rw [sum_face_diff (fun j => flx1 (f0 + i) j (f2 + k)), h1]
    ring
  have z2 : ∑ i ∈ Finset.range N, ∑ j ∈ Finset.range M, ∑ k ∈ Finset.range L,
      (-(flx2 (f0 + i) (f1 + j) (f2 + k)) + flx2 (f0 + i) (f1 + j) (f2 + k - 1)) = 0 := by
    apply Finset.sum_eq_zero
    intro i _
    apply Finset.sum_eq_zero
    intro j _
    rw [sum_face_diff (fun k => flx2 (f0 + i) (f1 + j) k), h2]
    ring
  simp only [Finset.sum_add_distrib] at z0 z1 z2
  rw [z0, z1, z2]
  ring

example : gFac1 oNug (fun i : Int => if i = 0 then (2 : ℚ) else 3) 0 ≠ 0 := by
  unfold gFac1; norm_num [show isset oNug oNug = true from by decide]

/-! ## C09: sign preservation of the upwind pass -/

/-- total outflow Courant number of a cell, per dimension: what leaves through the right and left faces -/
def outflow (o : OptsT) (cl cr : K) : K := pospart o cr - negpart o cl

/-- C08, 1-D, cyclic: for a periodic field and advector the upwind pass conserves the G-weighted total over one period -/
theorem C08_cyclic_1d (o : OptsT) (psi GC G : Int → K) (f : Int) (N : Nat) (hG : ∀ i, gFac1 o G i ≠ 0)
    (hpsi : ∀ i, psi (i + N) = psi i) (hGC : ∀ i, GC (i + N) = GC i) :
    ∑ i ∈ Finset.range N, gFac1 o G (f + i) * donorStep1 o psi (makeFlux1 o psi GC) G (f + i)
      = ∑ i ∈ Finset.range N, gFac1 o G (f + i) * psi (f + i) := by
  refine C08_conservation_1d o psi _ G f N (fun i _ _ => hG i) ?_
  simp only [makeFlux1]
  rw [show f + N - 1 = f - 1 + N by ring, hpsi, hGC, show f - 1 + N + 1 = f - 1 + 1 + (N : Int) by ring, hpsi]
/-- hypotheses met: a field of period 3 in a flow whose sign changes -/
example := C08_cyclic_1d (K := ℚ) oNug (fun i => if i % 3 = 0 then 7 else 1) (fun i => if i % 3 = 1 then -1/2 else 1/4) (fun _ => 2) 0 3
  (fun i => by unfold gFac1; split_ifs <;> norm_num) (fun i => by norm_num [Int.add_emod]) (fun i => by norm_num [Int.add_emod])

/-- C08, 1-D, closed: with no flow through the two end faces the upwind pass conserves the total over the domain -/
theorem C08_closed_1d (o : OptsT) (psi GC G : Int → K) (f : Int) (N : Nat) (hG : ∀ i, f ≤ i → i < f + N → gFac1 o G i ≠ 0)
    (h0 : GC (f - 1) = 0) (h1 : GC (f + N - 1) = 0) :
    ∑ i ∈ Finset.range N, gFac1 o G (f + i) * donorStep1 o psi (makeFlux1 o psi GC) G (f + i)
      = ∑ i ∈ Finset.range N, gFac1 o G (f + i) * psi (f + i) := by
  refine C08_conservation_1d o psi _ G f N hG ?_
  simp [makeFlux1, h0, h1, donorF, pospart_eq, negpart_eq]
/-- hypotheses met: no flow through the two outer faces of four cells -/
example := C08_closed_1d (K := ℚ) oNug (fun i => i ^ 2) (fun i => if i = 1 then -1/2 else if i = 0 then 1/4 else 0) (fun _ => 2) 0 4
  (fun i _ _ => by unfold gFac1; split_ifs <;> norm_num) (by norm_num) (by norm_num)

/-- C08, 2-D, cyclic -/
theorem C08_cyclic_2d (o : OptsT) (psi GC0 GC1 G : Int → Int → K) (f0 f1 : Int) (N M : Nat) (hG : ∀ i j, gFac2 o 0 G i j ≠ 0)
    (hpsi : ∀ i j, psi (i + N) j = psi i j ∧ psi i (j + M) = psi i j)
    (h0 : ∀ i j, GC0 (i + N) j = GC0 i j) (h1 : ∀ i j, GC1 i (j + M) = GC1 i j) :
    ∑ i ∈ Finset.range N, ∑ j ∈ Finset.range M, gFac2 o 0 G (f0 + i) (f1 + j)
        * donorStep2 o psi (fun a b => makeFlux2 o 0 psi GC0 a b) (fun a b => makeFlux2 o 1 psi GC1 b a) G (f0 + i) (f1 + j)
      = ∑ i ∈ Finset.range N, ∑ j ∈ Finset.range M, gFac2 o 0 G (f0 + i) (f1 + j) * psi (f0 + i) (f1 + j) := by
  refine C08_conservation_2d o psi _ _ G f0 f1 N M (fun i j _ _ _ _ => hG i j) (fun j _ _ => ?_) (fun i _ _ => ?_)
  · change donorF o (psi (f0 + N - 1) j) (psi (f0 + N - 1 + 1) j) (GC0 (f0 + N - 1) j) = donorF o (psi (f0 - 1) j) (psi (f0 - 1 + 1) j) (GC0 (f0 - 1) j)
    rw [show f0 + N - 1 = f0 - 1 + N by ring, (hpsi _ _).1, h0, show f0 - 1 + N + 1 = f0 - 1 + 1 + (N : Int) by ring, (hpsi _ _).1]
  · change donorF o (psi i (f1 + M - 1)) (psi i (f1 + M - 1 + 1)) (GC1 i (f1 + M - 1)) = donorF o (psi i (f1 - 1)) (psi i (f1 - 1 + 1)) (GC1 i (f1 - 1))
    rw [show f1 + M - 1 = f1 - 1 + M by ring, (hpsi _ _).2, h1, show f1 - 1 + M + 1 = f1 - 1 + 1 + (M : Int) by ring, (hpsi _ _).2]
example := C08_cyclic_2d (K := ℚ) oNug (fun i j => if i % 3 = 0 ∧ j % 2 = 0 then 7 else 1) (fun i j => if i % 3 = 1 then j else 1/4) (fun i j => if j % 2 = 1 then i else 1/4) (fun _ _ => 2) 0 0 3 2
  (fun i j => by unfold gFac2; split_ifs <;> norm_num) (fun i j => by norm_num [Int.add_emod]) (fun i j => by norm_num [Int.add_emod]) (fun i j => by norm_num [Int.add_emod])

/-- C08, 2-D, closed: no flow through the faces of the rim -/
theorem C08_closed_2d (o : OptsT) (psi GC0 GC1 G : Int → Int → K) (f0 f1 : Int) (N M : Nat)
    (hG : ∀ i j, f0 ≤ i → i < f0 + N → f1 ≤ j → j < f1 + M → gFac2 o 0 G i j ≠ 0)
    (h0 : ∀ j, GC0 (f0 - 1) j = 0 ∧ GC0 (f0 + N - 1) j = 0) (h1 : ∀ i, GC1 i (f1 - 1) = 0 ∧ GC1 i (f1 + M - 1) = 0) :
    ∑ i ∈ Finset.range N, ∑ j ∈ Finset.range M, gFac2 o 0 G (f0 + i) (f1 + j)
        * donorStep2 o psi (fun a b => makeFlux2 o 0 psi GC0 a b) (fun a b => makeFlux2 o 1 psi GC1 b a) G (f0 + i) (f1 + j)
      = ∑ i ∈ Finset.range N, ∑ j ∈ Finset.range M, gFac2 o 0 G (f0 + i) (f1 + j) * psi (f0 + i) (f1 + j) := by
  refine C08_conservation_2d o psi _ _ G f0 f1 N M hG (fun j _ _ => ?_) (fun i _ _ => ?_)
  · simp [makeFlux2, pi2, h0, donorF, pospart_eq, negpart_eq]
  · simp [makeFlux2, pi2, h1, donorF, pospart_eq, negpart_eq]
example := C08_closed_2d (K := ℚ) oNug (fun i j => i * j) (fun i j => if i = 1 then j else 0) (fun i j => if j = 0 then i else 0) (fun _ _ => 2) 0 0 4 3
  (fun i j _ _ _ _ => by unfold gFac2; split_ifs <;> norm_num) (fun j => by norm_num) (fun i => by norm_num)

/-- C08, 3-D, cyclic -/
theorem C08_cyclic_3d (o : OptsT) (psi GC0 GC1 GC2 G : Int → Int → Int → K) (f0 f1 f2 : Int) (N M L : Nat) (hG : ∀ i j k, gFac3 o 0 G i j k ≠ 0)
    (hpsi : ∀ i j k, psi (i + N) j k = psi i j k ∧ psi i (j + M) k = psi i j k ∧ psi i j (k + L) = psi i j k)
    (h0 : ∀ i j k, GC0 (i + N) j k = GC0 i j k) (h1 : ∀ i j k, GC1 i (j + M) k = GC1 i j k) (h2 : ∀ i j k, GC2 i j (k + L) = GC2 i j k) :
    ∑ i ∈ Finset.range N, ∑ j ∈ Finset.range M, ∑ k ∈ Finset.range L, gFac3 o 0 G (f0 + i) (f1 + j) (f2 + k)
        * donorStep3 o psi (fun a b c => makeFlux3 o 0 psi GC0 a b c) (fun a b c => makeFlux3 o 1 psi GC1 b c a)
          (fun a b c => makeFlux3 o 2 psi GC2 c a b) G (f0 + i) (f1 + j) (f2 + k)
      = ∑ i ∈ Finset.range N, ∑ j ∈ Finset.range M, ∑ k ∈ Finset.range L,
        gFac3 o 0 G (f0 + i) (f1 + j) (f2 + k) * psi (f0 + i) (f1 + j) (f2 + k) := by
  refine C08_conservation_3d o psi _ _ _ G f0 f1 f2 N M L hG (fun j k => ?_) (fun i k => ?_) (fun i j => ?_)
  · change donorF o (psi (f0 + N - 1) j k) (psi (f0 + N - 1 + 1) j k) (GC0 (f0 + N - 1) j k)
      = donorF o (psi (f0 - 1) j k) (psi (f0 - 1 + 1) j k) (GC0 (f0 - 1) j k)
    rw [show f0 + N - 1 = f0 - 1 + N by ring, (hpsi _ _ _).1, h0, show f0 - 1 + N + 1 = f0 - 1 + 1 + (N : Int) by ring, (hpsi _ _ _).1]
  · change donorF o (psi i (f1 + M - 1) k) (psi i (f1 + M - 1 + 1) k) (GC1 i (f1 + M - 1) k)
      = donorF o (psi i (f1 - 1) k) (psi i (f1 - 1 + 1) k) (GC1 i (f1 - 1) k)
    rw [show f1 + M - 1 = f1 - 1 + M by ring, (hpsi _ _ _).2.1, h1, show f1 - 1 + M + 1 = f1 - 1 + 1 + (M : Int) by ring, (hpsi _ _ _).2.1]
  · change donorF o (psi i j (f2 + L - 1)) (psi i j (f2 + L - 1 + 1)) (GC2 i j (f2 + L - 1))
      = donorF o (psi i j (f2 - 1)) (psi i j (f2 - 1 + 1)) (GC2 i j (f2 - 1))
    rw [show f2 + L - 1 = f2 - 1 + L by ring, (hpsi _ _ _).2.2, h2, show f2 - 1 + L + 1 = f2 - 1 + 1 + (L : Int) by ring, (hpsi _ _ _).2.2]
example := C08_cyclic_3d (K := ℚ) oNug (fun i j k => if i % 3 = 0 ∧ j % 2 = 0 ∧ k % 2 = 0 then 7 else 1) (fun i j k => if i % 3 = 1 then j * k else 1/4) (fun i j k => if j % 2 = 1 then i - k else 1/4)
  (fun i j k => if k % 2 = 1 then i + j else 1/4) (fun _ _ _ => 2) 0 0 0 3 2 2 (fun i j k => by unfold gFac3; split_ifs <;> norm_num) (fun i j k => by norm_num [Int.add_emod])
  (fun i j k => by norm_num [Int.add_emod]) (fun i j k => by norm_num [Int.add_emod]) (fun i j k => by norm_num [Int.add_emod])

/-- C08, 3-D, closed -/
theorem C08_closed_3d (o : OptsT) (psi GC0 GC1 GC2 G : Int → Int → Int → K) (f0 f1 f2 : Int) (N M L : Nat) (hG : ∀ i j k, gFac3 o 0 G i j k ≠ 0)
    (h0 : ∀ j k, GC0 (f0 - 1) j k = 0 ∧ GC0 (f0 + N - 1) j k = 0) (h1 : ∀ i k, GC1 i (f1 - 1) k = 0 ∧ GC1 i (f1 + M - 1) k = 0)
    (h2 : ∀ i j, GC2 i j (f2 - 1) = 0 ∧ GC2 i j (f2 + L - 1) = 0) :
    ∑ i ∈ Finset.range N, ∑ j ∈ Finset.range M, ∑ k ∈ Finset.range L, gFac3 o 0 G (f0 + i) (f1 + j) (f2 + k)
        * donorStep3 o psi (fun a b c => makeFlux3 o 0 psi GC0 a b c) (fun a b c => makeFlux3 o 1 psi GC1 b c a)
          (fun a b c => makeFlux3 o 2 psi GC2 c a b) G (f0 + i) (f1 + j) (f2 + k)
      = ∑ i ∈ Finset.range N, ∑ j ∈ Finset.range M, ∑ k ∈ Finset.range L,
        gFac3 o 0 G (f0 + i) (f1 + j) (f2 + k) * psi (f0 + i) (f1 + j) (f2 + k) := by
  refine C08_conservation_3d o psi _ _ _ G f0 f1 f2 N M L hG (fun j k => ?_) (fun i k => ?_) (fun i j => ?_)
  · simp [makeFlux3, pi3, h0, donorF, pospart_eq, negpart_eq]
  · simp [makeFlux3, pi3, h1, donorF, pospart_eq, negpart_eq]
  · simp [makeFlux3, pi3, h2, donorF, pospart_eq, negpart_eq]

/-- the hypotheses are met by a swirl in a closed 3×3 box that is not at rest -/
example : ∃ GC0 GC1 : Int → Int → ℚ, (∀ j, GC0 (0 - 1) j = 0 ∧ GC0 (0 + (3 : Nat) - 1) j = 0) ∧ (∀ i, GC1 i (0 - 1) = 0 ∧ GC1 i (0 + (3 : Nat) - 1) = 0) ∧
    GC0 0 0 = 1/2 ∧ GC1 1 0 = 1/2 :=
  ⟨fun i _ => if i = 0 then 1/2 else 0, fun _ j => if j = 0 then 1/2 else 0, fun _ => by constructor <;> norm_num, fun _ => by constructor <;> norm_num,
    by norm_num, by norm_num⟩

/-- C09, 1-D: if the outflow does not exceed the cell content (`≤ G`), the upwind pass keeps a non-negative
field non-negative. -/
theorem C09_sign_1d (o : OptsT) (psi GC G : Int → K) (i : Int) (hg : 0 < gFac1 o G i)
    (hc : outflow o (GC (i - 1)) (GC i) ≤ gFac1 o G i)
    (h0 : 0 ≤ psi (i - 1)) (h1 : 0 ≤ psi i) (h2 : 0 ≤ psi (i + 1)) :
    0 ≤ donorStep1 o psi (makeFlux1 o psi GC) G i := by
  unfold donorStep1 makeFlux1
  rw [donorSum1_eq, sub_add_cancel, donor_pair]
  unfold outflow at hc
  have := pospart_nonneg o (GC (i - 1))
  have := negpart_nonpos o (GC i)
  have e : psi i + (-(pospart o (GC i) - negpart o (GC (i - 1))) * psi i + pospart o (GC (i - 1)) * psi (i - 1)
      + -negpart o (GC i) * psi (i + 1)) / gFac1 o G i
      = ((gFac1 o G i - (pospart o (GC i) - negpart o (GC (i - 1)))) * psi i
        + pospart o (GC (i - 1)) * psi (i - 1) + -negpart o (GC i) * psi (i + 1)) / gFac1 o G i := by
    field_simp; ring
  rw [e]
  apply div_nonneg _ hg.le
  have a1 := mul_nonneg (sub_nonneg.2 hc) h1
  have a2 := mul_nonneg (pospart_nonneg o (GC (i - 1))) h0
  have a3 := mul_nonneg (neg_nonneg.2 (negpart_nonpos o (GC i))) h2
  linarith
/-- hypotheses met: outflow 1/2 through the right and 1/4 through the left face of a cell with G = 1 -/
example : 0 ≤ donorStep1 0 (fun i => (i : ℚ) ^ 2) (makeFlux1 0 (fun i => (i : ℚ) ^ 2) (fun i => if i = 0 then 1/2 else -1/4)) (fun _ => 1) 0 :=
  C09_sign_1d 0 _ _ _ 0 (by decide +kernel) (by decide +kernel) (by positivity) (by positivity) (by positivity)

/-- C09, 2-D -/
theorem C09_sign_2d (o : OptsT) (psi GC0 GC1 G : Int → Int → K) (i j : Int) (hg : 0 < gFac2 o 0 G i j)
    (hc : outflow o (GC0 (i - 1) j) (GC0 i j) + outflow o (GC1 i (j - 1)) (GC1 i j) ≤ gFac2 o 0 G i j)
    (hp : ∀ a b, 0 ≤ psi a b) :
    0 ≤ donorStep2 o psi (fun a b => makeFlux2 o 0 psi GC0 a b) (fun a b => makeFlux2 o 1 psi GC1 b a) G i j := by
  simp only [donorStep2, donorSum2_eq, makeFlux2, pi2, if_true, if_false, one_ne_zero]
  rw [sub_add_cancel, sub_add_cancel, donor_pair, donor_pair]
  unfold outflow at hc
  generalize gFac2 o 0 G i j = g at *
  have e : ∀ P X : K, P + X / g = (g * P + X) / g := by intro P X; field_simp
  rw [e]
  apply div_nonneg _ hg.le
  have a1 := mul_nonneg (sub_nonneg.2 hc) (hp i j)
  have a2 := mul_nonneg (pospart_nonneg o (GC0 (i - 1) j)) (hp (i - 1) j)
  have a3 := mul_nonneg (neg_nonneg.2 (negpart_nonpos o (GC0 i j))) (hp (i + 1) j)
  have a4 := mul_nonneg (pospart_nonneg o (GC1 i (j - 1))) (hp i (j - 1))
  have a5 := mul_nonneg (neg_nonneg.2 (negpart_nonpos o (GC1 i j))) (hp i (j + 1))
  linarith
example : 0 ≤ donorStep2 0 (fun i j => (i : ℚ) ^ 2 + (j : ℚ) ^ 2) (fun a b => makeFlux2 0 0 (fun i j => (i : ℚ) ^ 2 + (j : ℚ) ^ 2) (fun i _ => if i = 0 then 1/2 else -1/4) a b)
    (fun a b => makeFlux2 0 1 (fun i j => (i : ℚ) ^ 2 + (j : ℚ) ^ 2) (fun _ _ => 1/4) b a) (fun _ _ => 1) 0 0 :=
  C09_sign_2d 0 _ _ _ _ 0 0 (by decide +kernel) (by decide +kernel) (fun a b => by positivity)

/-- C09, 3-D -/
theorem C09_sign_3d (o : OptsT) (psi GC0 GC1 GC2 G : Int → Int → Int → K) (i j k : Int) (hg : 0 < gFac3 o 0 G i j k)
    (hc : outflow o (GC0 (i - 1) j k) (GC0 i j k) + outflow o (GC1 i (j - 1) k) (GC1 i j k)
      + outflow o (GC2 i j (k - 1)) (GC2 i j k) ≤ gFac3 o 0 G i j k)
    (hp : ∀ a b c, 0 ≤ psi a b c) :
    0 ≤ donorStep3 o psi (fun a b c => makeFlux3 o 0 psi GC0 a b c) (fun a b c => makeFlux3 o 1 psi GC1 b c a)
      (fun a b c => makeFlux3 o 2 psi GC2 c a b) G i j k := by
  simp only [donorStep3, donorSum3_eq, makeFlux3, pi3, if_true, if_false, one_ne_zero,
    show (2 : Nat) ≠ 0 from by decide, show (2 : Nat) ≠ 1 from by decide]
  rw [sub_add_cancel, sub_add_cancel, sub_add_cancel, donor_pair, donor_pair, donor_pair]
  unfold outflow at hc
  generalize gFac3 o 0 G i j k = g at *
  have e : ∀ P X : K, P + X / g = (g * P + X) / g := by intro P X; field_simp
  rw [e]
  apply div_nonneg _ hg.le
  have a1 := mul_nonneg (sub_nonneg.2 hc) (hp i j k)
  have a2 := mul_nonneg (pospart_nonneg o (GC0 (i - 1) j k)) (hp (i - 1) j k)
  have a3 := mul_nonneg (neg_nonneg.2 (negpart_nonpos o (GC0 i j k))) (hp (i + 1) j k)
  have a4 := mul_nonneg (pospart_nonneg o (GC1 i (j - 1) k)) (hp i (j - 1) k)
  have a5 := mul_nonneg (neg_nonneg.2 (negpart_nonpos o (GC1 i j k))) (hp i (j + 1) k)
  have a6 := mul_nonneg (pospart_nonneg o (GC2 i j (k - 1))) (hp i j (k - 1))
  have a7 := mul_nonneg (neg_nonneg.2 (negpart_nonpos o (GC2 i j k))) (hp i j (k + 1))
  linarith
example : 0 ≤ donorStep3 0 (fun i j k => (i : ℚ) ^ 2 + (j : ℚ) ^ 2 + (k : ℚ) ^ 2) (fun a b c => makeFlux3 0 0 (fun i j k => (i : ℚ) ^ 2 + (j : ℚ) ^ 2 + (k : ℚ) ^ 2) (fun _ _ _ => 1/3) a b c)
    (fun a b c => makeFlux3 0 1 (fun i j k => (i : ℚ) ^ 2 + (j : ℚ) ^ 2 + (k : ℚ) ^ 2) (fun _ _ _ => -1/3) b c a)
    (fun a b c => makeFlux3 0 2 (fun i j k => (i : ℚ) ^ 2 + (j : ℚ) ^ 2 + (k : ℚ) ^ 2) (fun _ _ _ => 1/3) c a b) (fun _ _ _ => 1) 0 0 0 :=
  C09_sign_3d 0 _ _ _ _ _ 0 0 0 (by decide +kernel) (by decide +kernel) (fun a b c => by positivity)

/-- the Courant bound cannot be dropped: outflow above the cell content makes a positive field negative -/
theorem C09_courant_bound_needed :
    donorStep1 0 (fun i : Int => if i = 0 then (1 : ℚ) else 0)
      (makeFlux1 0 (fun i : Int => if i = 0 then (1 : ℚ) else 0) (fun _ => 2)) (fun _ => 1) 0 < 0 := by
  norm_num [donorStep1, donorSum1_eq, makeFlux1, donorF, pospart_eq, negpart_eq, gFac1,
    show isset 0 oNug = false from by decide]

/-! ## C10: no new extrema in non-divergent flow -/

/-- C10, 1-D: with the same Courant number on both faces of the cell and outflow ≤ G, the new value lies
within any bounds on the cell and its two neighbours. -/
theorem C10_no_new_extrema_1d (o : OptsT) (psi GC G : Int → K) (i : Int) (lo hi : K) (hg : 0 < gFac1 o G i)
    (hdiv : GC i - GC (i - 1) = 0) (hc : outflow o (GC (i - 1)) (GC i) ≤ gFac1 o G i)
    (hb : ∀ j, i - 1 ≤ j → j ≤ i + 1 → lo ≤ psi j ∧ psi j ≤ hi) :
    lo ≤ donorStep1 o psi (makeFlux1 o psi GC) G i ∧ donorStep1 o psi (makeFlux1 o psi GC) G i ≤ hi := by
  unfold donorStep1 makeFlux1
  rw [donorSum1_eq, sub_add_cancel, donor_pair]
  unfold outflow at hc
  obtain ⟨l0, u0⟩ := hb (i - 1) (by omega) (by omega)
  obtain ⟨l1, u1⟩ := hb i (by omega) (by omega)
  obtain ⟨l2, u2⟩ := hb (i + 1) (by omega) (by omega)
  have s1 := pos_add_neg o (GC i)
  have s0 := pos_add_neg o (GC (i - 1))
  generalize gFac1 o G i = g at *
  have e : ∀ P X : K, P + X / g = (g * P + X) / g := by intro P X; field_simp
  rw [e, le_div_iff₀ hg, div_le_iff₀ hg]
  have a2 := pospart_nonneg o (GC (i - 1))
  have a3 := neg_nonneg.2 (negpart_nonpos o (GC i))
  have hs : pospart o (GC i) - negpart o (GC (i - 1)) = pospart o (GC (i - 1)) - negpart o (GC i) := by linarith
  constructor
  · have b1 := mul_le_mul_of_nonneg_left l1 (sub_nonneg.2 hc)
    have b2 := mul_le_mul_of_nonneg_left l0 a2
    have b3 := mul_le_mul_of_nonneg_left l2 a3
    rw [hs] at b1 ⊢
    linarith
  · have b1 := mul_le_mul_of_nonneg_left u1 (sub_nonneg.2 hc)
    have b2 := mul_le_mul_of_nonneg_left u0 a2
    have b3 := mul_le_mul_of_nonneg_left u2 a3
    rw [hs] at b1 ⊢
    linarith
/-- hypotheses met: uniform flow, values between 0 and 3 -/
example := C10_no_new_extrema_1d (K := ℚ) 0 (fun i => if i = 0 then 3 else if i = 1 then 1 else 0) (fun _ => 3/4) (fun _ => 1) 0 0 3 (by decide +kernel) (by norm_num) (by decide +kernel)
  (fun j _ _ => by split_ifs <;> norm_num)

/-- C10, 2-D -/
theorem C10_no_new_extrema_2d (o : OptsT) (psi GC0 GC1 G : Int → Int → K) (i j : Int) (lo hi : K)
    (hg : 0 < gFac2 o 0 G i j)
    (hdiv : (GC0 i j - GC0 (i - 1) j) + (GC1 i j - GC1 i (j - 1)) = 0)
    (hc : outflow o (GC0 (i - 1) j) (GC0 i j) + outflow o (GC1 i (j - 1)) (GC1 i j) ≤ gFac2 o 0 G i j)
    (hb : ∀ a b, |a - i| + |b - j| ≤ 1 → lo ≤ psi a b ∧ psi a b ≤ hi) :
    lo ≤ donorStep2 o psi (fun a b => makeFlux2 o 0 psi GC0 a b) (fun a b => makeFlux2 o 1 psi GC1 b a) G i j ∧
    donorStep2 o psi (fun a b => makeFlux2 o 0 psi GC0 a b) (fun a b => makeFlux2 o 1 psi GC1 b a) G i j ≤ hi := by
  simp only [donorStep2, donorSum2_eq, makeFlux2, pi2, if_true, if_false, one_ne_zero]
  rw [sub_add_cancel, sub_add_cancel, donor_pair, donor_pair]
  unfold outflow at hc
  obtain ⟨l0, u0⟩ := hb i j (by simp)
  obtain ⟨l1, u1⟩ := hb (i - 1) j (by simp)
  obtain ⟨l2, u2⟩ := hb (i + 1) j (by simp)
  obtain ⟨l3, u3⟩ := hb i (j - 1) (by simp)
  obtain ⟨l4, u4⟩ := hb i (j + 1) (by simp)
  have s1 := pos_add_neg o (GC0 i j)
  have s2 := pos_add_neg o (GC0 (i - 1) j)
  have s3 := pos_add_neg o (GC1 i j)
  have s4 := pos_add_neg o (GC1 i (j - 1))
  generalize gFac2 o 0 G i j = g at *
  have e : ∀ P X : K, P + X / g = (g * P + X) / g := by intro P X; field_simp
  rw [e, le_div_iff₀ hg, div_le_iff₀ hg]
  have a1 := pospart_nonneg o (GC0 (i - 1) j)
  have a2 := neg_nonneg.2 (negpart_nonpos o (GC0 i j))
  have a3 := pospart_nonneg o (GC1 i (j - 1))
  have a4 := neg_nonneg.2 (negpart_nonpos o (GC1 i j))
  generalize pospart o (GC0 i j) = p1 at *
  generalize pospart o (GC0 (i - 1) j) = p2 at *
  generalize pospart o (GC1 i j) = p3 at *
  generalize pospart o (GC1 i (j - 1)) = p4 at *
  generalize negpart o (GC0 i j) = n1 at *
  generalize negpart o (GC0 (i - 1) j) = n2 at *
  generalize negpart o (GC1 i j) = n3 at *
  generalize negpart o (GC1 i (j - 1)) = n4 at *
  have hs : p1 = p2 + p4 - n1 - n3 - p3 + n2 + n4 := by linarith
  subst hs
  constructor
  · have b0 := mul_le_mul_of_nonneg_left l0 (sub_nonneg.2 hc)
    have b1 := mul_le_mul_of_nonneg_left l1 a1
    have b2 := mul_le_mul_of_nonneg_left l2 a2
    have b3 := mul_le_mul_of_nonneg_left l3 a3
    have b4 := mul_le_mul_of_nonneg_left l4 a4
    linarith
  · have b0 := mul_le_mul_of_nonneg_left u0 (sub_nonneg.2 hc)
    have b1 := mul_le_mul_of_nonneg_left u1 a1
    have b2 := mul_le_mul_of_nonneg_left u2 a2
    have b3 := mul_le_mul_of_nonneg_left u3 a3
    have b4 := mul_le_mul_of_nonneg_left u4 a4
    linarith
/-- hypotheses met: a flow that turns a corner in the cell -/
example := C10_no_new_extrema_2d (K := ℚ) 0 (fun i j => if i = 0 then 3 else if j = 1 then 1 else 0) (fun i _ => if i = -1 then 3/4 else 0) (fun _ j => if j = 0 then 3/4 else 0) (fun _ _ => 1) 0 0 0 3
  (by decide +kernel) (by norm_num) (by decide +kernel) (fun a b _ => by split_ifs <;> norm_num)

/-- C10, 3-D -/
theorem C10_no_new_extrema_3d (o : OptsT) (psi GC0 GC1 GC2 G : Int → Int → Int → K) (i j k : Int) (lo hi : K)
    (hg : 0 < gFac3 o 0 G i j k)
    (hdiv : (GC0 i j k - GC0 (i - 1) j k) + (GC1 i j k - GC1 i (j - 1) k) + (GC2 i j k - GC2 i j (k - 1)) = 0)
    (hc : outflow o (GC0 (i - 1) j k) (GC0 i j k) + outflow o (GC1 i (j - 1) k) (GC1 i j k)
      + outflow o (GC2 i j (k - 1)) (GC2 i j k) ≤ gFac3 o 0 G i j k)
    (hb : ∀ a b c, |a - i| + |b - j| + |c - k| ≤ 1 → lo ≤ psi a b c ∧ psi a b c ≤ hi) :
    let new := donorStep3 o psi (fun a b c => makeFlux3 o 0 psi GC0 a b c) (fun a b c => makeFlux3 o 1 psi GC1 b c a)
      (fun a b c => makeFlux3 o 2 psi GC2 c a b) G i j k
    lo ≤ new ∧ new ≤ hi := by
  simp only [donorStep3, donorSum3_eq, makeFlux3, pi3, if_true, if_false, one_ne_zero,
    show (2 : Nat) ≠ 0 from by decide, show (2 : Nat) ≠ 1 from by decide]
  rw [sub_add_cancel, sub_add_cancel, sub_add_cancel, donor_pair, donor_pair, donor_pair]
  unfold outflow at hc
  obtain ⟨l0, u0⟩ := hb i j k (by simp)
  obtain ⟨l1, u1⟩ := hb (i - 1) j k (by simp)
  obtain ⟨l2, u2⟩ := hb (i + 1) j k (by simp)
  obtain ⟨l3, u3⟩ := hb i (j - 1) k (by simp)
  obtain ⟨l4, u4⟩ := hb i (j + 1) k (by simp)
  obtain ⟨l5, u5⟩ := hb i j (k - 1) (by simp)
  obtain ⟨l6, u6⟩ := hb i j (k + 1) (by simp)
  have s1 := pos_add_neg o (GC0 i j k)
  have s2 := pos_add_neg o (GC0 (i - 1) j k)
  have s3 := pos_add_neg o (GC1 i j k)
  have s4 := pos_add_neg o (GC1 i (j - 1) k)
  have s5 := pos_add_neg o (GC2 i j k)
  have s6 := pos_add_neg o (GC2 i j (k - 1))
  generalize gFac3 o 0 G i j k = g at *
  have e : ∀ P X : K, P + X / g = (g * P + X) / g := by intro P X; field_simp
  rw [e, le_div_iff₀ hg, div_le_iff₀ hg]
  have a1 := pospart_nonneg o (GC0 (i - 1) j k)
  have a2 := neg_nonneg.2 (negpart_nonpos o (GC0 i j k))
  have a3 := pospart_nonneg o (GC1 i (j - 1) k)
  have a4 := neg_nonneg.2 (negpart_nonpos o (GC1 i j k))
  have a5 := pospart_nonneg o (GC2 i j (k - 1))
  have a6 := neg_nonneg.2 (negpart_nonpos o (GC2 i j k))
  generalize pospart o (GC0 i j k) = p1 at *
  generalize pospart o (GC0 (i - 1) j k) = p2 at *
  generalize pospart o (GC1 i j k) = p3 at *
  generalize pospart o (GC1 i (j - 1) k) = p4 at *
  generalize pospart o (GC2 i j k) = p5 at *
  generalize pospart o (GC2 i j (k - 1)) = p6 at *
  generalize negpart o (GC0 i j k) = n1 at *
  generalize negpart o (GC0 (i - 1) j k) = n2 at *
  generalize negpart o (GC1 i j k) = n3 at *
  generalize negpart o (GC1 i (j - 1) k) = n4 at *
  generalize negpart o (GC2 i j k) = n5 at *
  generalize negpart o (GC2 i j (k - 1)) = n6 at *
  have hs : p1 = p2 + p4 + p6 - n1 - n3 - n5 - p3 - p5 + n2 + n4 + n6 := by linarith
  subst hs
  constructor
  · have b0 := mul_le_mul_of_nonneg_left l0 (sub_nonneg.2 hc)
    have b1 := mul_le_mul_of_nonneg_left l1 a1
    have b2 := mul_le_mul_of_nonneg_left l2 a2
    have b3 := mul_le_mul_of_nonneg_left l3 a3
    have b4 := mul_le_mul_of_nonneg_left l4 a4
    have b5 := mul_le_mul_of_nonneg_left l5 a5
    have b6 := mul_le_mul_of_nonneg_left l6 a6
    linarith
  · have b0 := mul_le_mul_of_nonneg_left u0 (sub_nonneg.2 hc)
    have b1 := mul_le_mul_of_nonneg_left u1 a1
    have b2 := mul_le_mul_of_nonneg_left u2 a2
    have b3 := mul_le_mul_of_nonneg_left u3 a3
    have b4 := mul_le_mul_of_nonneg_left u4 a4
    have b5 := mul_le_mul_of_nonneg_left u5 a5
    have b6 := mul_le_mul_of_nonneg_left u6 a6
    linarith

/-- hypotheses of C09/C10 hold for a rotating-like 2-D velocity: not all faces equal, divergence zero -/
example : ∃ (GC0 GC1 : Int → Int → ℚ), GC0 0 0 ≠ GC0 (-1) 0 ∧
    (GC0 0 0 - GC0 (0 - 1) 0) + (GC1 0 0 - GC1 0 (0 - 1)) = 0 ∧
    outflow 0 (GC0 (0 - 1) 0) (GC0 0 0) + outflow 0 (GC1 0 (0 - 1)) (GC1 0 0) ≤ gFac2 0 0 (fun _ _ => (1 : ℚ)) 0 0 := by
  refine ⟨fun i _ => if i = 0 then 1/4 else 1/8, fun _ j => if j = 0 then -1/8 else 0, ?_, ?_, ?_⟩
  · norm_num
  · norm_num
  · norm_num [outflow, pospart_eq, negpart_eq, gFac2, show isset 0 oNug = false from by decide]

/-- C10 fails in divergent flow: a uniform field is changed by the upwind pass -/
theorem C10_divergent_creates_extrema :
    donorStep1 0 (fun _ : Int => (1 : ℚ)) (makeFlux1 0 (fun _ : Int => (1 : ℚ)) (fun i => if i < 0 then 1/2 else 0))
      (fun _ => 1) 0 = 3/2 := by
  norm_num [donorStep1, donorSum1_eq, makeFlux1, donorF, pospart_eq, negpart_eq, gFac1,
    show isset 0 oNug = false from by decide]

/-! ## C49: in-place donor-cell advection -/

/-- C49: without Kahan summation the in-place donor-cell advection gives, cell by cell, the donor-cell update of the old values. -/
theorem C49_self_advec_is_donor_partial (o : OptsT) (hk : isset o oKhn = false) (psi g f1 f2 f3 f4 f5 f6 : K) :
    selfAdvec1 o psi f1 f2 g = donorSum1 o psi f1 f2 g ∧
    selfAdvec2 o psi f1 f2 f3 f4 g = donorSum2 o psi f1 f2 f3 f4 g ∧
    selfAdvec3 o psi f1 f2 f3 f4 f5 f6 g = donorSum3 o psi f1 f2 f3 f4 f5 f6 g := by
  simp [selfAdvec1, selfAdvec2, selfAdvec3, donorSum1, donorSum2, donorSum3, hk]
/-- hypotheses met: options without khn exist -/
example := C49_self_advec_is_donor_partial (K := ℚ) (oAbs ||| oNug) (by decide) 1 2 3 4 5 6 7 8

/-- C49 is false with Kahan summation: the old value is wiped out before it is read, so the result does not depend on it
and differs from the donor-cell update whenever the old value is non-zero (here in 1-D; 2-D and 3-D are alike). -/
theorem C49_khn_loses_field (o : OptsT) (hk : isset o oKhn = true) (psi g f1 f2 : K) :
    selfAdvec1 o psi f1 f2 g = donorSum1 o psi f1 f2 g - psi := by
  simp only [selfAdvec1, donorSum1, hk, if_true, kahanSum_eq, List.sum_cons, List.sum_nil]
  ring
example := C49_khn_loses_field (K := ℚ) oKhn (by decide) 1 2 3 4

theorem C49_khn_loses_field_2d (o : OptsT) (hk : isset o oKhn = true) (psi g f1 f2 f3 f4 : K) :
    selfAdvec2 o psi f1 f2 f3 f4 g = donorSum2 o psi f1 f2 f3 f4 g - psi := by
  simp only [selfAdvec2, donorSum2, hk, if_true, kahanSum_eq, List.sum_cons, List.sum_nil]
  ring
example := C49_khn_loses_field_2d (K := ℚ) oKhn (by decide) 1 2 3 4 5 6

theorem C49_khn_loses_field_3d (o : OptsT) (hk : isset o oKhn = true) (psi g f1 f2 f3 f4 f5 f6 : K) :
    selfAdvec3 o psi f1 f2 f3 f4 f5 f6 g = donorSum3 o psi f1 f2 f3 f4 f5 f6 g - psi := by
  simp only [selfAdvec3, donorSum3, hk, if_true, kahanSum_eq, List.sum_cons, List.sum_nil]
  ring
example := C49_khn_loses_field_3d (K := ℚ) oKhn (by decide) 1 2 3 4 5 6 7 8

end Mpdata
