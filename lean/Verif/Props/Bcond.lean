import Verif.Model.Bcond
import Verif.Model.VarDt
import Verif.Lemmas.Donor
import Verif.Lemmas.Asg
/-! # C22 (open), C23 (rigid) and C24 (polar) boundary conditions -/
set_option linter.unusedSectionVars false
namespace Mpdata
variable {K : Type} [Field K] [LinearOrder K]

/-! ## C22 open -/

/-- C22, scalars, any dimension, line by line: every halo value equals the edge value of the same line (zero for fields
declared as derivatives), and nothing else changes. -/
theorem C22_open_sclr (r : Rng) (halo : Int) (hr : r.first ≤ r.last) (deriv : Bool) (a : Int → K) :
    (∀ i, r.first - halo ≤ i → i < r.first → openFillS r halo deriv a i = if deriv then 0 else a r.first) ∧
    (∀ i, r.last < i → i ≤ r.last + halo → openFillS r halo deriv a i = if deriv then 0 else a r.last) ∧
    (∀ i, (r.first ≤ i ∧ i ≤ r.last) ∨ i < r.first - halo ∨ r.last + halo < i → openFillS r halo deriv a i = a i) := by
  refine ⟨fun i h1 h2 => ?_, fun i h1 h2 => ?_, fun i h => ?_⟩ <;>
  · simp only [openFillS, asg_ite, Rng.Mem]
    split_ifs <;> first | omega | rfl
/-- hypotheses met: five points, two halo points -/
example := C22_open_sclr (K := ℚ) ⟨0, 4⟩ 2 (by decide) false (fun i => i)

theorem openZero2_other (d : Nat) (i : Int) (J : Rng) (b : Int → Int → K) (x j : Int) (h : x ≠ i ∨ (j ≠ J.first - 1 ∧ j ≠ J.last)) :
    openZero2 d i J b x j = b x j := by
  unfold openZero2
  split_ifs with hd
  · rw [asg2_out, asg2_out]
    all_goals
      rintro ⟨⟨h1, h2⟩, ⟨h3, h4⟩⟩
      simp only at h1 h2 h3 h4
      omega
  · rfl

/-- C22, 2-D: after the open exchange of the along-axis component (x: `d = 0`, y: `d = 1`), every edge cell is non-divergent,
all further halo faces of a line carry the same value as its outermost edge-cell face, and faces inside the domain are unchanged
(except that the outermost transverse faces of the two edge rows may be zeroed by the x exchange). -/
theorem C22_open_edge_cells_nondivergent_2d (d : Nat) (r J : Rng) (halo : Int) (hh : 1 ≤ halo) (hr : r.first < r.last)
    (a b : Int → Int → K) :
    let a' := (openV2 d r J halo false (a, b)).1
    let b' := (openV2 d r J halo false (a, b)).2
    (∀ j, J.Mem j → (a' r.first j - a' (r.first - 1) j) + (b' r.first j - b' r.first (j - 1)) = 0) ∧
    (∀ j, J.Mem j → (a' r.last j - a' (r.last - 1) j) + (b' r.last j - b' r.last (j - 1)) = 0) ∧
    (∀ i j, r.first - halo ≤ i → i < r.first → J.Mem j → a' i j = a' (r.first - 1) j) ∧
    (∀ i j, r.last ≤ i → i < r.last + halo → J.Mem j → a' i j = a' r.last j) ∧
    (∀ i j, r.first ≤ i → i < r.last → a' i j = a i j) ∧
    (∀ i j, (i ≠ r.first ∧ i ≠ r.last) ∨ (j ≠ J.first - 1 ∧ j ≠ J.last) → b' i j = b i j) ∧
    (d ≠ 0 → b' = b) := by
  obtain ⟨f, l⟩ := r
  simp only at hr
  simp only [openV2, openV2R, openV2L, Bool.false_eq_true, if_false, sub_zero, add_zero]
  have hzl : ∀ (x : Int → Int → K) j, openZero2 d l J x f j = x f j := fun x j => openZero2_other d l J x f j (.inl (by omega))
  generalize hb : openZero2 d f J b = b1
  generalize hb2 : openZero2 d l J b1 = b2
  have hz : ∀ j, b2 f j = b1 f j := fun j => by rw [← hb2]; exact hzl _ _
  generalize hV : (fun (_ : Int) (j : Int) => a f j - (b1 f (j - 1) - b1 f j)) = V
  have hVv : ∀ i j, V i j = a f j - (b1 f (j - 1) - b1 f j) := fun i j => by rw [← hV]
  generalize ha1 : asg2 ⟨f - halo, f - 1⟩ J V a = a1
  have L1 : ∀ i j, f - halo ≤ i → i ≤ f - 1 → J.Mem j → a1 i j = V i j := fun i j h1 h2 hj => by
    rw [← ha1, asg2_in ⟨⟨h1, h2⟩, hj⟩]
  have L2 : ∀ i j, f ≤ i → a1 i j = a i j := fun i j h => by
    rw [← ha1, asg2_outi (by rw [mem_iff]; omega)]
  generalize ha2 : asg2 ⟨l, l + halo - 1⟩ J (fun _ j => a1 (l - 1) j + (b2 l (j - 1) - b2 l j)) a1 = a2
  have R1 : ∀ i j, l ≤ i → i ≤ l + halo - 1 → J.Mem j → a2 i j = a1 (l - 1) j + (b2 l (j - 1) - b2 l j) := fun i j h1 h2 hj => by
    rw [← ha2, asg2_in ⟨⟨h1, h2⟩, hj⟩]
  have R2 : ∀ i j, i < l → a2 i j = a1 i j := fun i j h => by
    rw [← ha2, asg2_outi (by rw [mem_iff]; omega)]
  refine ⟨fun j hj => ?_, fun j hj => ?_, fun i j h1 h2 hj => ?_, fun i j h1 h2 hj => ?_, fun i j h1 h2 => ?_, fun i j h => ?_, fun hd => ?_⟩
  · rw [R2 f j hr, R2 (f - 1) j (by omega), L2 f j le_rfl, L1 (f - 1) j (by omega) le_rfl hj, hVv, hz, hz]
    ring
  · rw [R1 l j le_rfl (by omega) hj, R2 (l - 1) j (by omega)]
    ring
  · rw [R2 i j (by omega), R2 (f - 1) j (by omega), L1 i j h1 (by omega) hj, L1 (f - 1) j (by omega) le_rfl hj, hVv, hVv]
  · rw [R1 i j h1 (by omega) hj, R1 l j le_rfl (by omega) hj]
  · rw [R2 i j h2, L2 i j h1]
  · rw [← hb2, ← hb, openZero2_other, openZero2_other]
    · rcases h with h | h
      · exact .inl h.1
      · exact .inr h
    · rcases h with h | h
      · exact .inl h.2
      · exact .inr h
  · rw [← hb2, ← hb]; simp only [openZero2, if_neg hd]
/-- hypotheses met: a 5 × 4 grid with a divergent advector -/
example := C22_open_edge_cells_nondivergent_2d (K := ℚ) 0 ⟨0, 4⟩ ⟨0, 3⟩ 2 (by decide) (by decide) (fun i j => i + j) (fun i j => i * j)

/-- C22, 2-D, both directions: with open boundaries in x and y every cell on the rim of the grid (corners included) is
non-divergent after the exchange. -/
theorem C22_open_open_rim_nondivergent_2d (ri rj : Rng) (halo : Int) (hh : 1 ≤ halo) (hi : ri.first < ri.last) (hj : rj.first < rj.last)
    (gx gy : Int → Int → K) :
    let g := xchngVctr2OpenOpen ri rj halo gx gy
    ∀ i j, ri.Mem i → rj.Mem j → (i = ri.first ∨ i = ri.last ∨ j = rj.first ∨ j = rj.last) →
      (g.1 i j - g.1 (i - 1) j) + (g.2 i j - g.2 i (j - 1)) = 0 := by
  intro g i j h1 h2 h
  have X := C22_open_edge_cells_nondivergent_2d 0 ri rj halo hh hi gx gy
  simp only [g, xchngVctr2OpenOpen]
  generalize openV2 0 ri rj halo false (gx, gy) = p at *
  have Y := C22_open_edge_cells_nondivergent_2d 1 rj ri halo hh hj (fun j i => p.2 i j) (fun j i => p.1 i j)
  simp only at X Y
  obtain ⟨x1, x2, -⟩ := X
  obtain ⟨y1, y2, -, -, y5, -, y7⟩ := Y
  have y7 := y7 one_ne_zero
  have h2' := h2
  obtain ⟨h3, h4⟩ := h2'
  by_cases hjf : j = rj.first
  · subst hjf; rw [add_comm]; exact y1 i h1
  · by_cases hjl : j = rj.last
    · subst hjl; rw [add_comm]; exact y2 i h1
    · rw [y7, y5 j i (by omega) (by omega), y5 (j - 1) i (by omega) (by omega)]
      rcases h with rfl | rfl | h | h
      · exact x1 j h2
      · exact x2 j h2
      · exact absurd h hjf
      · exact absurd h hjl
example := C22_open_open_rim_nondivergent_2d (K := ℚ) ⟨0, 4⟩ ⟨0, 3⟩ 2 (by decide) (by decide) (by decide) (fun i j => i + j) (fun i j => i * j)

/-- C22 fails for open x combined with cyclic y: the corner cells of a uniform diagonal flow become divergent, because the x fill
treats the outermost y faces as closed and the y exchange restores them afterwards. -/
theorem C22_open_cyclic_corner_divergent :
    let g := xchngVctr2OpenCyc ⟨0, 4⟩ ⟨0, 4⟩ 1 (fun _ _ => (1/4 : ℚ)) (fun _ _ => 1/4)
    (g.1 0 0 - g.1 (0 - 1) 0) + (g.2 0 0 - g.2 0 (0 - 1)) ≠ 0 := by decide +kernel

/-- consequence: the start-up check rejects that (non-divergent) flow -/
theorem C22_open_cyclic_uniform_flow_rejected :
    let g := xchngVctr2OpenCyc ⟨0, 4⟩ ⟨0, 4⟩ 1 (fun _ _ => (1/4 : ℚ)) (fun _ _ => 1/4)
    divCheck 0 (maxDiv2 0 (fun _ _ => 1) [(0, 0), (1, 0), (2, 2)] g.1 g.2) (1/100) = false := by decide +kernel

theorem openZero3_other (d : Nat) (i : Int) (J Kr : Rng) (rank size : Int) (b c : Int → Int → Int → K) (x : Int) (h : x ≠ i) (j k : Int) :
    (openZero3 d i J Kr rank size b c).1 x j k = b x j k ∧ (openZero3 d i J Kr rank size b c).2 x j k = c x j k := by
  have e : ∀ (J' K' : Rng) (q : Int → Int → Int → K) (j k : Int), asg3 ⟨i, i⟩ J' K' (fun _ _ _ => 0) q x j k = q x j k := by
    intro J' K' q j k
    unfold asg3
    rw [if_neg]
    rintro ⟨⟨h1, h2⟩, _⟩
    simp only at h1 h2
    omega
  match d with
  | 0 =>
    simp only [openZero3]
    refine ⟨?_, by rw [e, e]⟩
    split_ifs <;> simp only [e]
  | 1 => simp only [openZero3]; exact ⟨by rw [e, e], trivial⟩
  | _ + 2 => exact ⟨rfl, rfl⟩

/-- C22, 3-D: after the open exchange of the along-axis component, left then right, every edge cell is non-divergent, for every
axis, thread and thread count; faces inside the domain are unchanged. -/
theorem C22_open_edge_cells_nondivergent_3d (d : Nat) (r J Kr : Rng) (halo rank size : Int) (hh : 1 ≤ halo) (hr : r.first < r.last)
    (a b c : Int → Int → Int → K) :
    let s := openV3L d r J Kr halo rank size false a b c
    let s := openV3R d r J Kr halo rank size false s.1 s.2.1 s.2.2
    (∀ j k, J.Mem j → Kr.Mem k → (s.1 r.first j k - s.1 (r.first - 1) j k)
        + (s.2.1 r.first j k - s.2.1 r.first (j - 1) k) + (s.2.2 r.first j k - s.2.2 r.first j (k - 1)) = 0) ∧
    (∀ j k, J.Mem j → Kr.Mem k → (s.1 r.last j k - s.1 (r.last - 1) j k)
        + (s.2.1 r.last j k - s.2.1 r.last (j - 1) k) + (s.2.2 r.last j k - s.2.2 r.last j (k - 1)) = 0) ∧
    (∀ i j k, r.first ≤ i → i < r.last → s.1 i j k = a i j k) := by
  obtain ⟨f, l⟩ := r
  simp only at hr
  have hne : f ≠ l := by omega
  simp only [openV3R, openV3L]
  generalize hz : openZero3 d f J Kr rank size b c = z
  have z1 : ∀ j k, (openZero3 d l J Kr rank size z.1 z.2).1 f j k = z.1 f j k := fun j k => (openZero3_other d l J Kr rank size _ _ f hne j k).1
  have z2 : ∀ j k, (openZero3 d l J Kr rank size z.1 z.2).2 f j k = z.2 f j k := fun j k => (openZero3_other d l J Kr rank size _ _ f hne j k).2
  refine ⟨fun j k hj hk => ?_, fun j k hj hk => ?_, fun i j k h1 h2 => ?_⟩
  · rw [z1, z1, z2, z2]
    simp only [asg3_ite, Rng.Mem, Bool.false_eq_true, if_false]
    unfold Rng.Mem at hj hk
    split_ifs <;> first | omega | ring
  · simp only [asg3_ite, Rng.Mem, Bool.false_eq_true, if_false]
    unfold Rng.Mem at hj hk
    split_ifs <;> first | omega | ring
  · simp only [asg3_ite, Rng.Mem, Bool.false_eq_true, if_false]
    split_ifs <;> first | omega | rfl
example := C22_open_edge_cells_nondivergent_3d (K := ℚ) 2 ⟨0, 4⟩ ⟨0, 3⟩ ⟨0, 2⟩ 2 0 1 (by decide) (by decide) (fun i j k => i + j * k) (fun i j k => i * j - k) (fun i j k => i - j * k)

/-- C22, 1-D, left side: the advector beyond the edge equals the outermost interior face, so the edge cell is non-divergent. -/
theorem C22_open_vctr_1d_left (r : Rng) (halo : Int) (hh : 1 ≤ halo) (hr : r.first < r.last) (a : Int → K) :
    ∀ i, r.first - halo ≤ i → i < r.first → openFillV1 r halo false a i = a r.first := by
  intro i h1 h2
  simp only [openFillV1, asg_ite, Rng.Mem, Bool.false_eq_true, if_false]
  split_ifs <;> first | omega | rfl
example := C22_open_vctr_1d_left (K := ℚ) ⟨0, 4⟩ 2 (by decide) (by decide) (fun i => i)

/-- C22, 1-D, right side: what is actually copied is the face `halo - 1` cells further inside ... -/
theorem C22_open_vctr_1d_right_partial (r : Rng) (halo : Int) (hh : 1 ≤ halo) (hr : halo ≤ r.last - r.first) (a : Int → K) :
    ∀ i, r.last ≤ i → i < r.last + halo → openFillV1 r halo false a i = a (r.last - halo) := by
  intro i h1 h2
  simp only [openFillV1, asg_ite, Rng.Mem, Bool.false_eq_true, if_false]
  split_ifs <;> first | omega | rfl
example := C22_open_vctr_1d_right_partial (K := ℚ) ⟨0, 4⟩ 2 (by decide) (by decide) (fun i => i)

/-- ... so the right edge cell is non-divergent for halo 1, but with halo 2 it is not: the claim is false of the code there. -/
theorem C22_fails_open_1d_right_halo2 :
    openFillV1 ⟨0, 4⟩ 2 false (fun i => (i : ℚ)) 4 - openFillV1 ⟨0, 4⟩ 2 false (fun i => (i : ℚ)) 3 ≠ 0 := by decide +kernel

/-! ## C23 rigid -/

/-- C23, scalars: mirror symmetry about both walls, interior unchanged. -/
theorem C23_rigid_sclr (r : Rng) (halo : Int) (hr : halo ≤ r.last - r.first) (a : Int → K) :
    (∀ n, 1 ≤ n → n ≤ halo → rigidFillS r halo a (r.first - n) = rigidFillS r halo a (r.first + n)) ∧
    (∀ n, 1 ≤ n → n ≤ halo → rigidFillS r halo a (r.last + n) = rigidFillS r halo a (r.last - n)) ∧
    (∀ i, r.first ≤ i → i ≤ r.last → rigidFillS r halo a i = a i) := by
  refine ⟨fun i h1 h2 => ?_, fun i h1 h2 => ?_, fun i h1 h2 => ?_⟩ <;>
  · simp only [rigidFillS, asg_ite, Rng.Mem]
    split_ifs <;> first | omega | rfl | (congr 1; omega)
/-- hypotheses met: five points, three halo points -/
example := C23_rigid_sclr (K := ℚ) ⟨0, 4⟩ 3 (by decide) (fun i => i)

/-- C23, pressure: odd continuation about the wall value, so the centred derivative on the wall equals the one-sided one. -/
theorem C23_rigid_pres (r : Rng) (halo : Int) (hh : 1 ≤ halo) (hr : halo ≤ r.last - r.first) (a : Int → K) :
    (rigidFillP r halo a (r.first + 1) - rigidFillP r halo a (r.first - 1) = 2 * (a (r.first + 1) - a r.first)) ∧
    (rigidFillP r halo a (r.last + 1) - rigidFillP r halo a (r.last - 1) = 2 * (a r.last - a (r.last - 1))) ∧
    (∀ i, r.first ≤ i → i ≤ r.last → rigidFillP r halo a i = a i) := by
  have e1 : r.first + (r.first - (r.first - 1)) = r.first + 1 := by omega
  have e2 : r.last - (r.last + 1 - r.last) = r.last - 1 := by omega
  refine ⟨?_, ?_, fun i h1 h2 => ?_⟩ <;>
  · simp only [rigidFillP, asg_ite, Rng.Mem, e1, e2]
    split_ifs <;> first | omega | rfl | ring
example := C23_rigid_pres (K := ℚ) ⟨0, 4⟩ 3 (by decide) (by decide) (fun i => i)

/-- C23, physical advector: antisymmetric about both walls (mean value on the wall is zero), interior faces unchanged. Face `f+n-1`
is at distance `n - 1/2` inside the left wall, face `f-n` as far outside. -/
theorem C23_rigid_vctr (r : Rng) (halo : Int) (hr : halo ≤ r.last - r.first) (a : Int → K) :
    (∀ n, 1 ≤ n → n ≤ halo → rigidFillV r halo false a (r.first - n) = -rigidFillV r halo false a (r.first + n - 1)) ∧
    (∀ n, 1 ≤ n → n ≤ halo → rigidFillV r halo false a (r.last + n - 1) = -rigidFillV r halo false a (r.last - n)) ∧
    (∀ i, r.first ≤ i → i < r.last → rigidFillV r halo false a i = a i) := by
  refine ⟨fun i h1 h2 => ?_, fun i h1 h2 => ?_, fun i h1 h2 => ?_⟩ <;>
  · simp only [rigidFillV, asg_ite, Rng.Mem, Bool.false_eq_true, if_false]
    split_ifs <;> first | omega | rfl | (congr 2; omega)
example := C23_rigid_vctr (K := ℚ) ⟨0, 4⟩ 3 (by decide) (fun i => i)

/-- C23, antidiffusive velocities (`ad`), left wall: antisymmetric -/
theorem C23_rigid_vctr_ad_left (r : Rng) (halo : Int) (hr : halo ≤ r.last - r.first) (a : Int → K) :
    ∀ n, 2 ≤ n → n ≤ halo → rigidFillV r halo true a (r.first - n) = -rigidFillV r halo true a (r.first + n - 1) := by
  intro n h1 h2
  simp only [rigidFillV, asg_ite, Rng.Mem, if_true]
  split_ifs <;> first | omega | rfl | (congr 2; omega)
example := C23_rigid_vctr_ad_left (K := ℚ) ⟨0, 4⟩ 3 (by decide) (fun i => i)

/-- C23 fails for antidiffusive velocities on the right wall: the mirror index is off by one (face `l+1` receives the negative of
face `l-1` instead of `l-2`). -/
theorem C23_fails_rigid_ad_right :
    rigidFillV ⟨0, 4⟩ 2 true (fun i => (i : ℚ)) (4 + 2 - 1) ≠ -rigidFillV ⟨0, 4⟩ 2 true (fun i => (i : ℚ)) (4 - 2) ∧
    rigidFillV ⟨0, 4⟩ 2 true (fun i => (i : ℚ)) (4 + 2 - 1) = -rigidFillV ⟨0, 4⟩ 2 true (fun i => (i : ℚ)) (4 - 1) := by decide +kernel

/-- C23: edge velocities are zeroed, others untouched -/
theorem C23_rigid_edge (r : Rng) (a : Int → K) :
    rigidSetEdge r a r.first = 0 ∧ rigidSetEdge r a r.last = 0 ∧ ∀ i, i ≠ r.first → i ≠ r.last → rigidSetEdge r a i = a i := by
  refine ⟨?_, ?_, fun i h1 h2 => ?_⟩ <;>
  · simp only [rigidSetEdge, asg_ite, Rng.Mem]
    split_ifs <;> first | omega | rfl

/-- C23: fluxes through the two faces around a wall point cancel -/
theorem C23_rigid_flux (r : Rng) (hr : r.first < r.last) (a : Int → K) :
    rigidFillF r a (r.first - 1) = -rigidFillF r a r.first ∧ rigidFillF r a r.last = -rigidFillF r a (r.last - 1) ∧
    ∀ i, r.first ≤ i → i < r.last → rigidFillF r a i = a i := by
  refine ⟨?_, ?_, fun i h1 h2 => ?_⟩ <;>
  · simp only [rigidFillF, asg_ite, Rng.Mem]
    split_ifs <;> first | omega | rfl
example := C23_rigid_flux (K := ℚ) ⟨0, 4⟩ (by decide) (fun i => i)

/-! ## C24 polar -/

theorem polarNb_eq (m j : Int) (hm : 0 < m) (hj : -m ≤ j) : polarNb m j = (j + m) % (2 * m) := by
  unfold polarNb; exact Int.tmod_eq_emod_of_nonneg (by omega)

/-- C24: on a longitude grid of `2m+1` points (first and last coincide) the neighbour map sends each of the `2m` distinct meridians
to the one half the circle away; it is an involution without fixed points, and treats coinciding points alike. -/
theorem C24_polar_neighbour_involution (m : Int) (hm : 0 < m) :
    let nb := polarNb (poleOf (2 * m + 1))
    (∀ j, 0 ≤ j → j < 2 * m → 0 ≤ nb j ∧ nb j < 2 * m ∧ nb (nb j) = j ∧ nb j ≠ j ∧ (nb j = j + m ∨ nb j = j - m)) ∧
    (∀ j, -m ≤ j → nb (j + 2 * m) = nb j) := by
  have hp : poleOf (2 * m + 1) = m := by
    unfold poleOf
    rw [show 2 * m + 1 - 1 = m * 2 by ring]
    exact Int.mul_tdiv_cancel _ (by norm_num)
  simp only [hp]
  constructor
  · intro j h1 h2
    rw [polarNb_eq m j hm (by omega)]
    have hc : (j + m) % (2 * m) = j + m ∨ (j + m) % (2 * m) = j - m := by
      by_cases h : j + m < 2 * m
      · left; exact Int.emod_eq_of_lt (by omega) h
      · right
        rw [← Int.sub_emod_right, show j + m - 2 * m = j - m by ring]
        exact Int.emod_eq_of_lt (by omega) (by omega)
    rcases hc with h | h
    · have : j + m < 2 * m := by rw [← h]; exact Int.emod_lt_of_pos _ (by omega)
      rw [h, polarNb_eq m _ hm (by omega)]
      refine ⟨by omega, this, ?_, by omega, .inl rfl⟩
      rw [show j + m + m = j + 2 * m by ring, Int.add_emod_right]
      exact Int.emod_eq_of_lt h1 h2
    · have : 0 ≤ j - m := by rw [← h]; exact Int.emod_nonneg _ (by omega)
      rw [h, polarNb_eq m _ hm (by omega)]
      refine ⟨by omega, by omega, ?_, by omega, .inr rfl⟩
      rw [show j - m + m = j by ring]
      exact Int.emod_eq_of_lt h1 h2
  · intro j h
    rw [polarNb_eq m j hm h, polarNb_eq m _ hm (by omega), show j + 2 * m + m = j + m + 2 * m by ring, Int.add_emod_right]
/-- hypotheses met: nine longitudes -/
example := C24_polar_neighbour_involution 4 (by decide)

/-- with an even number of longitude points the map is not even injective: of the 5 distinct meridians of a grid with 6 points (period 5),
0 and 4 are both paired with 2. -/
theorem C24_fails_even_longitudes : polarNb (poleOf 6) 4 = 2 ∧ polarNb (poleOf 6) 0 = 2 := by decide

/-- C24: scalar halo rows are mirror images, across the pole, of the interior rows on the opposite meridian; interior unchanged. -/
theorem C24_polar_sclr_mirror (r J : Rng) (halo pole : Int) (hr : halo ≤ r.last - r.first + 1) (a : Int → Int → K) :
    (∀ n j, 0 ≤ n → n < halo → J.Mem j → polarFillS r J halo pole a (r.first - 1 - n) j = a (r.first + n) (polarNb pole j)) ∧
    (∀ n j, 0 ≤ n → n < halo → J.Mem j → polarFillS r J halo pole a (r.last + 1 + n) j = a (r.last - n) (polarNb pole j)) ∧
    (∀ i j, r.first ≤ i → i ≤ r.last → polarFillS r J halo pole a i j = a i j) := by
  refine ⟨fun n j h1 h2 hj => ?_, fun n j h1 h2 hj => ?_, fun i j h1 h2 => ?_⟩ <;>
  · simp only [polarFillS, asg2_ite, Rng.Mem]
    try unfold Rng.Mem at hj
    split_ifs <;> first | omega | rfl | (congr 1; omega)
/-- hypotheses met: seven latitudes, nine longitudes, two halo rows -/
example := C24_polar_sclr_mirror (K := ℚ) ⟨0, 6⟩ ⟨0, 8⟩ 2 (poleOf 9) (by decide) (fun i j => 10 * i + j)

/-- C24: no flow through the pole: the along-meridian advector on the pole faces is zero, and with halo 2 the next face out is the image of the
first interior face of the opposite meridian. -/
theorem C24_polar_vctr_alng (r J : Rng) (halo pole : Int) (hh : 1 ≤ halo) (h2 : halo ≤ 2) (hr : halo ≤ r.last - r.first) (a : Int → Int → K) :
    (∀ j, J.Mem j → polarFillV r J halo pole false a (r.first - 1) j = 0) ∧
    (∀ j, J.Mem j → polarFillV r J halo pole false a r.last j = 0) ∧
    (halo = 2 → ∀ j, J.Mem j → polarFillV r J halo pole false a (r.first - 2) j = a r.first (polarNb pole j)) ∧
    (halo = 2 → ∀ j, J.Mem j → polarFillV r J halo pole false a (r.last + 1) j = a (r.last - 1) (polarNb pole j)) := by
  rcases (by omega : halo = 1 ∨ halo = 2) with rfl | rfl
  · refine ⟨fun j hj => ?_, fun j hj => ?_, fun h => by omega, fun h => by omega⟩ <;>
      simp only [polarFillV, Bool.false_eq_true, if_false, gt_iff_lt, lt_irrefl]
    · rw [asg2_outi (by rw [mem_iff]; omega), asg2_in ⟨by rw [mem_iff]; omega, hj⟩]
    · rw [asg2_in ⟨by rw [mem_iff]; omega, hj⟩]
  · have h12 : (1 : Int) < 2 := by norm_num
    refine ⟨fun j hj => ?_, fun j hj => ?_, fun _ j hj => ?_, fun _ j hj => ?_⟩ <;>
      simp only [polarFillV, Bool.false_eq_true, if_false, gt_iff_lt, h12, if_true]
    · rw [asg2_outi (by rw [mem_iff]; omega), asg2_outi (by rw [mem_iff]; omega), asg2_outi (by rw [mem_iff]; omega),
        asg2_in ⟨by rw [mem_iff]; omega, hj⟩]
    · rw [asg2_outi (by rw [mem_iff]; omega), asg2_in ⟨by rw [mem_iff]; omega, hj⟩]
    · rw [asg2_outi (by rw [mem_iff]; omega), asg2_outi (by rw [mem_iff]; omega), asg2_in ⟨by rw [mem_iff]; omega, hj⟩,
        asg2_outi (by rw [mem_iff]; omega)]
    · rw [asg2_in ⟨by rw [mem_iff]; omega, hj⟩, asg2_outi (by rw [mem_iff]; omega), asg2_outi (by rw [mem_iff]; omega),
        asg2_outi (by rw [mem_iff]; omega)]
example := C24_polar_vctr_alng (K := ℚ) ⟨0, 6⟩ ⟨0, 8⟩ 2 (poleOf 9) (by decide) (by decide) (by decide) (fun i j => 10 * i + j)

/-- with halo 3 the face in between keeps whatever it held: the exchange does not fill the halo -/
theorem C24_fails_polar_vctr_halo3 (x : ℚ) :
    polarFillV ⟨0, 6⟩ ⟨0, 8⟩ 3 4 false (fun i _ => if i = -2 then x else 0) (-2) 0 = x := by
  simp [polarFillV, asg2_ite, Rng.Mem]

/-- C24, transverse component, left side: mirror image on the opposite meridian -/
theorem C24_polar_vctr_nrml_left_partial (r J : Rng) (halo pole : Int) (hr : halo ≤ r.last - r.first) (a : Int → Int → K) :
    ∀ n j, 0 ≤ n → n < halo → J.Mem j → polarFillN r J halo pole a (r.first - 1 - n) j = a (r.first + n) (polarNb pole j) := by
  intro n j h1 h2 hj
  simp only [polarFillN, asg2_ite, Rng.Mem]
  unfold Rng.Mem at hj
  split_ifs <;> first | omega | rfl | (congr 1; omega)
example := C24_polar_vctr_nrml_left_partial (K := ℚ) ⟨0, 6⟩ ⟨0, 8⟩ 2 (poleOf 9) (by decide) (fun i j => 10 * i + j)

/-- C24 fails for the transverse component on the right side: it is mirrored one row off -/
theorem C24_fails_polar_vctr_nrml_right :
    polarFillN ⟨0, 6⟩ ⟨0, 8⟩ 1 4 (fun i _ => (i : ℚ)) (6 + 1 + 0) 0 = (fun i _ => (i : ℚ)) (6 - 1) (polarNb 4 0) ∧
    polarFillN ⟨0, 6⟩ ⟨0, 8⟩ 1 4 (fun i _ => (i : ℚ)) (6 + 1 + 0) 0 ≠ (fun i _ => (i : ℚ)) (6 - 0) (polarNb 4 0) := by decide +kernel

end Mpdata
