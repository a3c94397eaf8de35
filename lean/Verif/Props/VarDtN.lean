import Verif.Model.VarDtN
import Verif.Props.VarDt
import Verif.Props.WallN
/-! # C06 in two and three dimensions: the start-up of the adaptive time loop for a steady advector -/
set_option linter.unusedSectionVars false
namespace Mpdata
variable {n : Nat} {K : Type} [Field K] [LinearOrder K] [IsStrictOrderedRing K]

/-- C06: in 3-D the measured Courant number bounds that of every cell of the subdomain, and is attained. -/
theorem C06_courant_is_max_3d (o : OptsT) (G : Int → Int → Int → K) (cells : List (Int × Int × Int)) (hne : cells ≠ []) (GC0 GC1 GC2 : Int → Int → Int → K) :
    (∀ c ∈ cells, 1 / 2 * (|GC0 c.1 c.2.1 c.2.2 + GC0 (c.1 - 1) c.2.1 c.2.2| + |GC1 c.1 c.2.1 c.2.2 + GC1 c.1 (c.2.1 - 1) c.2.2|
        + |GC2 c.1 c.2.1 c.2.2 + GC2 c.1 c.2.1 (c.2.2 - 1)|) / gFac3 o 0 G c.1 c.2.1 c.2.2 ≤ courant3 o G cells GC0 GC1 GC2) ∧
    ∃ c ∈ cells, courant3 o G cells GC0 GC1 GC2
        = 1 / 2 * (|GC0 c.1 c.2.1 c.2.2 + GC0 (c.1 - 1) c.2.1 c.2.2| + |GC1 c.1 c.2.1 c.2.2 + GC1 c.1 (c.2.1 - 1) c.2.2|
        + |GC2 c.1 c.2.1 c.2.2 + GC2 c.1 c.2.1 (c.2.2 - 1)|) / gFac3 o 0 G c.1 c.2.1 c.2.2 :=
  ⟨(maxOver_le cells hne _ (courant3 o G cells GC0 GC1 GC2)).1 le_rfl, maxOver_mem cells hne _⟩

/-- C06: the same for the Courant number of a solver with any number of dimensions: the average over the two faces of a cell in each dimension, added up, divided by G. -/
theorem C06_courant_is_max (o : OptsT) (G : Sca n K) (cells : List (Idx n)) (hne : cells ≠ []) (GC : Vec n K) :
    (∀ x ∈ cells, 1 / 2 * (∑ d, |GC d x + GC d (stepIdx x d (-1))|) / gFacN o G x ≤ courantN o G cells GC) ∧
    ∃ x ∈ cells, courantN o G cells GC = 1 / 2 * (∑ d, |GC d x + GC d (stepIdx x d (-1))|) / gFacN o G x :=
  ⟨(maxOver_le cells hne _ (courantN o G cells GC)).1 le_rfl, maxOver_mem cells hne _⟩

/-! ### halo filling commutes with scaling -/

/-- every face that the along-exchange leaves behind holds, up to a sign, the value of a face between two cells of the domain -/
theorem bcV_source (wall : Fin n → Bool) (b : Fin n → Rng) (H : Int) (d : Fin n) (hH : H ≤ (b d).last - (b d).first) (x : Idx n) (hx : RA b H d x) :
    ∃ (s : K) (y : Idx n), RI b d y ∧ (∀ B : Sca n K, bcV wall b H d (fun _ => 0) (fun _ => 0) false B x = s * B y) ∧
      (∀ e, e ≠ d → y e = x e) := by
  have hxd := hx d
  simp only [if_true] at hxd
  have hother : ∀ e, e ≠ d → (b e).first - 0 ≤ x e ∧ x e ≤ (b e).last + 0 := by
    intro e he; have := hx e; simpa only [if_neg he] using this
  have hOt : Ot b d (fun _ => 0) (fun _ => 0) x := hother
  have hRI : ∀ k : Int, (b d).first ≤ x d + k → x d + k ≤ (b d).last - 1 → RI b d (stepIdx x d k) := by
    intro k h1 h2 e
    by_cases he : e = d
    · subst he; rw [stepIdx_self]; simp only [if_true]; omega
    · rw [stepIdx_other _ he]; simp only [if_neg he]; exact hother e he
  have hOk : ∀ k : Int, ∀ e, e ≠ d → stepIdx x d k e = x e := fun k e he => stepIdx_other _ he _
  by_cases hR : (b d).last ≤ x d
  · by_cases hw : wall d = true
    · refine ⟨-1, stepIdx x d (2 * ((b d).last - x d) - 1), hRI _ (by omega) (by omega), fun B => ?_, hOk _⟩
      simp only [bcV, hw, if_true, rigV, asgN, Bool.false_eq_true, if_false]
      rw [if_pos ⟨⟨by omega, by omega⟩, hOt⟩, if_neg (fun hc => by have := hc.1; rw [stepIdx_self] at this; omega), add_zero]
      ring
    · refine ⟨1, stepIdx x d (-((b d).last - (b d).first)), hRI _ (by omega) (by omega), fun B => ?_, hOk _⟩
      simp only [bcV, hw, cycV, asgN, Bool.false_eq_true, if_false]
      rw [if_pos ⟨⟨by omega, by omega⟩, hOt⟩, if_neg (fun hc => by have := hc.1; rw [stepIdx_self] at this; omega), one_mul]
  · by_cases hL : x d ≤ (b d).first - 1
    · by_cases hw : wall d = true
      · refine ⟨-1, stepIdx x d (2 * ((b d).first - x d) - 1), hRI _ (by omega) (by omega), fun B => ?_, hOk _⟩
        simp only [bcV, hw, if_true, rigV, asgN, Bool.false_eq_true, if_false]
        rw [if_neg (fun hc => by have := hc.1; omega), if_pos ⟨⟨by omega, by omega⟩, hOt⟩]
        ring
      · refine ⟨1, stepIdx x d ((b d).last - (b d).first), hRI _ (by omega) (by omega), fun B => ?_, hOk _⟩
        simp only [bcV, hw, cycV, asgN, Bool.false_eq_true, if_false]
        rw [if_neg (fun hc => by have := hc.1; omega), if_pos ⟨⟨by omega, by omega⟩, hOt⟩, one_mul]
    · refine ⟨1, stepIdx x d 0, hRI _ (by omega) (by omega), fun B => ?_, hOk _⟩
      by_cases hw : wall d = true
      · simp only [bcV, hw, if_true, rigV, asgN, Bool.false_eq_true, if_false, stepIdx_zero]
        rw [if_neg (fun hc => by have := hc.1; omega), if_neg (fun hc => by have := hc.1; omega), one_mul]
      · simp only [bcV, hw, cycV, asgN, Bool.false_eq_true, if_false, stepIdx_zero]
        rw [if_neg (fun hc => by have := hc.1; omega), if_neg (fun hc => by have := hc.1; omega), one_mul]

/-- scaling the faces `scale_gc` scales and filling the halos is filling the halos and scaling every face -/
theorem bcXchngA_scale (wall : Fin n → Bool) (b : Fin n → Rng) (H : Int) (h0 : 1 ≤ H) (hH : ∀ d, H ≤ (b d).last - (b d).first) (q : K) (A : Vec n K) (d : Fin n)
    (x : Idx n) (hx : RA b H d x) :
    bcXchngA wall b H false (scaleGcN b q (bcXchngA wall b H false A)) d x = bcXchngA wall b H false A d x * q := by
  obtain ⟨s, y, hy, hs, -⟩ := bcV_source (K := K) wall b H d (hH d) x hx
  have hyA : RA b H d y := Bx.mono hy (by widths)
  have hin : ∀ B : Sca n K, bcV wall b H d (fun _ => 0) (fun _ => 0) false B y = B y := by
    intro B
    have hyd := hy d
    simp only [if_true] at hyd
    by_cases hw : wall d = true
    · simp only [bcV, hw, if_true, rigV, asgN, Bool.false_eq_true, if_false]
      rw [if_neg (fun hc => by have := hc.1; omega), if_neg (fun hc => by have := hc.1; omega)]
    · simp only [bcV, hw, cycV, asgN, Bool.false_eq_true, if_false]
      rw [if_neg (fun hc => by have := hc.1; omega), if_neg (fun hc => by have := hc.1; omega)]
  show bcV wall b H d _ _ false (scaleGcN b q (bcXchngA wall b H false A) d) x = bcV wall b H d _ _ false (A d) x * q
  rw [hs, hs]
  have : scaleGcN b q (bcXchngA wall b H false A) d y = A d y * q := by
    unfold scaleGcN asgN
    rw [if_pos (Bx.mono hy (by widths))]
    show bcV wall b H d _ _ false (A d) y * q = _
    rw [hin]
  rw [this]; ring

/-- C06 (steady advector in any number of dimensions, each bounded by rigid walls or cyclic): if the Courant number is positive, the start-up hook chooses `dt` and rescales
the advector such that the maximum Courant number measured afterwards is exactly `max_courant`, the new `dt` is positive, and every face, in the halo of its own dimension too,
holds the old (halo-filled) value times `dt_new/dt_old`. -/
theorem C06_steady_courant_exact (o : OptsT) (G : Sca n K) (wall : Fin n → Bool) (b : Fin n → Rng) (halo : Int) (h0 : 1 ≤ halo)
    (hh : ∀ d, halo ≤ (b d).last - (b d).first) (cells : List (Idx n)) (hcells : ∀ x ∈ cells, ∀ d, (b d).first ≤ x d ∧ x d ≤ (b d).last)
    (mc dt : K) (hmc : 0 < mc) (hdt : 0 < dt) (GC : Vec n K) (hpos : 0 < courantN o G cells (bcXchngA wall b halo false GC)) :
    let res := anteLoopVarDtN o G b halo cells (bcXchngA wall b halo false) (bcXchngN wall b halo) mc dt GC
    courantN o G cells res.2 = mc ∧ 0 < res.1 ∧
      ∀ d x, RA b halo d x → res.2 d x = bcXchngA wall b halo false GC d x * (res.1 / dt) := by
  have hgt : courantN o G cells (bcXchngA wall b halo false GC) > 0 := hpos
  simp only [anteLoopVarDtN, if_pos hgt]
  generalize hc : courantN o G cells (bcXchngA wall b halo false GC) = cfl at *
  have hr : dt * (mc / cfl) / dt = mc / cfl := by field_simp
  have hval : ∀ d x, RA b halo d x →
      bcXchngN wall b halo (halo - 1) (bcXchngA wall b halo false (scaleGcN b (dt * (mc / cfl) / dt) (bcXchngA wall b halo false GC))) d x
        = bcXchngA wall b halo false GC d x * (dt * (mc / cfl) / dt) := by
    intro d x hx
    rw [bcXchngN_same _ _ _ _ (fun e he => by have := hx e; simp only [if_neg he] at this; omega), bcXchngA_scale wall b halo h0 hh _ _ d x hx]
  refine ⟨?_, by positivity, hval⟩
  have : courantN o G cells (bcXchngN wall b halo (halo - 1) (bcXchngA wall b halo false (scaleGcN b (dt * (mc / cfl) / dt) (bcXchngA wall b halo false GC))))
      = courantN o G cells (bcXchngA wall b halo false GC) * (mc / cfl) := by
    unfold courantN
    rw [← maxOver_smul _ _ _ (by positivity)]
    apply maxOver_congr
    intro x hxc
    have hxm := hcells x hxc
    have e : ∀ d, |bcXchngN wall b halo (halo - 1) (bcXchngA wall b halo false (scaleGcN b (dt * (mc / cfl) / dt) (bcXchngA wall b halo false GC))) d x
        + bcXchngN wall b halo (halo - 1) (bcXchngA wall b halo false (scaleGcN b (dt * (mc / cfl) / dt) (bcXchngA wall b halo false GC))) d (stepIdx x d (-1))|
        = |bcXchngA wall b halo false GC d x + bcXchngA wall b halo false GC d (stepIdx x d (-1))| * (mc / cfl) := by
      intro d
      rw [hval d x, hval d (stepIdx x d (-1)), hr, ← add_mul, abs_mul, abs_of_pos (div_pos hmc hpos)]
      · intro e
        have := hxm e
        by_cases he : e = d
        · subst he; rw [stepIdx_self]; simp only [if_true]; omega
        · rw [stepIdx_other _ he]; simp only [if_neg he]; omega
      · intro e
        have := hxm e
        by_cases he : e = d
        · subst he; simp only [if_true]; omega
        · simp only [if_neg he]; omega
    simp only [e, ← Finset.sum_mul]
    ring
  rw [this, hc]
  field_simp

/-! ### the run that follows -/

theorem ContV.smul {wall : Fin n → Bool} {P : Fin n → Nat} {A : Vec n K} (h : ContV wall P A) (q : K) : ContV wall P (fun d x => A d x * q) where
  cyc c x d hw := by simp only [h.cyc c x d hw]
  per c x d hw := by simp only [h.per c x d hw]
  odd x d hw := by simp only [h.odd x d hw, neg_mul]
  even c x d hcd hw := by simp only [h.even c x d hcd hw]

/-- a run that starts with all advector halos filled -/
theorem wallN_run_filled {wall : Fin n → Bool} {c : CfgN n K} {p : SpecN.Par n K} {P : Fin n → Nat} {ds : List (Fin n)} (h : WallSetupN wall c p P ds)
    (hF : FGood p.o p.F) (hM : FMir p.F) (hf : isset c.o oFct = false) (hn : 1 ≤ c.nIters) (hx : HaloCovered c.o c.nIters)
    (filt : Nat → Bool) {psi0 : Sca n K} {GC : Vec n K} (h0 : ContS wall P psi0) (hg : ContV wall P GC) (m : MemN n K)
    (hpsi : ∀ x, InGrid P x → m.psi x = psi0 x) (hGC : ∀ d, AgN (RG c.box (solverHalo c.o) d) (m.GC d) (GC d)) (t : Nat) :
    ∀ x, InGrid P x → (runProgN c filt t m).psi x = SpecN.run p c.nIters filt GC t psi0 x := by
  induction t with
  | zero => exact hpsi
  | succ t ih =>
    unfold runProgN SpecN.run
    have := wallN_step (h.filt (filt t)) hF hM hf hn hx (specN_run_cont hF hM h.par c.nIters filt h0 hg t) hg
      (runProgN c filt t m) (fun x hx => ih x ((wall_cellBox_iff h x).1 hx))
      (by rw [runProgN_GC]; exact hGC)
    intro x hx
    exact this x ((wall_cellBox_iff h x).2 hx)

/-- the advector left by the start-up hooks agrees, in all halos, with the continued advector times `dt_new/dt_old` -/
theorem varDt_prep {wall : Fin n → Bool} {c : CfgN n K} {p : SpecN.Par n K} {P : Fin n → Nat} {ds : List (Fin n)} (h : WallSetupN wall c p P ds)
    {A GC : Vec n K} (hg : ContV wall P GC) (hGC : ∀ d x, InFaces P d x → A d x = GC d x) (cells : List (Idx n)) (mc dt : K)
    (hpos : 0 < courantN c.o c.st.G cells (c.fillA false A)) (d : Fin n) :
    let res := anteLoopVarDtN c.o c.st.G c.box (solverHalo c.o) cells (c.fillA false) c.fillN mc dt A
    AgN (RG c.box (solverHalo c.o) d) (c.fillN ((solverHalo c.o : Int) - 1) res.2 d) (fun x => GC d x * (res.1 / dt)) := by
  have hgh := solverHalo_ge c.o
  have hHP : ∀ d, (solverHalo c.o : Int) ≤ P d := fun d => by exact_mod_cast h.hhP d
  have hgt : courantN c.o c.st.G cells (c.fillA false A) > 0 := hpos
  simp only [anteLoopVarDtN, if_pos hgt]
  rw [h.hA, h.hN]
  have hHb : ∀ d, ((solverHalo c.o : Nat) : Int) ≤ (c.box d).last - (c.box d).first := fun d => by rw [h.hbox]; simpa using hHP d
  have h1 := bcXchngA_agree h.hbox hHP (A := A) hg (fun d x hx => hGC d x (by
    refine ⟨?_, ?_⟩
    · rw [← wall_cellBox_iff h]; exact Bx.mono hx (by widths)
    · have := hx d; rw [h.hbox] at this; simp only [if_true] at this; omega))
  generalize dt * (mc / courantN c.o c.st.G cells (bcXchngA wall c.box (solverHalo c.o) false A)) / dt = q
  have h2 : ∀ d, AgN (RA c.box (solverHalo c.o) d)
      (bcXchngA wall c.box (solverHalo c.o) false (scaleGcN c.box q (bcXchngA wall c.box (solverHalo c.o) false A)) d) (fun x => GC d x * q) := by
    intro d x hx
    rw [bcXchngA_scale wall c.box _ (by omega) hHb q A d x hx, h1 d x hx]
  have h3 := fun d => bcXchngN_agree h.hbox hHP ((solverHalo c.o : Int) - 1) (by omega) (by omega) (hg.smul q)
    (fun d => (h2 d).mono (fun x hx => Bx.mono hx (by widths))) d
  have h4 := bcXchngN_agree h.hbox hHP ((solverHalo c.o : Int) - 1) (by omega) (by omega) (hg.smul q)
    (fun d => (h3 d).mono (fun x hx => Bx.mono hx (by widths))) d
  exact h4.mono (fun x hx => Bx.mono hx (by widths))

theorem varDt_run {wall : Fin n → Bool} {c : CfgN n K} {p : SpecN.Par n K} {P : Fin n → Nat} {ds : List (Fin n)} (h : WallSetupN wall c p P ds)
    (hF : FGood p.o p.F) (hM : FMir p.F) (hf : isset c.o oFct = false) (hn : 1 ≤ c.nIters) (hx : HaloCovered c.o c.nIters)
    (filt : Nat → Bool) {psi0 : Sca n K} {GC : Vec n K} (h0 : ContS wall P psi0) (hg : ContV wall P GC)
    (m : MemN n K) (hpsi : ∀ x, InGrid P x → m.psi x = psi0 x) (hGC : ∀ d x, InFaces P d x → m.GC d x = GC d x)
    (cells : List (Idx n)) (hcells : ∀ x ∈ cells, InGrid P x) (mc dt : K) (hdt : 0 < dt) (hpos : 0 < courantN c.o c.st.G cells GC) (t : Nat) :
    ∀ x, InGrid P x → (runProgN c filt t (startVarDt c cells mc dt m)).psi x
      = SpecN.run p c.nIters filt (fun d x => GC d x * (mc / courantN c.o c.st.G cells GC)) t psi0 x := by
  have hgh := solverHalo_ge c.o
  have hHP : ∀ d, (solverHalo c.o : Int) ≤ P d := fun d => by exact_mod_cast h.hhP d
  have h1 := bcXchngA_agree h.hbox hHP (A := m.GC) hg (fun d x hx => hGC d x (by
    refine ⟨?_, ?_⟩
    · rw [← wall_cellBox_iff h]; exact Bx.mono hx (by widths)
    · have := hx d; rw [h.hbox] at this; simp only [if_true] at this; omega))
  have hc : courantN c.o c.st.G cells (c.fillA false m.GC) = courantN c.o c.st.G cells GC := by
    rw [h.hA]
    unfold courantN
    apply maxOver_congr
    intro x hxc
    have hxm := hcells x hxc
    congr 2
    refine Finset.sum_congr rfl (fun d _ => ?_)
    rw [h1 d x, h1 d (stepIdx x d (-1))]
    · intro e
      have := hxm e
      by_cases he : e = d
      · subst he; rw [stepIdx_self, h.hbox]; simp only [if_true]; omega
      · rw [stepIdx_other _ he, h.hbox]; simp only [if_neg he]; omega
    · intro e
      have := hxm e
      by_cases he : e = d
      · subst he; rw [h.hbox]; simp only [if_true]; omega
      · rw [h.hbox]; simp only [if_neg he]; omega
  have hp := varDt_prep h hg hGC cells mc dt (by rw [hc]; exact hpos)
  have hq : (anteLoopVarDtN c.o c.st.G c.box (solverHalo c.o) cells (c.fillA false) c.fillN mc dt m.GC).1 / dt = mc / courantN c.o c.st.G cells GC := by
    unfold anteLoopVarDtN
    simp only [hc]
    rw [if_pos hpos]
    field_simp
  simp only [hq] at hp
  exact wallN_run_filled h hF hM hf hn hx filt h0 (hg.smul _) (startVarDt c cells mc dt m) hpsi hp t

/-- C06 (steady advector, 2-D): after the start-up with `var_dt`, any number of time steps computes what the scheme of the specification computes with the advector of the
user times `max_courant / (Courant number of the user's advector)`, on the whole grid: the time step that was chosen is the one that is used. Rigid walls or cyclic
boundaries; without fct. -/
theorem C06_steady_run_2d (wall : Fin 2 → Bool) (c : CfgN 2 K) (p : SpecN.Par 2 K) (P : Fin 2 → Nat) (h : Walled2 wall c p P) (hf : isset c.o oFct = false)
    (hn : 1 ≤ c.nIters) (hx : HaloCovered c.o c.nIters) (filt : Nat → Bool) {psi0 : Sca 2 K} {GC : Vec 2 K} (h0 : ContS wall P psi0) (hg : ContV wall P GC)
    (m : MemN 2 K) (hpsi : ∀ x, InGrid P x → m.psi x = psi0 x) (hGC : ∀ d x, InFaces P d x → m.GC d x = GC d x)
    (cells : List (Idx 2)) (hcells : ∀ x, x ∈ cells ↔ InGrid P x) (mc dt : K) (hdt : 0 < dt) (hpos : 0 < courantN c.o c.st.G cells GC) (t : Nat) :
    ∀ x, InGrid P x → (runProgN c filt t (startVarDt c cells mc dt m)).psi x
      = SpecN.run p c.nIters filt (fun d x => GC d x * (mc / courantN c.o c.st.G cells GC)) t psi0 x :=
  varDt_run h.setup h.good h.mir hf hn hx filt h0 hg m hpsi hGC cells (fun x => (hcells x).1) mc dt hdt hpos t

/-- C06 (steady advector, 3-D): the same in three dimensions. -/
theorem C06_steady_run_3d (wall : Fin 3 → Bool) (c : CfgN 3 K) (p : SpecN.Par 3 K) (P : Fin 3 → Nat) (h : Walled3 wall c p P) (hf : isset c.o oFct = false)
    (hn : 1 ≤ c.nIters) (hx : HaloCovered c.o c.nIters) (filt : Nat → Bool) {psi0 : Sca 3 K} {GC : Vec 3 K} (h0 : ContS wall P psi0) (hg : ContV wall P GC)
    (m : MemN 3 K) (hpsi : ∀ x, InGrid P x → m.psi x = psi0 x) (hGC : ∀ d x, InFaces P d x → m.GC d x = GC d x)
    (cells : List (Idx 3)) (hcells : ∀ x, x ∈ cells ↔ InGrid P x) (mc dt : K) (hdt : 0 < dt) (hpos : 0 < courantN c.o c.st.G cells GC) (t : Nat) :
    ∀ x, InGrid P x → (runProgN c filt t (startVarDt c cells mc dt m)).psi x
      = SpecN.run p c.nIters filt (fun d x => GC d x * (mc / courantN c.o c.st.G cells GC)) t psi0 x :=
  varDt_run h.setup h.good h.mir hf hn hx filt h0 hg m hpsi hGC cells (fun x => (hcells x).1) mc dt hdt hpos t

/-! ### Concrete instances -/

/-- hypotheses met: a 2-D grid of 5 × 5 points, cyclic in the first and walled in the second dimension, Courant numbers 1/2 and 0: the measured Courant number is 1/2 -/
example : courantN 0 (fun _ => (1 : ℚ)) [![0, 0], ![1, 2], ![4, 4]] (bcXchngA ![false, true] (fun _ => ⟨0, 4⟩) 2 false (fun d _ => if d = 0 then 1/2 else 0)) = 1/2 ∧
    0 < courantN 0 (fun _ => (1 : ℚ)) [![0, 0], ![1, 2], ![4, 4]] (bcXchngA ![false, true] (fun _ => ⟨0, 4⟩) 2 false (fun d _ => if d = 0 then 1/2 else 0)) := by
  decide +kernel

/-- and the start-up with `max_courant = 1/4`, `dt = 3` leaves `dt = 3/2` and the first component 1/4, also in the halo -/
example :
    let res := anteLoopVarDtN 0 (fun _ => (1 : ℚ)) (fun _ => ⟨0, 4⟩) 2 [![0, 0], ![1, 2], ![4, 4]] (bcXchngA ![false, true] (fun _ => ⟨0, 4⟩) 2 false)
        (bcXchngN ![false, true] (fun _ => ⟨0, 4⟩) 2) (1/4) 3 (fun d _ => if d = 0 then 1/2 else 0)
    res.1 = 3/2 ∧ res.2 0 ![5, 2] = 1/4 ∧ res.2 0 ![2, -1] = 1/4 := by
  decide +kernel

/-- the list of all points of a grid exists, so that the last hypothesis on `cells` can be met -/
example (P : Fin 2 → Nat) : ∃ cells : List (Idx 2), ∀ x, x ∈ cells ↔ InGrid P x :=
  ⟨(gridPts P).toList, fun x => by simp [gridPts, InGrid]⟩

end Mpdata
