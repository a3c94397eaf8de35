import Verif.Lemmas.AdvopN
/-! # Refinement of the N-D array program to a memory-free recursion, for any boundary conditions -/
set_option linter.unusedSectionVars false
namespace Mpdata
variable {n : Nat} {K : Type} [Field K] [LinearOrder K]

/-- memory-free description: parameters and extension operators standing for the boundary conditions -/
structure RefN (n : Nat) (K : Type) where
  p : SpecN.Par n K
  extS : Sca n K → Sca n K
  extA : Bool → Vec n K → Vec n K
  extN : Vec n K → Vec n K

/-- antidiffusive velocity of corrective pass `k ≥ 1` out of `N`, extended where the program extends it -/
def RefN.vel (r : RefN n K) (N k : Nat) (psi old : Sca n K) (U : Vec n K) : Vec n K :=
  let A := SpecN.velocity r.p psi old U
  if isset r.p.o oFct then r.extN (r.extA true A)
  else if k != N - 1 then (if isset r.p.o oDfl then r.extA false (r.extN A) else r.extN A) else A

def RefN.passes (r : RefN n K) (N : Nat) (psi0 : Sca n K) (GC : Vec n K) : Nat → SpecN.State n K
  | 0 => ⟨SpecN.first r.p (r.extS psi0) GC, r.extS psi0, GC⟩
  | k + 1 =>
    let s := r.passes N psi0 GC k
    let psi := r.extS s.psi
    let A := r.vel N (k + 1) psi s.old s.U
    ⟨SpecN.corrective r.p (r.extS psi0) psi A, psi, A⟩

/-! ### regions -/
/-- all cells including halos -/
def RS (b : Fin n → Rng) (H : Int) : Idx n → Prop := Bx b (fun _ => H) (fun _ => H)
/-- faces of dimension `d` with halos in dimension `d` -/
def RA (b : Fin n → Rng) (H : Int) (d : Fin n) : Idx n → Prop := Bx b (fun e => if e = d then H else 0) (fun e => if e = d then H - 1 else 0)
/-- faces of dimension `d` with one halo in the other dimensions -/
def RN (b : Fin n → Rng) (d : Fin n) : Idx n → Prop := Bx b (fun _ => 1) (fun e => if e = d then 0 else 1)
/-- faces of dimension `d` with all halos -/
def RG (b : Fin n → Rng) (H : Int) (d : Fin n) : Idx n → Prop := Bx b (fun _ => H) (fun e => if e = d then H - 1 else H)
/-- faces of dimension `d` between two cells of the subdomain -/
def RI (b : Fin n → Rng) (d : Fin n) : Idx n → Prop := Bx b (fun _ => 0) (fun e => if e = d then -1 else 0)
/-- cells next to faces of dimension `d` -/
def RZ (b : Fin n → Rng) (d : Fin n) : Idx n → Prop := Bx b (fun e => if e = d then 1 else 0) (fun e => if e = d then 1 else 0)

/-- the memory-level configuration implements the reference one; `ov` says that the exchange of advectors overwrites the faces on the edge of the subdomain -/
structure ImplN (c : CfgN n K) (r : RefN n K) (H : Int) (ov : Prop) (GoodS : Sca n K → Prop) (GoodV : Vec n K → Prop) : Prop where
  ho : c.o = r.p.o
  heps : c.eps = r.p.eps
  hF : c.F = r.p.F
  hloc : FLocal c.o c.F
  hG : AgN (RS c.box H) c.st.G r.p.st.G
  hndt : ∀ d, AgN (RG c.box H d) (c.st.ndt d) (r.p.st.ndt d)
  hndtt : ∀ d, AgN (RG c.box H d) (c.st.ndtt d) (r.p.st.ndtt d)
  hhalo : (mpdataHalo c.o : Int) ≤ H
  hhalo2 : isset c.o oFct = true → 2 ≤ H
  hS : ∀ a b, GoodS b → AgN (cellBox c.box) a b → AgN (RS c.box H) (c.fillS a) (r.extS b)
  hA : ∀ ad a b, GoodV b → (∀ d, AgN (faceBox c.box d) (a d) (b d)) → ∀ d, AgN (RA c.box H d) (c.fillA ad a d) (r.extA ad b d)
  hAo : ov → ∀ ad a b, GoodV b → (∀ d, AgN (RI c.box d) (a d) (b d)) → ∀ d, AgN (RA c.box H d) (c.fillA ad a d) (r.extA ad b d)
  hA' : ∀ ad a b, GoodV b → (∀ d, AgN (RN c.box d) (a d) (b d)) → ∀ d, AgN (RN c.box d) (c.fillA ad a d) (r.extA ad b d)
  hN : ∀ a b, GoodV b → (∀ d, AgN (faceBox c.box d) (a d) (b d)) → ∀ d, AgN (RN c.box d) (c.fillN 0 a d) (r.extN b d)
  hN' : ∀ a b, GoodV b → (∀ d, AgN (RA c.box H d) (a d) (b d)) → ∀ d, AgN (RA c.box H d) (c.fillN 0 a d) (r.extN b d)
  gA : ∀ ad b, GoodV b → GoodV (r.extA ad b)
  gN : ∀ b, GoodV b → GoodV (r.extN b)

section
variable {c : CfgN n K} {r : RefN n K} {H : Int} {ov : Prop} {GoodS : Sca n K → Prop} {GoodV : Vec n K → Prop}

theorem gcCorrN_set (iter : Nat) (m : MemN n K) (a : Vec n K) : gcCorrN iter (setCorrN iter m a) = a := by
  unfold gcCorrN setCorrN; split <;> rfl
@[simp] theorem setCorrN_psi (iter : Nat) (m : MemN n K) (a : Vec n K) : (setCorrN iter m a).psi = m.psi := by unfold setCorrN; split <;> rfl
@[simp] theorem setCorrN_GC (iter : Nat) (m : MemN n K) (a : Vec n K) : (setCorrN iter m a).GC = m.GC := by unfold setCorrN; split <;> rfl
@[simp] theorem setCorrN_psiN (iter : Nat) (m : MemN n K) (a : Vec n K) : (setCorrN iter m a).psiN = m.psiN := by unfold setCorrN; split <;> rfl
@[simp] theorem setCorrN_psiMin (iter : Nat) (m : MemN n K) (a : Vec n K) : (setCorrN iter m a).psiMin = m.psiMin := by unfold setCorrN; split <;> rfl
@[simp] theorem setCorrN_psiMax (iter : Nat) (m : MemN n K) (a : Vec n K) : (setCorrN iter m a).psiMax = m.psiMax := by unfold setCorrN; split <;> rfl
@[simp] theorem setCorrN_flux (iter : Nat) (m : MemN n K) (a : Vec n K) : (setCorrN iter m a).flux = m.flux := by unfold setCorrN; split <;> rfl

theorem gcUncoN_succ (iter : Nat) (h : 1 ≤ iter) (m : MemN n K) : gcUncoN (iter + 1) m = gcCorrN iter m := by
  unfold gcUncoN gcCorrN
  have : ¬ iter + 1 = 1 := by omega
  rw [if_neg this]
  by_cases h2 : iter % 2 = 1
  · rw [if_pos h2, if_neg (by omega)]
  · rw [if_neg h2, if_pos (by omega)]

/-- psi_min/psi_max hold the extrema of the step's initial field -/
def ExtN (c : CfgN n K) (psi0 : Sca n K) (m : MemN n K) : Prop :=
  isset c.o oFct = true → AgN (cellBox1 c.box) m.psiMax (nbMax psi0) ∧ AgN (cellBox1 c.box) m.psiMin (nbMin psi0)

theorem Bx.step {b : Fin n → Rng} {lo hi lo' hi' : Fin n → Int} {x : Idx n} {d : Fin n} {k : Int} (h : Bx b lo hi x)
    (hd : lo d - k ≤ lo' d ∧ hi d + k ≤ hi' d) (he : ∀ e, e ≠ d → lo e ≤ lo' e ∧ hi e ≤ hi' e) : Bx b lo' hi' (stepIdx x d k) := by
  intro e
  by_cases hed : e = d
  · subst hed; rw [stepIdx_self]; have := h e; omega
  · rw [stepIdx_other _ hed]; have := h e; have := he e hed; omega

theorem Bx.mono {b : Fin n → Rng} {lo hi lo' hi' : Fin n → Int} {x : Idx n} (h : Bx b lo hi x) (he : ∀ e, lo e ≤ lo' e ∧ hi e ≤ hi' e) : Bx b lo' hi' x := by
  intro e; have := h e; have := he e; omega

/-- discharges goals about widths of boxes -/
macro "widths" : tactic => `(tactic| (intros; (try constructor) <;> (try split_ifs) <;> (first | omega | (exfalso; simp_all))))

theorem fctAdjustN_spec (hi : ImplN c r H ov GoodS GoodV) (iter : Nat) (m : MemN n K) (psi0 psi : Sca n K) (A : Vec n K)
    (hpsi : AgN (RS c.box H) m.psi psi) (hA1 : ∀ d, AgN (RA c.box H d) (c.fillA true (gcCorrN iter m) d) (r.extA true A d)) (hgood : GoodV A)
    (hex : ExtN c psi0 m) (hf : isset c.o oFct = true) :
    let m' := fctAdjustN c iter m
    m'.psi = m.psi ∧ m'.psiN = m.psiN ∧ m'.GC = m.GC ∧ m'.psiMin = m.psiMin ∧ m'.psiMax = m.psiMax ∧
    (∀ d, AgN (RA c.box H d) (gcCorrN iter m' d) (r.extN (r.extA true A) d)) ∧
    (∀ d, AgN (RN c.box d) (gcCorrN iter m' d) (r.extN (r.extA true A) d)) ∧
    (∀ d, AgN (faceBox c.box d) (m'.mono d) (SpecN.limited r.p psi0 psi (r.extN (r.extA true A)) d)) := by
  have h2 := hi.hhalo2 hf
  obtain ⟨hmx, hmn⟩ := hex hf
  unfold fctAdjustN
  simp only [hf, if_true, gcCorrN_set]
  have hA1f : ∀ d, AgN (faceBox c.box d) (c.fillA true (gcCorrN iter m) d) (r.extA true A d) := fun d => (hA1 d).mono fun x hx =>
    Bx.mono hx (by widths)
  have hA2 := hi.hN' _ _ (hi.gA true _ hgood) hA1
  have hA3 := hi.hN _ _ (hi.gA true _ hgood) hA1f
  generalize c.fillN 0 (c.fillA true (gcCorrN iter m)) = A' at *
  generalize r.extN (r.extA true A) = B at *
  have hset : ∀ (m1 : MemN n K) (a : Vec n K), setCorrN iter (setCorrN iter m1 a) A' = setCorrN iter m1 A' := by
    intro m1 a; unfold setCorrN; split <;> rfl
  rw [hset]
  have hcorr : ∀ (m1 : MemN n K) (x : Vec n K), gcCorrN iter { (setCorrN iter m1 A') with flux := x } = A' := by
    intro m1 x; unfold gcCorrN setCorrN; split <;> rfl
  generalize hflxdef : (if isset c.o oIga = true then A' else
    (fun d => asgN (faceBox1 c.box d) (makeFluxN c.o m.psi A' d) (m.flux d))) = flx
  have hflxA : ∀ d x, (RA c.box 2 d x ∨ RN c.box d x) → flx d x = (if isset r.p.o oIga = true then B else makeFluxN r.p.o psi B) d x := by
    intro d x hx
    have hAx : A' d x = B d x := by
      rcases hx with hx | hx
      · exact hA2 d x (Bx.mono hx (by widths))
      · exact hA3 d x hx
    rw [← hi.ho, ← hflxdef]
    split
    · exact hAx
    · show asgN (faceBox1 c.box d) (makeFluxN c.o m.psi A' d) (m.flux d) x = _
      have hbox : faceBox1 c.box d x := by
        rcases hx with hx | hx
        · exact Bx.mono hx (by widths)
        · exact Bx.mono hx (by widths)
      rw [asgN_in hbox]
      refine makeFluxN_congr _ (hpsi x (Bx.mono hbox (by widths))) (hpsi _ (Bx.step hbox (by widths) (by widths))) hAx
  -- the two forms of the memory after the flux statement
  generalize hM : (if isset c.o oIga = true then setCorrN iter m A' else
      { (setCorrN iter m A') with flux := fun d => asgN (faceBox1 c.box d) (makeFluxN c.o (setCorrN iter m A').psi A' d) ((setCorrN iter m A').flux d) }) = M
  have hMc : gcCorrN iter M = A' := by
    rw [← hM]; split
    · exact gcCorrN_set _ _ _
    · exact hcorr _ _
  have hMpsi : M.psi = m.psi := by rw [← hM]; split <;> simp
  have hMpsiN : M.psiN = m.psiN := by rw [← hM]; split <;> simp
  have hMGC : M.GC = m.GC := by rw [← hM]; split <;> simp
  have hMmn : M.psiMin = m.psiMin := by rw [← hM]; split <;> simp
  have hMmx : M.psiMax = m.psiMax := by rw [← hM]; split <;> simp
  have hMflx : (if isset c.o oIga = true then gcCorrN iter M else M.flux) = flx := by
    rw [← hflxdef]
    by_cases hg : isset c.o oIga = true
    · rw [if_pos hg, if_pos hg, hMc]
    · rw [if_neg hg, if_neg hg, ← hM, if_neg hg]; simp
  refine ⟨hMpsi, hMpsiN, hMGC, hMmn, hMmx, fun d => by show AgN _ (gcCorrN iter M d) _; rw [hMc]; exact hA2 d,
    fun d => by show AgN _ (gcCorrN iter M d) _; rw [hMc]; exact hA3 d, ?_⟩
  have hZ : ∀ d z, RZ c.box d z → (∀ e, flx e z = (if isset r.p.o oIga = true then B else makeFluxN r.p.o psi B) e z) ∧
      (∀ e, flx e (stepIdx z e (-1)) = (if isset r.p.o oIga = true then B else makeFluxN r.p.o psi B) e (stepIdx z e (-1))) := by
    intro d z hz
    constructor
    · intro e
      apply hflxA
      by_cases hed : e = d
      · subst hed; exact Or.inl (Bx.mono hz (by widths))
      · refine Or.inr (Bx.mono hz ?_)
        intro e'; constructor
        · split_ifs <;> omega
        · split_ifs with h1 h2 <;> first | omega | (subst h1; subst h2; exact absurd rfl hed)
    · intro e
      apply hflxA
      by_cases hed : e = d
      · subst hed; exact Or.inl (Bx.step hz (by widths) (by widths))
      · refine Or.inr (Bx.step hz ?_ (by widths))
        simp [hed]
  have hpsiZ : ∀ d z, RZ c.box d z → m.psi z = psi z ∧ (∀ e, m.psi (stepIdx z e 1) = psi (stepIdx z e 1)) ∧ (∀ e, m.psi (stepIdx z e (-1)) = psi (stepIdx z e (-1))) := by
    intro d z hz
    refine ⟨hpsi z (Bx.mono hz (by widths)), fun e => hpsi _ (Bx.step hz (by widths) (by widths)), fun e => hpsi _ (Bx.step hz (by widths) (by widths))⟩
  have hZ1 : ∀ d z, RZ c.box d z → cellBox1 c.box z := fun d z hz => Bx.mono hz (by widths)
  have eU : ∀ d z, RZ c.box d z → betaUpN c.o c.eps m.psi m.psiMax flx c.st.G z =
      betaUpN r.p.o r.p.eps psi (nbMax psi0) (if isset r.p.o oIga = true then B else makeFluxN r.p.o psi B) r.p.st.G z := by
    intro d z hz
    rw [hi.ho, hi.heps]
    obtain ⟨f0, f1⟩ := hZ d z hz
    obtain ⟨p0, p1, p2⟩ := hpsiZ d z hz
    exact betaUpN_congr _ _ p0 p1 p2 (hmx z (hZ1 d z hz)) (hi.hG z (Bx.mono hz (by widths))) f0 f1
  have eD : ∀ d z, RZ c.box d z → betaDnN c.o c.eps m.psi m.psiMin flx c.st.G z =
      betaDnN r.p.o r.p.eps psi (nbMin psi0) (if isset r.p.o oIga = true then B else makeFluxN r.p.o psi B) r.p.st.G z := by
    intro d z hz
    rw [hi.ho, hi.heps]
    obtain ⟨f0, f1⟩ := hZ d z hz
    obtain ⟨p0, p1, p2⟩ := hpsiZ d z hz
    exact betaDnN_congr _ _ p0 p1 p2 (hmn z (hZ1 d z hz)) (hi.hG z (Bx.mono hz (by widths))) f0 f1
  intro d x hx
  have z0 : RZ c.box d x := Bx.mono hx (by widths)
  have z1 : RZ c.box d (stepIdx x d 1) := Bx.step hx (by simp) (by widths)
  show asgN (faceBox c.box d) (gcMonoN c.o M.psi
    (asgN (cellBox1 c.box) (betaUpN c.o c.eps M.psi M.psiMax (if isset c.o oIga = true then gcCorrN iter M else M.flux) c.st.G) M.bUp)
    (asgN (cellBox1 c.box) (betaDnN c.o c.eps M.psi M.psiMin (if isset c.o oIga = true then gcCorrN iter M else M.flux) c.st.G) M.bDn)
    (gcCorrN iter M) d) (M.mono d) x = _
  rw [hMflx, hMc, hMpsi, hMmn, hMmx, asgN_in hx]
  unfold SpecN.limited
  rw [hi.ho] at eU eD ⊢
  refine gcMonoN_congr _ (hpsiZ d x z0).1 (hpsiZ d _ z1).1 (hA3 d x (Bx.mono hx (by widths))) ?_ ?_ ?_ ?_
  · rw [asgN_in (hZ1 d x z0)]; exact eU d x z0
  · rw [asgN_in (hZ1 d _ z1)]; exact eU d _ z1
  · rw [asgN_in (hZ1 d x z0)]; exact eD d x z0
  · rw [asgN_in (hZ1 d _ z1)]; exact eD d _ z1

/-- the halo exchanges of the program are sufficient for these options and number of passes: at most two passes, or no third-order divergence form and, without FCT, no
second-order divergence form -/
def HaloCoveredN (o : OptsT) (nIters : Nat) : Prop :=
  nIters ≤ 2 ∨ (isset o oDiv3 = false ∧ (isset o oFct = true ∨ isset o oDiv2 = false))

/-- the same, knowing whether the exchange of advectors overwrites the faces on the edge of the subdomain (as the cyclic one does): then FCT covers everything -/
def CoverN (ov : Prop) (o : OptsT) (nIters : Nat) : Prop := HaloCoveredN o nIters ∨ (ov ∧ isset o oFct = true)

/-- where the velocity to be corrected in pass `k` must be known -/
def RU (c : CfgN n K) (H : Int) (k : Nat) (d : Fin n) (x : Idx n) : Prop :=
  if k = 1 then RG c.box H d x else RN c.box d x ∨ ((isset c.o oFct = true ∨ isset c.o oDfl = true) ∧ RA c.box H d x)

/-- loop invariant before corrective iteration `k ≥ 1`, with `s = passes (k-1)` -/
structure LoopInvN (c : CfgN n K) (H : Int) (psi0 : Sca n K) (k : Nat) (s : SpecN.State n K) (m : MemN n K) : Prop where
  hpsi : AgN (cellBox c.box) m.psiN s.psi
  hold : AgN (RS c.box H) m.psi s.old
  hU : ∀ d, AgN (RU c H k d) (gcUncoN k m d) (s.U d)
  hex : ExtN c psi0 m

theorem haloN_pos (hi : ImplN c r H ov GoodS GoodV) : 1 ≤ H := by
  have := hi.hhalo; have := mpdataHalo_ge c.o; omega

theorem flux_lastN (hi : ImplN c r H ov GoodS GoodV) (iter : Nat) (m : MemN n K) (psi : Sca n K) (C : Vec n K)
    (hpsi : AgN (RS c.box H) m.psi psi) (hC : ∀ d, AgN (faceBox c.box d) (gcUsedN c.o iter m d) (C d)) :
    let m' := if !isset c.o oIga || iter == 0
      then { m with flux := fun d => asgN (faceBox c.box d) (makeFluxN c.o m.psi (gcUsedN c.o iter m) d) (m.flux d) } else m
    let flx := if !isset c.o oIga || iter == 0 then m'.flux else gcUsedN c.o iter m'
    AgN (cellBox c.box) (c.F.donor m'.psi flx c.st.G)
      (r.p.F.donor psi (if !isset r.p.o oIga || iter == 0 then makeFluxN r.p.o psi C else C) r.p.st.G) := by
  have h0 := haloN_pos hi
  intro m' flx x hx
  rw [← hi.ho, ← hi.hF]
  have hm' : m'.psi = m.psi := by simp only [m']; split <;> rfl
  rw [hm']
  have key : ∀ d z, faceBox c.box d z → flx d z = (if (!isset c.o oIga || iter == 0) = true then makeFluxN c.o psi C else C) d z := by
    intro d z hz
    simp only [flx, m']
    split
    · show asgN (faceBox c.box d) (makeFluxN c.o m.psi (gcUsedN c.o iter m) d) (m.flux d) z = _
      rw [asgN_in hz]
      exact makeFluxN_congr _ (hpsi z (Bx.mono hz (by widths))) (hpsi _ (Bx.step hz (by widths) (by widths))) (hC d z hz)
    · exact hC d z hz
  exact hi.hloc.donor _ _ _ _ _ _ x (hpsi x (Bx.mono hx (by widths))) (hi.hG x (Bx.mono hx (by widths)))
    (fun d => key d x (Bx.mono hx (by widths))) (fun d => key d _ (Bx.step hx (by simp) (by widths)))

/-- the antidiffusive velocity is right on all faces of the subdomain -/
theorem velN_agree (hi : ImplN c r H ov GoodS GoodV) (N k : Nat) (hkN : k < N) (hx : HaloCoveredN c.o N) (hk : 1 ≤ k)
    (psi psi' old old' : Sca n K) (U U' : Vec n K) (hp : AgN (RS c.box H) psi psi') (hold : AgN (RS c.box H) old old')
    (hU : ∀ d, AgN (RU c H k d) (U d) (U' d)) (d : Fin n) :
    AgN (faceBox c.box d) (c.F.vel d c.st psi old U) (SpecN.velocity r.p psi' old' U' d) := by
  have h0 := haloN_pos hi
  have hh := hi.hhalo
  have hr := mpdataHalo_ge c.o
  intro x hxf
  unfold SpecN.velocity
  rw [← hi.hF]
  have hnear : ∀ q : Int, 0 ≤ q → q ≤ H - 1 → ∀ y, Near q d x y → RS c.box H y := by
    intro q hq hq' y hy e
    have := hxf e
    by_cases hed : e = d
    · subst hed; have := hy.1; simp only [if_true] at *; omega
    · have := hy.2 e hed; simp only [if_neg hed] at *; omega
  have hV0 : ∀ e y, NearV 0 d x e y → RN c.box e y := by
    intro e y hy f
    have hf := hxf f
    rcases hy with ⟨rfl, h1, h2⟩ | ⟨hne, h1, h2, h3⟩
    · by_cases hfe : f = e
      · subst hfe; simp only [if_true] at *; omega
      · have := h2 f hfe; simp only [if_neg hfe] at *; omega
    · by_cases hfd : f = d
      · subst hfd; simp only [if_true, if_neg (Ne.symm hne)] at *; omega
      · by_cases hfe : f = e
        · subst hfe; simp only [if_true, if_neg hfd] at *; omega
        · have := h3 f hfd hfe; simp only [if_neg hfd, if_neg hfe] at *; omega
  have hV1 : 2 ≤ H → ∀ e y, NearV 1 d x e y → RN c.box e y ∨ RA c.box H e y := by
    intro h2H e y hy
    rcases hy with ⟨rfl, h1, h2⟩ | hy
    · right
      intro f
      have hf := hxf f
      by_cases hfe : f = e
      · subst hfe; simp only [if_true] at *; omega
      · have := h2 f hfe; simp only [if_neg hfe] at *; omega
    · left; exact hV0 e y (Or.inr hy)
  have hRNG : ∀ e y, RN c.box e y → RG c.box H e y := fun e y h => Bx.mono h (by widths)
  have hRAG : ∀ e y, RA c.box H e y → RG c.box H e y := fun e y h => Bx.mono h (by widths)
  have hD : 2 ≤ H → ∀ e y, NearD d x e y → RG c.box H e y := by
    intro h2H e y hy f
    have hf := hxf f
    rcases hy with ⟨rfl, h1, h2⟩ | ⟨hne, h1, h2⟩
    · by_cases hfe : f = e
      · subst hfe; simp only [if_true] at *; omega
      · have := h2 f hfe; simp only [if_neg hfe] at *; omega
    · by_cases hfd : f = d
      · subst hfd; simp only [if_true, if_neg (Ne.symm hne)] at *; omega
      · by_cases hfe : f = e
        · subst hfe; simp only [if_true, if_neg hfd] at *; omega
        · have : x f - 1 ≤ y f ∧ y f ≤ x f + 1 := by
            rcases h2 with h2 | h2
            · exact h2.2 f hfd hfe
            · have := h2.2 f hfd hfe; omega
          simp only [if_neg hfd, if_neg hfe] at *; omega
  have hwide : gcWide c.o = 0 ∨ (gcWide c.o = 1 ∧ 2 ≤ H) := by
    unfold gcWide
    split
    · rename_i hw
      right
      refine ⟨rfl, ?_⟩
      have : mpdataHalo c.o = 2 := by
        simp only [Bool.or_eq_true] at hw
        rcases hw with (hw | hw) | hw <;> simp [mpdataHalo, hw]
      omega
    · left; rfl
  have hndtH : hasNdt c.o = true → 2 ≤ H := by
    intro hn
    have : mpdataHalo c.o = 2 := by
      unfold hasNdt at hn
      rw [Bool.or_eq_true] at hn
      rcases hn with hn | hn <;> simp [mpdataHalo, hn]
    omega
  refine hi.hloc.vel d _ _ _ _ _ _ _ _ x (fun y hy => hp y (hnear _ (by omega) (by omega) y hy)) (fun y hy => hold y (hnear _ (by omega) (by omega) y hy))
    (fun y hy => hi.hG y (hnear _ (by omega) (by omega) y hy)) ?_ ?_ ?_
  · intro e y hy
    apply hU
    unfold RU
    by_cases hk1 : k = 1
    · rw [if_pos hk1]
      rcases hy with hy | ⟨h3, hy⟩
      · rcases hwide with hw | ⟨hw, h2⟩
        · rw [hw] at hy; exact hRNG e y (hV0 e y hy)
        · rw [hw] at hy
          rcases hV1 h2 e y hy with h | h
          · exact hRNG e y h
          · exact hRAG e y h
      · refine hD ?_ e y hy
        exact hndtH (by unfold hasNdt; rw [h3]; rfl)
    · rw [if_neg hk1]
      rcases hx with hx | ⟨hx3, hx2⟩
      · omega
      · rcases hy with hy | ⟨h3, hy⟩
        · rcases hwide with hw | ⟨hw, h2⟩
          · rw [hw] at hy; exact Or.inl (hV0 e y hy)
          · have hw' : (isset c.o oDfl || isset c.o oDiv2 || isset c.o oDiv3) = true := by
              by_contra hc; unfold gcWide at hw; rw [if_neg hc] at hw; omega
            rw [hw] at hy
            rcases hV1 h2 e y hy with h | h
            · exact Or.inl h
            · refine Or.inr ⟨?_, h⟩
              rw [hx3, Bool.or_false, Bool.or_eq_true] at hw'
              rcases hx2 with h | h
              · exact Or.inl h
              · rw [h] at hw'; simpa using Or.inr hw'
        · rw [hx3] at h3; exact absurd h3 (by simp)
  · intro hn e y hy
    rcases hV1 (hndtH hn) e y hy with h | h
    · exact hi.hndt e y (hRNG e y h)
    · exact hi.hndt e y (hRAG e y h)
  · intro hn
    exact hi.hndtt d x (Bx.mono hxf (by widths))

theorem faceBox_RN (b : Fin n → Rng) (d : Fin n) (x : Idx n) (h : faceBox b d x) : RN b d x := Bx.mono h (by widths)
theorem faceBox_RA (b : Fin n → Rng) {H : Int} (hH : 1 ≤ H) (d : Fin n) (x : Idx n) (h : faceBox b d x) : RA b H d x := Bx.mono h (by widths)

/-- with FCT, the antidiffusive velocity is right on the faces between two cells of the subdomain for all options and any number of passes -/
theorem velN_agree_in (hi : ImplN c r H ov GoodS GoodV) (k : Nat) (hk : 1 ≤ k) (hfct : isset c.o oFct = true)
    (psi psi' old old' : Sca n K) (U U' : Vec n K) (hp : AgN (RS c.box H) psi psi') (hold : AgN (RS c.box H) old old')
    (hU : ∀ d, AgN (RU c H k d) (U d) (U' d)) (d : Fin n) :
    AgN (RI c.box d) (c.F.vel d c.st psi old U) (SpecN.velocity r.p psi' old' U' d) := by
  by_cases hk1 : k = 1
  · subst hk1
    exact (velN_agree hi 2 1 (by omega) (Or.inl le_rfl) hk _ _ _ _ _ _ hp hold hU d).mono fun x hx => Bx.mono hx (by widths)
  have h2H := hi.hhalo2 hfct
  have hh := hi.hhalo
  have hr := mpdataHalo_ge c.o
  intro x hxf
  unfold SpecN.velocity
  rw [← hi.hF]
  have hnear : ∀ q : Int, 0 ≤ q → q ≤ H - 1 → ∀ y, Near q d x y → RS c.box H y := by
    intro q hq hq' y hy e
    have := hxf e
    by_cases hed : e = d
    · subst hed; have := hy.1; simp only [if_true] at *; omega
    · have := hy.2 e hed; simp only [if_neg hed] at *; omega
  have hV : ∀ w : Int, 0 ≤ w → w ≤ 1 → ∀ e y, NearV w d x e y → RN c.box e y := by
    intro w hw0 hw1 e y hy f
    have hf := hxf f
    rcases hy with ⟨rfl, h1, h2⟩ | ⟨hne, h1, h2, h3⟩
    · by_cases hfe : f = e
      · subst hfe; simp only [if_true] at *; omega
      · have := h2 f hfe; simp only [if_neg hfe] at *; omega
    · by_cases hfd : f = d
      · subst hfd; simp only [if_true, if_neg (Ne.symm hne)] at *; omega
      · by_cases hfe : f = e
        · subst hfe; simp only [if_true, if_neg hfd] at *; omega
        · have := h3 f hfd hfe; simp only [if_neg hfd, if_neg hfe] at *; omega
  have hRNG : ∀ e y, RN c.box e y → RG c.box H e y := fun e y h => Bx.mono h (by widths)
  have hD : ∀ e y, NearD d x e y → RN c.box e y ∨ RA c.box H e y := by
    intro e y hy
    rcases hy with ⟨rfl, h1, h2⟩ | ⟨hne, h1, (⟨h2, h3⟩ | ⟨h2, h3⟩)⟩
    · left
      intro f
      have hf := hxf f
      by_cases hfe : f = e
      · subst hfe; simp only [if_true] at *; omega
      · have := h2 f hfe; simp only [if_neg hfe] at *; omega
    · left
      intro f
      have hf := hxf f
      by_cases hfd : f = d
      · subst hfd; simp only [if_true, if_neg (Ne.symm hne)] at *; omega
      · by_cases hfe : f = e
        · subst hfe; simp only [if_true, if_neg hfd] at *; omega
        · have := h3 f hfd hfe; simp only [if_neg hfd, if_neg hfe] at *; omega
    · right
      intro f
      have hf := hxf f
      by_cases hfd : f = d
      · subst hfd; simp only [if_true, if_neg (Ne.symm hne)] at *; omega
      · by_cases hfe : f = e
        · subst hfe; simp only [if_true, if_neg hfd] at *; omega
        · have := h3 f hfd hfe; simp only [if_neg hfd, if_neg hfe] at *; omega
  have hwide : 0 ≤ gcWide c.o ∧ gcWide c.o ≤ 1 := by unfold gcWide; split <;> omega
  refine hi.hloc.vel d _ _ _ _ _ _ _ _ x (fun y hy => hp y (hnear _ (by omega) (by omega) y hy)) (fun y hy => hold y (hnear _ (by omega) (by omega) y hy))
    (fun y hy => hi.hG y (hnear _ (by omega) (by omega) y hy)) ?_ ?_ ?_
  · intro e y hy
    apply hU
    unfold RU
    rw [if_neg hk1]
    rcases hy with hy | ⟨_, hy⟩
    · exact Or.inl (hV _ hwide.1 hwide.2 e y hy)
    · rcases hD e y hy with h | h
      · exact Or.inl h
      · exact Or.inr ⟨Or.inl hfct, h⟩
  · intro hn e y hy
    exact hi.hndt e y (hRNG e y (hV 1 (by omega) (by omega) e y hy))
  · intro hn
    exact hi.hndtt d x (Bx.mono hxf (by widths))

theorem advIterN_corr (hi : ImplN c r H ov GoodS GoodV) (N k : Nat) (hk : 1 ≤ k) (hN : c.nIters = N) (hkN : k < N)
    (psi0 : Sca n K) (s : SpecN.State n K) (m : MemN n K) (hx : CoverN ov c.o N)
    (hgs : GoodS s.psi) (hgv : GoodV (SpecN.velocity r.p (r.extS s.psi) s.old s.U)) (hinv : LoopInvN c H psi0 k s m) :
    let psi := r.extS s.psi
    let A := r.vel N k psi s.old s.U
    let m' := advIterN c k m
    AgN (cellBox c.box) m'.psiN (SpecN.corrective r.p psi0 psi A) ∧
    (k + 1 < N → LoopInvN c H psi0 (k + 1) ⟨SpecN.corrective r.p psi0 psi A, psi, A⟩ m') := by
  obtain ⟨i1, i2, i3, i4⟩ := hinv
  have hh := haloN_pos hi
  intro psi A m'
  have hk0 : k ≠ 0 := by omega
  have hk0' : (k == 0) = false := by simpa using hk0
  -- memory after cycle and halo exchange
  generalize hm1 : ({ m with psi := c.fillS m.psiN, psiN := m.psi } : MemN n K) = m1
  have e1 : AgN (RS c.box H) m1.psi psi := by rw [← hm1]; exact hi.hS _ _ hgs i1
  have eo : AgN (RS c.box H) m1.psiN s.old := by rw [← hm1]; exact i2
  have e2 : ∀ d, AgN (RU c H k d) (gcUncoN k m1 d) (s.U d) := by rw [← hm1]; exact i3
  have e3 : ExtN c psi0 m1 := by rw [← hm1]; exact i4
  have eA : HaloCoveredN c.o N → ∀ d, AgN (faceBox c.box d) (asgN (faceBox c.box d) (c.F.vel d c.st m1.psi m1.psiN (gcUncoN k m1)) (gcCorrN k m1 d))
      (SpecN.velocity r.p psi s.old s.U d) := fun hx d => asgN_agree (velN_agree hi N k hkN hx hk _ _ _ _ _ _ e1 eo e2 d)
  have eI : isset c.o oFct = true → ∀ d, AgN (RI c.box d) (asgN (faceBox c.box d) (c.F.vel d c.st m1.psi m1.psiN (gcUncoN k m1)) (gcCorrN k m1 d))
      (SpecN.velocity r.p psi s.old s.U d) := fun hf d x hxI => by
    rw [asgN_in (show faceBox c.box d x from Bx.mono hxI (by widths))]
    exact velN_agree_in hi k hk hf _ _ _ _ _ _ e1 eo e2 d x hxI
  generalize hA1 : (fun d => asgN (faceBox c.box d) (c.F.vel d c.st m1.psi m1.psiN (gcUncoN k m1)) (gcCorrN k m1 d) : Vec n K) = A1
  have eA : HaloCoveredN c.o N → ∀ d, AgN (faceBox c.box d) (A1 d) (SpecN.velocity r.p psi s.old s.U d) := by rw [← hA1]; exact eA
  have eI : isset c.o oFct = true → ∀ d, AgN (RI c.box d) (A1 d) (SpecN.velocity r.p psi s.old s.U d) := by rw [← hA1]; exact eI
  generalize hm2 : setCorrN k m1 A1 = m2
  have c2 : gcCorrN k m2 = A1 := by rw [← hm2]; exact gcCorrN_set k m1 A1
  have p2 : m2.psi = m1.psi := by rw [← hm2]; simp
  have x2 : ExtN c psi0 m2 := by
    intro hf; have := e3 hf; rw [← hm2]; simpa using this
  -- memory after the corrective velocity has been computed
  generalize hm3 : corrIterN c k m = m3
  have hm3' : m3 = fctAdjustN c k (if (!isset c.o oFct && k != c.nIters - 1) = true then
      (if isset c.o oDfl = true then setCorrN k (setCorrN k m2 (c.fillN 0 (gcCorrN k m2))) (c.fillA false (gcCorrN k (setCorrN k m2 (c.fillN 0 (gcCorrN k m2)))))
        else setCorrN k m2 (c.fillN 0 (gcCorrN k m2))) else m2) := by
    rw [← hm3, ← hm2, ← hA1, ← hm1]; rfl
  have main : AgN (RS c.box H) m3.psi psi ∧ ExtN c psi0 m3 ∧
      (∀ d, AgN (faceBox c.box d) (gcUsedN c.o k m3 d) ((if isset r.p.o oFct = true then SpecN.limited r.p psi0 psi A else A) d)) ∧
      (k + 1 < N → ∀ d, AgN (RU c H (k + 1) d) (gcCorrN k m3 d) (A d)) := by
    cases hf : isset c.o oFct with
    | true =>
      rw [hf] at hm3'
      simp only [Bool.not_true, Bool.false_and, Bool.false_eq_true, if_false] at hm3'
      have hfs := fctAdjustN_spec hi k m2 psi0 psi (SpecN.velocity r.p psi s.old s.U) (by rw [p2]; exact e1)
        (by
          rw [c2]
          rcases hx with hx | ⟨hov, _⟩
          · exact hi.hA true _ _ hgv (eA hx)
          · exact hi.hAo hov true _ _ hgv (eI hf)) hgv x2 hf
      obtain ⟨q1, q2, q3, q4, q5, q6, q6', q7⟩ := hfs
      rw [← hm3'] at q1 q2 q3 q4 q5 q6 q6' q7
      have hAeq : A = r.extN (r.extA true (SpecN.velocity r.p psi s.old s.U)) := by
        simp only [A, RefN.vel, ← hi.ho, hf, if_true]
      refine ⟨by rw [q1, p2]; exact e1, ?_, ?_, ?_⟩
      · intro hf'; have := x2 hf'; rw [q4, q5]; exact this
      · intro d
        simp only [gcUsedN, hk0, hf, ← hi.ho, if_true, if_false, hAeq]; exact q7 d
      · intro _ d x hx
        unfold RU at hx
        rw [if_neg (by omega)] at hx
        rw [hAeq]
        rcases hx with hx | ⟨_, hx⟩
        · exact q6' d x hx
        · exact q6 d x hx
    | false =>
      have hadj : ∀ m : MemN n K, fctAdjustN c k m = m := by intro m; simp [fctAdjustN, hf]
      have eA := eA (by
        rcases hx with hx | ⟨_, hx⟩
        · exact hx
        · rw [hf] at hx; exact absurd hx (by simp))
      rw [hf, hadj, hN] at hm3'
      simp only [Bool.not_false, Bool.true_and] at hm3'
      have hxm : ∀ m' : MemN n K, ExtN c psi0 m' := by
        intro m' hf'; rw [hf] at hf'; exact absurd hf' (by simp)
      have hused : ∀ d, gcUsedN c.o k m3 d = gcCorrN k m3 d := by
        intro d; simp only [gcUsedN, hk0, hf, if_false, Bool.false_eq_true]
      have hro : isset r.p.o oFct = false := by rw [← hi.ho]; exact hf
      by_cases hlast : (k != N - 1) = true
      · rw [if_pos hlast] at hm3'
        have n1 := hi.hN _ _ hgv eA
        have n2 : isset c.o oDfl = true → ∀ d, AgN (RA c.box H d) (c.fillA false (c.fillN 0 A1) d) (r.extA false (r.extN (SpecN.velocity r.p psi s.old s.U)) d) :=
          fun _ => hi.hA false _ _ (hi.gN _ hgv) (fun d => (n1 d).mono (faceBox_RN _ d))
        have n3 := hi.hA' false _ _ (hi.gN _ hgv) n1
        by_cases hd : isset c.o oDfl = true
        · rw [if_pos hd] at hm3'
          have hc3 : gcCorrN k m3 = c.fillA false (c.fillN 0 A1) := by
            rw [hm3', gcCorrN_set, gcCorrN_set, c2]
          have hAeq : A = r.extA false (r.extN (SpecN.velocity r.p psi s.old s.U)) := by
            simp only [A, RefN.vel, hlast, ← hi.ho, hf, hd, if_true, Bool.false_eq_true, if_false]
          refine ⟨by rw [hm3']; simpa [p2] using e1, hxm _, ?_, ?_⟩
          · intro d
            rw [hused, hc3, hro, hAeq]
            exact (n3 d).mono (faceBox_RN _ d)
          · intro _ d x hx
            unfold RU at hx
            rw [if_neg (by omega)] at hx
            rw [hc3, hAeq]
            rcases hx with hx | ⟨_, hx⟩
            · exact n3 d x hx
            · exact n2 hd d x hx
        · rw [if_neg hd] at hm3'
          have hc3 : gcCorrN k m3 = c.fillN 0 A1 := by
            rw [hm3', gcCorrN_set, c2]
          have hAeq : A = r.extN (SpecN.velocity r.p psi s.old s.U) := by
            have hd' : ¬ isset r.p.o oDfl = true := by rw [← hi.ho]; exact hd
            simp only [A, RefN.vel, hro, hlast, if_true, Bool.false_eq_true, if_false, if_neg hd']
          refine ⟨by rw [hm3']; simpa [p2] using e1, hxm _, ?_, ?_⟩
          · intro d
            rw [hused, hc3, hro, hAeq]
            exact (n1 d).mono (faceBox_RN _ d)
          · intro _ d x hx
            unfold RU at hx
            rw [if_neg (by omega)] at hx
            rw [hc3, hAeq]
            rcases hx with hx | ⟨hx, _⟩
            · exact n1 d x hx
            · rcases hx with hx | hx
              · rw [hf] at hx; exact absurd hx (by simp)
              · exact absurd hx hd
      · rw [if_neg hlast] at hm3'
        have hAeq : A = SpecN.velocity r.p psi s.old s.U := by
          simp only [A, RefN.vel, hro, Bool.false_eq_true, if_false, if_neg hlast]
        refine ⟨by rw [hm3', p2]; exact e1, hxm _, ?_, ?_⟩
        · intro d
          rw [hused, hm3', c2, hro, hAeq]; exact eA d
        · intro hk1
          exfalso; apply hlast; simp; omega
  obtain ⟨r1, r2, r3, r4⟩ := main
  have hfl := flux_lastN hi k m3 psi _ r1 r3
  simp only [hk0', Bool.or_false] at hfl
  have hcor : r.p.F.donor psi (if (!isset r.p.o oIga) = true then makeFluxN r.p.o psi (if isset r.p.o oFct = true then SpecN.limited r.p psi0 psi A else A)
      else (if isset r.p.o oFct = true then SpecN.limited r.p psi0 psi A else A)) r.p.st.G = SpecN.corrective r.p psi0 psi A := by
    unfold SpecN.corrective
    cases isset r.p.o oIga <;> simp
  rw [hcor] at hfl
  have hm' : m' = { (if (!isset c.o oIga) = true then { m3 with flux := fun d => asgN (faceBox c.box d) (makeFluxN c.o m3.psi (gcUsedN c.o k m3) d) (m3.flux d) } else m3) with
      psiN := asgN (cellBox c.box) (c.F.donor (if (!isset c.o oIga) = true then { m3 with flux := fun d => asgN (faceBox c.box d) (makeFluxN c.o m3.psi (gcUsedN c.o k m3) d) (m3.flux d) } else m3).psi
        (if (!isset c.o oIga) = true then (if (!isset c.o oIga) = true then { m3 with flux := fun d => asgN (faceBox c.box d) (makeFluxN c.o m3.psi (gcUsedN c.o k m3) d) (m3.flux d) } else m3).flux
          else gcUsedN c.o k (if (!isset c.o oIga) = true then { m3 with flux := fun d => asgN (faceBox c.box d) (makeFluxN c.o m3.psi (gcUsedN c.o k m3) d) (m3.flux d) } else m3)) c.st.G)
        (if (!isset c.o oIga) = true then { m3 with flux := fun d => asgN (faceBox c.box d) (makeFluxN c.o m3.psi (gcUsedN c.o k m3) d) (m3.flux d) } else m3).psiN } := by
    simp only [m', advIterN, hk0, ne_eq, not_false_eq_true, if_true, hk0', Bool.or_false, hm3]
  generalize hm4 : (if (!isset c.o oIga) = true then { m3 with flux := fun d => asgN (faceBox c.box d) (makeFluxN c.o m3.psi (gcUsedN c.o k m3) d) (m3.flux d) } else m3) = m4 at hm' hfl
  have f1 : m4.psi = m3.psi := by rw [← hm4]; split <;> rfl
  have f2 : gcCorrN k m4 = gcCorrN k m3 := by rw [← hm4]; split <;> rfl
  have f3 : m4.psiMin = m3.psiMin := by rw [← hm4]; split <;> rfl
  have f4 : m4.psiMax = m3.psiMax := by rw [← hm4]; split <;> rfl
  have hres : AgN (cellBox c.box) m'.psiN (SpecN.corrective r.p psi0 psi A) := by
    rw [hm']; exact asgN_agree hfl
  refine ⟨hres, fun hk1 => ⟨hres, ?_, ?_, ?_⟩⟩
  · rw [hm']; show AgN _ m4.psi _; rw [f1]; exact r1
  · rw [gcUncoN_succ k hk, hm']
    intro d
    show AgN _ (gcCorrN k m4 d) _
    rw [f2]; exact r4 hk1 d
  · intro hf'
    have := r2 hf'
    rw [hm']
    show AgN _ m4.psiMax _ ∧ AgN _ m4.psiMin _
    rw [f3, f4]; exact this

/-- the loop of corrective passes -/
theorem advLoopN_spec (hi : ImplN c r H ov GoodS GoodV) (N : Nat) (hN : c.nIters = N) (hfil : c.filter = false) (psi0 : Sca n K) (GC : Vec n K)
    (hx : CoverN ov c.o N)
    (hgs : ∀ j, GoodS (r.passes N psi0 GC j).psi)
    (hgv : ∀ j, GoodV (SpecN.velocity r.p (r.extS (r.passes N psi0 GC j).psi) (r.passes N psi0 GC j).old (r.passes N psi0 GC j).U)) :
    ∀ (q k : Nat) (m : MemN n K), 1 ≤ k → k + q = N → 1 ≤ q → LoopInvN c H (r.extS psi0) k (r.passes N psi0 GC (k - 1)) m →
      AgN (cellBox c.box) (advLoopN c q k m).psiN (r.passes N psi0 GC (N - 1)).psi := by
  intro q
  induction q with
  | zero => intro k m _ _ h; omega
  | succ q ih =>
    intro k m hk hkq _ hinv
    have h := advIterN_corr hi N k hk hN (by omega) (r.extS psi0) _ m hx (hgs (k - 1)) (hgv (k - 1)) hinv
    have hst : (⟨SpecN.corrective r.p (r.extS psi0) (r.extS (r.passes N psi0 GC (k - 1)).psi)
        (r.vel N k (r.extS (r.passes N psi0 GC (k - 1)).psi) (r.passes N psi0 GC (k - 1)).old (r.passes N psi0 GC (k - 1)).U),
        r.extS (r.passes N psi0 GC (k - 1)).psi,
        r.vel N k (r.extS (r.passes N psi0 GC (k - 1)).psi) (r.passes N psi0 GC (k - 1)).old (r.passes N psi0 GC (k - 1)).U⟩ : SpecN.State n K)
        = r.passes N psi0 GC k := by
      obtain ⟨k', rfl⟩ : ∃ k', k = k' + 1 := ⟨k - 1, by omega⟩
      rfl
    simp only [hst] at h
    have hst' := congrArg SpecN.State.psi hst
    simp only at hst'
    rw [hst'] at h
    simp only [advLoopN, hfil, Bool.false_eq_true, if_false]
    cases q with
    | zero =>
      have : N - 1 = k := by omega
      rw [this]; exact h.1
    | succ q =>
      exact ih (k + 1) _ (by omega) (by omega) (by omega) (h.2 (by omega))

/-- a whole advection step of the program computes the memory-free scheme -/
theorem advanceN_spec (hi : ImplN c r H ov GoodS GoodV) (hN1 : 1 ≤ c.nIters) (m : MemN n K) (psi0 : Sca n K) (GC : Vec n K)
    (hx : CoverN ov c.o c.nIters) (hpsi : AgN (cellBox c.box) m.psi psi0) (hGC : ∀ d, AgN (RG c.box H d) (m.GC d) (GC d)) (hg0 : GoodS psi0)
    (hgs : ∀ j, GoodS (r.passes c.nIters psi0 GC j).psi)
    (hgv : ∀ j, GoodV (SpecN.velocity r.p (r.extS (r.passes c.nIters psi0 GC j).psi) (r.passes c.nIters psi0 GC j).old (r.passes c.nIters psi0 GC j).U)) :
    AgN (cellBox c.box) (advanceN c m).psi (r.passes c.nIters psi0 GC ((if c.filter then 1 else c.nIters) - 1)).psi := by
  have hh := haloN_pos hi
  have e0 := hi.hS _ _ hg0 hpsi
  unfold advanceN
  show AgN _ (advLoopN c c.nIters 0 (fctInitN c { m with psi := c.fillS m.psi })).psiN _
  generalize hm1 : fctInitN c { m with psi := c.fillS m.psi } = m1
  have p1 : m1.psi = c.fillS m.psi := by rw [← hm1]; unfold fctInitN; split <;> rfl
  have g1 : m1.GC = m.GC := by rw [← hm1]; unfold fctInitN; split <;> rfl
  have x1 : ExtN c (r.extS psi0) m1 := by
    intro hf
    have h2 := hi.hhalo2 hf
    rw [← hm1]; unfold fctInitN; rw [if_pos hf]
    constructor
    · intro x hx
      show asgN _ _ _ x = _
      rw [asgN_in hx]
      exact nbMax_congr (e0 x (Bx.mono hx (by widths))) (fun d => e0 _ (Bx.step hx (by widths) (by widths))) (fun d => e0 _ (Bx.step hx (by widths) (by widths)))
    · intro x hx
      show asgN _ _ _ x = _
      rw [asgN_in hx]
      exact nbMin_congr (e0 x (Bx.mono hx (by widths))) (fun d => e0 _ (Bx.step hx (by widths) (by widths))) (fun d => e0 _ (Bx.step hx (by widths) (by widths)))
  obtain ⟨q, hq⟩ : ∃ q, c.nIters = q + 1 := ⟨c.nIters - 1, by omega⟩
  have hused : ∀ d, AgN (faceBox c.box d) (gcUsedN c.o 0 m1 d) (GC d) := by
    intro d
    simp only [gcUsedN, if_true, g1]
    exact (hGC d).mono fun x hx => Bx.mono hx (by widths)
  have hfl := flux_lastN hi 0 m1 (r.extS psi0) GC (by rw [p1]; exact e0) hused
  have hm2 : AgN (cellBox c.box) (advIterN c 0 m1).psiN (SpecN.first r.p (r.extS psi0) GC) ∧ (advIterN c 0 m1).psi = m1.psi ∧ (advIterN c 0 m1).GC = m1.GC ∧
      (advIterN c 0 m1).psiMin = m1.psiMin ∧ (advIterN c 0 m1).psiMax = m1.psiMax := by
    unfold advIterN
    simp only [ne_eq, not_true_eq_false, if_false, beq_self_eq_true, Bool.or_true, if_true] at hfl ⊢
    exact ⟨asgN_agree hfl, trivial, trivial, trivial, trivial⟩
  cases hfil : c.filter with
  | true =>
    rw [hq]
    simp only [advLoopN, hfil, if_true]
    exact hm2.1
  | false =>
  rw [hq]
  simp only [advLoopN, hfil, Bool.false_eq_true, if_false]
  cases q with
  | zero => exact hm2.1
  | succ q =>
    have := advLoopN_spec hi c.nIters rfl hfil psi0 GC hx hgs hgv (q + 1) 1 (advIterN c 0 m1) (by omega) (by omega) (by omega) ?_
    · rw [hq] at this; exact this
    · refine ⟨hm2.1, ?_, ?_, ?_⟩
      · rw [hm2.2.1, p1]; exact e0
      · intro d x hx
        unfold RU at hx
        rw [if_pos rfl] at hx
        show (if (1 : Nat) = 1 then (advIterN c 0 m1).GC else _) d x = GC d x
        rw [if_pos rfl, hm2.2.2.1, g1]
        exact hGC d x hx
      · intro hf
        have := x1 hf
        rw [hm2.2.2.2.1, hm2.2.2.2.2]; exact this

end
end Mpdata
