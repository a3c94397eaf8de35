import Verif.Props.Fills
import Verif.Props.HaloN
/-! # C20 for every combination of boundary kinds
The three exchanges of a solver with any kind of boundary on each side of each dimension are local in the sense of `LocalBcN`. -/
set_option linter.unusedSectionVars false
namespace Mpdata
variable {n : Nat} [NeZero n] {K : Type} [Field K] [LinearOrder K]

/-- the vectors agree on all faces that touch the domain -/
def AgF (B : Bnd n) (A A' : Vec n K) : Prop := ∀ c x, faceBox B.b c x → A c x = A' c x

theorem faceBox_mk (B : Bnd n) {c : Fin n} {x : Idx n} (h : B.f c - 1 ≤ x c ∧ x c ≤ B.l c) (ho : ∀ e, e ≠ c → B.f e ≤ x e ∧ x e ≤ B.l e) : faceBox B.b c x := by
  intro e
  show (B.b e).first - (if e = c then 1 else 0) ≤ x e ∧ x e ≤ (B.b e).last + 0
  by_cases he : e = c
  · subst he; rw [if_pos rfl]; have h1 : (B.b e).first - 1 ≤ x e ∧ x e ≤ (B.b e).last := h; omega
  · rw [if_neg he]; have h1 : (B.b e).first ≤ x e ∧ x e ≤ (B.b e).last := ho e he; omega

theorem zeroRim_pt (B : Bnd n) (d : Fin n) (i : Int) (A A' : Vec n K) (e : Fin n) (x : Idx n) (h : A e x = A' e x) : zeroRim B d i A e x = zeroRim B d i A' e x := by
  unfold zeroRim
  split
  · unfold asgN; split
    · rfl
    · exact h
  · exact h

theorem stage_agree (B : Bnd n) (d : Fin n) (z : Vec n K → Vec n K) (hz : ∀ (A A' : Vec n K) e x, A e x = A' e x → z A e x = z A' e x) (P : Idx n → Prop) [DecidablePred P]
    (val : Vec n K → Sca n K) (hval : ∀ A A', AgF B A A' → ∀ x, P x → val A x = val A' x) {A A' : Vec n K} (h : AgF B A A') (c : Fin n) (x : Idx n)
    (hx : A c x = A' c x ∨ (c = d ∧ P x)) :
    Function.update (z A) d (asgN P (val (z A)) (z A d)) c x = Function.update (z A') d (asgN P (val (z A')) (z A' d)) c x := by
  have hb : AgF B (z A) (z A') := fun c x hx => hz _ _ c x (h c x hx)
  by_cases hc : c = d
  · subst hc
    simp only [Function.update_self]
    by_cases hP : P x
    · rw [asgN_of hP, asgN_of hP]; exact hval _ _ hb x hP
    · rw [asgN_of_not hP, asgN_of_not hP]
      exact hz _ _ c x (hx.resolve_right (fun h => hP h.2))
  · simp only [Function.update_of_ne hc]
    exact hz _ _ c x (hx.resolve_right (fun h => hc h.1))

theorem transverse_agF (B : Bnd n) {d : Fin n} {A A' : Vec n K} (h : AgF B A A') {y : Idx n} (hy : ∀ e, B.f e ≤ y e ∧ y e ≤ B.l e) : transverse d A y = transverse d A' y := by
  refine transverse_congr d (fun e _ => ⟨h e _ (faceBox_mk B ?_ ?_), h e _ (faceBox_mk B ?_ (fun c _ => hy c))⟩)
  · rw [stepIdx_self]; have := hy e; omega
  · intro c hc; rw [stepIdx_other y hc]; exact hy c
  · have := hy e; omega

theorem fillA_agree (B : Bnd n) (hW : Wide B) (d : Fin n) (ad : Bool) {A A' : Vec n K} (h : AgF B A A') (c : Fin n) (x : Idx n)
    (hx : A c x = A' c x ∨ (c = d ∧ Ot B.b d (fun _ => 0) (fun _ => 0) x ∧ (alngL B d ad (x d) ∨ alngR B d ad (x d)))) : fillA B d ad A c x = fillA B d ad A' c x := by
  have h1 := hW.1
  have hwd := hW.2.1 d
  have hsrc : ∀ {x : Idx n}, Ot B.b d (fun _ => 0) (fun _ => 0) x → ∀ e, e ≠ d → B.f e ≤ x e ∧ x e ≤ B.l e := by
    intro x hO e he
    have : (B.b e).first - 0 ≤ x e ∧ x e ≤ (B.b e).last + 0 := hO e he
    show (B.b e).first ≤ x e ∧ x e ≤ (B.b e).last
    omega
  have hst : ∀ {A A' : Vec n K}, AgF B A A' → ∀ {x : Idx n} (m : Int), Ot B.b d (fun _ => 0) (fun _ => 0) x → B.f d - 1 ≤ x d + m ∧ x d + m ≤ B.l d →
      A d (stepIdx x d m) = A' d (stepIdx x d m) := by
    intro A A' h x m hO hm
    refine h d _ (faceBox_mk B ?_ (fun e he => ?_))
    · rw [stepIdx_self]; exact hm
    · rw [stepIdx_other x he]; exact hsrc hO e he
  have htr : ∀ {A A' : Vec n K}, AgF B A A' → ∀ {x : Idx n} (m : Int), Ot B.b d (fun _ => 0) (fun _ => 0) x → B.f d ≤ x d + m ∧ x d + m ≤ B.l d →
      transverse d A (stepIdx x d m) = transverse d A' (stepIdx x d m) := by
    intro A A' h x m hO hm
    refine transverse_agF B h (fun e => ?_)
    by_cases he : e = d
    · subst he; rw [stepIdx_self]; exact hm
    · rw [stepIdx_other x he]; exact hsrc hO e he
  have hpo : ∀ {A A' : Vec n K}, AgF B A A' → ∀ {x : Idx n} (m : Int), Ot B.b d (fun _ => 0) (fun _ => 0) x → (B.kl d = .polar ∨ B.kr d = .polar) → B.f d ≤ m ∧ m ≤ B.l d →
      A d (acrossPole B d m x) = A' d (acrossPole B d m x) := by
    intro A A' h x m hO hk hm
    have hne : d + 1 ≠ d := (hW.2.2 d hk).1
    have ho := hsrc hO
    have hs := src_pole B hW d hk x m hm (by have := ho _ hne; omega)
    refine h d _ (faceBox_mk B (by have := hs.1; omega) (fun e he => ?_))
    rcases hs.2 e he with h | h
    · rw [h]; exact ho e he
    · exact h
  have hL : ∀ A A' : Vec n K, AgF B A A' → ∀ x, alngL B d ad (x d) ∧ Ot B.b d (fun _ => 0) (fun _ => 0) x → valAL B d A x = valAL B d A' x := by
    rintro A A' h x ⟨hl, hO⟩
    have ho := alngL_out B d ad hl
    have hlo : B.f d - B.halo ≤ x d := by unfold alngL at hl; split at hl <;> omega
    unfold valAL
    split
    · exact hst h _ hO (by omega)
    · rw [hst h _ hO (by omega)]
    · rw [hst h _ hO (by omega)]
    · rw [hst h _ hO (by omega), htr h _ hO (by omega)]
    · rename_i hk
      split
      · exact hpo h _ hO (Or.inl hk) (by omega)
      · rfl
  have hR : ∀ A A' : Vec n K, AgF B A A' → ∀ x, alngR B d ad (x d) ∧ Ot B.b d (fun _ => 0) (fun _ => 0) x → valAR B d ad A x = valAR B d ad A' x := by
    rintro A A' h x ⟨hl, hO⟩
    have ho := alngR_out B d ad hl
    have hhi : x d ≤ B.l d + B.halo - 1 := by unfold alngR at hl; split at hl <;> omega
    have had : (0 : Int) ≤ (if ad then 1 else 0) ∧ (if ad then (1 : Int) else 0) ≤ 1 := by cases ad <;> simp
    unfold valAR
    split
    · exact hst h _ hO (by omega)
    · rw [hst h _ hO (by omega)]
    · rw [hst h _ hO (by omega)]
    · rw [hst h _ hO (by omega), htr h _ hO (by omega)]
    · rename_i hk
      split
      · exact hpo h _ hO (Or.inr hk) (by omega)
      · rfl
  have hz : ∀ (p : Prop) [Decidable p] (i : Int) (A A' : Vec n K) e x, A e x = A' e x → (if p then zeroRim B d i A else A) e x = (if p then zeroRim B d i A' else A') e x := by
    intro p _ i A A' e x h
    split
    · exact zeroRim_pt B d i A A' e x h
    · exact h
  have s1 := fun c x hx => stage_agree B d (fun A => if B.kl d = .opened then zeroRim B d (B.f d) A else A) (hz _ _)
    (fun x => alngL B d ad (x d) ∧ Ot B.b d (fun _ => 0) (fun _ => 0) x) (valAL B d) hL h c x hx
  have s2 := stage_agree B d (fun A => if B.kr d = .opened then zeroRim B d (B.l d) A else A) (hz _ _)
    (fun x => alngR B d ad (x d) ∧ Ot B.b d (fun _ => 0) (fun _ => 0) x) (valAR B d ad) hR (fun c x hx => s1 c x (Or.inl (h c x hx))) c x ?_
  · exact s2
  · rcases hx with hx | ⟨hc, hO, hl | hr⟩
    · exact Or.inl (s1 c x (Or.inl hx))
    · exact Or.inl (s1 c x (Or.inr ⟨hc, hl, hO⟩))
    · exact Or.inr ⟨hc, hr, hO⟩

theorem foldA_agree (B : Bnd n) (hW : Wide B) (ad : Bool) (c : Fin n) (x : Idx n) (ds : List (Fin n)) : ∀ {A A' : Vec n K}, AgF B A A' →
    (A c x = A' c x ∨ (c ∈ ds ∧ Ot B.b c (fun _ => 0) (fun _ => 0) x ∧ (alngL B c ad (x c) ∨ alngR B c ad (x c)))) →
    ds.foldl (fun A d => fillA B d ad A) A c x = ds.foldl (fun A d => fillA B d ad A) A' c x := by
  induction ds with
  | nil => intro A A' _ hx; exact hx.resolve_right (fun h => by simpa using h.1)
  | cons d ds ih =>
    intro A A' h hx
    rw [List.foldl_cons, List.foldl_cons]
    refine ih (fun c x hx => fillA_agree B hW d ad h c x (Or.inl (h c x hx))) ?_
    rcases hx with hx | ⟨hm, hO, ha⟩
    · exact Or.inl (fillA_agree B hW d ad h c x (Or.inl hx))
    · by_cases hc : c = d
      · subst hc; exact Or.inl (fillA_agree B hW c ad h c x (Or.inr ⟨rfl, hO, ha⟩))
      · exact Or.inr ⟨by simpa [hc] using hm, hO, ha⟩

/-- a solver whose exchanges are those of the boundary kinds `B`, its halo being the one it allocates -/
structure BcSolver (c : CfgN n K) (B : Bnd n) (ds : List (Fin n)) : Prop where
  box : B.b = c.box
  halo : B.halo = solverHalo c.o
  all : ∀ d, d ∈ ds
  s : ∀ a, c.fillS a = xchngSclr B ds B.halo false a
  a : ∀ ad A, c.fillA ad A = xchngAlng B ad A
  n : ∀ ext A, c.fillN ext A = xchngNrml B ext A

/-- every combination of boundary kinds is local -/
theorem bnd_local (c : CfgN n K) (B : Bnd n) (ds : List (Fin n)) (hB : BcSolver c B ds) (hW : Wide B) (hP : PolarTwo B) : LocalBcN c (solverHalo c.o) := by
  have h1 := hW.1
  rw [← hB.halo]
  constructor
  · intro a b h x hx
    rw [hB.s, hB.s]
    rw [← hB.box] at h hx
    exact C60_sclr_no_stale B hW ds hB.all false a b (fun y hy => h y (fun e => by have := hy e; simpa using this)) (fun e => hx e)
  · intro ad A A' h d x hx
    rw [hB.a, hB.a]
    rw [← hB.box] at h hx
    refine foldA_agree B hW ad d x _ (fun c x hx => h c x hx) ?_
    have hxd : (B.b d).first - B.halo ≤ x d ∧ x d ≤ (B.b d).last + (B.halo - 1) := by simpa using hx d
    have hO : Ot B.b d (fun _ => 0) (fun _ => 0) x := by
      intro e he; simpa [he] using hx e
    by_cases hf : alngL B d ad (x d) ∨ alngR B d ad (x d)
    · exact Or.inr ⟨List.mem_finRange d, hO, hf⟩
    · left
      refine h d x (faceBox_mk B ?_ (fun e he => by have := hO e he; show (B.b e).first ≤ x e ∧ x e ≤ (B.b e).last; simpa using this))
      have hx1 : B.f d - B.halo ≤ x d ∧ x d ≤ B.l d + (B.halo - 1) := hxd
      push Not at hf
      obtain ⟨hl, hr⟩ := hf
      have had : (0 : Int) ≤ (if ad then 1 else 0) ∧ (if ad then (1 : Int) else 0) ≤ 1 := by cases ad <;> simp
      have hp := hP d
      constructor
      · by_contra hc
        apply hl
        unfold alngL
        split
        · omega
        · omega
        · omega
        · omega
        · rename_i hk
          have := hp (Or.inl hk)
          exact Or.inr ⟨by omega, by omega⟩
      · by_contra hc
        apply hr
        unfold alngR
        split
        · omega
        · omega
        · omega
        · omega
        · rename_i hk
          have := hp (Or.inr hk)
          exact Or.inr ⟨by omega, by omega⟩
  · intro ad A A' h d x hx
    rw [hB.a, hB.a]
    rw [← hB.box] at h hx
    refine foldA_agree B hW ad d x _ (fun c x hx => h c x ?_) (Or.inl (h d x hx))
    exact Bx.mono hx (by widths)
  · intro A A' h d x hx
    rw [hB.n, hB.n]
    rw [← hB.box] at h hx
    refine C60_nrml_no_stale B hW le_rfl (by omega) A A' (c := d) (fun y hy => h d y (faceBox_mk B ?_ (fun e he => hy.2 e he))) ⟨?_, fun e he => ?_⟩
    · have := hy.1
      show (B.b d).first - 1 ≤ y d ∧ y d ≤ (B.b d).last
      omega
    · have : (B.b d).first - 1 ≤ x d ∧ x d ≤ (B.b d).last + 0 := by simpa using hx d
      omega
    · have := hx e
      simp only [if_neg he] at this
      omega
  · intro A A' h d x hx
    rw [hB.n, hB.n]
    rw [← hB.box] at h hx
    have ho : ∀ e, e ≠ d → (B.b e).first ≤ x e ∧ x e ≤ (B.b e).last := fun e he => by simpa [he] using hx e
    rw [C60_nrml_keeps_faces B 0 A ho, C60_nrml_keeps_faces B 0 A' ho]
    exact h d x hx

/-- C20, 2-D, every combination of boundary kinds (cyclic, rigid, ground and sky, open, polar, each side of each dimension on its own), partial only in the option sets as
`C20_halo_suffices_2d_partial`: the field after a step depends on nothing but the field inside the domain and the Courant numbers within the allocated halo, whatever the
temporaries, the other time level, the halo of the field and everything beyond contain. -/
theorem C20_halo_suffices_all_bconds_2d_partial (c : CfgN 2 K) (B : Bnd 2) (hB : BcSolver c B [0, 1]) (hW : Wide B) (hP : PolarTwo B) (si : SptlIntrp) (te : TmprlExtrp) (tiny : K)
    (hF : c.F = formulae2 c.o si te tiny) (hfot : isset c.o oFot = true → isset c.o oTot = true ∨ isset c.o oDiv3 = true) (hn : 1 ≤ c.nIters) (hx : HaloCoveredN c.o c.nIters)
    (m m' : MemN 2 K) (hpsi : ∀ x, InDomain c.box x → m.psi x = m'.psi x) (hGC : ∀ d x, HaloFace c.box (solverHalo c.o) d x → m.GC d x = m'.GC d x) :
    ∀ x, InDomain c.box x → (advanceN c m).psi x = (advanceN c m').psi x := by
  intro x hx'
  refine C20_halo_suffices_2d_partial c si te tiny hF hfot (bnd_local c B _ hB hW hP) hn hx m m' (fun x hx => hpsi x (fun e => by simpa using hx e))
    (fun d x hx => hGC d x ⟨by have := hx d; simp only [if_true] at this; omega, fun e he => by simpa [he] using hx e⟩) x (fun e => by simpa using hx' e)

/-- C20, 3-D, every combination of boundary kinds (partial only in the option sets). -/
theorem C20_halo_suffices_all_bconds_3d_partial (c : CfgN 3 K) (B : Bnd 3) (hB : BcSolver c B [1, 0, 2]) (hW : Wide B) (hP : PolarTwo B) (si : SptlIntrp) (te : TmprlExtrp) (tiny : K)
    (hF : c.F = formulae3 c.o si te tiny) (hn : 1 ≤ c.nIters) (hx : HaloCoveredN c.o c.nIters)
    (m m' : MemN 3 K) (hpsi : ∀ x, InDomain c.box x → m.psi x = m'.psi x) (hGC : ∀ d x, HaloFace c.box (solverHalo c.o) d x → m.GC d x = m'.GC d x) :
    ∀ x, InDomain c.box x → (advanceN c m).psi x = (advanceN c m').psi x := by
  intro x hx'
  refine C20_halo_suffices_3d_partial c si te tiny hF (bnd_local c B _ hB hW hP) hn hx m m' (fun x hx => hpsi x (fun e => by simpa using hx e))
    (fun d x hx => hGC d x ⟨by have := hx d; simp only [if_true] at this; omega, fun e he => by simpa [he] using hx e⟩) x (fun e => by simpa using hx' e)

/-! ### Satisfiability -/

/-- a channel: open in the first dimension, rigid wall below and sky above in the second, five by five points -/
def channelB (h : Int) : Bnd 2 := ⟨fun d => if d = 0 then .opened else .rigid, fun d => if d = 0 then .opened else .gndsky, fun _ => ⟨0, 4⟩, h, 0⟩
/-- a flux-corrected three-pass solver of third order on it -/
def channelC (o : OptsT) (k : Nat) : CfgN 2 ℚ :=
  { o := o, nIters := k, filter := false, eps := 1/1000, F := formulae2 o .exact .noextrp (1/1000), box := fun _ => ⟨0, 4⟩
    st := ⟨fun _ => 1, fun _ _ => 0, fun _ _ => 0⟩
    fillS := xchngSclr (channelB (solverHalo o)) [0, 1] (solverHalo o) false
    fillA := xchngAlng (channelB (solverHalo o))
    fillN := xchngNrml (channelB (solverHalo o)) }

example : BcSolver (channelC (oFct ||| oTot ||| oDfl) 3) (channelB (solverHalo (oFct ||| oTot ||| oDfl))) [0, 1] ∧ Wide (channelB (solverHalo (oFct ||| oTot ||| oDfl))) ∧
    PolarTwo (channelB (solverHalo (oFct ||| oTot ||| oDfl))) ∧ HaloCoveredN (oFct ||| oTot ||| oDfl) 3 := by
  refine ⟨⟨rfl, rfl, by decide, fun _ => rfl, fun _ _ => rfl, fun _ _ => rfl⟩, ⟨by decide, by decide, by decide⟩, by unfold PolarTwo; decide, by unfold HaloCoveredN; decide⟩

end Mpdata
