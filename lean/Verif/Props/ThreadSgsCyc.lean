import Verif.Props.ThreadSgs
import Verif.Lemmas.ThreadsOwn
/-! # C51: compact differencing in domains that are cyclic in the split dimension

In `xchng_sgs_div` the last thread copies the columns `1 ... halo` of the divergence to the right halo in the phase in which the first thread fills the first and the last row of these columns: a data race.
Here it is shown to be harmless: the only values computed from the racing ones are normal stresses on the faces right of the domain, which the next exchange overwrites. -/
set_option linter.unusedSectionVars false
namespace Mpdata
namespace Threads
open Classical
variable {V : Type}

/-- the locations the race leaves undetermined: the divergence right of the domain -/
def DivHalo (N : Nat) (l : As × Int × Int) : Prop := l.1 = .vdiv ∧ (N : Int) ≤ l.2.1

/-- ... and, between two phases, the normal stresses on the faces right of the domain -/
def DivJunk (N M : Nat) (l : As × Int × Int) : Prop := DivHalo N l ∨ (l.1 = .tau 0 ∧ l.2.1 = N - 1 ∧ l.2.2 ∈ rows 0 (M - 1))

theorem clean_of {N : Nat} {ss : List (S As Int V)} (h : ∀ s ∈ ss, ∀ x, (s.dom.glob N).Mem x → ∀ y a' x' y', s.rd x y a' x' y' → ¬ (a' = .vdiv ∧ (N : Int) ≤ x')) : CleanReads N (DivHalo N) ss :=
  fun s hs x hx y _ _ a' x' y' hr => h s hs x hx y a' x' y' hr

theorem phaseIs_pok {N : Nat} {J : As × Int × Int → Prop} {ss : List (S As Int V)} (h : ∀ T, 0 < T → POk N T ss) (hc : CleanReads N J ss) : PhaseIs N J ss := by
  refine ⟨ss, hc, fun T hT _ m m' he l _ => ?_⟩
  rcases h T hT with hs | hs
  · rw [phase_serial hs he]
  · have : Inhabited (Fin T) := ⟨⟨0, hT⟩⟩
    rw [phase_serial_owned hs he]

theorem phasesExec_split {ι L V : Type} [DecidableEq ι] [DecidableEq L] : ∀ {ps qs : List (List (Stmt ι L V))} {m m'' : L → V}, PhasesExec (ps ++ qs) m m'' →
    ∃ m', PhasesExec ps m m' ∧ PhasesExec qs m' m''
  | [], _, m, _, h => ⟨m, .nil _, h⟩
  | _ :: _, _, _, _, h => by
    cases h with
    | cons _ _ _ n _ a b =>
      obtain ⟨m', h1, h2⟩ := phasesExec_split b
      exact ⟨m', .cons _ _ _ n _ a h1, h2⟩

variable (F : FS V) (o : SOpts) (N M : Nat)

theorem clean_sxchng (a : As) (e : Nat) : ∀ ss ∈ sxchng F o N M a e, CleanReads N (DivHalo N) ss := by
  intro ss h
  simp only [sxchng, List.mem_cons, List.not_mem_nil, or_false] at h
  rcases h with rfl | rfl | rfl <;> refine clean_of fun s hs x _ y a' x' y' hr => ?_ <;> rw [List.mem_singleton] at hs <;> subst hs <;> exact hr.2

theorem clean_fills : ∀ ss ∈ sxdiag F o N M ++ sxoff F o N M, CleanReads N (DivHalo N) ss := by
  intro ss h
  simp only [sxdiag, sxoff, List.mem_append, List.mem_cons, List.not_mem_nil, or_false] at h
  rcases h with (rfl | rfl | rfl) | rfl | rfl | rfl <;> refine clean_of fun s hs x _ y a' x' y' hr => ?_ <;> rw [List.mem_singleton] at hs <;> subst hs <;> exact hr.2

/-- the racing phase: off the right halo the outcome is that of the fills of the rows -/
theorem phaseIs_sxdiv (hM : 0 < M) (hr : o.rigid = false) : ∀ ss ∈ sxdiv F o N M, PhaseIs N (DivHalo N) ss := by
  intro ss h
  simp only [sxdiv, List.mem_cons, List.not_mem_nil, or_false] at h
  rcases h with rfl | rfl
  · set s1 : S As Int V := ⟨.vdiv, .ext 0 0, shaloFaces o M, fun x _ a' x' y' => a' = .vdiv ∧ x' = x ∧ y' ∉ shaloFaces o M, F.fillY .vdiv⟩ with e1
    set s2 : S As Int V := ⟨.vdiv, .right (divR o N).1.first (divR o N).1.last, rows (-1) (M - 1),
      fun _ y a' x' y' => a' = .vdiv ∧ (divR o N).2.Mem x' ∧ y' = y, F.fillX .vdiv true⟩ with e2
    have g1 : ∀ x, ((Dom.ext 0 0).glob N).Mem x → x < N := by
      intro x hx
      have : (⟨0 - ((0 : Nat) : Int), (N : Int) - 1 + ((0 : Nat) : Int)⟩ : Rng).Mem x := hx
      simp only [Rng.Mem] at this; omega
    refine ⟨[s1], clean_of fun s hs x hx y a' x' y' hr => ?_, fun T hT hTN m m' he l hl => ?_⟩
    · rw [List.mem_singleton] at hs; subst hs
      have h1 : x' = x := hr.2.1
      have := g1 x hx
      rintro ⟨-, h2⟩; omega
    · have hN : 0 < N := by omega
      let keep : As × Int × Int → Bool := fun l => decide ¬ DivHalo N l
      have k1 : ∀ t : Fin T, ∀ a ∈ progOf ([s1].map fun s => s.toStmt N T) t, keep a.wr = true := by
        intro t a ha
        obtain ⟨s, hs, -, h1, h2, h3⟩ := mem_progOf_map [s1] N T t a ha
        rw [List.mem_singleton] at hs; subst hs
        have := g1 _ ((cover (Dom.ext 0 0) N T hT hN _).1 ⟨t, h2⟩)
        exact decide_eq_true (fun h => by have := h.2; omega)
      have k2 : ∀ t : Fin T, ∀ a ∈ progOf ([s2].map fun s => s.toStmt N T) t, keep a.wr = false := by
        intro t a ha
        obtain ⟨s, hs, -, h1, h2, h3⟩ := mem_progOf_map [s2] N T t a ha
        rw [List.mem_singleton] at hs; subst hs
        refine decide_eq_false (not_not.2 ⟨h1, ?_⟩)
        simp only [e2, Dom.rng, divR, hr, Bool.false_eq_true, if_false, Rng.Mem] at h2
        split_ifs at h2 <;> simp only at h2 <;> omega
      have hP : ∀ t : Fin T, progOf ([s1, s2].map fun s => s.toStmt N T) t = progOf ([s1].map fun s => s.toStmt N T) t ++ progOf ([s2].map fun s => s.toStmt N T) t := by
        intro t; rw [← progOf_append]; rfl
      have hE : Erasable (progOf ([s1, s2].map fun s => s.toStmt N T)) (fun _ => []) keep := by
        refine ⟨?_, ?_, fun _ _ _ _ _ b hb => by cases hb⟩
        · rintro t a (⟨ha, -⟩ | ha)
          · obtain ⟨s, -, e, -⟩ := mem_progOf_map [s1, s2] N T t a ha
            rw [e]
            exact fun m m' hm => toStmt_ok s N T m m' _ hm
          · cases ha
        · rintro t a (⟨ha, hk⟩ | ha) t' b hb hkb hrd
          · rw [hP] at ha
            rcases List.mem_append.1 ha with ha | ha
            · obtain ⟨s, hs, e, h1, h2, -⟩ := mem_progOf_map [s1] N T t a ha
              rw [List.mem_singleton] at hs; subst hs
              rw [e] at hrd
              have h3 : b.wr.2.1 = a.wr.2.1 := hrd.2.1
              have := g1 _ ((cover (Dom.ext 0 0) N T hT hN _).1 ⟨t, h2⟩)
              have h4 := (not_not.1 (of_decide_eq_false hkb)).2
              omega
            · rw [k2 t a ha] at hk; cases hk
          · cases ha
      have he' : PhaseExec (fun t => progOf ([s1, s2].map fun s => s.toStmt N T) t ++ []) m m' := by simpa only [List.append_nil] using he
      obtain ⟨m'', h1, h2⟩ := erase_exec hE he'
      have hq : erased (progOf ([s1, s2].map fun s => s.toStmt N T)) (fun _ => []) keep = progOf ([s1].map fun s => s.toStmt N T) := by
        funext t
        unfold erased
        rw [hP, List.filter_append, List.filter_eq_self.2 (k1 t), List.filter_eq_nil_iff.2 (fun a ha => by rw [k2 t a ha]; decide), List.append_nil, List.append_nil]
      rw [hq] at h1
      have hw : POk N T [s1] := by
        refine pok_single N T s1 (nodup_shaloFaces o M hM) fun x y a' x' y' hr _ hy' => ?_
        exact absurd hy' hr.2.2
      rw [h2 l (Or.inl ?_)]
      · rcases hw with hs | hs
        · rw [phase_serial hs h1]
        · have : Inhabited (Fin T) := ⟨⟨0, hT⟩⟩
          rw [phase_serial_owned hs h1]
      · rintro ⟨t, a, -, hk, rfl⟩
        exact hl (not_not.1 (of_decide_eq_false hk))
  · exact phaseIs_pok (fun T hT => pok_sbc0 F N T _ _ _ _ _ (nodup_rows _ _)) (clean_of fun s hs x _ y a' x' y' hr => by rw [List.mem_singleton] at hs; subst hs; exact hr.2)

/-- the deformation: only the normal stress right of the domain is computed from the undetermined values -/
theorem phaseIs_sdeformC (hM : 0 < M) (hsmg : o.smg = false) : PhaseIs N (DivJunk N M) (sdeformC F M) := by
  refine phaseIs_pok (fun T _ => pok_sgsCompact_rest F o N M T hM hsmg _ (by simp)) ?_
  intro s hs x hx y hy hj a' x' y' hr
  simp only [sdeformC, List.mem_cons, List.not_mem_nil, or_false] at hs
  have g : ∀ p : Nat, ((Dom.ext p 0).glob N).Mem x → x < N := by
    intro p hx
    simp only [Dom.glob, Rng.Mem] at hx
    omega
  rintro (⟨h1, h2⟩ | ⟨h1, -⟩)
  · change a' = As.vdiv at h1
    change (N : Int) ≤ x' at h2
    subst h1
    rcases hs with rfl | rfl | rfl
    · rcases hr with ⟨c, hc⟩ | ⟨-, hx'⟩
      · cases hc
      · have := g 1 hx
        exact hj (Or.inr ⟨rfl, by show x = _; omega, hy⟩)
    · rcases hr with ⟨c, hc⟩ | ⟨-, hx'⟩
      · cases hc
      · have := g 0 hx; omega
    · obtain ⟨c, hc⟩ := hr; cases hc
  · change a' = As.tau 0 at h1
    subst h1
    rcases hs with rfl | rfl | rfl
    · rcases hr with ⟨c, hc⟩ | ⟨hc, -⟩ <;> cases hc
    · rcases hr with ⟨c, hc⟩ | ⟨hc, -⟩ <;> cases hc
    · obtain ⟨c, hc⟩ := hr; cases hc

/-- the exchange of the normal stress that follows overwrites the undetermined values and reads none of them -/
theorem fill_cures {T T' : Nat} (hT : 0 < T) (hT' : 0 < T') (hN : 0 < N) (hh : 0 < o.halo) {m1 m2 m1' m2' : As × Int × Int → V} (hm : ∀ l, ¬ DivJunk N M l → m1 l = m2 l)
    (h1 : PhasesExec (toPhases N T [[sbc0 F N (.tau 0) true (N - 1) (N - 2 + o.halo) (rows 0 (M - 1))]]) m1 m1')
    (h2 : PhasesExec (toPhases N T' [[sbc0 F N (.tau 0) true (N - 1) (N - 2 + o.halo) (rows 0 (M - 1))]]) m2 m2') (l : As × Int × Int) (hl : ¬ DivHalo N l) : m1' l = m2' l := by
  set s := sbc0 F N (.tau 0) true (N - 1) (N - 2 + o.halo) (rows 0 (M - 1)) with es
  have key : ∀ (T : Nat), 0 < T → ∀ {m m' : As × Int × Int → V}, PhasesExec (toPhases N T [[s]]) m m' → m' = serialPhases (toPhases N T [[s]]) m := by
    intro T hT m m' h
    cases h with
    | cons _ _ _ n _ a b =>
      cases b
      rcases pok_sbc0 F N T (.tau 0) true (N - 1) (N - 2 + o.halo) (rows 0 (M - 1)) (nodup_rows _ _) with hs | hs
      · exact phase_serial hs a
      · have : Inhabited (Fin T) := ⟨⟨0, hT⟩⟩
        exact phase_serial_owned hs a
  rw [key T hT h1, key T' hT' h2, serialPhases_indep [[s]] N T' T hT' hT hN m2]
  show serial1 (s.toStmt N T) m1 l = serial1 (s.toStmt N T) m2 l
  unfold serial1
  split_ifs with hw
  · refine toStmt_ok s N T m1 m2 l fun l' hr => hm l' ?_
    obtain ⟨r1, r2⟩ := (show ¬ (l'.1 = As.tau 0 ∧ ((N : Int) - 1 ≤ l'.2.1 ∧ l'.2.1 ≤ N - 2 + o.halo) ∧ l'.2.2 ∈ rows 0 ((M : Int) - 1)) ∧ ¬ (l'.1 = As.vdiv ∧ (N : Int) ≤ l'.2.1) from hr)
    rintro (h3 | ⟨h3, h4, h5⟩)
    · exact r2 h3
    · exact r1 ⟨h3, ⟨by omega, by omega⟩, h5⟩
  · refine hm l ?_
    rintro (h3 | ⟨h3, h4, h5⟩)
    · exact hl h3
    · refine hw ⟨⟨T - 1, by omega⟩, (mem_dom s N T _ l).2 ⟨h3, ?_, h5⟩⟩
      rw [es]
      simp only [sbc0, if_true, Dom.rng]
      rw [if_pos (by omega)]
      simp only [Rng.Mem]
      omega

/-- **C51 (part)**: compact differencing with constant viscosity in domains that are cyclic in the split dimension: for all numbers of threads up to the number of columns and all interleavings the same
memory, in particular the same forces, but for the halo of the work array of the divergence right of the domain. -/
theorem C51_threads_sgs_2d_cyclic (F : FS V) (o : SOpts) (N M T T' : Nat) (hM : 0 < M) (hT : 0 < T) (hT' : 0 < T') (hTN : T ≤ N) (hTN' : T' ≤ N)
    (hc : o.diff = .compact) (hsmg : o.smg = false) (hr : o.rigid = false) (hh : 0 < o.halo)
    (m m' m'' : As × Int × Int → V) (h1 : PhasesExec (toPhases N T (sgsProg F o N M)) m m') (h2 : PhasesExec (toPhases N T' (sgsProg F o N M)) m m'') :
    ∀ (a : As) (x y : Int), a ≠ .vdiv ∨ x < N → m' (a, x, y) = m'' (a, x, y) := by
  set R : List (S As Int V) := [sbc0 F N (.tau 0) true (N - 1) (N - 2 + o.halo) (rows 0 (M - 1))] with eR
  have hsplit : sgsProg F o N M = (sxchng F o N M (.vip false) 1 ++ sxchng F o N M (.vip true) 1 ++ [sdrag F M] ++ sxdiv F o N M) ++ ([sdeformC F M] ++ ([R] ++
      ((sxdiag F o N M).tail ++ sxoff F o N M ++ [sviscC F o M] ++ sxdiag F o N M ++ sxoff F o N M ++ [ssrhsC F M]))) := by
    unfold sgsProg
    rw [if_pos hc]
    unfold sgsCompact
    simp only [List.append_assoc]
    rfl
  have ta : ∀ T ps qs, toPhases N T (ps ++ qs : List (List (S As Int V))) = toPhases N T ps ++ toPhases N T qs := fun T ps qs => List.map_append
  rw [hsplit, ta] at h1 h2
  obtain ⟨a1, x1, h1⟩ := phasesExec_split h1
  rw [ta] at h1
  obtain ⟨b1, y1, h1⟩ := phasesExec_split h1
  rw [ta] at h1
  obtain ⟨c1, z1, h1⟩ := phasesExec_split h1
  obtain ⟨a2, x2, h2⟩ := phasesExec_split h2
  rw [ta] at h2
  obtain ⟨b2, y2, h2⟩ := phasesExec_split h2
  rw [ta] at h2
  obtain ⟨c2, z2, h2⟩ := phasesExec_split h2
  have rest : ∀ T, 0 < T → _ := fun T (_ : 0 < T) => pok_sgsCompact_rest F o N M T hM hsmg
  have p1 : ∀ ss ∈ sxchng F o N M (.vip false) 1 ++ sxchng F o N M (.vip true) 1 ++ [sdrag F M] ++ sxdiv F o N M, PhaseIs N (DivHalo N) ss := by
    intro ss hs
    simp only [List.mem_append, List.mem_singleton] at hs
    rcases hs with ((hs | hs) | rfl) | hs
    · exact phaseIs_pok (fun T _ => pok_sxchng F o N M T _ _ ss hs) (clean_sxchng F o N M _ _ ss hs)
    · exact phaseIs_pok (fun T _ => pok_sxchng F o N M T _ _ ss hs) (clean_sxchng F o N M _ _ ss hs)
    · refine phaseIs_pok (fun T hT => rest T hT _ (by simp)) (clean_of fun s hs x _ y a' x' y' hr => ?_)
      simp only [sdrag, List.mem_cons, List.not_mem_nil, or_false] at hs
      rcases hs with rfl | rfl <;> (obtain ⟨c, rfl⟩ := hr; rintro ⟨h, -⟩; cases h)
    · exact phaseIs_sxdiv F o N M hM hr ss hs
  have p3 : ∀ ss ∈ (sxdiag F o N M).tail ++ sxoff F o N M ++ [sviscC F o M] ++ sxdiag F o N M ++ sxoff F o N M ++ [ssrhsC F M], PhaseIs N (DivHalo N) ss := by
    intro ss hs
    have fil : ss ∈ sxdiag F o N M ++ sxoff F o N M → PhaseIs N (DivHalo N) ss := fun h =>
      phaseIs_pok (fun T hT => rest T hT ss (by simp only [List.mem_append] at h ⊢; tauto)) (clean_fills F o N M ss h)
    simp only [List.mem_append, List.mem_singleton] at hs
    rcases hs with ((((hs | hs) | rfl) | hs) | hs) | rfl
    · exact fil (List.mem_append_left _ (List.mem_of_mem_tail hs))
    · exact fil (List.mem_append_right _ hs)
    · refine phaseIs_pok (fun T hT => rest T hT _ (by simp)) (clean_of fun s hs x _ y a' x' y' hr => ?_)
      simp only [sviscC, hsmg, smulC, Bool.false_eq_true, if_false, false_and, or_false, List.nil_append, List.mem_cons, List.not_mem_nil] at hs
      rcases hs with rfl | rfl | rfl <;> (rintro ⟨h, -⟩; have h' := hr.1; rw [h] at h'; cases h')
    · exact fil (List.mem_append_left _ hs)
    · exact fil (List.mem_append_right _ hs)
    · refine phaseIs_pok (fun T hT => rest T hT _ (by simp)) (clean_of fun s hs x _ y a' x' y' hr => ?_)
      simp only [ssrhsC, own, List.mem_cons, List.not_mem_nil, or_false] at hs
      rintro ⟨h, -⟩
      subst h
      rcases hs with rfl | rfl <;> (rcases hr with ⟨k, hk⟩ | ⟨hk, -⟩ <;> cases hk)
  have q1 : ∀ l, ¬ DivHalo N l → a1 l = a2 l := phases_indep_junk hT hT' hTN hTN' p1 (fun _ _ => rfl) x1 x2
  have q2 : ∀ l, ¬ DivJunk N M l → b1 l = b2 l :=
    phases_indep_junk hT hT' hTN hTN' (ps := [sdeformC F M]) (fun ss hs => by rw [List.mem_singleton] at hs; subst hs; exact phaseIs_sdeformC F o N M hM hsmg) (fun l hl => q1 l fun h => hl (Or.inl h)) y1 y2
  have q3 : ∀ l, ¬ DivHalo N l → c1 l = c2 l := fill_cures F o N M hT hT' (by omega) hh q2 z1 z2
  have q4 : ∀ l, ¬ DivHalo N l → m' l = m'' l := phases_indep_junk hT hT' hTN hTN' p3 q3 h1 h2
  intro a x y hax
  refine q4 _ ?_
  rintro ⟨h3, h4⟩
  rcases hax with h | h
  · exact h h3
  · exact absurd h (not_lt.2 h4)

/-- the hypotheses are met: six columns, one thread against three, and such executions exist -/
example (F : FS Nat) (m : As × Int × Int → Nat) : let o : SOpts := ⟨.compact, false, false, 1⟩
    o.diff = .compact ∧ o.smg = false ∧ o.rigid = false ∧ 0 < o.halo ∧ (∃ m', PhasesExec (toPhases 6 1 (sgsProg F o 6 3)) m m') ∧ ∃ m'', PhasesExec (toPhases 6 3 (sgsProg F o 6 3)) m m'' := by
  have ex : ∀ (T : Nat) (ps : List (List (Stmt (Fin T) (As × Int × Int) Nat))) m, ∃ m', PhasesExec ps m m' := by
    intro T ps
    induction ps with
    | nil => exact fun m => ⟨m, .nil _⟩
    | cons ss ps ih =>
      intro m
      obtain ⟨n, hn⟩ := phase_exec_exists (progOf ss) m
      obtain ⟨m', h⟩ := ih n
      exact ⟨m', .cons _ _ _ n _ hn h⟩
  exact ⟨rfl, rfl, rfl, by decide, ex _ _ _, ex _ _ _⟩

end Threads
end Mpdata
