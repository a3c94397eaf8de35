import Verif.Model.ThreadSgs
import Verif.Lemmas.ThreadsExcl
import Verif.Props.Threads
/-! # C51: subgrid stresses do not depend on the number of threads -/
set_option linter.unusedSectionVars false
namespace Mpdata
namespace Threads
open Classical
variable {V : Type}

/-- what makes a phase deterministic for a given number of threads -/
def POk (N T : Nat) (ss : List (S As Int V)) : Prop :=
  StmtsSafe (ss.map fun s => s.toStmt N T) ∨ StmtsOwned (ss.map fun s => s.toStmt N T)

theorem pok_columns {N T : Nat} {d : Dom} {ss : List (S As Int V)} (hd : d = .ext 0 0 ∨ d = .face 0) (h : Columns d ss) : POk N T ss :=
  Or.inr (columns_owned h hd N T)

/-- a phase of one statement that does not read the array elements it writes -/
theorem pok_single (N T : Nat) (s : S As Int V) (hy : s.ys.Nodup)
    (h : ∀ x y a' x' y', s.rd x y a' x' y' → a' = s.dst → y' ∈ s.ys → ∀ t : Fin T, ¬ (s.dom.rng N T t).Mem x') : POk N T [s] := by
  refine Or.inl (good_safe (single_good N T s h) (by simp) ?_)
  intro s' hs'
  rw [List.mem_singleton] at hs'; subst hs'; exact hy

/-- a phase whose statements read nothing the phase writes -/
theorem pok_free {N T : Nat} {ss : List (S As Int V)} (hp : ss.Pairwise Sep) (hn : ∀ s ∈ ss, s.ys.Nodup)
    (h : ∀ s ∈ ss, ∀ x y a' x' y', s.rd x y a' x' y' → ∀ s' ∈ ss, s'.dst ≠ a') : POk N T ss := by
  refine Or.inl (good_safe ?_ hp hn)
  have : ∀ (l pre : List (S As Int V)), (∀ s ∈ l, s ∈ ss) → Good N T ss pre l := by
    intro l
    induction l with
    | nil => intro _ _; trivial
    | cons s l ih =>
      intro pre hl
      refine ⟨?_, ih _ (fun s' hs' => hl s' (List.mem_cons_of_mem _ hs'))⟩
      intro t x _ y _ a' x' y' hr
      exact Or.inr (fun s' hs' hd => absurd hd (h s (hl s List.mem_cons_self) x y a' x' y' hr s' hs'))
  exact this ss [] (fun _ h => h)

section
variable (F : FS V) (o : SOpts) (N M T : Nat)

theorem nodup_shaloRows : (shaloRows o M).Nodup := by
  unfold shaloRows
  rw [List.nodup_append]
  refine ⟨nodup_rows _ _, nodup_rows _ _, ?_⟩
  intro a ha b hb
  rw [mem_rows] at ha hb; omega

theorem nodup_shaloFaces (hM : 0 < M) : (shaloFaces o M).Nodup := by
  unfold shaloFaces
  rw [List.nodup_append]
  refine ⟨nodup_rows _ _, nodup_rows _ _, ?_⟩
  intro a ha b hb
  rw [mem_rows] at ha hb; omega

theorem pok_sbc0 (a : As) (r : Bool) (lo hi : Int) (ys : List Int) (hy : ys.Nodup) : POk N T [sbc0 F N a r lo hi ys] := by
  refine pok_single N T _ hy ?_
  intro x y a' x' y' hr ha hy' t hm
  refine hr.1 ⟨ha, ?_, hy'⟩
  cases r
  · simp only [sbc0, Bool.false_eq_true, if_false, Dom.rng, Rng.Mem] at hm
    split_ifs at hm
    · exact hm
    · simp only at hm; omega
  · simp only [sbc0, if_true, Dom.rng, Rng.Mem] at hm
    split_ifs at hm
    · exact hm
    · simp only at hm; omega

theorem pok_sbc1 (a : As) (d : Dom) (ys : List Int) (hy : ys.Nodup) : POk N T [sbc1 F N a d ys] :=
  pok_single N T _ hy (fun _ _ _ _ _ hr ha hy' _ _ => hr.1 ⟨ha, hy'⟩)

theorem pok_sxchng (a : As) (e : Nat) : ∀ ss ∈ sxchng F o N M a e, POk N T ss := by
  intro ss h
  simp only [sxchng, List.mem_cons, List.not_mem_nil, or_false] at h
  rcases h with rfl | rfl | rfl
  · exact pok_sbc0 F N T _ _ _ _ _ (nodup_rows _ _)
  · exact pok_sbc0 F N T _ _ _ _ _ (nodup_rows _ _)
  · exact pok_sbc1 F N T _ _ _ (nodup_shaloRows o M)

theorem pok_sxdiag (hM : 0 < M) : ∀ ss ∈ sxdiag F o N M, POk N T ss := by
  intro ss h
  simp only [sxdiag, List.mem_cons, List.not_mem_nil, or_false] at h
  rcases h with rfl | rfl | rfl
  · exact pok_sbc0 F N T _ _ _ _ _ (nodup_rows _ _)
  · exact pok_sbc0 F N T _ _ _ _ _ (nodup_rows _ _)
  · exact pok_sbc1 F N T _ _ _ (nodup_shaloFaces o M hM)

theorem pok_sxoff (hM : 0 < M) : ∀ ss ∈ sxoff F o N M, POk N T ss := by
  intro ss h
  simp only [sxoff, List.mem_cons, List.not_mem_nil, or_false] at h
  rcases h with rfl | rfl | rfl
  · exact pok_sbc0 F N T _ _ _ _ _ (nodup_rows _ _)
  · exact pok_sbc0 F N T _ _ _ _ _ (nodup_rows _ _)
  · exact pok_sbc1 F N T _ _ _ (nodup_shaloFaces o M hM)

/-- a statement of the form `own`: what is needed of a phase made of them -/
structure OwnOk (ss : List (S As Int V)) (a : As) (others owns : As → Prop) : Prop where
  reads : ∀ a', others a' → a' ∉ ss.map S.dst
  self : ¬ others a

theorem pok_own {ss : List (S As Int V)} (h : ∀ s ∈ ss, ∃ a others owns f, s = own M a others owns f ∧ OwnOk ss a others owns) : POk N T ss := by
  refine pok_columns (d := .ext 0 0) (Or.inl rfl) ⟨?_, ?_, ?_, ?_⟩
  · intro s hs; obtain ⟨a, p, q, f, rfl, -⟩ := h s hs; rfl
  · intro s hs; obtain ⟨a, p, q, f, rfl, -⟩ := h s hs; exact nodup_rows _ _
  · intro s hs x y a' x' y' hr
    obtain ⟨a, p, q, f, rfl, hk⟩ := h s hs
    rcases hr with hr | hr
    · exact Or.inr (fun s' hs' e => hk.reads a' hr (List.mem_map.2 ⟨s', hs', e⟩))
    · exact Or.inl hr.2.1
  · intro s hs x y x' y' hr
    obtain ⟨a, p, q, f, rfl, hk⟩ := h s hs
    rcases hr with hr | hr
    · exact absurd hr hk.self
    · exact hr.2

/-- proves `POk` of an explicit list of `own` statements -/
macro "owns" m:ident : tactic => `(tactic|
  (refine pok_own _ $m _ ?_
   simp only [svgrads, ssdivs, ssrhs, ssrhsC, svisc, scopyW, spadeW, spadeA, scopyD, sdeform, List.cons_append, List.nil_append, List.mem_cons, List.not_mem_nil,
     or_false, forall_eq_or_imp, forall_eq]
   repeat' apply And.intro
   all_goals
     refine ⟨_, _, _, _, rfl, ⟨?_, ?_⟩⟩
     · intro a' h
       first
         | exact h.elim
         | (obtain ⟨c, hc⟩ := h; subst hc; simp [own])
         | (subst h; simp [own])
     · simp))

theorem pok_spadeDeriv (pre : List (S As Int V)) (d c : Bool) (h : POk N T (pre ++ [scopyW F M d c])) : ∀ ss ∈ spadeDeriv F o N M pre d c, POk N T ss := by
  intro ss hs
  have h1 : POk N T [spadeW F M d c] := by owns M
  have h2 : POk N T [spadeA F M d c] := by owns M
  have h3 : POk N T [spadeA F M d c, scopyD F M d c] := by owns M
  have h4 := pok_sxchng F o N M T (.wrk false) 0
  simp only [spadeDeriv, spadeRound, List.mem_append, List.mem_cons, List.not_mem_nil, or_false] at hs
  rcases hs with (((((rfl | hs | rfl) | rfl) | hs | rfl) | rfl) | hs | rfl) | rfl
  all_goals first | exact h | exact h1 | exact h2 | exact h3 | exact h4 ss hs

theorem pok_sderivs (pre post : List (S As Int V)) (h : POk N T (pre ++ post)) (h1 : POk N T (pre ++ [scopyW F M false false])) (h2 : POk N T post) :
    ∀ ss ∈ sderivs F o N M pre post, POk N T ss := by
  intro ss hs
  have h3 : ∀ d c, POk N T ([] ++ [scopyW F M d c]) := by intro d c; owns M
  unfold sderivs at hs
  split_ifs at hs
  · simp only [List.mem_append, List.mem_singleton] at hs
    rcases hs with (((hs | hs) | hs) | hs) | rfl
    · exact pok_spadeDeriv F o N M T _ _ _ h1 ss hs
    · exact pok_spadeDeriv F o N M T _ _ _ (h3 _ _) ss hs
    · exact pok_spadeDeriv F o N M T _ _ _ (h3 _ _) ss hs
    · exact pok_spadeDeriv F o N M T _ _ _ (h3 _ _) ss hs
    · exact h2
  · rw [List.mem_singleton] at hs; subst hs; exact h

theorem pok_sgsPlain : ∀ ss ∈ sgsPlain F o N M, POk N T ss := by
  intro ss hs
  unfold sgsPlain at hs
  simp only [List.mem_append] at hs
  rcases hs with (((hs | hs) | hs) | hs) | hs
  · refine pok_sderivs F o N M T _ _ ?_ ?_ ?_ ss hs
    · unfold svisc; split_ifs <;> owns M
    · owns M
    · unfold svisc; split_ifs <;> owns M
  · exact pok_sxchng F o N M T _ _ ss hs
  · exact pok_sxchng F o N M T _ _ ss hs
  · exact pok_sxchng F o N M T _ _ ss hs
  · refine pok_sderivs F o N M T _ _ ?_ ?_ ?_ ss hs <;> owns M

/-! ## Compact differencing with constant viscosity -/

/-- the phase of `xchng_sgs_div` that fills rows and the right columns: safe if the right fill works on columns of the last thread -/
theorem pok_sxdiv (hM : 0 < M) (hr : ∀ t : Fin T, t.1 + 1 = T → (slabOf N T t).first ≤ (divR o N).1.first ∧ (slabOf N T t).first ≤ (divR o N).2.first)
    (hd : ∀ x, (divR o N).1.Mem x → ¬ (divR o N).2.Mem x) : ∀ ss ∈ sxdiv F o N M, POk N T ss := by
  intro ss h
  simp only [sxdiv, List.mem_cons, List.not_mem_nil, or_false] at h
  rcases h with rfl | rfl
  · refine Or.inr ?_
    set s1 : S As Int V := ⟨.vdiv, .ext 0 0, shaloFaces o M, fun x _ a' x' y' => a' = .vdiv ∧ x' = x ∧ y' ∉ shaloFaces o M, F.fillY .vdiv⟩ with e1
    set s2 : S As Int V := ⟨.vdiv, .right (divR o N).1.first (divR o N).1.last, rows (-1) (M - 1),
      fun _ y a' x' y' => a' = .vdiv ∧ (divR o N).2.Mem x' ∧ y' = y, F.fillX .vdiv true⟩ with e2
    have m1 : ∀ (t : Fin T) l, l ∈ (s1.toStmt N T).dom t → (slabOf N T t).Mem l.2.1 := by
      intro t l hl
      have := ((mem_dom s1 N T t l).1 hl).2.1
      simpa [e1, Dom.rng, Rng.Mem] using this
    have m2 : ∀ (t : Fin T) l, l ∈ (s2.toStmt N T).dom t → t.1 + 1 = T ∧ (divR o N).1.Mem l.2.1 := by
      intro t l hl
      have := ((mem_dom s2 N T t l).1 hl).2.1
      simp only [e2, Dom.rng] at this
      split_ifs at this with ht
      · exact ⟨ht, this⟩
      · simp only [Rng.Mem] at this; omega
    have wb : ∀ (t : Fin T) l, WrittenBy ([s1, s2].map fun s => s.toStmt N T) t l →
        (slabOf N T t).Mem l.2.1 ∨ (t.1 + 1 = T ∧ (divR o N).1.Mem l.2.1) := by
      rintro t l ⟨s', hs', hl⟩
      simp only [List.map_cons, List.map_nil, List.mem_cons, List.not_mem_nil, or_false] at hs'
      rcases hs' with rfl | rfl
      · exact Or.inl (m1 t l hl)
      · exact Or.inr (m2 t l hl)
    have dj : ∀ {t t' : Fin T} {x : Int}, t' ≠ t → (slabOf N T t).Mem x → ¬ (slabOf N T t').Mem x := by
      intro t t' x ht h1 h2
      rcases lt_or_gt_of_ne (fun e => ht (Fin.ext e) : t'.1 ≠ t.1) with h3 | h3
      · have := slab_lt N T t' t h3; simp only [Rng.Mem] at h1 h2; omega
      · have := slab_lt N T t t' h3; simp only [Rng.Mem] at h1 h2; omega
    have lastR : ∀ {t t' : Fin T} {x : Int}, t' ≠ t → t'.1 + 1 = T → (slabOf N T t).Mem x → x < (slabOf N T t').first := by
      intro t t' x ht h1 h2
      have := t.2
      have : t.1 ≠ t'.1 := fun e => ht (Fin.ext e.symm)
      have := slab_lt N T t t' (by omega)
      simp only [Rng.Mem] at h2; omega
    have mem2 : ∀ s' ∈ [s1, s2].map (fun s => s.toStmt N T), s' = s1.toStmt N T ∨ s' = s2.toStmt N T := by
      intro s' hs'; simpa using hs'
    refine ⟨?_, ?_, ?_, ?_, ?_⟩
    · intro s' hs' m m' l hl
      obtain ⟨s, hs, rfl⟩ := List.mem_map.1 hs'
      show s.f _ _ _ = s.f _ _ _
      congr 1
      funext a x y
      by_cases h : s.rd l.2.1 l.2.2 a x y
      · simp only [if_pos h]; rw [hl (a, x, y) h]
      · simp only [if_neg h]
    · intro s' hs' t
      obtain ⟨s, hs, rfl⟩ := List.mem_map.1 hs'
      refine stmt_nodup s N T t ?_
      simp only [List.mem_cons, List.not_mem_nil, or_false] at hs
      rcases hs with rfl | rfl
      · exact nodup_shaloFaces o M hM
      · exact nodup_rows _ _
    · intro t t' ht l h1 h2
      rcases wb t l h1 with h3 | ⟨h3, h4⟩ <;> rcases wb t' l h2 with h5 | ⟨h5, h6⟩
      · exact dj ht h3 h5
      · have := lastR ht h5 h3; have := (hr t' h5).1; simp only [Rng.Mem] at h6; omega
      · have := lastR (Ne.symm ht) h3 h5; have := (hr t h3).1; simp only [Rng.Mem] at h4; omega
      · exact ht (Fin.ext (by omega))
    · intro s' hs' t l hl l' hrd t' ht hw
      rcases mem2 s' hs' with rfl | rfl
      · have hx := m1 t l hl
        obtain ⟨-, hx', -⟩ := (show l'.1 = As.vdiv ∧ l'.2.1 = l.2.1 ∧ l'.2.2 ∉ shaloFaces o M from hrd)
        rw [← hx'] at hx
        rcases wb t' l' hw with h5 | ⟨h5, h6⟩
        · exact dj ht hx h5
        · have := lastR ht h5 hx; have := (hr t' h5).1; simp only [Rng.Mem] at h6; omega
      · obtain ⟨hT, -⟩ := m2 t l hl
        obtain ⟨-, hx', -⟩ := (show l'.1 = As.vdiv ∧ (divR o N).2.Mem l'.2.1 ∧ l'.2.2 = l.2.2 from hrd)
        rcases wb t' l' hw with h5 | ⟨h5, h6⟩
        · have := lastR (Ne.symm ht) hT h5; have := (hr t hT).2; simp only [Rng.Mem] at hx'; omega
        · exact ht (Fin.ext (by omega))
    · intro s' hs' t l hl l' hrd hl'
      rcases mem2 s' hs' with rfl | rfl
      · obtain ⟨-, -, hy⟩ := (show l'.1 = As.vdiv ∧ l'.2.1 = l.2.1 ∧ l'.2.2 ∉ shaloFaces o M from hrd)
        exact absurd ((mem_dom s1 N T t l').1 hl').2.2 hy
      · obtain ⟨-, hx', -⟩ := (show l'.1 = As.vdiv ∧ (divR o N).2.Mem l'.2.1 ∧ l'.2.2 = l.2.2 from hrd)
        exact absurd hx' (hd _ (m2 t l' hl').2)
  · exact pok_sbc0 F N T _ _ _ _ _ (nodup_rows _ _)

theorem pok_sgsCompact_rest (hM : 0 < M) (hsmg : o.smg = false) :
    ∀ ss ∈ [sdrag F M, sdeformC F M] ++ sxdiag F o N M ++ sxoff F o N M ++ [sviscC F o M, ssrhsC F M], POk N T ss := by
  intro ss hs
  simp only [List.mem_append, List.mem_cons, List.not_mem_nil, or_false] at hs
  rcases hs with (((rfl | rfl) | hs) | hs) | (rfl | rfl)
  · refine pok_free ?_ ?_ ?_
    · simp [sdrag, Sep]
    · simp [sdrag, nodup_rows]
    · simp only [sdrag, List.mem_cons, List.not_mem_nil, or_false, forall_eq_or_imp, forall_eq]
      constructor <;> (rintro x y a' x' y' ⟨c, rfl⟩; simp)
  · refine pok_free ?_ ?_ ?_
    · simp [sdeformC, Sep]
    · simp [sdeformC, nodup_rows]
    · simp only [sdeformC, List.mem_cons, List.not_mem_nil, or_false, forall_eq_or_imp, forall_eq]
      refine ⟨?_, ?_, ?_⟩
      · rintro x y a' x' y' (⟨c, rfl⟩ | ⟨rfl, -⟩) <;> simp
      · rintro x y a' x' y' (⟨c, rfl⟩ | ⟨rfl, -⟩) <;> simp
      · rintro x y a' x' y' ⟨c, rfl⟩; simp
  · exact pok_sxdiag F o N M T hM ss hs
  · exact pok_sxoff F o N M T hM ss hs
  · refine pok_columns (d := .face 0) (Or.inr rfl) ⟨?_, ?_, ?_, ?_⟩
    · simp [sviscC, hsmg, smulC]
    · simp [sviscC, hsmg, smulC, nodup_rows]
    · simp only [sviscC, hsmg, smulC, Bool.false_eq_true, if_false, false_and, or_false, List.nil_append, List.mem_cons, List.not_mem_nil, forall_eq_or_imp,
        forall_eq]
      refine ⟨?_, ?_, ?_⟩ <;> (rintro x y a' x' y' ⟨-, rfl, -⟩; exact Or.inl rfl)
    · simp only [sviscC, hsmg, smulC, Bool.false_eq_true, if_false, false_and, or_false, List.nil_append, List.mem_cons, List.not_mem_nil, forall_eq_or_imp,
        forall_eq]
      refine ⟨?_, ?_, ?_⟩ <;> (rintro x y x' y' ⟨-, h1, h2⟩; exact ⟨h1, h2⟩)
  · owns M

theorem pok_sgsCompact (hM : 0 < M) (hsmg : o.smg = false) (hdiv : ∀ ss ∈ sxdiv F o N M, POk N T ss) : ∀ ss ∈ sgsCompact F o N M, POk N T ss := by
  intro ss hs
  by_cases hd : ss ∈ sxdiv F o N M
  · exact hdiv ss hd
  · refine pok_sgsCompact_rest F o N M T hM hsmg ss ?_
    unfold sgsCompact at hs
    simp only [List.mem_append, List.mem_cons, List.not_mem_nil, or_false] at hs ⊢
    tauto

theorem slab_last_first (hT : 0 < T) (h : 3 * T ≤ N) (t : Fin T) (ht : t.1 + 1 = T) : (slabOf N T t).first ≤ N - 3 := by
  have hT' : (0 : Int) < T := by omega
  rw [slabOf_first, slabMin_eq_ediv (by omega) (by omega)]
  have : ((t.1 : Int) * N) / T < N - 2 := by
    rw [Int.ediv_lt_iff_lt_mul hT']
    have e : (t.1 : Int) = T - 1 := by omega
    rw [e]
    have : (3 * T : Int) ≤ N := by exact_mod_cast h
    nlinarith
  omega

end

/-- a sequence of deterministic phases gives the same memory for both numbers of threads -/
theorem pok_indep (ps : List (List (S As Int V))) (N T T' : Nat) (hT : 0 < T) (hT' : 0 < T') (hN : 0 < N) (h : ∀ ss ∈ ps, POk N T ss) (h' : ∀ ss ∈ ps, POk N T' ss)
    {m m' m'' : As × Int × Int → V} (h1 : PhasesExec (toPhases N T ps) m m') (h2 : PhasesExec (toPhases N T' ps) m m'') : m' = m'' := by
  have key : ∀ T, 0 < T → ∀ (ps : List (List (S As Int V))), (∀ ss ∈ ps, POk N T ss) → ∀ {m m' : As × Int × Int → V}, PhasesExec (toPhases N T ps) m m' →
      m' = serialPhases (toPhases N T ps) m := by
    intro T hT ps
    induction ps with
    | nil => intro _ m m' he; cases he; rfl
    | cons ss ps ih =>
      intro hall m m' he
      cases he with
      | cons _ _ _ m1 _ he1 he2 =>
        have e : m1 = serial (ss.map fun s => s.toStmt N T) m := by
          rcases hall ss List.mem_cons_self with hs | hs
          · exact phase_serial hs he1
          · have : Inhabited (Fin T) := ⟨⟨0, hT⟩⟩
            exact phase_serial_owned hs he1
        subst e
        exact ih (fun s hs => hall s (List.mem_cons_of_mem _ hs)) he2
  rw [key T hT ps h h1, key T' hT' ps h' h2, serialPhases_indep ps N T T' hT hT' hN]

/-- **C51 (part)**: in two dimensions, the subgrid-stress hook gives the same memory (in particular the same forces) for all numbers of threads and all
interleavings, with arbitrary arithmetic: with normal and Padé differencing for constant and Smagorinsky viscosity and any boundary conditions; with compact
differencing for constant viscosity between rigid walls, if every thread has at least three columns.
What is missing: compact differencing with Smagorinsky viscosity, where it is false (`C51_fails_compact_smg`); compact differencing in domains cyclic in the
split dimension is in `C51_threads_sgs_2d_cyclic`; smgani; three dimensions. -/
theorem C51_threads_sgs_2d_partial (F : FS V) (o : SOpts) (N M T T' : Nat) (hN : 0 < N) (hM : 0 < M) (hT : 0 < T) (hT' : 0 < T')
    (hc : o.diff = .normal ∨ o.diff = .pade ∨ (o.diff = .compact ∧ o.smg = false ∧ o.rigid = true ∧ 3 * T ≤ N ∧ 3 * T' ≤ N))
    (m m' m'' : As × Int × Int → V) (h1 : PhasesExec (toPhases N T (sgsProg F o N M)) m m') (h2 : PhasesExec (toPhases N T' (sgsProg F o N M)) m m'') : m' = m'' := by
  have key : ∀ T, 0 < T → (o.diff = .normal ∨ o.diff = .pade ∨ (o.diff = .compact ∧ o.smg = false ∧ o.rigid = true ∧ 3 * T ≤ N)) →
      ∀ ss ∈ sgsProg F o N M, POk N T ss := by
    intro T hT hc ss hs
    unfold sgsProg at hs
    simp only [List.mem_append] at hs
    rcases hs with (hs | hs) | hs
    · exact pok_sxchng F o N M T _ _ ss hs
    · exact pok_sxchng F o N M T _ _ ss hs
    · rcases hc with h | h | ⟨h, hsmg, hrig, hw⟩
      · rw [if_neg (by rw [h]; simp)] at hs; exact pok_sgsPlain F o N M T ss hs
      · rw [if_neg (by rw [h]; simp)] at hs; exact pok_sgsPlain F o N M T ss hs
      · rw [if_pos h] at hs
        refine pok_sgsCompact F o N M T hM hsmg (pok_sxdiv F o N M T hM ?_ ?_) ss hs
        · intro t ht
          have := slab_last_first N T hT hw t ht
          simp only [divR, hrig, if_true]
          omega
        · intro x
          simp only [divR, hrig, if_true, Rng.Mem]
          omega
  refine pok_indep _ N T T' hT hT' hN (key T hT ?_) (key T' hT' ?_) h1 h2
  · rcases hc with h | h | h
    · exact Or.inl h
    · exact Or.inr (Or.inl h)
    · exact Or.inr (Or.inr ⟨h.1, h.2.1, h.2.2.1, h.2.2.2.1⟩)
  · rcases hc with h | h | h
    · exact Or.inl h
    · exact Or.inr (Or.inl h)
    · exact Or.inr (Or.inr ⟨h.1, h.2.1, h.2.2.1, h.2.2.2.2⟩)

/-- the hypotheses are met: Padé with eddy viscosity, one thread against three, and compact, one thread against two -/
example : (∃ m' m'', PhasesExec (toPhases 5 1 (sgsProg (V := Nat) ⟨fun _ _ _ _ _ => 1, fun _ _ _ _ => 1, fun _ _ _ _ _ => 2, fun _ _ _ => 1, fun _ _ _ _ _ => 2,
      fun _ _ _ => 3, fun _ _ _ => 4, fun _ _ _ _ => 1, fun _ _ _ => 1, fun _ _ _ _ => 1, fun _ _ _ _ _ => 3, fun _ _ _ _ => 1, fun _ _ _ => 1, fun _ _ _ => 2,
      fun _ _ _ _ => 1, fun _ _ _ => 2, fun _ _ _ _ => 1, fun _ _ _ _ => 1⟩ ⟨.pade, true, false, 2⟩ 5 3)) (fun _ => 0) m' ∧
    PhasesExec (toPhases 5 3 (sgsProg (V := Nat) ⟨fun _ _ _ _ _ => 1, fun _ _ _ _ => 1, fun _ _ _ _ _ => 2, fun _ _ _ => 1, fun _ _ _ _ _ => 2,
      fun _ _ _ => 3, fun _ _ _ => 4, fun _ _ _ _ => 1, fun _ _ _ => 1, fun _ _ _ _ => 1, fun _ _ _ _ _ => 3, fun _ _ _ _ => 1, fun _ _ _ => 1, fun _ _ _ => 2,
      fun _ _ _ _ => 1, fun _ _ _ => 2, fun _ _ _ _ => 1, fun _ _ _ _ => 1⟩ ⟨.pade, true, false, 2⟩ 5 3)) (fun _ => 0) m'') ∧
    (let o : SOpts := ⟨.compact, false, true, 1⟩; o.diff = .compact ∧ o.smg = false ∧ o.rigid = true ∧ 3 * 1 ≤ 6 ∧ 3 * 2 ≤ 6) := by
  refine ⟨?_, by decide⟩
  obtain ⟨m', h'⟩ := C26_executions_exist (sgsProg (V := Nat) ⟨fun _ _ _ _ _ => 1, fun _ _ _ _ => 1, fun _ _ _ _ _ => 2, fun _ _ _ => 1, fun _ _ _ _ _ => 2,
      fun _ _ _ => 3, fun _ _ _ => 4, fun _ _ _ _ => 1, fun _ _ _ => 1, fun _ _ _ _ => 1, fun _ _ _ _ _ => 3, fun _ _ _ _ => 1, fun _ _ _ => 1, fun _ _ _ => 2,
      fun _ _ _ _ => 1, fun _ _ _ => 2, fun _ _ _ _ => 1, fun _ _ _ _ => 1⟩ ⟨.pade, true, false, 2⟩ 5 3) 5 1 (fun _ => 0)
  obtain ⟨m'', h''⟩ := C26_executions_exist (sgsProg (V := Nat) ⟨fun _ _ _ _ _ => 1, fun _ _ _ _ => 1, fun _ _ _ _ _ => 2, fun _ _ _ => 1, fun _ _ _ _ _ => 2,
      fun _ _ _ => 3, fun _ _ _ => 4, fun _ _ _ _ => 1, fun _ _ _ => 1, fun _ _ _ _ => 1, fun _ _ _ _ _ => 3, fun _ _ _ _ => 1, fun _ _ _ => 1, fun _ _ _ => 2,
      fun _ _ _ _ => 1, fun _ _ _ => 2, fun _ _ _ _ => 1, fun _ _ _ _ => 1⟩ ⟨.pade, true, false, 2⟩ 5 3) 5 3 (fun _ => 0)
  exact ⟨m', m'', h', h''⟩

end Threads
end Mpdata
