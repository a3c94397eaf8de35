import Verif.Model.ThreadPrs
import Verif.Props.Threads
/-! # Multi-threaded programs with decisions: phases of incompressible solvers are deterministic -/
set_option linter.unusedSectionVars false
set_option linter.unusedVariables false
set_option linter.unusedSimpArgs false
namespace Mpdata
namespace Threads
open Classical
variable {V : Type}

/-- a deterministic phase in which scalars are assigned by `scal` only -/
def PhOk (N : Nat) (ss : List (S Ap Int V)) : Prop :=
  (OwnPhase N ss ∨ ((∀ T, Good N T ss [] ss) ∧ ss.Pairwise Sep ∧ ∀ s ∈ ss, s.ys.Nodup)) ∧ ∀ s ∈ ss, ∀ k, s.dst = .sc k → ∃ (f : FP V) (nm : String), s = scal f nm k

theorem phOk_serial {N T : Nat} (hT : 0 < T) (hTN : T ≤ N) {ss : List (S Ap Int V)} (h : PhOk N ss) {m m' : Ap × Int × Int → V}
    (he : PhaseExec (progOf (ss.map fun s => s.toStmt N T)) m m') : m' = serial (ss.map fun s => s.toStmt N T) m := by
  rcases h.1 with h | ⟨h1, h2, h3⟩
  · have : Inhabited (Fin T) := ⟨⟨0, hT⟩⟩
    exact phase_serial_owned (own_stmts hT hTN h) he
  · exact phase_serial (good_safe (h1 T) h2 h3) he

/-- all phases of a program are deterministic -/
def PProg.Ok (N : Nat) : PProg V → Prop
  | .done => True
  | .fail => True
  | .ph ss p => PhOk N ss ∧ p.Ok N
  | .br _ p q => p.Ok N ∧ q.Ok N

/-- the copies of every scalar agree -/
def Agree (N : Nat) (m : Ap × Int × Int → V) : Prop := ∀ k x x', 0 ≤ x → x ≤ (N : Int) - 1 → 0 ≤ x' → x' ≤ (N : Int) - 1 → m (.sc k, x, 0) = m (.sc k, x', 0)

theorem dom_scal {N T : Nat} (hT : 0 < T) (hN : 0 < N) (f : FP V) (nm : String) (k : Sc) (l : Ap × Int × Int) :
    (∃ t, l ∈ ((scal f nm k).toStmt N T).dom t) ↔ l.1 = .sc k ∧ (0 ≤ l.2.1 ∧ l.2.1 ≤ (N : Int) - 1) ∧ l.2.2 = 0 := by
  have c := cover (.ext 0 0) N T hT hN l.2.1
  simp only [Dom.glob, Rng.Mem] at c
  constructor
  · rintro ⟨t, ht⟩
    rw [mem_dom] at ht
    obtain ⟨h1, h2, h3⟩ := ht
    have := c.1 ⟨t, h2⟩
    refine ⟨h1, by push_cast at this; omega, by simpa [scal] using h3⟩
  · rintro ⟨h1, h2, h3⟩
    obtain ⟨t, ht⟩ := c.2 (by push_cast; omega)
    exact ⟨t, (mem_dom _ N T t l).2 ⟨h1, ht, by simp [scal, h3]⟩⟩

theorem agree_serial1 {N T : Nat} (hT : 0 < T) (hN : 0 < N) {s : S Ap Int V} (hs : ∀ k, s.dst = .sc k → ∃ (f : FP V) (nm : String), s = scal f nm k)
    {m : Ap × Int × Int → V} (ha : Agree N m) : Agree N (serial1 (s.toStmt N T) m) := by
  intro k x x' h0 h1 h0' h1'
  by_cases hd : s.dst = .sc k
  · obtain ⟨f, nm, rfl⟩ := hs k hd
    unfold serial1
    rw [if_pos ((dom_scal hT hN f nm k _).2 ⟨rfl, ⟨h0, h1⟩, rfl⟩), if_pos ((dom_scal hT hN f nm k _).2 ⟨rfl, ⟨h0', h1'⟩, rfl⟩)]
    show f.G nm k _ _ _ = f.G nm k _ _ _
    congr 1
    · funext j
      have e : ∀ z : Int, (scal f nm k).rd z 0 (.sc j) z 0 := fun z => Or.inr (Or.inr ⟨⟨j, rfl⟩, rfl, rfl⟩)
      simp only [if_pos (e x), if_pos (e x')]
      rw [ha j x x' h0 h1 h0' h1']
    · funext c
      have e : ∀ z : Int, (scal f nm k).rd z 0 .sumtmp c 0 := fun z => Or.inl rfl
      simp only [if_pos (e x), if_pos (e x')]
    · funext c
      have e : ∀ z : Int, (scal f nm k).rd z 0 .xtm c 0 := fun z => Or.inr (Or.inl rfl)
      simp only [if_pos (e x), if_pos (e x')]
  · have key : ∀ z : Int, serial1 (s.toStmt N T) m (.sc k, z, 0) = m (.sc k, z, 0) := by
      intro z
      unfold serial1
      rw [if_neg]
      rintro ⟨t, ht⟩
      rw [mem_dom] at ht
      exact hd ht.1.symm
    rw [key, key]
    exact ha k x x' h0 h1 h0' h1'

theorem agree_serial {N T : Nat} (hT : 0 < T) (hN : 0 < N) (ss : List (S Ap Int V)) (hs : ∀ s ∈ ss, ∀ k, s.dst = .sc k → ∃ (f : FP V) (nm : String), s = scal f nm k)
    {m : Ap × Int × Int → V} (ha : Agree N m) : Agree N (serial (ss.map fun s => s.toStmt N T) m) := by
  induction ss generalizing m with
  | nil => exact ha
  | cons s ss ih =>
    have : serial ((s :: ss).map fun s => s.toStmt N T) m = serial (ss.map fun s => s.toStmt N T) (serial1 (s.toStmt N T) m) := rfl
    rw [this]
    exact ih (fun s' h' => hs s' (List.mem_cons_of_mem _ h')) (agree_serial1 hT hN (hs s List.mem_cons_self) ha)

theorem serial_indep (ss : List (S Ap Int V)) (N T T' : Nat) (hT : 0 < T) (hT' : 0 < T') (hN : 0 < N) (m : Ap × Int × Int → V) :
    serial (ss.map fun s => s.toStmt N T) m = serial (ss.map fun s => s.toStmt N T') m := by
  have := serialPhases_indep [ss] N T T' hT hT' hN m
  simpa [serialPhases, toPhases] using this

theorem slab_has_zero {N T : Nat} (hT : 0 < T) (hN : 0 < N) : ∃ t : Fin T, (slabOf N T t).Mem 0 := by
  obtain ⟨t, ht⟩ := (cover (.ext 0 0) N T hT hN 0).2 (by simp only [Dom.glob, Rng.Mem, Nat.cast_zero]; omega)
  refine ⟨t, ?_⟩
  simpa [Dom.rng, Rng.Mem] using ht

theorem slab_in {N T : Nat} (t : Fin T) {x : Int} (h : (slabOf N T t).Mem x) : 0 ≤ x ∧ x ≤ (N : Int) - 1 := by
  have b := slabOf_bounds N T t
  unfold Rng.Mem at h
  omega

/-- whatever the numbers of threads and the interleavings, the result is the same -/
theorem exec_indep {N T T' : Nat} (hT : 0 < T) (hT' : 0 < T') (hTN : T ≤ N) (hTN' : T' ≤ N) {p : PProg V} (hp : p.Ok N) {m : Ap × Int × Int → V} {r r' : Option (Ap × Int × Int → V)}
    (h : PExec N T p m r) (h' : PExec N T' p m r') : r = r' := by
  have hN : 0 < N := by omega
  induction h generalizing r' with
  | done m => cases h'; rfl
  | fail m => cases h'; rfl
  | ph ss p m m1 r h1 h2 ih =>
    cases h' with
    | ph _ _ _ m1' _ h1' h2' =>
      have e : m1' = m1 := by rw [phOk_serial hT hTN hp.1 h1, phOk_serial hT' hTN' hp.1 h1', serial_indep ss N T' T hT' hT hN]
      subst e
      exact ih hp.2 h2'
  | yes c p q m r h1 h2 ih =>
    cases h' with
    | yes _ _ _ _ _ h1' h2' => exact ih hp.1 h2'
    | no _ _ _ _ _ h1' h2' =>
      obtain ⟨t, ht⟩ := slab_has_zero hT hN
      obtain ⟨t', ht'⟩ := slab_has_zero hT' hN
      have := (h1 t 0 ht).symm.trans (h1' t' 0 ht')
      simp at this
  | no c p q m r h1 h2 ih =>
    cases h' with
    | no _ _ _ _ _ h1' h2' => exact ih hp.2 h2'
    | yes _ _ _ _ _ h1' h2' =>
      obtain ⟨t, ht⟩ := slab_has_zero hT hN
      obtain ⟨t', ht'⟩ := slab_has_zero hT' hN
      have := (h1 t 0 ht).symm.trans (h1' t' 0 ht')
      simp at this

/-- wherever a run has got to, copies of scalars agree -/
theorem reach_agree {N T : Nat} (hT : 0 < T) (hTN : T ≤ N) {p p' : PProg V} {m m' : Ap × Int × Int → V} (h : PReach N T p m p' m') (hp : p.Ok N) (ha : Agree N m) :
    p'.Ok N ∧ Agree N m' := by
  induction h with
  | refl p m => exact ⟨hp, ha⟩
  | ph ss p m m1 p' m'' h1 h2 ih =>
    refine ih hp.2 ?_
    rw [phOk_serial hT hTN hp.1 h1]
    exact agree_serial hT (by omega) ss hp.1.2 ha
  | yes c p q m p' m'' h1 h2 ih => exact ih hp.1 ha
  | no c p q m p' m'' h1 h2 ih => exact ih hp.2 ha

/-- a run can always be completed -/
theorem exec_exists {N T : Nat} (hT : 0 < T) (hTN : T ≤ N) (p : PProg V) (hp : p.Ok N) (m : Ap × Int × Int → V) (ha : Agree N m) : ∃ r, PExec N T p m r := by
  have hN : 0 < N := by omega
  induction p generalizing m with
  | done => exact ⟨_, .done m⟩
  | fail => exact ⟨_, .fail m⟩
  | ph ss p ih =>
    obtain ⟨m1, h1⟩ := phase_exec_exists (progOf (ss.map fun s => s.toStmt N T)) m
    obtain ⟨r, hr⟩ := ih hp.2 m1 (by rw [phOk_serial hT hTN hp.1 h1]; exact agree_serial hT hN ss hp.1.2 ha)
    exact ⟨r, .ph _ _ _ _ _ h1 hr⟩
  | br c p q ihp ihq =>
    have same : ∀ t : Fin T, ∀ x, (slabOf N T t).Mem x → c (fun k => m (.sc k, x, 0)) = c (fun k => m (.sc k, 0, 0)) := by
      intro t x hx
      have := slab_in t hx
      congr 1
      funext k
      exact ha k x 0 this.1 this.2 le_rfl (by omega)
    cases hc : c (fun k => m (.sc k, 0, 0)) with
    | true =>
      obtain ⟨r, hr⟩ := ihp hp.1 m ha
      exact ⟨r, .yes _ _ _ _ _ (fun t x hx => (same t x hx).trans hc) hr⟩
    | false =>
      obtain ⟨r, hr⟩ := ihq hp.2 m ha
      exact ⟨r, .no _ _ _ _ _ (fun t x hx => (same t x hx).trans hc) hr⟩

/-! ## Statements on the thread's own columns -/

/-- a statement on own columns that assigns an array of `W` and reads neighbouring columns of arrays of `R` only -/
def PtOne (W R : Ap → Prop) (s : S Ap Int V) : Prop :=
  W s.dst ∧ s.dom = .ext 0 0 ∧ s.ys.Nodup ∧ (∀ x y a' x' y', s.rd x y a' x' y' → R a' ∨ (x' = x ∧ (a' = s.dst → y' = y))) ∧
    ∀ k, s.dst = .sc k → ∃ (f : FP V) (nm : String), s = scal f nm k

def PtIn (W R : Ap → Prop) (ss : List (S Ap Int V)) : Prop := ∀ s ∈ ss, PtOne W R s

theorem ptIn_ok {N : Nat} {W R : Ap → Prop} {ss : List (S Ap Int V)} (h : PtIn W R ss) (hd : ∀ a, W a → ¬ R a) : PhOk N ss := by
  refine ⟨Or.inl ⟨?_, ?_, ?_, ?_⟩, fun s hs => (h s hs).2.2.2.2⟩
  · intro s hs; rw [(h s hs).2.1]; exact ⟨rfl, rfl⟩
  · intro s hs; exact (h s hs).2.2.1
  · intro s hs x hx y hy a' x' y' hr s' hs' hda hy' hx'
    rcases (h s hs).2.2.2.1 x y a' x' y' hr with h1 | h1
    · exact absurd h1 (hd _ (hda ▸ (h s' hs').1))
    · exact Or.inl h1.1
  · intro s hs x y x' y' hx hy hr hx' hy'
    rcases (h s hs).2.2.2.1 x y _ x' y' hr with h1 | h1
    · exact absurd h1 (hd _ (h s hs).1)
    · exact ⟨h1.1, h1.2 rfl⟩

theorem PtIn.append {W R : Ap → Prop} {ss ss' : List (S Ap Int V)} (h : PtIn W R ss) (h' : PtIn W R ss') : PtIn W R (ss ++ ss') := by
  intro s hs
  rcases List.mem_append.1 hs with hs | hs
  · exact h s hs
  · exact h' s hs

theorem PtIn.mono {W R W' R' : Ap → Prop} {ss : List (S Ap Int V)} (h : PtIn W R ss) (hw : ∀ a, W a → W' a) (hr : ∀ a, R a → R' a) : PtIn W' R' ss := by
  intro s hs
  obtain ⟨h1, h2, h3, h4, h5⟩ := h s hs
  exact ⟨hw _ h1, h2, h3, fun x y a' x' y' h => (h4 x y a' x' y' h).imp (hr _) id, h5⟩

theorem PtIn.nil {W R : Ap → Prop} : PtIn (V := V) W R [] := fun s hs => absurd hs List.not_mem_nil

theorem PtIn.cons {W R : Ap → Prop} {s : S Ap Int V} {ss : List (S Ap Int V)} (h : PtOne W R s) (h' : PtIn W R ss) : PtIn W R (s :: ss) := by
  intro s' hs'
  rcases List.mem_cons.1 hs' with rfl | hs'
  · exact h
  · exact h' s' hs'

/-- arrays that hold no scalars -/
def NoSc (a : Ap) : Prop := ∀ k, a ≠ .sc k

variable (f : FP V) (o : POpts) (N M : Nat)

theorem pt_one {W R : Ap → Prop} (nm : String) (a : Ap) (nb : Ap → Prop) (hw : W a) (hr : ∀ a', nb a' → R a') (hs : NoSc a) : PtOne W R (pt f M nm a nb) := by
  refine ⟨hw, rfl, nodup_rows _ _, ?_, fun k hk => absurd hk (hs k)⟩
  intro x y a' x' y' h
  exact h.imp (hr _) id

theorem pt0_one {W R : Ap → Prop} (nm : String) (a : Ap) (hw : W a) (hs : NoSc a) : PtOne W R (pt0 f nm a) :=
  ⟨hw, rfl, by simp [pt0], fun x y a' x' y' h => Or.inr h, fun k hk => absurd hk (hs k)⟩

theorem scal_one {W R : Ap → Prop} (nm : String) (k : Sc) (hw : W (.sc k)) (h1 : R .sumtmp) (h2 : R .xtm) : PtOne W R (scal f nm k) := by
  refine ⟨hw, rfl, by simp [scal], ?_, ?_⟩
  · intro x y a' x' y' h
    rcases h with rfl | rfl | ⟨-, h3, h4⟩
    · exact Or.inl h1
    · exact Or.inl h2
    · exact Or.inr ⟨h3, fun _ => h4⟩
  · intro k' hk'
    have : k = k' := by simpa [scal] using hk'
    subst this
    exact ⟨f, nm, rfl⟩

theorem both_in {W R : Ap → Prop} (g : Bool → S Ap Int V) (h : ∀ d, PtOne W R (g d)) : PtIn W R (both g) := .cons (h false) (.cons (h true) .nil)

/-! ## Exchanges -/

theorem phs_ok {N : Nat} {ps : List (List (S Ap Int V))} {p : PProg V} (h : ∀ ss ∈ ps, PhOk N ss) (hp : p.Ok N) : (PProg.phs ps p).Ok N := by
  unfold PProg.phs
  induction ps with
  | nil => exact hp
  | cons ss ps ih => exact ⟨h ss List.mem_cons_self, ih fun ss' h' => h ss' (List.mem_cons_of_mem _ h')⟩

theorem xbc0_ok (nm : String) (a : Ap) (ha : NoSc a) (r : Bool) (lo hi : Int) (hr : r = true → (N : Int) - 1 ≤ lo) (hl : r = false → hi ≤ 0) (ys : List Int) (hy : ys.Nodup) :
    PhOk N [xbc0 f nm a r lo hi ys] := by
  refine ⟨Or.inl ⟨?_, ?_, ?_, ?_⟩, ?_⟩ <;> simp only [List.mem_cons, List.mem_nil_iff, or_false]
  · rintro s rfl
    cases r
    · exact hl rfl
    · exact hr rfl
  · rintro s rfl; exact hy
  · rintro s rfl x hx y hy a' x' y' hrd s' rfl hd hy' hx'
    rcases hrd with h | h
    · exact Or.inl h.1
    · refine absurd ⟨hd.symm, ?_, hy'⟩ h
      cases r <;> exact hx'
  · rintro s rfl x y x' y' hx hy hrd hx' hy'
    rcases hrd with h | h
    · exact h
    · refine absurd ⟨rfl, ?_, hy'⟩ h
      cases r <;> exact hx'
  · rintro s rfl k hk
    exact absurd hk (ha k)

theorem xbc1_ok (nm : String) (a : Ap) (ha : NoSc a) (d : Dom) (hd : d.Own N) (ys : List Int) (hy : ys.Nodup) : PhOk N [xbc1 f nm a d ys] := by
  refine ⟨Or.inl ⟨?_, ?_, ?_, ?_⟩, ?_⟩ <;> simp only [List.mem_cons, List.mem_nil_iff, or_false]
  · rintro s rfl; exact hd
  · rintro s rfl; exact hy
  · rintro s rfl x hx y hy a' x' y' hrd s' rfl hd hy' hx'
    rcases hrd with h | h
    · exact Or.inl h.1
    · exact absurd ⟨hd.symm, hy'⟩ h
  · rintro s rfl x y x' y' hx hy hrd hx' hy'
    rcases hrd with h | h
    · exact h
    · exact absurd ⟨rfl, hy'⟩ h
  · rintro s rfl k hk
    exact absurd hk (ha k)

theorem xpres_ok (nm : String) (a : Ap) (ha : NoSc a) (e : Nat) : ∀ ss ∈ xpres f o N M nm a e, PhOk N ss := by
  intro ss h
  simp only [xpres, List.mem_cons, List.not_mem_nil, or_false] at h
  rcases h with rfl | rfl | rfl
  · exact xbc0_ok f N nm a ha true _ _ (by intro; omega) (by simp) _ (nodup_rows _ _)
  · exact xbc0_ok f N nm a ha false _ _ (by simp) (by intro; omega) _ (nodup_rows _ _)
  · exact xbc1_ok f N nm a ha (.extR e e) trivial _ (nodup_haloRows _ _)

theorem edges_ok (nm : String) (v : Bool → Ap) (hv : ∀ d, NoSc (v d)) : ∀ ss ∈ edges f N M nm v, PhOk N ss := by
  intro ss h
  simp only [edges, List.mem_cons, List.not_mem_nil, or_false] at h
  rcases h with rfl | rfl | rfl
  · exact xbc0_ok f N nm _ (hv _) true _ _ (by intro; omega) (by simp) _ (nodup_rows _ _)
  · exact xbc0_ok f N nm _ (hv _) false _ _ (by simp) (by intro; omega) _ (nodup_rows _ _)
  · exact xbc1_ok f N nm _ (hv _) (.ext 0 0) ⟨rfl, rfl⟩ _ (List.nodup_dedup _)

theorem nosc_lapt (d : Bool) : NoSc (.lapt d) := fun k => by simp
theorem nosc_psi (e : Nat) (b : Bool) : NoSc (.psi e b) := fun k => by simp
theorem nosc_vps (l : Nat → Bool) (d : Bool) : NoSc (vps o l d) := nosc_psi _ _

/-! ## Pressure solver -/

theorem lap_ok {pre : List (S Ap Int V)} (hpre : PhOk N pre) (a : Ap) (ha : ∀ d, a ≠ .lapt d) (hs : NoSc a) (ini : Bool) {k : PProg V} (hk : k.Ok N) : (lap f o N M pre a ini k).Ok N := by
  refine ⟨hpre, phs_ok (xpres_ok f o N M _ _ hs _) ⟨?_, phs_ok (edges_ok f N M _ _ nosc_lapt) ⟨?_, phs_ok (xpres_ok f o N M _ _ (nosc_lapt _) _) (phs_ok (xpres_ok f o N M _ _ (nosc_lapt _) _) hk)⟩⟩⟩
  · refine ptIn_ok (W := fun b => ∃ d, b = .lapt d) (R := nb1 a) (.append (both_in _ fun d => pt_one f M _ _ _ ⟨d, rfl⟩ (fun _ h => h) (nosc_lapt d)) ?_) ?_
    · split_ifs
      · exact both_in _ fun d => pt_one f M _ _ _ ⟨d, rfl⟩ (fun _ h => h.elim) (nosc_lapt d)
      · exact .nil
    · rintro b ⟨d, rfl⟩ h; exact ha d h.symm
  · exact ptIn_ok (W := fun b => ∃ d, b = .lapt d) (R := nb0) (.append (both_in _ fun d => pt_one f M _ _ _ ⟨d, rfl⟩ (fun _ h => h) (nosc_lapt d))
      (both_in _ fun d => pt_one f M _ _ _ ⟨d, rfl⟩ (fun _ h => h) (nosc_lapt d))) (fun _ _ h => h)

/-- a scalar evaluated in a phase of its own -/
theorem scal_ok (nm : String) (k : Sc) : PhOk N [scal f nm k] :=
  ptIn_ok (W := fun a => a = .sc k) (R := fun a => a = .sumtmp ∨ a = .xtm) (.cons (scal_one f _ _ rfl (Or.inl rfl) (Or.inr rfl)) .nil) (by rintro a rfl (h | h) <;> simp at h)

theorem sumTo_ok {pre : List (S Ap Int V)} {W R : Ap → Prop} (hpre : PtIn W R pre) (hd : ∀ a, W a → ¬ R a) (hR : ¬ R .sumtmp) (nm : String) (k : Sc) {p : PProg V} (hp : p.Ok N) :
    (sumTo f pre nm k p).Ok N := by
  refine ⟨ptIn_ok (W := fun a => W a ∨ a = .sumtmp) (R := R) (.append (hpre.mono (fun _ h => Or.inl h) (fun _ h => h)) (.cons (pt0_one f _ _ (Or.inr rfl) (fun k => by simp)) .nil)) ?_,
    scal_ok f N nm k, hp⟩
  rintro a (h | rfl)
  · exact hd a h
  · exact hR

theorem relaxStep_ok (nm : String) {p : PProg V} (hp : p.Ok N) : (relaxStep f M nm p).Ok N := by
  refine ⟨?_, scal_ok f N _ _, ?_, ?_, hp⟩
  · exact ptIn_ok (W := fun a => a = .phi ∨ a = .err ∨ a = .xtm) (R := nb0) (.cons (pt_one f M _ _ _ (Or.inl rfl) (fun _ h => h) (fun k => by simp))
      (.cons (pt_one f M _ _ _ (Or.inr (Or.inl rfl)) (fun _ h => h) (fun k => by simp)) (.cons (pt0_one f _ _ (Or.inr (Or.inr rfl)) (fun k => by simp)) .nil))) (fun _ _ h => h)
  · exact ptIn_ok (W := fun a => a = .xtm) (R := nb0) (.cons (pt0_one f _ _ rfl (fun k => by simp)) .nil) (fun _ _ h => h)
  · refine ptIn_ok (W := fun a => ∃ k, a = .sc k) (R := fun a => a = .sumtmp ∨ a = .xtm) (.cons (scal_one f _ _ ⟨_, rfl⟩ (Or.inl rfl) (Or.inr rfl))
      (.cons (scal_one f _ _ ⟨_, rfl⟩ (Or.inl rfl) (Or.inr rfl)) .nil)) ?_
    rintro a ⟨k, rfl⟩ (h | h) <;> simp at h

theorem mrBody_ok {pre : List (S Ap Int V)} (hpre : PhOk N pre) {k : PProg V} (hk : k.Ok N) : (mrBody f o N M pre k).Ok N := by
  refine lap_ok f o N M hpre _ (by simp) (fun k => by simp) _ (sumTo_ok f N (W := fun a => a = .laperr) (R := nbL) (.cons (pt_one f M _ _ _ rfl (fun _ h => h) (fun k => by simp)) .nil) ?_ ?_ _ _ ⟨?_, ?_⟩)
  · rintro a rfl ⟨d, h⟩; simp at h
  · rintro ⟨d, h⟩; simp at h
  · exact sumTo_ok f N (W := nb0) (R := nb0) .nil (fun _ _ h => h) id _ _ (relaxStep_ok f N M _ hk)
  · exact relaxStep_ok f N M _ hk

theorem empty_ok : PhOk (V := V) N [] := ptIn_ok (W := nb0) (R := nb0) .nil (fun _ _ h => h)

theorem mrLoop_ok {k : PProg V} (hk : k.Ok N) : ∀ (c : Nat) {pre : List (S Ap Int V)}, PhOk N pre → (mrLoop f o N M k c pre).Ok N := by
  intro c
  induction c with
  | zero => intro pre hpre; exact mrBody_ok f o N M hpre trivial
  | succ c ih => intro pre hpre; exact mrBody_ok f o N M hpre ⟨hk, ih (empty_ok N)⟩

/-- arrays assigned between barriers of the conjugate-residual scheme -/
def WG (a : Ap) : Prop := a = .laperr ∨ (∃ v, a = .perr v) ∨ ∃ v, a = .lperr v

theorem WG_disj : ∀ a, WG a → ¬ nbL a := by
  rintro a (rfl | ⟨v, rfl⟩ | ⟨v, rfl⟩) ⟨d, h⟩ <;> simp at h

theorem nbL_sum : ¬ nbL .sumtmp := by rintro ⟨d, h⟩; simp at h

theorem alphas_ok {k : List (S Ap Int V) → PProg V} (hk : ∀ q, PtIn WG nbL q → (k q).Ok N) :
    ∀ (j l : Nat) {pre : List (S Ap Int V)}, PtIn WG nbL pre → (alphas f j l pre k).Ok N := by
  intro j
  induction j with
  | zero => intro l pre hpre; exact hk _ hpre
  | succ j ih => intro l pre hpre; exact ⟨sumTo_ok f N hpre WG_disj nbL_sum _ _ (ih _ .nil), ih _ hpre⟩

theorem newDirs_in (v w : Nat) : PtIn WG nbL (newDirs f M v w) := by
  have hp : ∀ nm, PtOne WG nbL (pt f M nm (.perr w) nb0) := fun nm => pt_one f M _ _ _ (Or.inr (Or.inl ⟨w, rfl⟩)) (fun _ h => h.elim) (fun k => by simp)
  have hl : ∀ nm, PtOne WG nbL (pt f M nm (.lperr w) nb0) := fun nm => pt_one f M _ _ _ (Or.inr (Or.inr ⟨w, rfl⟩)) (fun _ h => h.elim) (fun k => by simp)
  refine .append (.cons (hp _) (.cons (hl _) .nil)) ?_
  intro s hs
  obtain ⟨l, -, hs⟩ := List.mem_flatMap.1 hs
  simp only [List.mem_cons, List.not_mem_nil, or_false] at hs
  rcases hs with rfl | rfl
  · exact hp _
  · exact hl _

theorem gcrIters_ok (kI : Nat) {k : List (S Ap Int V) → PProg V} (hk : ∀ q, PtIn WG nbL q → (k q).Ok N) :
    ∀ (j v : Nat) {pre : List (S Ap Int V)}, PtIn WG nbL pre → (gcrIters f o N M kI j v pre k).Ok N := by
  intro j
  induction j with
  | zero => intro v pre hpre; exact hk _ hpre
  | succ j ih =>
    intro v pre hpre
    have ht := relaxStep_ok f N M (toString v) (lap_ok f o N M (empty_ok N) .err (by simp) (fun k => by simp) false
      (alphas_ok f N (k := fun pre => gcrIters f o N M kI j (v + 1) (pre ++ newDirs f M v (if v + 1 < kI then v + 1 else 0)) k)
        (fun q hq => ih (v + 1) (hq.append (newDirs_in f M v _))) (v + 1) 0
        (pre := [pt f M "div" .laperr nbL]) (.cons (pt_one f M _ _ _ (Or.inl rfl) (fun _ h => h) (fun k => by simp)) .nil)))
    exact sumTo_ok f N hpre WG_disj nbL_sum _ _ ⟨sumTo_ok f N (W := nb0) (R := nb0) .nil (fun _ _ h => h) id _ _ ht, ht⟩

theorem gcrLoop_ok (kI : Nat) {k : List (S Ap Int V) → PProg V} (hk : ∀ q, PtIn WG nbL q → (k q).Ok N) :
    ∀ (c : Nat) {pre : List (S Ap Int V)}, PtIn WG nbL pre → (gcrLoop f o N M kI k c pre).Ok N := by
  intro c
  induction c with
  | zero => intro pre hpre; exact gcrIters_ok f o N M kI (k := fun _ => .fail) (fun _ _ => trivial) _ _ hpre
  | succ c ih => intro pre hpre; exact gcrIters_ok f o N M kI (k := fun pre => .br (fun s => f.cv (s .conv)) (k pre) (gcrLoop f o N M kI k c pre)) (fun q hq => ⟨hk q hq, ih hq⟩) _ _ hpre

/-- what follows the pressure solver: gradients of pressure are evaluated -/
def GradQ (q : List (S Ap Int V)) : Prop := PtIn (fun a => ∃ d, a = .uvw d) (nb1 .phi) q

theorem prsUpdate_ok {pre : List (S Ap Int V)} (hpre : PhOk N (pre ++ both fun d => pt f M "save" (.uvw d) nb0)) {k : List (S Ap Int V) → PProg V} (hk : ∀ q, GradQ q → (k q).Ok N) :
    (prsUpdate f o N M pre k).Ok N := by
  have hfin : ∀ q, PtIn WG nbL q → (PProg.ph q <| .phs (xpres f o N M "pres" .phi 0) <| k (both fun d => pt f M "grad" (.uvw d) (nb1 .phi))).Ok N := by
    intro q hq
    exact ⟨ptIn_ok hq WG_disj, phs_ok (xpres_ok f o N M _ _ (fun k => by simp) _) (hk _ (both_in _ fun d => pt_one f M _ _ _ ⟨d, rfl⟩ (fun _ h => h) (fun k => by simp)))⟩
  have hini : PtIn (fun a => a = .err ∨ a = .sc .conv ∨ a = .perr 0) (fun a => nbL a ∨ a = .sumtmp ∨ a = .xtm) ([pt f M "div0" .err nbL, scal f "reset" .conv]) :=
    .cons (pt_one f M _ _ _ (Or.inl rfl) (fun _ h => Or.inl h) (fun k => by simp)) (.cons (scal_one f _ _ (Or.inr (Or.inl rfl)) (Or.inr (Or.inl rfl)) (Or.inr (Or.inr rfl))) .nil)
  have hdis : ∀ a, (a = Ap.err ∨ a = .sc .conv ∨ a = .perr 0) → ¬ (nbL a ∨ a = .sumtmp ∨ a = .xtm) := by
    rintro a (rfl | rfl | rfl) (⟨d, h⟩ | h | h) <;> simp at h
  unfold prsUpdate
  refine lap_ok f o N M hpre _ (by simp) (fun k => by simp) _ ?_
  split
  · exact mrLoop_ok f o N M (hfin [] .nil) _ (ptIn_ok hini hdis)
  · refine lap_ok f o N M (ptIn_ok (hini.append (.cons (pt_one f M _ _ _ (Or.inr (Or.inr rfl)) (fun _ h => h.elim) (fun k => by simp)) .nil)) hdis) _ (by simp) (fun k => by simp) _ ?_
    exact gcrLoop_ok f o N M _ hfin _ (.cons (pt_one f M _ _ _ (Or.inr (Or.inr ⟨0, rfl⟩)) (fun _ h => h) (fun k => by simp)) .nil)

/-! ## Advection operator -/

theorem embA_inj (e : Nat) {a b : A2} (h : embA e a = embA e b) : a = b := by
  cases a <;> cases b <;> simp_all [embA]

theorem nosc_emb (e : Nat) (a : A2) : NoSc (embA e a) := by
  intro k; cases a <;> simp [embA]

theorem own_emb (e : Nat) {ss : List (S A2 Int V)} (h : OwnPhase N ss) : OwnPhase N (ss.map (S.emb e)) := by
  refine ⟨?_, ?_, ?_, ?_⟩
  · intro s hs
    obtain ⟨s, hm, rfl⟩ := List.mem_map.1 hs
    exact h.own s hm
  · intro s hs
    obtain ⟨s, hm, rfl⟩ := List.mem_map.1 hs
    exact h.nodup s hm
  · intro s hs x hx y hy a' x' y' hr s' hs' hd hy' hx'
    obtain ⟨s, hm, rfl⟩ := List.mem_map.1 hs
    obtain ⟨s', hm', rfl⟩ := List.mem_map.1 hs'
    obtain ⟨a, rfl, hr⟩ := hr
    exact h.reads s hm x hx y hy a x' y' hr s' hm' (embA_inj e hd) hy' hx'
  · intro s hs x y x' y' hx hy hr hx' hy'
    obtain ⟨s, hm, rfl⟩ := List.mem_map.1 hs
    obtain ⟨a, ha, hr⟩ := hr
    have := embA_inj e ha
    subst this
    exact h.self s hm x y x' y' hx hy hr hx' hy'

theorem good_emb (e : Nat) {N T : Nat} {all : List (S A2 Int V)} : ∀ {ss pre : List (S A2 Int V)}, Good N T all pre ss →
    Good N T (all.map (S.emb e)) (pre.map (S.emb e)) (ss.map (S.emb e)) := by
  intro ss
  induction ss with
  | nil => intro _ _; trivial
  | cons s ss ih =>
    intro pre h
    refine ⟨?_, ?_⟩
    · intro t x hx y hy a' x' y' hr
      obtain ⟨a, rfl, hr⟩ := hr
      rcases h.1 t x hx y hy a x' y' hr with ⟨s', h1, h2, h3, h4⟩ | h1
      · exact Or.inl ⟨_, List.mem_map.2 ⟨s', h1, rfl⟩, by rw [← h2]; rfl, h3, h4⟩
      · right
        intro s' hs' hd
        obtain ⟨s', hm', rfl⟩ := List.mem_map.1 hs'
        exact h1 s' hm' (embA_inj e hd)
    · have := ih h.2
      rwa [List.map_append] at this

theorem phOk_emb (e : Nat) {ss : List (S A2 Int V)} (h : ∀ T, Good N T ss [] ss ∨ OwnPhase N ss) (hw : ss.Pairwise Sep ∧ ∀ s ∈ ss, s.ys.Nodup) : PhOk N (ss.map (S.emb e)) := by
  refine ⟨?_, ?_⟩
  · by_cases ho : OwnPhase N ss
    · exact Or.inl (own_emb N e ho)
    · refine Or.inr ⟨fun T => good_emb e ((h T).resolve_right ho), ?_, ?_⟩
      · rw [List.pairwise_map]
        refine hw.1.imp ?_
        intro s s' h
        exact h.imp (fun h h' => h (embA_inj e h')) id
      · intro s hs
        obtain ⟨s, hm, rfl⟩ := List.mem_map.1 hs
        exact hw.2 s hm
  · intro s hs k hk
    obtain ⟨s, hs, rfl⟩ := List.mem_map.1 hs
    exact absurd hk (nosc_emb e _ k)

/-! ## Hooks -/

/-- the condition under which no forcing reads, in neighbouring columns, what is assigned in the same phase -/
def ForcingSafe (o : POpts) : Prop := ∀ e, o.nbr e = true → (∀ d, o.vip d ≠ e) ∧ o.scaled e = false ∧ (o.sch ≠ .eulerA → o.hasRhs e = false)

def W0 (o : POpts) : Ap → Prop
  | .psi e _ => o.nbr e = false
  | .rhs _ => True
  | .vrhs _ => True
  | .uvw _ => True
  | .stash _ _ => True
  | _ => False
def R0 (o : POpts) (a : Ap) : Prop := ∃ e b, o.nbr e = true ∧ a = .psi e b
def W1 : Ap → Prop
  | .psi _ _ => True
  | .rhs _ => True
  | .vrhs _ => True
  | .uvw _ => True
  | .stash _ _ => True
  | _ => False

def PreOk (o : POpts) (q : List (S Ap Int V)) : Prop := PtIn (W0 o) (R0 o) q ∨ PtIn W1 nb0 q

theorem W01 (o : POpts) : ∀ a, W0 o a → W1 a := by intro a; cases a <;> simp [W0, W1]

theorem preOk_ok {q : List (S Ap Int V)} (h : PreOk o q) : PhOk N q := by
  rcases h with h | h
  · refine ptIn_ok h ?_
    rintro a hw ⟨e, b, he, rfl⟩
    simp only [W0] at hw
    simp [hw] at he
  · exact ptIn_ok h (fun _ _ h => h)

theorem preOk_app {q q' : List (S Ap Int V)} (h : PreOk o q) (h' : PtIn (W0 o) nb0 q') : PreOk o (q ++ q') := by
  rcases h with h | h
  · exact Or.inl (h.append (h'.mono (fun _ h => h) (fun _ h => h.elim)))
  · exact Or.inr (h.append (h'.mono (W01 o) (fun _ h => h)))

/-- a statement for both components without neighbours, in `W0` -/
theorem both0 (nm : String) (a : Bool → Ap) (h : ∀ d, W0 o (a d)) : PtIn (W0 o) nb0 (both fun d => pt f M nm (a d) nb0) := by
  refine both_in _ fun d => pt_one f M _ _ _ (h d) (fun _ h => h) ?_
  intro k hk
  have := h d
  rw [hk] at this
  exact this

theorem vps0 (hs : ForcingSafe o) (l : Nat → Bool) (d : Bool) : W0 o (vps o l d) := by
  show o.nbr (o.vip d) = false
  cases h : o.nbr (o.vip d) with
  | false => rfl
  | true => exact absurd rfl ((hs _ h).1 d)

theorem fnlzT_ok (hs : ForcingSafe o) {pre : List (S Ap Int V)} (hpre : PreOk o pre) {k : List (S Ap Int V) → PProg V} (hk : ∀ q, PtIn (W0 o) nb0 q → (k q).Ok N) : (fnlzT f o N M pre k).Ok N := by
  unfold fnlzT
  refine prsUpdate_ok f o N M (preOk_ok o N (preOk_app o (preOk_app o (preOk_app o hpre ?_) ?_) ?_)) ?_
  · exact both0 f o M _ _ fun _ => trivial
  · exact both0 f o M _ _ fun d => vps0 o hs _ d
  · exact both0 f o M _ _ fun _ => trivial
  · intro q hq
    refine ⟨ptIn_ok (W := fun a => (∃ d, a = .uvw d) ∨ ∃ d, a = vps o (lvlPost f o) d) (R := nb1 .phi) (.append (.append (hq.mono (fun _ h => Or.inl h) (fun _ h => h)) ?_) ?_) ?_,
      phs_ok (edges_ok f N M _ _ (nosc_vps o _)) (hk _ ?_)⟩
    · exact both_in _ fun d => pt_one f M _ _ _ (Or.inr ⟨d, rfl⟩) (fun _ h => h.elim) (nosc_vps o _ d)
    · exact both_in _ fun d => pt_one f M _ _ _ (Or.inr ⟨d, rfl⟩) (fun _ h => h.elim) (nosc_vps o _ d)
    · rintro a (⟨d, rfl⟩ | ⟨d, rfl⟩) h
      · simp [nb1] at h
      · simp [nb1, vps] at h
    · exact both0 f o M _ _ fun _ => trivial

theorem nrmlE_ok : ∀ ss ∈ nrmlE f o N M, PhOk N ss := by
  intro ss h
  simp only [nrmlE, List.mem_cons, List.not_mem_nil, or_false] at h
  have ng : ∀ d k, gcA d ≠ .sc k := fun d k => by simp [gcA]
  rcases h with rfl | rfl
  · refine ⟨Or.inr ⟨fun T => ⟨?_, ?_, trivial⟩, by simp [Sep, gcA], ?_⟩, ?_⟩
    · intro t x hx y hy a' x' y' hr
      right
      intro s' hs' hd hy' t'
      simp only [List.mem_cons, List.not_mem_nil, or_false] at hs'
      rcases hs' with rfl | rfl
      · exact absurd hy' hr.2
      · have := hd.trans hr.1
        simp [gcA] at this
    · intro t x hx y hy a' x' y' hr
      right
      intro s' hs' hd hy' t'
      simp only [List.mem_cons, List.not_mem_nil, or_false] at hs'
      rcases hs' with rfl | rfl
      · have := hd.trans hr.1
        simp [gcA] at this
      · simp only [Dom.rng]
        split_ifs
        · exact hr.2
        · simp only [Rng.Mem]; omega
    · intro s hs
      simp only [List.mem_cons, List.not_mem_nil, or_false] at hs
      rcases hs with rfl | rfl
      · exact nodup_haloRows _ _
      · exact nodup_rows _ _
    · intro s hs k hk
      simp only [List.mem_cons, List.not_mem_nil, or_false] at hs
      rcases hs with rfl | rfl
      · exact absurd hk (ng _ k)
      · exact absurd hk (ng _ k)
  · exact xbc0_ok f N _ _ (ng _) false _ _ (by simp) (by intro; omega) _ (nodup_rows _ _)

theorem alngT_ok (hN : 0 < N) (hM : 0 < M) : ∀ ss ∈ (alng2 f.gcf o.toTOpts N M .gc).map fun ss => ss.map (S.emb 0), PhOk N ss := by
  intro ss h
  obtain ⟨ss, hm, rfl⟩ := List.mem_map.1 h
  exact phOk_emb N 0 (fun T => Or.inr (alng2_own f.gcf o.toTOpts N M hN hM .gc (by simp) ss hm)) (wf_alng2 f.gcf o.toTOpts N M hM .gc (by simp) ss hm)

/-- statements that read nothing the phase assigns, on any ranges -/
theorem free_ok {ss : List (S Ap Int V)} (hp : ss.Pairwise Sep) (hn : ∀ s ∈ ss, s.ys.Nodup) (hs : ∀ s ∈ ss, NoSc s.dst)
    (h : ∀ s ∈ ss, ∀ x y a' x' y', s.rd x y a' x' y' → ∀ s' ∈ ss, s'.dst ≠ a') : PhOk N ss := by
  refine ⟨Or.inr ⟨fun T => ?_, hp, hn⟩, fun s h k hk => absurd hk (hs s h k)⟩
  have : ∀ (l pre : List (S Ap Int V)), (∀ s ∈ l, s ∈ ss) → Good N T ss pre l := by
    intro l
    induction l with
    | nil => intro _ _; trivial
    | cons s l ih =>
      intro pre hl
      refine ⟨?_, ih _ (fun s' hs' => hl s' (List.mem_cons_of_mem _ hs'))⟩
      intro t x _ y _ a' x' y' hr
      exact Or.inr (fun s' hs' hd => absurd hd (h s (hl s List.mem_cons_self) x y a' x' y' hr s' hs'))
  exact this ss [] (fun _ h => h)

theorem calcGcT_ok (hN : 0 < N) (hM : 0 < M) {k : PProg V} (hk : k.Ok N) : (calcGcT f o N M [] k).Ok N := by
  have ns : ∀ d, NoSc (.stash 0 d) := fun d k => by simp
  refine ⟨preOk_ok o N (Or.inl ((both0 f o M _ (.stash 0) fun _ => trivial).mono (fun _ h => h) (fun _ h => h.elim))), phs_ok (xpres_ok f o N M _ _ (ns _) _) (phs_ok (xpres_ok f o N M _ _ (ns _) _)
    ⟨?_, phs_ok (alngT_ok f o N M hN hM) (phs_ok (nrmlE_ok f o N M) hk)⟩)⟩
  refine free_ok N (by simp [Sep, gcA]) ?_ ?_ ?_
  · simp [nodup_rows]
  · intro s hs k
    simp only [List.mem_cons, List.not_mem_nil, or_false] at hs
    rcases hs with rfl | rfl <;> simp [gcA]
  · intro s hs x y a' x' y' hr s' hs'
    simp only [List.mem_cons, List.not_mem_nil, or_false] at hs hs'
    rcases hs with rfl | rfl <;> rcases hs' with rfl | rfl <;> simp only at hr <;> subst hr <;> simp [gcA]

/-- the forces of `update_rhs` -/
theorem forces_in (l : Nat → Bool) : PtIn (fun a => ∃ e, a = .rhs e) (R0 o)
    (((List.range o.nEq).filter o.hasRhs).map fun e => pt f M "force" (.rhs e) (fun a => ∃ e', o.nbr e' = true ∧ a = .psi e' (l e'))) := by
  intro s hs
  obtain ⟨e, -, rfl⟩ := List.mem_map.1 hs
  exact pt_one f M _ _ _ ⟨e, rfl⟩ (fun a ⟨e', h1, h2⟩ => ⟨e', _, h1, h2⟩) (fun k => by simp)

theorem updRhsT_ok (l : Nat → Bool) {pre : List (S Ap Int V)} (hpre : PtIn (W0 o) nb0 pre) {k : List (S Ap Int V) → PProg V}
    (hk : ∀ q, PtIn (fun a => ∃ e, a = .rhs e) (R0 o) q → (k q).Ok N) : (updRhsT f o N M l pre k).Ok N := by
  refine ⟨preOk_ok o N (preOk_app o (Or.inl (hpre.mono (fun _ h => h) (fun _ h => h.elim))) ?_), phs_ok ?_ (hk _ (forces_in f o M l))⟩
  · intro s hs
    obtain ⟨e, -, rfl⟩ := List.mem_map.1 hs
    exact pt_one f M _ _ _ trivial (fun _ h => h) (fun k => by simp)
  · intro ss h
    obtain ⟨e, -, h⟩ := List.mem_flatMap.1 h
    exact xpres_ok f o N M _ _ (nosc_psi _ _) _ ss h

theorem appRhsT_in1 (nm : String) (l : Nat → Bool) : PtIn W1 nb0 (appRhsT f o M nm l) := by
  intro s hs
  obtain ⟨e, -, rfl⟩ := List.mem_map.1 hs
  exact pt_one f M _ _ _ trivial (fun _ h => h) (nosc_psi _ _)

theorem appRhsT_in0 (hs : ForcingSafe o) (hsch : o.sch ≠ .eulerA) (nm : String) (l : Nat → Bool) : PtIn (W0 o) nb0 (appRhsT f o M nm l) := by
  intro s h
  obtain ⟨e, he, rfl⟩ := List.mem_map.1 h
  refine pt_one f M _ _ _ ?_ (fun _ h => h) (nosc_psi _ _)
  show o.nbr e = false
  cases hn : o.nbr e with
  | false => rfl
  | true =>
    have := (hs e hn).2.2 hsch
    rw [List.mem_filter, this] at he
    simp at he

theorem rhs_pre {q : List (S Ap Int V)} (h : PtIn (fun a => ∃ e, a = .rhs e) (R0 o) q) : PtIn (W0 o) (R0 o) q :=
  h.mono (by rintro a ⟨e, rfl⟩; trivial) (fun _ h => h)

theorem rhsAnte_ok (hs : ForcingSafe o) {k : List (S Ap Int V) → PProg V} (hk : ∀ q, PtIn (W0 o) (R0 o) q → (k q).Ok N) : (rhsAnte f o N M [] k).Ok N := by
  unfold rhsAnte
  split
  · exact updRhsT_ok f o N M _ .nil fun q hq => hk q (rhs_pre o hq)
  · rename_i h
    refine updRhsT_ok f o N M _ .nil fun q hq => hk _ ((rhs_pre o hq).append ((appRhsT_in0 f o M hs (by simp [h]) _ _).mono (fun _ h => h) (fun _ h => h.elim)))
  · rename_i h
    exact hk _ (.append .nil ((appRhsT_in0 f o M hs (by simp [h]) _ _).mono (fun _ h => h) (fun _ h => h.elim)))

theorem rhsPost_ok (hs : ForcingSafe o) {pre : List (S Ap Int V)} (hpre : PtIn (W0 o) nb0 pre) {k : List (S Ap Int V) → PProg V} (hk : ∀ q, PreOk o q → (k q).Ok N) :
    (rhsPost f o N M pre k).Ok N := by
  unfold rhsPost
  split
  · exact hk _ (Or.inr ((hpre.mono (W01 o) (fun _ h => h)).append (appRhsT_in1 f o M _ _)))
  · exact hk _ (Or.inl (hpre.mono (fun _ h => h) (fun _ h => h.elim)))
  · rename_i h
    refine updRhsT_ok f o N M _ hpre fun q hq => hk _ (preOk_app o (Or.inl (rhs_pre o hq)) (appRhsT_in0 f o M hs (by simp [h]) _ _))

theorem anteT_ok (hs : ForcingSafe o) {k : List (S Ap Int V) → PProg V} (hk : ∀ q, PtIn (W0 o) (R0 o) q → (k q).Ok N) : (anteT f o N M k).Ok N := by
  refine ⟨preOk_ok o N (preOk_app o (Or.inl ((both0 f o M _ (.stash f.sv) fun _ => trivial).mono (fun _ h => h) (fun _ h => h.elim))) (both0 f o M _ _ fun _ => trivial)), rhsAnte_ok f o N M hs fun q hq => hk _ ?_⟩
  exact (hq.append ((both0 f o M _ _ fun d => vps0 o hs _ d).mono (fun _ h => h) (fun _ h => h.elim))).append ((both0 f o M _ .vrhs fun _ => trivial).mono (fun _ h => h) (fun _ h => h.elim))

theorem scale_in (hs : ForcingSafe o) (nm : String) (e : Nat) (b : Bool) : PtIn (W0 o) nb0 (if o.scaled e then [pt f M nm (.psi e b) nb0] else []) := by
  split_ifs with h
  · refine .cons (pt_one f M _ _ _ ?_ (fun _ h => h) (nosc_psi _ _)) .nil
    show o.nbr e = false
    cases hn : o.nbr e with
    | false => rfl
    | true => rw [(hs e hn).2.1] at h; simp at h
  · exact .nil

theorem advT_ok (hN : 0 < N) (hM : 0 < M) (hno : o.fct = false ∨ o.iga = true) (hs : ForcingSafe o) {k : List (S Ap Int V) → PProg V} (hk : ∀ q, PtIn (W0 o) nb0 q → (k q).Ok N) :
    ∀ (es : List Nat) {pre : List (S Ap Int V)}, (es = [] → PtIn (W0 o) nb0 pre) → PtIn (W0 o) (R0 o) pre → (advT f o N M es pre k).Ok N := by
  intro es
  induction es with
  | nil => intro pre h _; exact hk _ (h rfl)
  | cons e es ih =>
    intro pre _ hpre
    refine ⟨preOk_ok o N (preOk_app o (Or.inl hpre) (scale_in f o M hs _ _ _)), phs_ok ?_ (ih (fun _ => scale_in f o M hs _ _ _) ((scale_in f o M hs _ _ _).mono (fun _ h => h) (fun _ h => h.elim)))⟩
    intro ss h
    obtain ⟨ss, hm, rfl⟩ := List.mem_map.1 h
    have g := fun T => step2_all (f.adv e) o.toTOpts N M hM (f.lvl e) hN T hno ss hm
    exact phOk_emb N e (fun T => (g T).1) (g 0).2

theorem stepT_ok (hN : 0 < N) (hM : 0 < M) (hno : o.fct = false ∨ o.iga = true) (hs : ForcingSafe o) (ho : o.order ≠ []) {pre : List (S Ap Int V)} (hpre : PhOk N pre)
    {k : List (S Ap Int V) → PProg V} (hk : ∀ q, PtIn (W0 o) nb0 q → (k q).Ok N) : (stepT f o N M pre k).Ok N :=
  ⟨hpre, calcGcT_ok f o N M hN hM <| anteT_ok f o N M hs fun q hq => advT_ok f o N M hN hM hno hs (fun q hq => rhsPost_ok f o N M hs hq fun q hq => fnlzT_ok f o N M hs hq hk) _
    (fun h => absurd h ho) hq⟩

theorem stepsT_ok (hN : 0 < N) (hM : 0 < M) (hno : o.fct = false ∨ o.iga = true) (hs : ForcingSafe o) (ho : o.order ≠ []) :
    ∀ (fs : List (FP V)) {pre : List (S Ap Int V)}, PhOk N pre → (stepsT o N M fs pre).Ok N := by
  intro fs
  induction fs with
  | nil => intro pre hpre; exact ⟨hpre, trivial⟩
  | cons f fs ih =>
    intro pre hpre
    exact stepT_ok f o N M hN hM hno hs ho hpre fun q hq => ih (preOk_ok o N (Or.inl (hq.mono (fun _ h => h) (fun _ h => h.elim))))

theorem anteLoopT_ok (hN : 0 < N) (hM : 0 < M) {k : List (S Ap Int V) → PProg V} (hk : ∀ q, PhOk N q → (k q).Ok N) : (anteLoopT f o N M k).Ok N := by
  have hphi : NoSc .phi := fun k => by simp
  have huvw : ∀ d, NoSc (.uvw d) := fun d k => by simp
  unfold anteLoopT
  refine phs_ok (edges_ok f N M _ _ (fun d k => by simp)) ⟨?_, phs_ok (xpres_ok f o N M _ _ hphi _) (prsUpdate_ok f o N M ?_ fun q hq => ⟨?_, phs_ok (xpres_ok f o N M _ _ hphi _)
    ⟨?_, phs_ok (edges_ok f N M _ _ (nosc_vps o _)) ⟨?_, ?_, phs_ok (alngT_ok f o N M hN hM) ?_⟩⟩⟩)⟩
  · exact ptIn_ok (W := fun a => a = .phi) (R := nb0) (.cons (pt_one f M _ _ _ rfl (fun _ h => h) hphi) .nil) (fun _ _ h => h)
  · exact ptIn_ok (W := fun a => ∃ d, a = .uvw d) (R := nb0) (.append .nil (both_in _ fun d => pt_one f M _ _ _ ⟨d, rfl⟩ (fun _ h => h) (huvw d))) (fun _ _ h => h)
  · refine ptIn_ok hq ?_
    rintro a ⟨d, rfl⟩ h; simp [nb1] at h
  · refine ptIn_ok (W := fun a => (∃ d, a = .uvw d) ∨ ∃ d, a = vps o f.lvl d) (R := nb1 .phi) (.append (both_in _ fun d => pt_one f M _ _ _ (Or.inl ⟨d, rfl⟩) (fun _ h => h) (huvw d))
      (both_in _ fun d => pt_one f M _ _ _ (Or.inr ⟨d, rfl⟩) (fun _ h => h.elim) (nosc_vps o _ d))) ?_
    rintro a (⟨d, rfl⟩ | ⟨d, rfl⟩) h
    · simp [nb1] at h
    · simp [nb1, vps] at h
  · refine free_ok N (by simp [both, Sep, gcA]) ?_ ?_ ?_
    · simp [both, nodup_rows]
    · intro s hs k
      simp only [both, List.mem_cons, List.not_mem_nil, or_false] at hs
      rcases hs with rfl | rfl <;> simp [gcA]
    · intro s hs x y a' x' y' hr
      simp only [both, List.mem_cons, List.not_mem_nil, or_false] at hs
      rcases hs with rfl | rfl <;> exact hr.elim
  · exact ptIn_ok (W := fun a => ∃ d, a = .stash f.sv d) (R := nb0) (both_in _ fun d => pt_one f M _ _ _ ⟨d, rfl⟩ (fun _ h => h) (fun k => by simp)) (fun _ _ h => h)
  · have hrest : ∀ q, PtIn (fun a => ∃ e, a = .rhs e) (R0 o) q →
        (sumTo f (q ++ both (fun d => pt f M "init" (.vrhs d) nb0) ++ [pt f M "ini" .phi nb0]) "mean" .mean <| .ph [pt f M "mean" .phi nb0] <| .phs (xpres f o N M "pres" .phi 0) <|
          k (both (fun d => pt f M "grad" (.uvw d) (nb1 .phi)) ++ both fun d => pt f M "first" (.vrhs d) nb0)).Ok N := by
      intro q hq
      refine sumTo_ok f N (W := fun a => (∃ e, a = .rhs e) ∨ (∃ d, a = .vrhs d) ∨ a = .phi) (R := R0 o) (.append (.append (hq.mono (fun _ h => Or.inl h) (fun _ h => h)) ?_) ?_) ?_ ?_ _ _
        ⟨?_, phs_ok (xpres_ok f o N M _ _ hphi _) (hk _ ?_)⟩
      · exact both_in _ fun d => pt_one f M _ _ _ (Or.inr (Or.inl ⟨d, rfl⟩)) (fun _ h => h.elim) (fun k => by simp)
      · exact .cons (pt_one f M _ _ _ (Or.inr (Or.inr rfl)) (fun _ h => h.elim) hphi) .nil
      · rintro a (⟨e, rfl⟩ | ⟨e, rfl⟩ | rfl) ⟨e', b, -, h⟩ <;> simp at h
      · rintro ⟨e', b, -, h⟩; simp at h
      · exact ptIn_ok (W := fun a => a = .phi) (R := nb0) (.cons (pt_one f M _ _ _ rfl (fun _ h => h) hphi) .nil) (fun _ _ h => h)
      · refine ptIn_ok (W := fun a => (∃ d, a = .uvw d) ∨ ∃ d, a = .vrhs d) (R := nb1 .phi) (.append (both_in _ fun d => pt_one f M _ _ _ (Or.inl ⟨d, rfl⟩) (fun _ h => h) (huvw d))
          (both_in _ fun d => pt_one f M _ _ _ (Or.inr ⟨d, rfl⟩) (fun _ h => h.elim) (fun k => by simp))) ?_
        rintro a (⟨d, rfl⟩ | ⟨d, rfl⟩) h <;> simp [nb1] at h
    have hupd : (if o.sch = .trapez then updRhsT f o N M f.lvl [] (fun q => sumTo f (q ++ both (fun d => pt f M "init" (.vrhs d) nb0) ++ [pt f M "ini" .phi nb0]) "mean" .mean <|
          .ph [pt f M "mean" .phi nb0] <| .phs (xpres f o N M "pres" .phi 0) <| k (both (fun d => pt f M "grad" (.uvw d) (nb1 .phi)) ++ both fun d => pt f M "first" (.vrhs d) nb0))
        else (fun q => sumTo f (q ++ both (fun d => pt f M "init" (.vrhs d) nb0) ++ [pt f M "ini" .phi nb0]) "mean" .mean <|
          .ph [pt f M "mean" .phi nb0] <| .phs (xpres f o N M "pres" .phi 0) <| k (both (fun d => pt f M "grad" (.uvw d) (nb1 .phi)) ++ both fun d => pt f M "first" (.vrhs d) nb0)) []).Ok N := by
      split_ifs
      · exact updRhsT_ok f o N M _ .nil hrest
      · exact hrest [] .nil
    split_ifs at hupd ⊢
    all_goals first
      | exact hupd
      | (refine ⟨?_, scal_ok f N _ _, trivial, hupd⟩
         refine ptIn_ok (W := fun a => a = .stat ∨ a = .xtm) (R := fun a => ∃ d, a = gcA d) (.append (.cons (pt_one f M _ _ _ (Or.inl rfl) (fun _ h => h) (fun k => by simp)) .nil)
           (.cons (pt0_one f _ _ (Or.inr rfl) (fun k => by simp)) .nil)) ?_
         rintro a (rfl | rfl) ⟨d, h⟩ <;> simp [gcA] at h)

theorem runT_ok (hN : 0 < N) (hM : 0 < M) (hno : o.fct = false ∨ o.iga = true) (hs : ForcingSafe o) (ho : o.order ≠ []) (f0 : FP V) (fs : List (FP V)) : (runT o N M f0 fs).Ok N :=
  anteLoopT_ok f0 o N M hN hM fun _ hq => stepsT_ok o N M hN hM hno hs ho fs hq

end Threads
end Mpdata
