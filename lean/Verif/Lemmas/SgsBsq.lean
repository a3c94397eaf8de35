import Verif.Props.SgsDrag
/-! # Deformation of closed flows is closed, with everything the exchanges add -/
namespace Mpdata
namespace Drag
open Heat (step_add step_zero step_mem mem_grid facePts)
variable {n : Nat} [NeZero n] {K : Type} [Field K] [LinearOrder K] {c : Cfg n K} {P : Fin n → Nat}

/-- the velocities just beyond walls on the sides -/
theorem v_wall (h : Domain c P) (m : Mem n K) (e : Fin n) {d : Fin n} (hk : c.B.kl d ≠ .cyclic) (hz : d ≠ c.z) {x : Idx n} (hx : x ∈ gridPts P) (hd : x d = 0) :
    (forces c m).v e (stepIdx x d (-1)) = m.v e (stepIdx x d 1) ∧ (forces c m).v e (stepIdx x d (P d + 1)) = m.v e (stepIdx x d (P d - 1)) := by
  rw [forces_v]
  have hkk : c.B.kl d = .rigid ∧ c.B.kr d = .rigid := by
    rcases h.sides d hz with h' | h'
    · exact absurd h'.1 hk
    · exact h'
  have h2 := h.two d
  have hb := h.toBox
  have hf := hb.f d
  have hl := hb.l d
  have hh := h.halo
  have hO : ∀ lo hi : Fin n → Int, (∀ k, 0 ≤ lo k) → (∀ k, 0 ≤ hi k) → ∀ j, Ot c.B.b d lo hi (stepIdx x d j) := by
    intro lo hi hlo hhi j
    refine hb.ot d lo hi fun k hk' => ?_
    rw [stepIdx_other x hk']
    have := mem_grid.1 hx k
    have := hlo k
    have := hhi k
    omega
  -- after any filling in another dimension the values on the line are the same
  have hother : ∀ (ds : List (Fin n)) (a : Sca n K), d ∉ ds → ∀ j, xchngSclr c.B ds 1 false a (stepIdx x d j) = a (stepIdx x d j) := by
    intro ds
    induction ds with
    | nil => intro a _ j; rfl
    | cons k ds ih =>
      intro a hd' j
      rw [List.mem_cons, not_or] at hd'
      show xchngSclr c.B ds 1 false (fillS c.B k _ _ false a) (stepIdx x d j) = _
      rw [ih _ hd'.2 j, fillS_keeps]
      rw [stepIdx_other x (Ne.symm hd'.1), hb.f k, hb.l k]
      exact mem_grid.1 hx k
  have hself : ∀ a : Sca n K, fillS c.B d (fun _ => 1) (fun _ => 1) false a (stepIdx x d (-1)) = a (stepIdx x d 1) ∧
      fillS c.B d (fun _ => 1) (fun _ => 1) false a (stepIdx x d (P d + 1)) = a (stepIdx x d (P d - 1)) ∧ ∀ j : Int, 0 ≤ j → j ≤ P d → fillS c.B d (fun _ => 1) (fun _ => 1) false a (stepIdx x d j) = a (stepIdx x d j) := by
    intro a
    have hin : ∀ j : Int, 0 ≤ j → j ≤ P d → fillS c.B d (fun _ => 1) (fun _ => 1) false a (stepIdx x d j) = a (stepIdx x d j) := fun j h1 h2 =>
      fillS_keeps c.B d _ _ false a _ (by rw [stepIdx_self]; omega)
    refine ⟨?_, ?_, hin⟩
    · unfold fillS
      rw [asgN_of_not (by rintro ⟨h', -⟩; rw [stepIdx_self] at h'; omega), asgN_of ⟨by rw [stepIdx_self]; omega, hO _ _ (by simp) (by simp) _⟩]
      unfold valSL
      rw [hkk.1]
      simp only
      rw [step_add, stepIdx_self, hf, show (-1 : Int) + 2 * (0 - (x d + -1)) = 1 by omega]
    · unfold fillS
      rw [asgN_of ⟨by rw [stepIdx_self]; omega, hO _ _ (by simp) (by simp) _⟩]
      unfold valSR
      rw [hkk.2]
      simp only
      rw [step_add, asgN_of_not (by rintro ⟨h', -⟩; rw [stepIdx_self, stepIdx_self] at h'; omega), stepIdx_self, hl, show (P d : Int) + 1 + 2 * ((P d : Int) - (x d + (P d + 1))) = P d - 1 by omega]
  have key : ∀ (ds : List (Fin n)) (a : Sca n K), d ∈ ds → xchngSclr c.B ds 1 false a (stepIdx x d (-1)) = a (stepIdx x d 1) ∧
      xchngSclr c.B ds 1 false a (stepIdx x d (P d + 1)) = a (stepIdx x d (P d - 1)) := by
    intro ds
    induction ds with
    | nil => intro a hd'; cases hd'
    | cons k ds ih =>
      intro a hd'
      show xchngSclr c.B ds 1 false (fillS c.B k _ _ false a) _ = _ ∧ xchngSclr c.B ds 1 false (fillS c.B k _ _ false a) _ = _
      by_cases hds : d ∈ ds
      · obtain ⟨e1, e2⟩ := ih (fillS c.B k (fun _ => 1) (fun _ => 1) false a) hds
        have hkeep : ∀ j : Int, 0 ≤ j → j ≤ P d → fillS c.B k (fun _ => 1) (fun _ => 1) false a (stepIdx x d j) = a (stepIdx x d j) := by
          intro j h1 h2
          by_cases hkd : k = d
          · subst hkd; exact (hself a).2.2 j h1 h2
          · refine fillS_keeps c.B k _ _ false a _ ?_
            rw [stepIdx_other x hkd, hb.f k, hb.l k]
            exact mem_grid.1 hx k
        rw [e1, e2]
        exact ⟨hkeep _ (by omega) (by omega), hkeep _ (by omega) (by omega)⟩
      · have hkd : d = k := (List.mem_cons.1 hd').resolve_right hds
        subst hkd
        rw [hother ds _ hds, hother ds _ hds]
        exact ⟨(hself a).1, (hself a).2.1⟩
  exact key c.ds (m.v e) (h.order d)

/-- grid points, and one more to the left in dimensions `a` and `b` -/
def Ext (P : Fin n → Nat) (a b : Fin n) (y : Idx n) : Prop := ∀ k, (if k = a ∨ k = b then -1 else 0) ≤ y k ∧ y k ≤ P k

theorem Ext.near {a b : Fin n} {y : Idx n} (hy : Ext P a b y) : Near P a b y := fun k hk => by
  have := hy k
  by_cases hka : k = a
  · rw [if_pos (Or.inl hka)] at this; rw [if_pos hka]; exact this
  · rw [if_neg (by tauto)] at this; rw [if_neg hka]; exact this

theorem Ext.symm {a b : Fin n} {y : Idx n} (hy : Ext P a b y) : Ext P b a y := fun k => by
  have := hy k
  simp only [show (k = b ∨ k = a) ↔ (k = a ∨ k = b) from or_comm]
  exact this

theorem Ext.set {a b q : Fin n} {y : Idx n} (hy : Ext P a b y) {j : Int} (hj : (if q = a ∨ q = b then -1 else 0) ≤ y q + j ∧ y q + j ≤ P q) : Ext P a b (stepIdx y q j) := fun k => by
  by_cases hk : k = q
  · subst hk; rw [stepIdx_self]; exact hj
  · rw [stepIdx_other y hk]; exact hy k

/-- an off-diagonal component closes after its exchange -/
theorem off_closes (h : Domain c P) {a b d : Fin n} (hab : a < b) (s A : Sca n K) (hk : c.B.kl d = .cyclic)
    (hs : b = c.z → ∀ y, Ext P a b y → y c.z = 0 → (y d = 0 ∨ y d = -1 ∧ d = a) → s (stepIdx y d (P d)) = s y)
    (hA : d ≠ a → d ≠ b → ∀ y ∈ gridPts P, y a < P a → y b < P b → y d = 0 → A (stepIdx y d (P d)) = A y)
    {y : Idx n} (hy : Ext P a b y) (hd : y d = 0 ∨ (y d = -1 ∧ (d = a ∨ d = b))) :
    xchngSgsTnsrOffdiag c.B a b s A (stepIdx y d (P d)) = xchngSgsTnsrOffdiag c.B a b s A y := by
  have hb := h.toBox
  have haz : a ≠ c.z := fun h' => absurd (h.last b) (not_le.2 (h' ▸ hab))
  have hne := hab.ne
  have h2a := h.two a
  have h2b := h.two b
  have h2d := h.two d
  have hkk := (h.cyc hk).1
  have hya := hy a
  have hyb := hy b
  rw [if_pos (Or.inl rfl)] at hya
  rw [if_pos (Or.inr rfl)] at hyb
  -- across the ends of dimension `b`
  have across : d ≠ b → (∀ y', Ext P a b y' → 0 ≤ y' b → y' b < P b → (y' d = 0 ∨ (y' d = -1 ∧ (d = a ∨ d = b))) →
      xchngSgsTnsrOffdiag c.B a b s A (stepIdx y' d (P d)) = xchngSgsTnsrOffdiag c.B a b s A y') →
      xchngSgsTnsrOffdiag c.B a b s A (stepIdx y d (P d)) = xchngSgsTnsrOffdiag c.B a b s A y := by
    intro hdb H
    have hE : ∀ y', Ext P a b y' → (y' d = 0 ∨ (y' d = -1 ∧ (d = a ∨ d = b))) → Ext P a b (stepIdx y' d (P d)) := fun y' hy' hd' =>
      hy'.set (by rcases hd' with hd' | ⟨hd', -⟩ <;> rw [hd'] <;> split_ifs <;> omega)
    by_cases hin : 0 ≤ y b ∧ y b < P b
    · exact H y hy hin.1 hin.2 hd
    by_cases hlow : y b = -1
    · -- left
      set y1 := stepIdx y b 1 with hy1
      have e1 : Ext P a b y1 := hy.set (by rw [if_pos (Or.inr rfl)]; omega)
      have y1b : y1 b = 0 := by rw [hy1, stepIdx_self]; omega
      have y1d : y1 d = 0 ∨ (y1 d = -1 ∧ (d = a ∨ d = b)) := by rw [hy1, stepIdx_other y hdb]; exact hd
      have hback : stepIdx y1 b (-1) = y := by rw [hy1, step_add]; exact step_zero _ _
      have hback' : stepIdx (stepIdx y1 d (P d)) b (-1) = stepIdx y d (P d) := by rw [step_comm y1 hdb, hback]
      have y1b' : stepIdx y1 d (P d) b = 0 := by rw [stepIdx_other y1 (Ne.symm hdb)]; exact y1b
      by_cases hkb : c.B.kl b = .cyclic
      · have hkbb := (h.cyc hkb).1
        obtain ⟨-, -, -, f⟩ := off_last (s := s) (a := A) hb e1.near
        obtain ⟨-, -, -, f'⟩ := off_last (s := s) (a := A) hb (hE y1 e1 y1d).near
        have g := (f y1b hkbb).1
        have g' := (f' y1b' hkbb).1
        rw [hback] at g
        rw [hback'] at g'
        rw [g, g', step_comm y1 hdb]
        refine H _ (e1.set (by rw [if_pos (Or.inr rfl)]; omega)) (by rw [stepIdx_self]; omega) (by rw [stepIdx_self]; omega) ?_
        rw [stepIdx_other y1 hdb]; exact y1d
      · have hH := H y1 e1 (by omega) (by omega) y1d
        obtain ⟨f1, f2, -, -⟩ := off_last (s := s) (a := A) hb e1.near
        obtain ⟨f1', f2', -, -⟩ := off_last (s := s) (a := A) hb (hE y1 e1 y1d).near
        have hkind : c.B.kl b = .rigid ∨ (b = c.z ∧ c.B.kl b = .gndsky) := by
          by_cases hbz : b = c.z
          · rcases h.bottom with hg | hg
            · exact Or.inr ⟨hbz, hbz ▸ hg⟩
            · exact Or.inl (hbz ▸ hg)
          · exact Or.inl (h.wallL hkb hbz)
        rcases hkind with hr | ⟨hbz, hg⟩
        · have g := f1 y1b hr
          have g' := f1' y1b' hr
          rw [hback] at g
          rw [hback', hH] at g'
          exact add_right_cancel (g'.trans g.symm)
        · have g := f2 y1b hg
          have g' := f2' y1b' hg
          rw [hback] at g
          rw [hback', hH, hs hbz y1 e1 (hbz ▸ y1b) (by rcases y1d with h' | ⟨h', h'' | h''⟩
                                                       · exact Or.inl h'
                                                       · exact Or.inr ⟨h', h''⟩
                                                       · exact absurd h'' hdb)] at g'
          exact add_right_cancel (g'.trans g.symm)
    · -- right
      have hhigh : y b = P b := by omega
      have hhigh' : stepIdx y d (P d) b = P b := by rw [stepIdx_other y (Ne.symm hdb)]; exact hhigh
      by_cases hkb : c.B.kl b = .cyclic
      · have hkbb := (h.cyc hkb).1
        set y0 := stepIdx y b (-(P b : Int)) with hy0
        have e0 : Ext P a b y0 := hy.set (by rw [if_pos (Or.inr rfl)]; omega)
        have y0b : y0 b = 0 := by rw [hy0, stepIdx_self]; omega
        have y0d : y0 d = 0 ∨ (y0 d = -1 ∧ (d = a ∨ d = b)) := by rw [hy0, stepIdx_other y hdb]; exact hd
        have hback : stepIdx y0 b (P b) = y := by rw [hy0, step_add, show -(P b : Int) + P b = 0 by omega]; exact step_zero _ _
        have hback' : stepIdx (stepIdx y0 d (P d)) b (P b) = stepIdx y d (P d) := by rw [step_comm y0 hdb, hback]
        obtain ⟨-, -, -, f⟩ := off_last (s := s) (a := A) hb e0.near
        obtain ⟨-, -, -, f'⟩ := off_last (s := s) (a := A) hb (hE y0 e0 y0d).near
        have g := (f y0b hkbb).2
        have g' := (f' (by rw [stepIdx_other y0 (Ne.symm hdb)]; exact y0b) hkbb).2
        rw [hback] at g
        rw [hback'] at g'
        rw [g, g']
        exact H y0 e0 (by omega) (by omega) y0d
      · have hH := H (stepIdx y b (-1)) (hy.set (by rw [if_pos (Or.inr rfl)]; omega)) (by rw [stepIdx_self]; omega) (by rw [stepIdx_self]; omega)
          (by rw [stepIdx_other y hdb]; exact hd)
        obtain ⟨-, -, f, -⟩ := off_last (s := s) (a := A) hb hy.near
        obtain ⟨-, -, f', -⟩ := off_last (s := s) (a := A) hb (hE y hy hd).near
        have g := f hhigh (h.wallR hkb)
        have g' := f' hhigh' (h.wallR hkb)
        rw [step_comm y hdb, hH] at g'
        exact add_left_cancel (g'.trans g.symm)
  by_cases hdb : d = b
  · -- `b` itself is cyclic
    subst hdb
    rcases hd with hd | ⟨hd, -⟩
    · exact ((off_last (s := s) (a := A) hb hy.near).2.2.2 hd hkk).2
    · have e1 : Ext P a d (stepIdx y d 1) := hy.set (by rw [if_pos (Or.inr rfl)]; omega)
      have g := ((off_last (s := s) (a := A) hb e1.near).2.2.2 (by rw [stepIdx_self]; omega) hkk).1
      rw [step_add, step_add, show (1 : Int) + -1 = 0 by omega, step_zero, show (1 : Int) + (P d - 1) = P d by omega] at g
      exact g.symm
  refine across hdb fun y' hy' hb0 hb1 hd' => ?_
  have hg : Good c.B P b y' := Or.inl ⟨hb0, hb1⟩
  by_cases hda : d = a
  · subst hda
    rcases hd' with hd' | ⟨hd', -⟩
    · exact ((off_first (s := s) (a := A) hb hne hy'.symm.near hg).2.2 hd' hkk).2
    · have e1 : Ext P d b (stepIdx y' d 1) := hy'.set (by rw [if_pos (Or.inl rfl)]; omega)
      have hg1 : Good c.B P b (stepIdx y' d 1) := Or.inl (by rw [stepIdx_other y' hne.symm]; exact ⟨hb0, hb1⟩)
      have g := ((off_first (s := s) (a := A) hb hne e1.symm.near hg1).2.2 (by rw [stepIdx_self]; omega) hkk).1
      rw [step_add, step_add, show (1 : Int) + -1 = 0 by omega, step_zero, show (1 : Int) + (P d - 1) = P d by omega] at g
      exact g.symm
  have hd0 : y' d = 0 := by rcases hd' with hd' | ⟨-, h' | h'⟩
                            · exact hd'
                            · exact absurd h' hda
                            · exact absurd h' hdb
  -- inside in both dimensions
  have hin : ∀ w, Ext P a b w → 0 ≤ w a → w a < P a → 0 ≤ w b → w b < P b → w d = 0 →
      xchngSgsTnsrOffdiag c.B a b s A (stepIdx w d (P d)) = xchngSgsTnsrOffdiag c.B a b s A w := by
    intro w hw w1 w2 w3 w4 w5
    have wa : stepIdx w d (P d) a = w a := stepIdx_other w (Ne.symm hda) _
    have wb : stepIdx w d (P d) b = w b := stepIdx_other w (Ne.symm hdb) _
    rw [off_in hb (by rw [wa]; exact ⟨w1, w2⟩) (by rw [wb]; exact ⟨w3, w4⟩), off_in hb ⟨w1, w2⟩ ⟨w3, w4⟩]
    refine hA hda hdb w (mem_grid.2 fun k => ?_) w2 w4 w5
    have := hw k
    by_cases hka : k = a
    · subst hka; omega
    · by_cases hkb : k = b
      · subst hkb; omega
      · rw [if_neg (by tauto)] at this; exact this
  have hE : ∀ w, Ext P a b w → w d = 0 → Ext P a b (stepIdx w d (P d)) := fun w hw hwd => hw.set (by rw [hwd]; split_ifs <;> omega)
  have hya' := hy' a
  rw [if_pos (Or.inl rfl)] at hya'
  have hG : ∀ w : Idx n, 0 ≤ w b → w b < P b → Good c.B P b w := fun w h1 h2 => Or.inl ⟨h1, h2⟩
  have sb : ∀ (w : Idx n), stepIdx w d (P d) b = w b := fun w => stepIdx_other w (Ne.symm hdb) _
  have sa : ∀ (w : Idx n), stepIdx w d (P d) a = w a := fun w => stepIdx_other w (Ne.symm hda) _
  have tb : ∀ (w : Idx n) (j : Int), stepIdx w a j b = w b := fun w j => stepIdx_other w hne.symm _
  have td : ∀ (w : Idx n) (j : Int), stepIdx w a j d = w d := fun w j => stepIdx_other w hda _
  by_cases hina : 0 ≤ y' a ∧ y' a < P a
  · exact hin y' hy' hina.1 hina.2 hb0 hb1 hd0
  by_cases hlow : y' a = -1
  · set y1 := stepIdx y' a 1 with hy1
    have e1 : Ext P a b y1 := hy'.set (by rw [if_pos (Or.inl rfl)]; omega)
    have y1a : y1 a = 0 := by rw [hy1, stepIdx_self]; omega
    have y1b : 0 ≤ y1 b ∧ y1 b < P b := by rw [hy1, tb]; exact ⟨hb0, hb1⟩
    have y1d : y1 d = 0 := by rw [hy1, td]; exact hd0
    have hback : stepIdx y1 a (-1) = y' := by rw [hy1, step_add]; exact step_zero _ _
    have hback' : stepIdx (stepIdx y1 d (P d)) a (-1) = stepIdx y' d (P d) := by rw [step_comm y1 hda, hback]
    obtain ⟨f1, -, f3⟩ := off_first (s := s) (a := A) hb hne e1.symm.near (hG y1 y1b.1 y1b.2)
    obtain ⟨f1', -, f3'⟩ := off_first (s := s) (a := A) hb hne (hE y1 e1 y1d).symm.near (hG _ (by rw [sb]; exact y1b.1) (by rw [sb]; exact y1b.2))
    by_cases hka : c.B.kl a = .cyclic
    · have g := (f3 y1a (h.cyc hka).1).1
      have g' := (f3' (by rw [sa]; exact y1a) (h.cyc hka).1).1
      rw [hback] at g
      rw [hback'] at g'
      rw [g, g', step_comm y1 hda]
      exact hin _ (e1.set (by rw [if_pos (Or.inl rfl)]; omega)) (by rw [stepIdx_self]; omega) (by rw [stepIdx_self]; omega) (by rw [tb]; exact y1b.1) (by rw [tb]; exact y1b.2)
        (by rw [td]; exact y1d)
    · have g := f1 y1a (h.wallL hka haz)
      have g' := f1' (by rw [sa]; exact y1a) (h.wallL hka haz)
      rw [hback] at g
      rw [hback', hin y1 e1 (by omega) (by omega) y1b.1 y1b.2 y1d] at g'
      exact add_right_cancel (g'.trans g.symm)
  · have hhigh : y' a = P a := by omega
    by_cases hka : c.B.kl a = .cyclic
    · set y0 := stepIdx y' a (-(P a : Int)) with hy0
      have e0 : Ext P a b y0 := hy'.set (by rw [if_pos (Or.inl rfl)]; omega)
      have y0a : y0 a = 0 := by rw [hy0, stepIdx_self]; omega
      have y0b : 0 ≤ y0 b ∧ y0 b < P b := by rw [hy0, tb]; exact ⟨hb0, hb1⟩
      have y0d : y0 d = 0 := by rw [hy0, td]; exact hd0
      have hback : stepIdx y0 a (P a) = y' := by rw [hy0, step_add, show -(P a : Int) + P a = 0 by omega]; exact step_zero _ _
      have hback' : stepIdx (stepIdx y0 d (P d)) a (P a) = stepIdx y' d (P d) := by rw [step_comm y0 hda, hback]
      obtain ⟨-, -, f3⟩ := off_first (s := s) (a := A) hb hne e0.symm.near (hG y0 y0b.1 y0b.2)
      obtain ⟨-, -, f3'⟩ := off_first (s := s) (a := A) hb hne (hE y0 e0 y0d).symm.near (hG _ (by rw [sb]; exact y0b.1) (by rw [sb]; exact y0b.2))
      have g := (f3 y0a (h.cyc hka).1).2
      have g' := (f3' (by rw [sa]; exact y0a) (h.cyc hka).1).2
      rw [hback] at g
      rw [hback'] at g'
      rw [g, g']
      exact hin y0 e0 (by omega) (by omega) y0b.1 y0b.2 y0d
    · obtain ⟨-, f2, -⟩ := off_first (s := s) (a := A) hb hne hy'.symm.near hg
      obtain ⟨-, f2', -⟩ := off_first (s := s) (a := A) hb hne (hE y' hy' hd0).symm.near (hG _ (by rw [sb]; exact hb0) (by rw [sb]; exact hb1))
      have g := f2 hhigh (h.wallR hka)
      have g' := f2' (by rw [sa]; exact hhigh) (h.wallR hka)
      rw [step_comm y' hda, hin _ (hy'.set (by rw [if_pos (Or.inl rfl)]; omega)) (by rw [stepIdx_self]; omega) (by rw [stepIdx_self]; omega) (by rw [tb]; exact hb0) (by rw [tb]; exact hb1)
        (by rw [td]; exact hd0)] at g'
      exact add_left_cancel (g'.trans g.symm)

/-- values of a diagonal component after its exchange -/
theorem diag_values (h : Domain c P) {a : Fin n} (w dv A : Sca n K) {y : Idx n} (hy : ∀ k, k ≠ a → 0 ≤ y k ∧ y k ≤ P k) :
    (0 ≤ y a → y a < P a → fillSgsTnsr c.B a w dv (c.dx a) A y = A y) ∧
    (y a = -1 → fillSgsTnsr c.B a w dv (c.dx a) A y = if c.B.kl a = .cyclic then A (stepIdx y a (P a)) else if c.B.kl a = .gndsky then
        2 * ((3 * w (stepIdx y a 2) - 2 * w (stepIdx y a 1) - w (stepIdx y a 3)) / c.dx a - dv y) else 2 * A (stepIdx y a 1) - A (stepIdx y a 2)) ∧
    (y a = P a → fillSgsTnsr c.B a w dv (c.dx a) A y = if c.B.kr a = .cyclic then A (stepIdx y a (-(P a : Int))) else 2 * A (stepIdx y a (-1)) - A (stepIdx y a (-2))) := by
  have hb := h.toBox
  have h1 := hb.f a
  have h2 := hb.l a
  have h3 := hb.halo
  have h4 := hb.two a
  have hO : Ot c.B.b a (fun _ => 0) (fun _ => 0) y := hb.ot a _ _ fun k hk => by have := hy k hk; omega
  unfold fillSgsTnsr
  refine ⟨fun e1 e2 => fillFace_keeps _ _ _ _ _ _ _ _ (by omega), fun e => ?_, fun e => ?_⟩
  · unfold fillFace
    rw [asgN_of_not (by rintro ⟨h', -⟩; split_ifs at h' <;> omega), asgN_of ⟨by split_ifs <;> omega, hO⟩, h1, h2, sub_zero]
  · unfold fillFace
    rw [asgN_of ⟨by split_ifs <;> omega, hO⟩, h1, h2, sub_zero]
    have k0 : ∀ (f : Sca n K) (j : Int), 0 ≤ y a + j → asgN (fun x => (if c.B.kl a = .cyclic then (0 : Int) - c.B.halo ≤ x a ∧ x a ≤ 0 - 1 else x a = 0 - 1) ∧ Ot c.B.b a (fun _ => 0) (fun _ => 0) x)
        f A (stepIdx y a j) = A (stepIdx y a j) := fun f j hj => asgN_of_not (by rintro ⟨h', -⟩; rw [stepIdx_self] at h'; split_ifs at h' <;> omega)
    by_cases hk : c.B.kr a = .cyclic
    · rw [if_pos hk, if_pos hk, k0 _ _ (by omega)]
    · rw [if_neg hk, if_neg hk]
      beta_reduce
      rw [k0 _ _ (by omega), k0 _ _ (by omega)]

/-- a diagonal component closes after its exchange -/
theorem diag_closes (h : Domain c P) {a d : Fin n} (w dv A : Sca n K) (hk : c.B.kl d = .cyclic) (hw : a = c.z → Closes c P w)
    (hdv : ∀ y, Ext P c.z c.z y → dv y = 0) (hA : d ≠ a → ∀ y ∈ facePts P a, y d = 0 → A (stepIdx y d (P d)) = A y)
    {y : Idx n} (hy : Ext P a a y) (hd : y d = 0 ∨ (y d = -1 ∧ d = a)) :
    fillSgsTnsr c.B a w dv (c.dx a) A (stepIdx y d (P d)) = fillSgsTnsr c.B a w dv (c.dx a) A y := by
  have h2a := h.two a
  have hN : ∀ k, k ≠ a → 0 ≤ y k ∧ y k ≤ P k := fun k hka => by have := hy k; rwa [if_neg (by tauto)] at this
  have hya := hy a
  rw [if_pos (Or.inl rfl)] at hya
  have hgr : ∀ j : Int, 0 ≤ y a + j → y a + j ≤ P a → stepIdx y a j ∈ gridPts P := fun j j1 j2 => mem_grid.2 fun k => by
    by_cases hka : k = a
    · subst hka; rw [stepIdx_self]; exact ⟨j1, j2⟩
    · rw [stepIdx_other y hka]; exact hN k hka
  by_cases hda : d = a
  · subst hda
    rcases hd with hd | ⟨hd, -⟩
    · have hg := hgr 0 (by omega) (by omega)
      rw [step_zero] at hg
      exact (fill_diag_cyc h w dv A hk hg hd).2
    · have g := (fill_diag_cyc h w dv A hk (hgr 1 (by omega) (by omega)) (by rw [stepIdx_self]; omega)).1
      rw [step_add, step_add, show (1 : Int) + -1 = 0 by omega, step_zero, show (1 : Int) + (P d - 1) = P d by omega] at g
      exact g.symm
  have hd0 : y d = 0 := by rcases hd with hd | ⟨-, h'⟩
                           · exact hd
                           · exact absurd h' hda
  have hS : ∀ k, k ≠ a → 0 ≤ stepIdx y d (P d) k ∧ stepIdx y d (P d) k ≤ P k := fun k hka => by
    by_cases hkd : k = d
    · subst hkd; rw [stepIdx_self]; omega
    · rw [stepIdx_other y hkd]; exact hN k hka
  have ya : stepIdx y d (P d) a = y a := stepIdx_other y (Ne.symm hda) _
  have hcl : ∀ j : Int, 0 ≤ y a + j → y a + j < P a → A (stepIdx (stepIdx y d (P d)) a j) = A (stepIdx y a j) := fun j j1 j2 => by
    rw [step_comm y hda]
    exact hA hda _ (Finset.mem_filter.2 ⟨hgr j j1 j2.le, by rw [stepIdx_self]; exact j2⟩) (by rw [stepIdx_other y hda]; exact hd0)
  obtain ⟨f1, f2, f3⟩ := diag_values h (a := a) w dv A hN
  obtain ⟨g1, g2, g3⟩ := diag_values h (a := a) w dv A hS
  rw [ya] at g1 g2 g3
  by_cases hin : 0 ≤ y a ∧ y a < P a
  · rw [f1 hin.1 hin.2, g1 hin.1 hin.2]
    have := hcl 0 (by omega) (by omega)
    rwa [step_zero, step_zero] at this
  · by_cases hlow : y a = -1
    · rw [f2 hlow, g2 hlow]
      by_cases hkc : c.B.kl a = .cyclic
      · rw [if_pos hkc, if_pos hkc]; exact hcl _ (by omega) (by omega)
      · rw [if_neg hkc, if_neg hkc]
        by_cases hkg : c.B.kl a = .gndsky
        · have haz : a = c.z := by
            by_contra haz
            have := h.wallL hkc haz
            rw [this] at hkg; exact absurd hkg (by decide)
          subst haz
          have hwc : ∀ j : Int, 0 ≤ y c.z + j → y c.z + j ≤ P c.z → w (stepIdx (stepIdx y d (P d)) c.z j) = w (stepIdx y c.z j) := fun j j1 j2 => by
            rw [step_comm y hda]
            exact hw rfl d _ hk (hgr j j1 j2) (by rw [stepIdx_other y hda]; exact hd0)
          have e1 : dv y = 0 := hdv y hy
          have e2 : dv (stepIdx y d (P d)) = 0 := hdv _ (hy.set (by rw [if_neg fun h' => h'.elim hda hda]; omega))
          rw [if_pos hkg, if_pos hkg, hwc 1 (by omega) (by omega), hwc 2 (by omega) (by omega), hwc 3 (by omega) (by omega), e1, e2]
        · rw [if_neg hkg, if_neg hkg, hcl 1 (by omega) (by omega), hcl 2 (by omega) (by omega)]
    · have hhigh : y a = P a := by omega
      rw [f3 hhigh, g3 hhigh]
      by_cases hkc : c.B.kr a = .cyclic
      · rw [if_pos hkc, if_pos hkc]; exact hcl _ (by omega) (by omega)
      · rw [if_neg hkc, if_neg hkc, hcl (-1) (by omega) (by omega), hcl (-2) (by omega) (by omega)]

section
variable [IsStrictOrderedRing K]

/-- velocities close one point beyond the ends of another dimension as well -/
theorem v_ext (h : Domain c P) (m : Mem n K) (hv : ∀ e, Closes c P (m.v e)) (e : Fin n) {a d : Fin n} (hk : c.B.kl d = .cyclic) (hda : d ≠ a) {y : Idx n} (hy : ∀ k, k ≠ a → 0 ≤ y k ∧ y k ≤ P k)
    (hya : a ≠ c.z ∧ -1 ≤ y a ∧ y a ≤ P a + 1) (hd : y d = 0) : (forces c m).v e (stepIdx y d (P d)) = (forces c m).v e y := by
  have h2 := h.two a
  have h2d := h.two d
  have hgr : ∀ j : Int, 0 ≤ y a + j → y a + j ≤ P a → stepIdx y a j ∈ gridPts P := fun j j1 j2 => mem_grid.2 fun k => by
    by_cases hka : k = a
    · subst hka; rw [stepIdx_self]; exact ⟨j1, j2⟩
    · rw [stepIdx_other y hka]; exact hy k hka
  have hgs : ∀ j : Int, 0 ≤ y a + j → y a + j ≤ P a → stepIdx (stepIdx y a j) d (P d) ∈ gridPts P := fun j j1 j2 =>
    step_mem (hgr j j1 j2) (by rw [stepIdx_other y hda]; omega)
  have hcl : ∀ j : Int, 0 ≤ y a + j → y a + j ≤ P a → m.v e (stepIdx (stepIdx y a j) d (P d)) = m.v e (stepIdx y a j) := fun j j1 j2 =>
    hv e d _ hk (hgr j j1 j2) (by rw [stepIdx_other y hda]; exact hd)
  have sa : ∀ j : Int, stepIdx (stepIdx y a j) d (P d) a = y a + j := fun j => by rw [stepIdx_other _ (Ne.symm hda), stepIdx_self]
  by_cases hlow : y a = -1
  · by_cases hka : c.B.kl a = .cyclic
    · have g := (v_cyc h m e hka (hgr 1 (by omega) (by omega)) (by rw [stepIdx_self]; omega)).1
      have g' := (v_cyc h m e hka (hgs 1 (by omega) (by omega)) (by rw [sa]; omega)).1
      rw [step_add, step_add, show (1 : Int) + -1 = 0 by omega, step_zero] at g
      rw [step_comm (stepIdx y a 1) hda, step_comm (stepIdx y a 1) hda, step_add, step_add, show (1 : Int) + -1 = 0 by omega, step_zero] at g'
      rw [g, g', hcl _ (by omega) (by omega)]
    · have g := (v_wall h m e hka hya.1 (hgr 1 (by omega) (by omega)) (by rw [stepIdx_self]; omega)).1
      have g' := (v_wall h m e hka hya.1 (hgs 1 (by omega) (by omega)) (by rw [sa]; omega)).1
      rw [step_add, step_add, show (1 : Int) + -1 = 0 by omega, step_zero] at g
      rw [step_comm (stepIdx y a 1) hda, step_comm (stepIdx y a 1) hda, step_add, step_add, show (1 : Int) + -1 = 0 by omega, step_zero] at g'
      rw [g, g', hcl _ (by omega) (by omega)]
  · by_cases hhigh : y a = P a + 1
    · have e0 : -((P a : Int) + 1) + (P a + 1) = 0 := by omega
      by_cases hka : c.B.kl a = .cyclic
      · have g := (v_cyc h m e hka (hgr (-((P a : Int) + 1)) (by omega) (by omega)) (by rw [stepIdx_self]; omega)).2
        have g' := (v_cyc h m e hka (hgs (-((P a : Int) + 1)) (by omega) (by omega)) (by rw [sa]; omega)).2
        rw [step_add, step_add, e0, step_zero] at g
        rw [step_comm (stepIdx y a _) hda, step_comm (stepIdx y a _) hda, step_add, step_add, e0, step_zero] at g'
        rw [g, g', hcl _ (by omega) (by omega)]
      · have g := (v_wall h m e hka hya.1 (hgr (-((P a : Int) + 1)) (by omega) (by omega)) (by rw [stepIdx_self]; omega)).2
        have g' := (v_wall h m e hka hya.1 (hgs (-((P a : Int) + 1)) (by omega) (by omega)) (by rw [sa]; omega)).2
        rw [step_add, step_add, e0, step_zero] at g
        rw [step_comm (stepIdx y a _) hda, step_comm (stepIdx y a _) hda, step_add, step_add, e0, step_zero] at g'
        rw [g, g', hcl _ (by omega) (by omega)]
    · have g0 := hgr 0 (by omega) (by omega)
      have g1 := hgs 0 (by omega) (by omega)
      have g2 := hcl 0 (by omega) (by omega)
      rw [step_zero] at g0 g1 g2
      rw [v_in h m e g0, v_in h m e g1, g2]

/-- the squared deformation of a closed flow closes -/
theorem tdef_closes (h : Domain c P) (hu : Uniform c) (m : Mem n K) (hv : ∀ e, Closes c P (m.v e)) : Closes c P (tdefSqCmpct (half c m).tau) := by
  intro d x hk hx hd
  have hdz := (h.cyc hk).2
  have h2 := h.two d
  have hg := mem_grid.1 hx
  have hV : ∀ e, Closes c P ((forces c m).v e) := fun e d' y hk' hy hd' => by
    have := h.two d'
    rw [v_in h m e hy, v_in h m e (step_mem hy (by omega))]; exact hv e d' y hk' hy hd'
  have hD : ∀ y, Ext P c.z c.z y → (forces c m).div y = 0 := fun y hy => div_zero h hu m (fun e he => by have := hy e; rwa [if_neg (by tauto)] at this)
    (by have := hy c.z; rwa [if_pos (Or.inl rfl)] at this)
  -- diagonal components
  have hdiag : ∀ a y, Ext P a a y → (y d = 0 ∨ (y d = -1 ∧ d = a)) → (half c m).tau a a (stepIdx y d (P d)) = (half c m).tau a a y := by
    intro a y hy hyd
    have e : (half c m).tau a a = fillSgsTnsr c.B a ((forces c m).v c.z) (forces c m).div (c.dx a) ((setDeform c (setDiv c (setDrag c (xchngVip c m)))).tau a a) := by
      rw [← half_v, ← half_div]
      show (if a = a then _ else _) = _
      rw [if_pos rfl]; rfl
    rw [e]
    refine diag_closes h _ _ _ hk (fun _ => hV c.z) hD (fun hda w hw hwd => ?_) hy hyd
    obtain ⟨hwg, hwa⟩ := Finset.mem_filter.1 hw
    have hw' : stepIdx w d (P d) ∈ facePts P a := Finset.mem_filter.2 ⟨step_mem hwg (by omega), by rw [stepIdx_other w (Ne.symm hda)]; exact hwa⟩
    have key : ∀ u ∈ facePts P a, (setDeform c (setDiv c (setDrag c (xchngVip c m)))).tau a a u = deformCmpct c.z c.dx (forces c m).v (forces c m).div a a u := by
      intro u hu'
      obtain ⟨hug, hua⟩ := Finset.mem_filter.1 hu'
      rw [← half_in h m hug hua hua, e]
      exact ((diag_values h _ _ _ (fun k _ => mem_grid.1 hug k)).1 (mem_grid.1 hug a).1 hua).symm
    rw [key _ hw, key _ hw', deform_diag h hu m hw, deform_diag h hu m hw']
    unfold stretch
    rw [step_comm w hda, hv a d w hk hwg hwd, hv a d (stepIdx w a 1) hk (step_mem hwg (by have := mem_grid.1 hwg a; omega)) (by rw [stepIdx_other w hda]; exact hwd)]
  have hoff : ∀ a b, a < b → ∀ y, Ext P a b y → (y d = 0 ∨ (y d = -1 ∧ (d = a ∨ d = b))) → (half c m).tau a b (stepIdx y d (P d)) = (half c m).tau a b y := by
    intro a b hab y hy hyd
    have haz : a ≠ c.z := fun h' => absurd (h.last b) (not_le.2 (h' ▸ hab))
    have e : (half c m).tau a b = xchngSgsTnsrOffdiag c.B a b ((forces c m).srfc a) ((setDeform c (setDiv c (setDrag c (xchngVip c m)))).tau a b) := by
      rw [forces_srfc]
      show (if a = b then _ else _) = _
      rw [if_neg hab.ne]; rfl
    rw [e]
    refine off_closes h hab _ _ hk (fun hbz w hw hwz hwd => ?_) (fun hda hdb w hw wa wb wd => ?_) hy hyd
    · by_cases hda : d = a
      · subst hda
        have hwg : ∀ j : Int, w d + j = 0 → stepIdx w d j ∈ gridPts P := fun j hj => mem_grid.2 fun k => by
          by_cases hkd : k = d
          · subst hkd; rw [stepIdx_self]; omega
          · rw [stepIdx_other w hkd]
            have := hw k
            by_cases hkb : k = b
            · subst hkb; rw [hbz, hwz]; omega
            · rwa [if_neg (by tauto)] at this
        rcases hwd with hwd | ⟨hwd, -⟩
        · have g := hwg 0 (by omega)
          rw [step_zero] at g
          exact (srfc_cyc h m hv hk g hwz hwd).2
        · have g := (srfc_cyc h m hv hk (hwg 1 (by omega)) (by rw [stepIdx_other w hdz.symm]; exact hwz) (by rw [stepIdx_self]; omega)).1
          rw [step_add, step_add, show (1 : Int) + -1 = 0 by omega, step_zero, show (1 : Int) + (P d - 1) = P d by omega] at g
          exact g.symm
      · have hwd : w d = 0 := by rcases hwd with h' | ⟨-, h'⟩
                                 · exact h'
                                 · exact absurd h' hda
        have hrho : ∀ y y', c.rho y = c.rho y' := fun y y' => by
          unfold Cfg.rho
          by_cases hn : c.nug = true
          · rw [if_pos hn, if_pos hn]; exact hu hn _ _
          · rw [if_neg hn, if_neg hn]
        have hN : Near P a c.z w := fun k hkz => by
          have := hw.near k (by rw [hbz]; exact hkz)
          exact this
        have hN' : Near P a c.z (stepIdx w d (P d)) := fun k hkz => by
          have := hN k hkz
          by_cases hkd : k = d
          · subst hkd; rw [if_neg hda, stepIdx_self]; omega
          · rw [stepIdx_other w hkd]; exact this
        rw [srfc_eq h m haz hwz hN, srfc_eq h m haz (by rw [stepIdx_other w hdz.symm]; exact hwz) hN']
        have hwa := hw a
        rw [if_pos (Or.inl rfl)] at hwa
        have hwk : ∀ k, k ≠ a → 0 ≤ w k ∧ w k ≤ P k := fun k hka => by
          by_cases hkz : k = c.z
          · subst hkz; rw [hwz]; omega
          · have := hN k hkz; rwa [if_neg hka] at this
        have hwk1 : ∀ k, k ≠ a → 0 ≤ stepIdx w a 1 k ∧ stepIdx w a 1 k ≤ P k := fun k hka => by rw [stepIdx_other w hka]; exact hwk k hka
        have v0 := fun i => v_ext h m hv i hk hda hwk ⟨haz, by omega, by omega⟩ hwd
        have v1 := fun i => v_ext h m hv i hk hda hwk1 ⟨haz, by rw [stepIdx_self]; omega, by rw [stepIdx_self]; omega⟩ (by rw [stepIdx_other w hda]; exact hwd)
        unfold dragAt speed2
        rw [step_comm w hda, hrho (stepIdx (stepIdx w a 1) d (P d)) (stepIdx w a 1), hrho (stepIdx w d (P d)) w]
        simp only [v0, v1]
    · have hw' : stepIdx w d (P d) ∈ gridPts P := step_mem hw (by omega)
      have key : ∀ u ∈ gridPts P, u a < P a → u b < P b → (setDeform c (setDiv c (setDrag c (xchngVip c m)))).tau a b u = shear c m.v a b u := by
        intro u hu' ua ub
        rw [← deform_off h m hab.ne (Finset.mem_filter.2 ⟨hu', ua, ub⟩), ← half_in h m hu' ua ub, e]
        exact (off_in h.toBox ⟨(mem_grid.1 hu' a).1, ua⟩ ⟨(mem_grid.1 hu' b).1, ub⟩).symm
      rw [key _ hw wa wb, key _ hw' (by rw [stepIdx_other w (Ne.symm hda)]; exact wa) (by rw [stepIdx_other w (Ne.symm hdb)]; exact wb)]
      have ga : stepIdx w a 1 ∈ gridPts P := step_mem hw (by have := mem_grid.1 hw a; omega)
      have gb : stepIdx w b 1 ∈ gridPts P := step_mem hw (by have := mem_grid.1 hw b; omega)
      have gab : stepIdx (stepIdx w a 1) b 1 ∈ gridPts P := step_mem ga (by rw [stepIdx_other w hab.ne']; have := mem_grid.1 hw b; omega)
      have da : stepIdx w a 1 d = 0 := by rw [stepIdx_other w hda]; exact wd
      have db : stepIdx w b 1 d = 0 := by rw [stepIdx_other w hdb]; exact wd
      have dab : stepIdx (stepIdx w a 1) b 1 d = 0 := by rw [stepIdx_other _ hdb]; exact da
      unfold shear slope
      rw [step_comm w hab.ne', step_comm (stepIdx w d (P d)) hab.ne', step_comm w hda, step_comm w hdb, step_comm (stepIdx w a 1) hdb]
      simp only [fun i => hv i d w hk hw wd, fun i => hv i d _ hk ga da, fun i => hv i d _ hk gb db, fun i => hv i d _ hk gab dab]
  show tdefSqCmpct (half c m).tau (stepIdx x d (P d)) = tdefSqCmpct (half c m).tau x
  have hx0 : ∀ a b, Ext P a b x := fun a b k => by have := hg k; split_ifs <;> omega
  have s1 : ∀ a, (half c m).tau a a (stepIdx x d (P d)) = (half c m).tau a a x := fun a => hdiag a x (hx0 a a) (Or.inl hd)
  have sw : ∀ (y : Idx n) (a : Fin n) (j : Int), stepIdx (stepIdx y d (P d)) a j = stepIdx (stepIdx y a j) d (P d) := fun y a j => by
    by_cases hda : d = a
    · subst hda; rw [step_add, step_add, add_comm]
    · exact step_comm y hda _ _
  have hback : ∀ (y : Idx n) (a : Fin n), y d = 0 → stepIdx y a (-1) d = 0 ∨ (stepIdx y a (-1) d = -1 ∧ d = a) := fun y a hy => by
    by_cases hda : d = a
    · subst hda; rw [stepIdx_self]; exact Or.inr ⟨by omega, rfl⟩
    · rw [stepIdx_other y hda]; exact Or.inl hy
  have s2 : ∀ a, (half c m).tau a a (stepIdx (stepIdx x a (-1)) d (P d)) = (half c m).tau a a (stepIdx x a (-1)) := fun a =>
    hdiag a _ ((hx0 a a).set (by rw [if_pos (Or.inl rfl)]; have := hg a; omega)) (hback x a hd)
  have s3 : ∀ a b, a < b → (half c m).tau a b (stepIdx x d (P d)) = (half c m).tau a b x ∧
      (half c m).tau a b (stepIdx (stepIdx x a (-1)) d (P d)) = (half c m).tau a b (stepIdx x a (-1)) ∧
      (half c m).tau a b (stepIdx (stepIdx x b (-1)) d (P d)) = (half c m).tau a b (stepIdx x b (-1)) ∧
      (half c m).tau a b (stepIdx (stepIdx (stepIdx x a (-1)) b (-1)) d (P d)) = (half c m).tau a b (stepIdx (stepIdx x a (-1)) b (-1)) := by
    intro a b hab
    have ea : Ext P a b (stepIdx x a (-1)) := (hx0 a b).set (by rw [if_pos (Or.inl rfl)]; have := hg a; omega)
    refine ⟨hoff a b hab x (hx0 a b) (Or.inl hd), hoff a b hab _ ea ?_, hoff a b hab _ ((hx0 a b).set (by rw [if_pos (Or.inr rfl)]; have := hg b; omega)) ?_,
      hoff a b hab _ (ea.set (by rw [if_pos (Or.inr rfl), stepIdx_other x hab.ne']; have := hg b; omega)) ?_⟩
    · rcases hback x a hd with h' | ⟨h', h''⟩
      · exact Or.inl h'
      · exact Or.inr ⟨h', Or.inl h''⟩
    · rcases hback x b hd with h' | ⟨h', h''⟩
      · exact Or.inl h'
      · exact Or.inr ⟨h', Or.inr h''⟩
    · by_cases hdb : d = b
      · subst hdb; rw [stepIdx_self, stepIdx_other x hab.ne']; exact Or.inr ⟨by omega, Or.inr rfl⟩
      · rw [stepIdx_other _ hdb]
        rcases hback x a hd with h' | ⟨h', h''⟩
        · exact Or.inl h'
        · exact Or.inr ⟨h', Or.inl h''⟩
  unfold tdefSqCmpct
  simp only [sw, s1, s2]
  congr 2
  · congr 1
    refine Finset.sum_congr rfl fun a _ => Finset.sum_congr rfl fun b _ => ?_
    split_ifs with hab
    · obtain ⟨t1, t2, t3, t4⟩ := s3 a b hab
      rw [t1, t2, t3, t4]
    · rfl
  · congr 1
    refine Finset.sum_congr rfl fun a _ => Finset.sum_congr rfl fun b _ => ?_
    split_ifs with hab
    · obtain ⟨t1, t2, t3, t4⟩ := s3 a b hab
      rw [t1, t2, t3, t4]
    · rfl
end
end Drag
end Mpdata
