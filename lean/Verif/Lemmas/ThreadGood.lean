import Verif.Lemmas.ThreadsOwn
import Verif.Model.ThreadProg2
/-! # The phases of the advection operator are race free -/
set_option linter.unusedSectionVars false
namespace Mpdata
namespace Threads
open Classical
variable {V : Type}

/-- a location of an array that no statement of the phase writes -/
theorem free_of {A Y : Type} {N T : Nat} {all : List (S A Y V)} {a' : A} (h : a' ∉ all.map S.dst) (x' : Int) (y' : Y) :
    ∀ s' ∈ all, s'.dst = a' → y' ∈ s'.ys → ∀ t' : Fin T, ¬ (s'.dom.rng N T t').Mem x' := by
  intro s' hs' hd
  exact absurd (List.mem_map.2 ⟨s', hs', hd⟩) h

theorem single_good {A Y : Type} (N T : Nat) (s : S A Y V)
    (h : ∀ x y a' x' y', s.rd x y a' x' y' → a' = s.dst → y' ∈ s.ys → ∀ t : Fin T, ¬ (s.dom.rng N T t).Mem x') : Good N T [s] [] [s] := by
  refine ⟨?_, trivial⟩
  intro t x hx y hy a' x' y' hr
  right
  intro s' hs' hd hy' t'
  rw [List.mem_singleton] at hs'; subst hs'
  exact h x y a' x' y' hr hd.symm hy' t'

theorem corr1_ne_unco1 (iter : Nat) : corr1 iter ≠ unco1 iter := by
  unfold corr1 unco1
  split_ifs with h
  · simp
  · rcases Nat.mod_two_eq_zero_or_one iter with h1 | h1 <;> simp [h1]

theorem unco1_cases (iter : Nat) : unco1 iter = .gc ∨ ∃ b, unco1 iter = .tmp b := by
  unfold unco1; split_ifs
  · left; rfl
  · right; exact ⟨_, rfl⟩

section oneD
variable (F : F1 V) (o : TOpts) (N T : Nat) (n : Bool) (iter : Nat)

theorem fillR1_good (a : A1) : Good N T [fillR1 F o N a] [] [fillR1 F o N a] := by
  apply single_good
  intro x y a' x' y' hr _ _ t
  simp only [fillR1] at hr ⊢
  simp only [Dom.rng, Rng.Mem]
  split_ifs
  · exact hr.2
  · simp only; omega
theorem fillL1_good (a : A1) : Good N T [fillL1 F o a] [] [fillL1 F o a] := by
  apply single_good
  intro x y a' x' y' hr _ _ t
  simp only [fillL1] at hr ⊢
  simp only [Dom.rng, Rng.Mem]
  split_ifs
  · exact hr.2
  · simp only; omega
theorem fillVR1_own (a : A1) : OwnPhase N [fillVR1 F o N a] := by
  refine ⟨?_, ?_, ?_, ?_⟩ <;> simp only [List.mem_cons, List.mem_nil_iff, or_false]
  · rintro s rfl; simp [fillVR1, Dom.Own]
  · rintro s rfl; simp [fillVR1]
  · rintro s rfl x hx y hy a' x' y' hr s' rfl hd hy' hx'
    simp only [fillVR1, Dom.glob, Rng.Mem] at hr hx'
    rcases hr.2 with h | h
    · exact absurd hx' h
    · exact Or.inl h
  · rintro s rfl x y x' y' hx hy hr hx' hy'
    simp only [fillVR1, Dom.glob, Rng.Mem] at hr hx'
    rcases hr.2 with h | h
    · exact absurd hx' h
    · exact ⟨h, trivial⟩
theorem fillVL1_own (a : A1) : OwnPhase N [fillVL1 F o a] := by
  refine ⟨?_, ?_, ?_, ?_⟩ <;> simp only [List.mem_cons, List.mem_nil_iff, or_false]
  · rintro s rfl; simp [fillVL1, Dom.Own]
  · rintro s rfl; simp [fillVL1]
  · rintro s rfl x hx y hy a' x' y' hr s' rfl hd hy' hx'
    simp only [fillVL1, Dom.glob, Rng.Mem] at hr hx'
    rcases hr.2 with h | h
    · exact absurd hx' h
    · exact Or.inl h
  · rintro s rfl x y x' y' hx hy hr hx' hy'
    simp only [fillVL1, Dom.glob, Rng.Mem] at hr hx'
    rcases hr.2 with h | h
    · exact absurd hx' h
    · exact ⟨h, trivial⟩

/-- `antidiff` reads nothing that a phase of 1-D MPDATA writes -/
theorem anti1_reads {all pre : List (S A1 Unit V)} (h1 : A1.psi n ∉ all.map S.dst) (h2 : unco1 iter ∉ all.map S.dst) :
    ReadsOk N T all pre (anti1 F n iter) := by
  intro t x hx y hy a' x' y' hr
  rcases hr with rfl | rfl
  · exact Or.inr (free_of h1 _ _)
  · exact Or.inr (free_of h2 _ _)

theorem flux1_reads {all pre : List (S A1 Unit V)} (g : A1) (f) (h1 : A1.psi n ∉ all.map S.dst)
    (h2 : g ∉ all.map S.dst ∨ ∃ s ∈ pre, s.dst = g ∧ s.dom = .ext 1 0 ∧ s.ys = [()]) : ReadsOk N T all pre (flux1 n g f) := by
  intro t x hx y hy a' x' y' hr
  rcases hr with rfl | ⟨rfl, rfl⟩
  · exact Or.inr (free_of h1 _ _)
  · rcases h2 with h2 | ⟨s, hs, hd, hdom, hys⟩
    · exact Or.inr (free_of h2 _ _)
    · exact Or.inl ⟨s, hs, hd, by rw [hdom]; exact hx, by rw [hys]; simp⟩

theorem donor1_reads {all pre : List (S A1 Unit V)} (g : A1) (f) (h1 : A1.psi n ∉ all.map S.dst)
    (h2 : g ∉ all.map S.dst ∨ ∃ s ∈ pre, s.dst = g ∧ s.dom = .ext 1 0 ∧ s.ys = [()]) : ReadsOk N T all pre (donor1 n g f) := by
  intro t x hx y hy a' x' y' hr
  rcases hr with rfl | ⟨rfl, hx'⟩
  · exact Or.inr (free_of h1 _ _)
  · rcases h2 with h2 | ⟨s, hs, hd, hdom, hys⟩
    · exact Or.inr (free_of h2 _ _)
    · refine Or.inl ⟨s, hs, hd, ?_, by rw [hys]; simp⟩
      rw [hdom]
      simp only [donor1, Dom.rng, Rng.Mem] at hx ⊢
      omega

theorem bup1_reads {all pre : List (S A1 Unit V)} (g : A1) (h1 : A1.psi n ∉ all.map S.dst) (h0 : A1.pmax ∉ all.map S.dst)
    (h2 : g ∉ all.map S.dst ∨ ∃ s ∈ pre, s.dst = g ∧ s.dom = .ext 2 1 ∧ s.ys = [()]) : ReadsOk N T all pre (bup1 F n g iter) := by
  intro t x hx y hy a' x' y' hr
  rcases hr with rfl | rfl | ⟨rfl, hx'⟩
  · exact Or.inr (free_of h1 _ _)
  · exact Or.inr (free_of h0 _ _)
  · rcases h2 with h2 | ⟨s, hs, hd, hdom, hys⟩
    · exact Or.inr (free_of h2 _ _)
    · refine Or.inl ⟨s, hs, hd, ?_, by rw [hys]; simp⟩
      rw [hdom]
      simp only [bup1, Dom.rng, Rng.Mem] at hx ⊢
      omega

theorem bdn1_reads {all pre : List (S A1 Unit V)} (g : A1) (h1 : A1.psi n ∉ all.map S.dst) (h0 : A1.pmin ∉ all.map S.dst)
    (h2 : g ∉ all.map S.dst ∨ ∃ s ∈ pre, s.dst = g ∧ s.dom = .ext 2 1 ∧ s.ys = [()]) : ReadsOk N T all pre (bdn1 F n g iter) := by
  intro t x hx y hy a' x' y' hr
  rcases hr with rfl | rfl | ⟨rfl, hx'⟩
  · exact Or.inr (free_of h1 _ _)
  · exact Or.inr (free_of h0 _ _)
  · rcases h2 with h2 | ⟨s, hs, hd, hdom, hys⟩
    · exact Or.inr (free_of h2 _ _)
    · refine Or.inl ⟨s, hs, hd, ?_, by rw [hys]; simp⟩
      rw [hdom]
      simp only [bdn1, Dom.rng, Rng.Mem] at hx ⊢
      omega

theorem flux1b_reads {all pre : List (S A1 Unit V)} (h1 : A1.psi n ∉ all.map S.dst) (h2 : corr1 iter ∉ all.map S.dst) :
    ReadsOk N T all pre (flux1b F n iter) := by
  intro t x hx y hy a' x' y' hr
  rcases hr with rfl | rfl
  · exact Or.inr (free_of h1 _ _)
  · exact Or.inr (free_of h2 _ _)

/-- the limiter reads betas the same thread computed in this phase, or that were computed in an earlier phase -/
theorem mono1_reads {all pre : List (S A1 Unit V)} (h1 : A1.psi n ∉ all.map S.dst) (h2 : corr1 iter ∉ all.map S.dst)
    (h3 : ∀ a, a = A1.bup ∨ a = A1.bdn → a ∉ all.map S.dst ∨ ∃ s ∈ pre, s.dst = a ∧ s.dom = .ext 1 1 ∧ s.ys = [()]) :
    ReadsOk N T all pre (mono1 F n iter) := by
  intro t x hx y hy a' x' y' hr
  rcases hr with rfl | rfl | ⟨ha, hx'⟩
  · exact Or.inr (free_of h1 _ _)
  · exact Or.inr (free_of h2 _ _)
  · rcases h3 a' ha with h | ⟨s, hs, hd, hdom, hys⟩
    · exact Or.inr (free_of h _ _)
    · refine Or.inl ⟨s, hs, hd, ?_, by rw [hys]; simp⟩
      rw [hdom]
      simp only [mono1, Dom.rng, Rng.Mem] at hx ⊢
      omega

macro "dsts" : tactic => `(tactic|
  (simp only [List.map_cons, List.map_nil, List.mem_cons, List.not_mem_nil, anti1, flux1, donor1, bup1, bdn1, mono1, flux1b, corr1]; simp))

theorem unco1_notin (l : List A1) (h : ∀ a ∈ l, a ≠ .gc ∧ ∀ b, a ≠ .tmp b ∨ a = corr1 iter) : unco1 iter ∉ l := by
  intro hm
  rcases unco1_cases iter with h1 | ⟨b, h1⟩
  · exact (h _ hm).1 h1
  · rcases (h _ hm).2 b with h2 | h2
    · exact h2 h1
    · exact corr1_ne_unco1 iter h2.symm

theorem iter1_good : ∀ ss ∈ iter1 F o N n iter, Good N T ss [] ss ∨ OwnPhase N ss := by
  intro ss hss
  have hu : ∀ l : List A1, (∀ a ∈ l, a ≠ .gc ∧ ∀ b, a ≠ .tmp b ∨ a = corr1 iter) → unco1 iter ∉ l := unco1_notin iter
  have ga : Good N T [anti1 F n iter] [] [anti1 F n iter] := by
    refine ⟨anti1_reads F N T n iter (by dsts) (hu _ ?_), trivial⟩
    intro a ha; simp only [List.map_cons, List.map_nil, List.mem_singleton] at ha
    subst ha; exact ⟨by simp [anti1, corr1], fun b => Or.inr rfl⟩
  unfold iter1 at hss
  rw [List.mem_append] at hss
  rcases hss with hss | hss
  · simp only [xchng1, List.mem_cons, List.not_mem_nil, or_false] at hss
    rcases hss with rfl | rfl
    · exact Or.inl <| fillR1_good F o N T _
    · exact Or.inl <| fillL1_good F o N T _
  have gx : ∀ a, ∀ ss ∈ xchngV1 F o N a, OwnPhase N ss := by
    intro a ss hss
    simp only [xchngV1, List.mem_cons, List.not_mem_nil, or_false] at hss
    rcases hss with rfl | rfl
    · exact fillVR1_own F o N _
    · exact fillVL1_own F o N _
  split_ifs at hss with hf hi hd
  · simp only [List.mem_append, List.mem_singleton] at hss
    rcases hss with (rfl | hss) | rfl
    · exact Or.inl ga
    · exact Or.inr (gx _ _ hss)
    · refine Or.inl ⟨bup1_reads F N T n iter _ (by dsts) (by dsts) (Or.inl (by dsts)), bdn1_reads F N T n iter _ (by dsts) (by dsts) (Or.inl (by dsts)),
        mono1_reads F N T n iter (by dsts) (by dsts) ?_, donor1_reads N T n _ _ (by dsts) ?_, trivial⟩
      · rintro a (rfl | rfl)
        · exact Or.inr ⟨_, by simp only [List.nil_append, List.cons_append]; exact List.mem_cons_self, rfl, rfl, rfl⟩
        · exact Or.inr ⟨_, by simp only [List.nil_append, List.cons_append]; exact List.mem_cons_of_mem _ List.mem_cons_self, rfl, rfl, rfl⟩
      · exact Or.inr ⟨mono1 F n iter, by simp, rfl, rfl, rfl⟩
  · simp only [List.mem_append, List.mem_cons, List.not_mem_nil, or_false] at hss
    rcases hss with (rfl | hss) | rfl | rfl
    · exact Or.inl ga
    · exact Or.inr (gx _ _ hss)
    · refine Or.inl ⟨flux1b_reads F N T n iter (by dsts) (by dsts), bup1_reads F N T n iter _ (by dsts) (by dsts) ?_,
        bdn1_reads F N T n iter _ (by dsts) (by dsts) ?_, trivial⟩
      · exact Or.inr ⟨flux1b F n iter, by simp, rfl, rfl, rfl⟩
      · exact Or.inr ⟨flux1b F n iter, by simp, rfl, rfl, rfl⟩
    · refine Or.inl ⟨mono1_reads F N T n iter (by dsts) (by dsts) ?_, flux1_reads N T n _ _ (by dsts) ?_, donor1_reads N T n _ _ (by dsts) ?_, trivial⟩
      · rintro a (rfl | rfl)
        · exact Or.inl (by dsts)
        · exact Or.inl (by dsts)
      · exact Or.inr ⟨mono1 F n iter, by simp, rfl, rfl, rfl⟩
      · exact Or.inr ⟨flux1 n .mono (F.flx iter), by simp, rfl, rfl, rfl⟩
  · simp only [List.mem_append, List.mem_singleton] at hss
    rcases hss with (rfl | hss) | rfl
    · exact Or.inl ga
    · exact Or.inr (gx _ _ hss)
    · exact Or.inl ⟨donor1_reads N T n _ _ (by dsts) (Or.inl (by dsts)), trivial⟩
  · simp only [List.mem_append, List.mem_singleton] at hss
    rcases hss with (rfl | hss) | rfl
    · exact Or.inl ga
    · exact Or.inr (gx _ _ hss)
    · exact Or.inl ⟨flux1_reads N T n _ _ (by dsts) (Or.inl (by dsts)),
        donor1_reads N T n _ _ (by dsts) (Or.inr ⟨flux1 n (corr1 iter) (F.flx iter), by simp, rfl, rfl, rfl⟩), trivial⟩
  · rw [List.mem_singleton] at hss; subst hss
    refine Or.inl ⟨anti1_reads F N T n iter (by dsts) (hu _ ?_), donor1_reads N T n _ _ (by dsts) (Or.inr ⟨anti1 F n iter, by simp, rfl, rfl, rfl⟩), trivial⟩
    intro a ha
    simp only [List.map_cons, List.map_nil, List.mem_cons, List.not_mem_nil, or_false, anti1, donor1] at ha
    rcases ha with rfl | rfl
    · exact ⟨by simp [corr1], fun b => Or.inr rfl⟩
    · exact ⟨by simp, fun b => Or.inl (by simp)⟩
  · rw [List.mem_singleton] at hss; subst hss
    refine Or.inl ⟨anti1_reads F N T n iter (by dsts) (hu _ ?_), flux1_reads N T n _ _ (by dsts) (Or.inr ⟨anti1 F n iter, by simp, rfl, rfl, rfl⟩),
      donor1_reads N T n _ _ (by dsts) (Or.inr ⟨flux1 n (corr1 iter) (F.flx iter), by simp, rfl, rfl, rfl⟩), trivial⟩
    intro a ha
    simp only [List.map_cons, List.map_nil, List.mem_cons, List.not_mem_nil, or_false, anti1, donor1, flux1] at ha
    rcases ha with rfl | rfl | rfl
    · exact ⟨by simp [corr1], fun b => Or.inr rfl⟩
    · exact ⟨by simp, fun b => Or.inl (by simp)⟩
    · exact ⟨by simp, fun b => Or.inl (by simp)⟩

/-- distinct arrays in each phase, and no repeated transverse index -/
theorem iter1_sep : ∀ ss ∈ iter1 F o N n iter, ss.Pairwise Sep ∧ ∀ s ∈ ss, s.ys.Nodup := by
  intro ss hss
  unfold iter1 xchng1 xchngV1 at hss
  rw [List.mem_append] at hss
  split_ifs at hss <;> simp only [List.mem_append, List.mem_cons, List.not_mem_nil, or_false] at hss <;>
  rcases hss with hss | hss <;> rcases hss with hss | hss <;>
  (try rcases hss with hss | hss) <;> (try rcases hss with hss | hss) <;> (try subst hss) <;>
  simp [Sep, anti1, flux1, donor1, bup1, bdn1, mono1, flux1b, corr1, fillR1, fillL1, fillVR1, fillVL1]

end oneD
end Threads
end Mpdata

namespace Mpdata
namespace Threads
open Classical
variable {V : Type}

section oneDstep
variable (F : F1 V) (o : TOpts) (N T : Nat)

theorem iters1_good : ∀ k n iter, ∀ ss ∈ iters1 F o N k n iter, (Good N T ss [] ss ∨ OwnPhase N ss) ∧ ss.Pairwise Sep ∧ ∀ s ∈ ss, s.ys.Nodup := by
  intro k
  induction k with
  | zero => intro n iter ss h; simp [iters1] at h
  | succ k ih =>
    intro n iter ss h
    rw [iters1, List.mem_append] at h
    rcases h with h | h
    · exact ⟨iter1_good F o N T n iter ss h, iter1_sep F o N n iter ss h⟩
    · exact ih _ _ ss h

theorem step1_good (n : Bool) : ∀ ss ∈ step1 F o N n, (Good N T ss [] ss ∨ OwnPhase N ss) ∧ ss.Pairwise Sep ∧ ∀ s ∈ ss, s.ys.Nodup := by
  intro ss h
  unfold step1 at h
  rw [List.mem_append, List.mem_append] at h
  rcases h with (h | h) | h
  · simp only [xchng1, List.mem_cons, List.not_mem_nil, or_false] at h
    rcases h with rfl | rfl
    · exact ⟨Or.inl (fillR1_good F o N T _), by simp [fillR1]⟩
    · exact ⟨Or.inl (fillL1_good F o N T _), by simp [fillL1]⟩
  · rw [List.mem_singleton] at h; subst h
    unfold fctInit1
    split_ifs with hf
    · refine ⟨Or.inl ⟨?_, ?_, flux1_reads N T n _ _ (by simp [flux1, donor1]) (Or.inl (by simp [flux1, donor1])),
        donor1_reads N T n _ _ (by simp [flux1, donor1]) (Or.inr ⟨flux1 n .gc F.flx0, by simp, rfl, rfl, rfl⟩), trivial⟩, ?_⟩
      · intro t x hx y hy a' x' y' hr
        obtain rfl : a' = A1.psi n := hr
        exact Or.inr (free_of (by simp [flux1, donor1]) _ _)
      · intro t x hx y hy a' x' y' hr
        obtain rfl : a' = A1.psi n := hr
        exact Or.inr (free_of (by simp [flux1, donor1]) _ _)
      · simp [Sep, flux1, donor1]
    · refine ⟨Or.inl ⟨flux1_reads N T n _ _ (by simp [flux1, donor1]) (Or.inl (by simp [flux1, donor1])),
        donor1_reads N T n _ _ (by simp [flux1, donor1]) (Or.inr ⟨flux1 n .gc F.flx0, by simp, rfl, rfl, rfl⟩), trivial⟩, ?_⟩
      simp [Sep, flux1, donor1]
  · exact iters1_good F o N T _ _ _ ss h
end oneDstep

/-! ## Two dimensions -/
section twoD
variable (F : F2 V) (o : TOpts) (N M T : Nat) (n : Bool) (iter : Nat)

theorem mem_rows (lo hi y : Int) : y ∈ rows lo hi ↔ lo ≤ y ∧ y ≤ hi := by unfold rows; rw [mem_irange]
theorem nodup_rows (lo hi : Int) : (rows lo hi).Nodup := nodup_irange _

theorem corr2_ne_unco2 (d d' : Bool) : corr2 iter d ≠ unco2 iter d' := by
  unfold corr2 unco2
  split_ifs with h
  · simp
  · rcases Nat.mod_two_eq_zero_or_one iter with h1 | h1 <;> simp [h1]

theorem unco2_cases (d : Bool) : unco2 iter d = .gc d ∨ ∃ b, unco2 iter d = .tmp b d := by
  unfold unco2; split_ifs
  · left; rfl
  · right; exact ⟨_, rfl⟩

theorem bc0_own (a : A2) (r : Bool) (s : Int) (hs : r = true → -1 ≤ s) (ys : List Int) (hy : ys.Nodup) (f) : OwnPhase N [bc0 (V := V) o N a r s ys f] := by
  refine ⟨?_, ?_, ?_, ?_⟩ <;> simp only [List.mem_cons, List.mem_nil_iff, or_false]
  · rintro s' rfl
    unfold bc0; split_ifs with h
    · have := hs h
      simp only [Dom.Own]; omega
    · simp [Dom.Own]
  · rintro s' rfl; unfold bc0; split_ifs <;> exact hy
  · rintro s' rfl x hx y hy a' x' y' hr s' rfl hd hy' hx'
    unfold bc0 at hr hd hy' hx'
    split_ifs at hr hd hy' hx' <;> simp only [Dom.glob, Rng.Mem] at hx' <;> rcases hr with h | h <;>
      first | exact Or.inl h.1 | exact absurd ⟨hd.symm, hx', hy'⟩ h
  · rintro s' rfl x y x' y' hx hy hr hx' hy'
    unfold bc0 at hr hy' hx'
    split_ifs at hr hy' hx' <;> simp only [Dom.glob, Rng.Mem] at hx' <;> rcases hr with h | h <;>
      first | exact h | exact absurd ⟨rfl, hx', hy'⟩ h

theorem bc1_own (a : A2) (d : Dom) (hd : d.Own N) (ys : List Int) (hy : ys.Nodup) (f) : OwnPhase N [bc1 (V := V) a d ys f] := by
  refine ⟨?_, ?_, ?_, ?_⟩ <;> simp only [List.mem_cons, List.mem_nil_iff, or_false]
  · rintro s rfl; exact hd
  · rintro s rfl; exact hy
  · rintro s rfl x hx y hy a' x' y' hr s' rfl hd hy' hx'
    rcases hr with h | h
    · exact Or.inl h.1
    · exact absurd ⟨hd.symm, hy'⟩ h
  · rintro s rfl x y x' y' hx hy hr hx' hy'
    rcases hr with h | h
    · exact h
    · exact absurd ⟨rfl, hy'⟩ h

theorem nodup_haloRows (o : TOpts) (M : Nat) : (haloRows o M).Nodup := by
  unfold haloRows
  rw [List.nodup_append]
  refine ⟨nodup_rows _ _, nodup_rows _ _, ?_⟩
  intro a ha b hb
  rw [mem_rows] at ha hb; omega

theorem nodup_haloFaceRows (o : TOpts) (M : Nat) (hM : 0 < M) : (haloFaceRows o M).Nodup := by
  unfold haloFaceRows
  rw [List.nodup_append]
  refine ⟨nodup_rows _ _, nodup_rows _ _, ?_⟩
  intro a ha b hb
  rw [mem_rows] at ha hb; omega

theorem nodup_edgeRows (M : Nat) (hM : 0 < M) : (rows (-1) (-1) ++ rows ((M : Int) - 1) (M - 1)).Nodup := by
  rw [List.nodup_append]
  refine ⟨nodup_rows _ _, nodup_rows _ _, ?_⟩
  intro a ha b hb
  rw [mem_rows] at ha hb; omega

theorem xchng2_own (a : A2) : ∀ ss ∈ xchng2 F o N M a, OwnPhase N ss := by
  intro ss h
  simp only [xchng2, List.mem_cons, List.not_mem_nil, or_false] at h
  rcases h with rfl | rfl | rfl
  · exact bc0_own o N _ _ _ (by simp) _ (nodup_rows _ _) _
  · exact bc0_own o N _ _ _ (by simp) _ (nodup_rows _ _) _
  · exact bc1_own N _ (.extR _ _) trivial _ (nodup_haloRows o M) _

theorem alng2_own (hN : 0 < N) (hM : 0 < M) (a : Bool → A2) (ha : a false ≠ a true) : ∀ ss ∈ alng2 F o N M a, OwnPhase N ss := by
  intro ss h
  simp only [alng2, List.mem_cons, List.not_mem_nil, or_false] at h
  rcases h with rfl | rfl | rfl
  · refine ⟨?_, ?_, ?_, ?_⟩ <;> simp only [List.mem_cons, List.mem_nil_iff, or_false]
    · rintro s (rfl | rfl) <;> simp [zero2, bc0, Dom.Own]
    · rintro s (rfl | rfl)
      · exact nodup_edgeRows M hM
      · exact nodup_rows _ _
    · rintro s (rfl | rfl) x hx y hy a' x' y' hr s' (rfl | rfl) hd hy' hx' <;> simp only [zero2, bc0, if_true, Dom.glob, Rng.Mem, SameCol] at * <;> omega
    · rintro s (rfl | rfl) x y x' y' hx hy hr hx' hy' <;> simp only [zero2, bc0, if_true, Dom.glob, Rng.Mem] at *
      · exact hr.2
      · rcases hr with h | h
        · exact h
        · exact absurd ⟨trivial, hx', hy'⟩ h
  · refine ⟨?_, ?_, ?_, ?_⟩ <;> simp only [List.mem_cons, List.mem_nil_iff, or_false]
    · rintro s (rfl | rfl) <;> simp [zero2, bc0, Dom.Own]
    · rintro s (rfl | rfl)
      · exact nodup_edgeRows M hM
      · exact nodup_rows _ _
    · rintro s (rfl | rfl) x hx y hy a' x' y' hr s' (rfl | rfl) hd hy' hx' <;>
        simp only [zero2, bc0, Bool.false_eq_true, if_false, Dom.glob, Rng.Mem, SameCol] at * <;> omega
    · rintro s (rfl | rfl) x y x' y' hx hy hr hx' hy' <;> simp only [zero2, bc0, Bool.false_eq_true, if_false, Dom.glob, Rng.Mem] at *
      · exact hr.2
      · rcases hr with h | h
        · exact h
        · exact absurd ⟨trivial, hx', hy'⟩ h
  · exact bc1_own N _ (.ext 0 0) ⟨rfl, rfl⟩ _ (nodup_haloFaceRows o M hM) _

theorem nrml2_ok (a : Bool → A2) (ha : a false ≠ a true) : ∀ ss ∈ nrml2 F o N M a, Good N T ss [] ss ∨ OwnPhase N ss := by
  intro ss h
  simp only [nrml2, List.mem_cons, List.not_mem_nil, or_false] at h
  rcases h with rfl | rfl
  · refine Or.inl ⟨?_, ?_, trivial⟩
    · intro t x hx y hy a' x' y' hr
      right
      intro s' hs' hd hy' t'
      simp only [List.mem_cons, List.not_mem_nil, or_false] at hs'
      rcases hs' with rfl | rfl
      · exact absurd hy' hr.2
      · exact absurd (hr.1.symm.trans hd.symm) ha
    · intro t x hx y hy a' x' y' hr
      right
      intro s' hs' hd hy' t'
      simp only [List.mem_cons, List.not_mem_nil, or_false] at hs'
      rcases hs' with rfl | rfl
      · exact absurd (hd.trans hr.1) ha
      · simp only [Dom.rng]
        split_ifs
        · exact hr.2
        · simp only [Rng.Mem]; omega
  · exact Or.inr (bc0_own o N _ _ _ (by simp) _ (nodup_rows _ _) _)

theorem xflux2_own (hM : 0 < M) (a : Bool → A2) : ∀ ss ∈ xflux2 F N M a, OwnPhase N ss := by
  intro ss h
  simp only [xflux2, List.mem_cons, List.not_mem_nil, or_false] at h
  rcases h with rfl | rfl | rfl
  all_goals
    refine ⟨?_, ?_, ?_, ?_⟩ <;> simp only [List.mem_cons, List.mem_nil_iff, or_false]
    · rintro s rfl; simp [Dom.Own]
    · rintro s rfl; first | exact nodup_rows _ _ | exact nodup_edgeRows M hM
    · rintro s rfl x hx y hy a' x' y' hr s' rfl hd hy' hx'
      simp only [Dom.glob, Rng.Mem] at hr hd hy' hx'
      rcases hr with h | h
      · exact Or.inl h.1
      · exact absurd ⟨hd.symm, by first | exact hy' | omega⟩ h
    · rintro s rfl x y x' y' hx hy hr hx' hy'
      simp only [Dom.glob, Rng.Mem] at hr hy' hx'
      rcases hr with h | h
      · exact h
      · exact absurd ⟨trivial, by first | exact hy' | omega⟩ h

/-- reads of arrays not written in the phase, or (same thread, same element) of an array written before in the phase -/
theorem flux2_reads {all pre : List (S A2 Int V)} (g : Bool → A2) (k : Nat) (h1 : A2.psi n ∉ all.map S.dst)
    (h2 : (∀ d, g d ∉ all.map S.dst) ∨ ∃ s0 ∈ pre, ∃ s1 ∈ pre, s0.dst = g false ∧ s0.dom = .face 0 ∧ s0.ys = rows 0 (M - 1) ∧
      s1.dst = g true ∧ s1.dom = .ext 0 0 ∧ s1.ys = rows (-1) (M - 1)) (pre2 : List (S A2 Int V)) (hp : pre ⊆ pre2) :
    (∀ s ∈ flux2 F M n g k, ReadsOk N T all pre2 s) := by
  intro s hs
  simp only [flux2, List.mem_cons, List.not_mem_nil, or_false] at hs
  rcases hs with rfl | rfl
  · intro t x hx y hy a' x' y' hr
    rcases hr with rfl | ⟨rfl, rfl, rfl⟩
    · exact Or.inr (free_of h1 _ _)
    · rcases h2 with h2 | ⟨s0, hs0, s1, hs1, e1, e2, e3, e4, e5, e6⟩
      · exact Or.inr (free_of (h2 _) _ _)
      · exact Or.inl ⟨s0, hp hs0, e1, by rw [e2]; exact hx, by rw [e3]; exact hy⟩
  · intro t x hx y hy a' x' y' hr
    rcases hr with rfl | ⟨rfl, rfl, rfl⟩
    · exact Or.inr (free_of h1 _ _)
    · rcases h2 with h2 | ⟨s0, hs0, s1, hs1, e1, e2, e3, e4, e5, e6⟩
      · exact Or.inr (free_of (h2 _) _ _)
      · exact Or.inl ⟨s1, hp hs1, e4, by rw [e5]; exact hx, by rw [e6]; exact hy⟩

theorem anti2_reads {all pre : List (S A2 Int V)} (h1 : ∀ b, A2.psi b ∉ all.map S.dst) (h2 : ∀ d, unco2 iter d ∉ all.map S.dst) :
    ∀ s ∈ anti2 F M n iter, ReadsOk N T all pre s := by
  intro s hs
  simp only [anti2, List.mem_cons, List.not_mem_nil, or_false] at hs
  rcases hs with rfl | rfl <;>
  · intro t x hx y hy a' x' y' hr
    rcases hr with rfl | rfl | ⟨d, rfl⟩
    · exact Or.inr (free_of (h1 _) _ _)
    · exact Or.inr (free_of (h1 _) _ _)
    · exact Or.inr (free_of (h2 _) _ _)

theorem unco2_notin (l : List A2) (h : ∀ a ∈ l, (∀ d, a ≠ .gc d) ∧ ((∀ b d, a ≠ .tmp b d) ∨ ∃ d, a = corr2 iter d)) (d : Bool) : unco2 iter d ∉ l := by
  intro hm
  rcases unco2_cases iter d with h1 | ⟨b, h1⟩
  · exact (h _ hm).1 _ h1
  · rcases (h _ hm).2 with h2 | ⟨d', h2⟩
    · exact h2 _ _ h1
    · exact corr2_ne_unco2 iter d' d h2.symm

theorem donor2_good (flx : Bool → A2) (h : ∀ d, flx d ≠ .psi !n) (k : Nat) : Good N T [donor2 F M n flx k] [] [donor2 F M n flx k] := by
  refine ⟨?_, trivial⟩
  intro t x hx y hy a' x' y' hr
  refine Or.inr (free_of ?_ _ _)
  simp only [List.map_cons, List.map_nil, List.mem_singleton, donor2]
  rcases hr with rfl | ⟨rfl, -⟩ | ⟨rfl, -⟩
  · simp
  · exact h _
  · exact h _

macro "d2" : tactic => `(tactic|
  (simp [anti2, flux2, donor2, betas2, mono2, flux2b, corr2]))

theorem anti2_good : Good N T (anti2 F M n iter) [] (anti2 F M n iter) := by
  have h := anti2_reads F N M T n iter (all := anti2 F M n iter) (pre := []) (by d2) (unco2_notin iter _ (by
    intro a ha
    simp only [anti2, List.map_cons, List.map_nil, List.mem_cons, List.not_mem_nil, or_false] at ha
    rcases ha with rfl | rfl
    · exact ⟨by simp [corr2], Or.inr ⟨_, rfl⟩⟩
    · exact ⟨by simp [corr2], Or.inr ⟨_, rfl⟩⟩))
  have h' := anti2_reads F N M T n iter (all := anti2 F M n iter) (pre := [] ++ [(anti2 F M n iter).head (by simp [anti2])]) (by d2)
    (unco2_notin iter _ (by
    intro a ha
    simp only [anti2, List.map_cons, List.map_nil, List.mem_cons, List.not_mem_nil, or_false] at ha
    rcases ha with rfl | rfl
    · exact ⟨by simp [corr2], Or.inr ⟨_, rfl⟩⟩
    · exact ⟨by simp [corr2], Or.inr ⟨_, rfl⟩⟩))
  exact ⟨h _ (by simp [anti2]), h' _ (by simp [anti2]), trivial⟩

/-- antidiffusive velocities and fluxes in one phase (no barrier between them) -/
theorem anti_flux2_good : Good N T (anti2 F M n iter ++ flux2 F M n (corr2 iter) iter) [] (anti2 F M n iter ++ flux2 F M n (corr2 iter) iter) := by
  have hu : ∀ d, unco2 iter d ∉ (anti2 F M n iter ++ flux2 F M n (corr2 iter) iter).map S.dst := unco2_notin iter _ (by
    intro a ha
    simp only [anti2, flux2, List.cons_append, List.nil_append, List.map_cons, List.map_nil, List.mem_cons, List.not_mem_nil, or_false] at ha
    rcases ha with rfl | rfl | rfl | rfl
    · exact ⟨by simp [corr2], Or.inr ⟨_, rfl⟩⟩
    · exact ⟨by simp [corr2], Or.inr ⟨_, rfl⟩⟩
    · exact ⟨by simp, Or.inl (by simp)⟩
    · exact ⟨by simp, Or.inl (by simp)⟩)
  have ha : ∀ pre, ∀ s ∈ anti2 F M n iter, ReadsOk N T (anti2 F M n iter ++ flux2 F M n (corr2 iter) iter) pre s := fun pre =>
    anti2_reads F N M T n iter (by d2) hu
  have hf := flux2_reads F N M T n (all := anti2 F M n iter ++ flux2 F M n (corr2 iter) iter) (pre := anti2 F M n iter) (corr2 iter) iter (by d2)
    (Or.inr ⟨_, List.mem_cons_self, _, List.mem_cons_of_mem _ List.mem_cons_self, rfl, rfl, rfl, rfl, rfl, rfl⟩)
  refine ⟨ha _ _ (by simp [anti2]), ha _ _ (by simp [anti2]), hf _ ?_ _ (by simp [flux2]), hf _ ?_ _ (by simp [flux2]), trivial⟩
  · simp [anti2]
  · simp [anti2]

theorem flux2_good (g : Bool → A2) (h : ∀ d, g d ≠ .flux false ∧ g d ≠ .flux true) (k : Nat) :
    Good N T (flux2 F M n g k) [] (flux2 F M n g k) := by
  have hf := flux2_reads F N M T n (all := flux2 F M n g k) (pre := []) g k (by d2) (Or.inl (by
    intro d; simp only [flux2, List.map_cons, List.map_nil, List.mem_cons, List.not_mem_nil, or_false, not_or]; exact h d))
  exact ⟨hf _ (by simp) _ (by simp [flux2]), hf _ (by simp) _ (by simp [flux2]), trivial⟩

theorem init_flux2_good : Good N T (fctInit2 F o M n ++ flux2 F M n .gc 0) [] (fctInit2 F o M n ++ flux2 F M n .gc 0) := by
  unfold fctInit2
  split_ifs with h
  · have hf := flux2_reads F N M T n (all := [⟨.pmin, .ext 1 1, rows (-1) M, fun _ _ a' _ _ => a' = .psi n, F.pmin⟩,
      ⟨.pmax, .ext 1 1, rows (-1) M, fun _ _ a' _ _ => a' = .psi n, F.pmax⟩] ++ flux2 F M n .gc 0) (pre := []) .gc 0 (by d2) (Or.inl (by d2))
    refine ⟨?_, ?_, hf _ (by simp) _ (by simp [flux2]), hf _ (by simp) _ (by simp [flux2]), trivial⟩
    · intro t x hx y hy a' x' y' hr
      obtain rfl : a' = A2.psi n := hr
      exact Or.inr (free_of (by d2) _ _)
    · intro t x hx y hy a' x' y' hr
      obtain rfl : a' = A2.psi n := hr
      exact Or.inr (free_of (by d2) _ _)
  · exact flux2_good F N M T n _ (by simp) _

/-- `iga` with FCT: betas read the (exchanged) velocities, the limiter reads betas of the same thread -/
theorem iga_fct2_good : Good N T (betas2 F M n (corr2 iter) iter ++ mono2 F M n iter) [] (betas2 F M n (corr2 iter) iter ++ mono2 F M n iter) := by
  refine ⟨?_, ?_, ?_, ?_, trivial⟩
  · intro t x hx y hy a' x' y' hr
    refine Or.inr (free_of ?_ _ _)
    rcases hr with rfl | rfl | ⟨rfl, -⟩ | ⟨rfl, -⟩ <;> d2
  · intro t x hx y hy a' x' y' hr
    refine Or.inr (free_of ?_ _ _)
    rcases hr with rfl | rfl | ⟨rfl, -⟩ | ⟨rfl, -⟩ <;> d2
  · intro t x hx y hy a' x' y' hr
    rcases hr with rfl | ⟨d, rfl⟩ | ⟨ha, hx', rfl⟩
    · exact Or.inr (free_of (by d2) _ _)
    · exact Or.inr (free_of (by d2) _ _)
    · left
      have hr : (Dom.rng (.ext 1 1) N T t).Mem x' := by
        simp only [Dom.rng, Rng.Mem] at hx ⊢
        split_ifs at hx <;> omega
      have hy' : y' ∈ rows (-1) (M : Int) := by rw [mem_rows] at hy ⊢; omega
      rcases ha with rfl | rfl
      · exact ⟨_, by simp only [betas2, List.nil_append, List.cons_append]; exact List.mem_cons_self, rfl, hr, hy'⟩
      · exact ⟨_, by simp only [betas2, List.nil_append, List.cons_append]; exact List.mem_cons_of_mem _ List.mem_cons_self, rfl, hr, hy'⟩
  · intro t x hx y hy a' x' y' hr
    rcases hr with rfl | ⟨d, rfl⟩ | ⟨ha, rfl, hy'⟩
    · exact Or.inr (free_of (by d2) _ _)
    · exact Or.inr (free_of (by d2) _ _)
    · left
      have hr : (Dom.rng (.ext 1 1) N T t).Mem x' := by
        simp only [Dom.rng, Rng.Mem] at hx ⊢
        omega
      have hy' : y' ∈ rows (-1) (M : Int) := by rw [mem_rows] at hy ⊢; omega
      rcases ha with rfl | rfl
      · exact ⟨_, by simp only [betas2, List.nil_append, List.cons_append]; exact List.mem_cons_self, rfl, hr, hy'⟩
      · exact ⟨_, by simp only [betas2, List.nil_append, List.cons_append]; exact List.mem_cons_of_mem _ List.mem_cons_self, rfl, hr, hy'⟩

theorem iter2_good (hN : 0 < N) (hM : 0 < M) (hno : o.fct = false ∨ o.iga = true) : ∀ ss ∈ iter2 F o N M n iter, Good N T ss [] ss ∨ OwnPhase N ss := by
  intro ss h
  have hne : corr2 iter false ≠ corr2 iter true := by simp [corr2]
  unfold iter2 at h
  rw [List.mem_append] at h
  rcases h with h | h
  · exact Or.inr <| xchng2_own F o N M _ ss h
  split_ifs at h with hf hi hl hd hi' <;>
    simp only [List.mem_append, List.mem_cons, List.not_mem_nil, or_false, false_or] at h
  · rcases h with (((rfl | h) | h) | (rfl | h) | rfl)
    · exact Or.inl <| anti2_good F N M T n iter
    · exact Or.inr <| alng2_own F o N M hN hM _ hne ss h
    · exact nrml2_ok F o N M T _ hne ss h
    · exact Or.inl <| iga_fct2_good F N M T n iter
    · exact Or.inr <| xflux2_own F N M hM _ ss h
    · exact Or.inl <| donor2_good F N M T n _ (by simp) _
  · rcases hno with h0 | h0 <;> simp_all
  all_goals first
    | (rcases h with ((rfl | h) | h) | h | rfl <;> first
        | exact Or.inl <| anti2_good F N M T n iter | exact Or.inr <| alng2_own F o N M hN hM _ hne ss h | exact nrml2_ok F o N M T _ hne ss h
        | exact Or.inr <| xflux2_own F N M hM _ ss h | exact Or.inl <| donor2_good F N M T n _ (by simp [corr2]) _
        | exact Or.inl <| flux2_good F N M T n _ (by simp [corr2]) _)
    | (rcases h with (((rfl | h) | h) | rfl) | h | rfl <;> first
        | exact Or.inl <| anti2_good F N M T n iter | exact Or.inr <| alng2_own F o N M hN hM _ hne ss h | exact nrml2_ok F o N M T _ hne ss h
        | exact Or.inr <| xflux2_own F N M hM _ ss h | exact Or.inl <| donor2_good F N M T n _ (by simp [corr2]) _
        | exact Or.inl <| flux2_good F N M T n _ (by simp [corr2]) _)
    | (rcases h with (rfl | h) | h | rfl <;> first
        | exact Or.inl <| anti2_good F N M T n iter | exact Or.inr <| alng2_own F o N M hN hM _ hne ss h | exact nrml2_ok F o N M T _ hne ss h
        | exact Or.inr <| xflux2_own F N M hM _ ss h | exact Or.inl <| donor2_good F N M T n _ (by simp [corr2]) _
        | exact Or.inl <| flux2_good F N M T n _ (by simp [corr2]) _)
    | (rcases h with rfl | h | rfl <;> first
        | exact Or.inl <| anti2_good F N M T n iter
        | exact Or.inr <| xflux2_own F N M hM _ ss h | exact Or.inl <| donor2_good F N M T n _ (by simp [corr2]) _)
    | (rcases h with h | h | rfl
       · unfold joinIf at h
         split_ifs at h <;> simp only [List.mem_cons, List.not_mem_nil, or_false] at h
         · rcases h with rfl | rfl
           · exact Or.inl <| anti2_good F N M T n iter
           · exact Or.inl <| flux2_good F N M T n _ (by simp [corr2]) _
         · subst h; exact Or.inl <| anti_flux2_good F N M T n iter
       · exact Or.inr <| xflux2_own F N M hM _ ss h
       · exact Or.inl <| donor2_good F N M T n _ (by simp [corr2]) _)

end twoD
end Threads
end Mpdata
