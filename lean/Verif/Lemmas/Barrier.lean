import Verif.Model.Barrier
import Mathlib.Data.Fintype.Card
/-! Inductive invariant of the barrier. -/
namespace Mpdata.Barrier

/-- waiting in the current generation -/
def cur {n} (s : State n) (t : Fin n) : Prop := (s.th t).entered = s.generation + 1

instance {n} (s : State n) : DecidablePred (cur s) := fun t => by unfold cur; infer_instance

structure Inv {n} (s : State n) : Prop where
  thr : s.threshold = n
  npos : n < 2 ^ 64
  cnt : s.count + (Finset.univ.filter (cur s)).card = n
  cpos : 0 < n → 1 ≤ s.count
  shape : ∀ t, (∃ p, s.th t = ⟨p, s.generation, s.generation⟩ ∧ p = .out) ∨
      (∃ b, s.th t = ⟨.wait s.generation b, s.generation + 1, s.generation⟩) ∨
      (1 ≤ s.generation ∧ s.th t = ⟨.wait (s.generation - 1) true, s.generation, s.generation - 1⟩)

theorem inv_init (n : Nat) (hn : n < 2 ^ 64) : Inv (init n n) := by
  refine ⟨rfl, hn, ?_, ?_, ?_⟩
  · have : (Finset.univ.filter (cur (init n n))) = ∅ := by
      ext u
      simp only [Finset.mem_filter, Finset.mem_univ, true_and, Finset.notMem_empty, iff_false]
      unfold cur init; simp
    rw [this]; simp [init]
  · intro h; simp [init]; omega
  · intro t; left; exact ⟨.out, rfl, rfl⟩

theorem not_cur_of_entered {n} {s : State n} {t} (h : (s.th t).entered = s.generation) : ¬ cur s t := by
  unfold cur; omega

theorem step_entered_mono {n} {s s' : State n} {op : Op n} (h : step s op = some s') (t : Fin n) :
    (s.th t).entered ≤ (s'.th t).entered := by
  have nt : ∀ f : Fin n → Thr, (notifyAll f t).entered = (f t).entered := by
    intro f; unfold notifyAll; split <;> rfl
  cases op with
  | enter u =>
    simp only [step] at h
    split at h
    · cases h
    · split at h
      · cases h; simp only [nt, setThr]; split <;> simp_all
      · split at h <;> (cases h; simp only [setThr]; split <;> simp_all)
  | spurious u =>
    simp only [step] at h
    split at h
    · cases h; simp only [setThr]; split <;> simp_all
    · cases h
  | check u =>
    simp only [step] at h
    split at h
    · split at h <;> (cases h; simp only [setThr]; split <;> simp_all)
    · cases h

theorem inv_step {n} {s s' : State n} {op : Op n} (hI : Inv s) (h : step s op = some s')
    (hb : ∀ t, (s'.th t).entered ≤ 2 ^ 32) : Inv s' := by
  obtain ⟨hthr, hnp, hcnt, hcp, hsh⟩ := hI
  cases op with
  | enter t =>
    have npos : 0 < n := Fin.pos t
    simp only [step] at h
    split at h
    · cases h
    · rename_i hpc
      have ht : s.th t = ⟨.out, s.generation, s.generation⟩ := by
        rcases hsh t with ⟨p, h1, h2⟩ | ⟨b, h1⟩ | ⟨_, h1⟩
        · rw [h1, h2]
        · simp [h1] at hpc
        · simp [h1] at hpc
      have hgen : s.generation < 2 ^ 32 := by
        have := hb t
        have e : (s'.th t).entered = s.generation + 1 := by
          split at h
          · cases h; simp [notifyAll, setThr, ht]
          · split at h <;> (cases h; simp [setThr, ht])
        omega
      have hcle : s.count ≤ n := by omega
      have hc1 := hcp npos
      have hdec : (s.count + (2 ^ 64 - 1)) % 2 ^ 64 = s.count - 1 := by
        have : s.count + (2 ^ 64 - 1) = (s.count - 1) + 2 ^ 64 := by omega
        rw [this, Nat.add_mod_right, Nat.mod_eq_of_lt (by omega)]
      have htnc : ¬ cur s t := not_cur_of_entered (by rw [ht])
      rw [hdec] at h
      have hg32 : s.generation % 2 ^ 32 = s.generation := Nat.mod_eq_of_lt hgen
      rw [hg32] at h
      split at h
      · -- last thread
        rename_i hz
        have hc : s.count = 1 := by omega
        have hall : ∀ u, u ≠ t → cur s u := by
          intro u hu
          by_contra hcon
          have hsub : (Finset.univ.filter (cur s)) ⊆ (Finset.univ.erase t).erase u := by
            intro v hv
            simp at hv
            simp
            constructor
            · rintro rfl; exact hcon hv
            · rintro rfl; exact htnc hv
          have := Finset.card_le_card hsub
          have hm : u ∈ Finset.univ.erase t := by simp [hu]
          rw [Finset.card_erase_of_mem hm, Finset.card_erase_of_mem (Finset.mem_univ t)] at this
          simp at this
          have : 2 ≤ n := by
            have := Fin.isLt t
            have h3 := Fin.isLt u
            have : t.val ≠ u.val := fun e => hu (Fin.ext e.symm)
            omega
          omega
        have hg64 : (s.generation + 1) % 2 ^ 64 = s.generation + 1 := Nat.mod_eq_of_lt (by omega)
        rw [hg64] at h
        cases h
        have shape' : ∀ u, notifyAll (setThr s.th t ⟨.out, (s.th t).entered + 1, (s.th t).left + 1⟩) u
            = if u = t then ⟨.out, s.generation + 1, s.generation + 1⟩
              else ⟨.wait s.generation true, s.generation + 1, s.generation⟩ := by
          intro u
          by_cases hu : u = t
          · simp [notifyAll, setThr, hu, ht]
          · have hcu := hall u hu
            have : ∃ b, s.th u = ⟨.wait s.generation b, s.generation + 1, s.generation⟩ := by
              rcases hsh u with ⟨p, h1, h2⟩ | h1 | ⟨_, h1⟩
              · unfold cur at hcu; rw [h1] at hcu; simp at hcu
              · exact h1
              · unfold cur at hcu; rw [h1] at hcu; simp at hcu
            obtain ⟨b, hb'⟩ := this
            simp [notifyAll, setThr, hu, hb']
        refine ⟨hthr, hnp, ?_, ?_, ?_⟩
        · have : (Finset.univ.filter (cur (n := n)
              { generation := s.generation + 1, count := s.threshold, threshold := s.threshold,
                th := notifyAll (setThr s.th t ⟨.out, (s.th t).entered + 1, (s.th t).left + 1⟩) })) = ∅ := by
            ext u
            simp only [Finset.mem_filter, Finset.mem_univ, true_and, Finset.notMem_empty, iff_false]
            unfold cur
            simp only [shape' u]
            split <;> simp
          simp only [this]; simp [hthr]
        · intro _; simp [hthr]; omega
        · intro u
          simp only [shape' u]
          by_cases hu : u = t
          · left; exact ⟨.out, by simp [hu], rfl⟩
          · right; right; simp [hu]
      · -- not last: waits
        rename_i hz
        simp only [if_true] at h
        cases h
        have hcur' : ∀ u, cur (n := n) (State.mk s.generation (s.count - 1) s.threshold
              (setThr s.th t ⟨.wait s.generation false, (s.th t).entered + 1, (s.th t).left⟩)) u
            ↔ (u = t ∨ cur s u) := by
          intro u
          unfold cur
          by_cases hu : u = t
          · simp [setThr, hu, ht]
          · simp [setThr, hu]
        refine ⟨hthr, hnp, ?_, ?_, ?_⟩
        · have : (Finset.univ.filter (cur (n := n) (State.mk s.generation (s.count - 1) s.threshold
              (setThr s.th t ⟨.wait s.generation false, (s.th t).entered + 1, (s.th t).left⟩))))
              = insert t (Finset.univ.filter (cur s)) := by
            ext u
            simp only [Finset.mem_filter, Finset.mem_univ, true_and, Finset.mem_insert]
            exact hcur' u
          rw [this, Finset.card_insert_of_notMem (by simp [htnc])]
          simp; omega
        · intro _; simp; omega
        · intro u
          by_cases hu : u = t
          · right; left; exact ⟨false, by simp [setThr, hu, ht]⟩
          · have := hsh u
            simpa [setThr, hu] using this
  | spurious t =>
    simp only [step] at h
    split at h
    · rename_i g hpc
      cases h
      have he : ∀ u, (setThr s.th t { s.th t with pc := .wait g true } u).entered = (s.th u).entered := by
        intro u; unfold setThr; split <;> simp_all
      refine ⟨hthr, hnp, ?_, hcp, ?_⟩
      · have : (Finset.univ.filter (cur (n := n) { s with th := setThr s.th t { s.th t with pc := .wait g true } }))
            = Finset.univ.filter (cur s) := by
          ext u; simp only [Finset.mem_filter, Finset.mem_univ, true_and]; unfold cur; simp only [he]
        simp only [this]; exact hcnt
      · intro u
        by_cases hu : u = t
        · subst hu
          right; left
          rcases hsh u with ⟨p, h1, h2⟩ | ⟨b, h1⟩ | ⟨_, h1⟩
          · rw [h1, h2] at hpc; simp at hpc
          · rw [h1] at hpc; simp at hpc
            exact ⟨true, by simp [setThr, h1, hpc]⟩
          · rw [h1] at hpc; simp at hpc
        · simpa [setThr, hu] using hsh u
    · cases h
  | check t =>
    simp only [step] at h
    split at h
    · rename_i g hpc
      split at h
      · rename_i hg
        cases h
        have he : ∀ u, (setThr s.th t { s.th t with pc := .wait g false } u).entered = (s.th u).entered := by
          intro u; unfold setThr; split <;> simp_all
        refine ⟨hthr, hnp, ?_, hcp, ?_⟩
        · have : (Finset.univ.filter (cur (n := n) { s with th := setThr s.th t { s.th t with pc := .wait g false } }))
              = Finset.univ.filter (cur s) := by
            ext u; simp only [Finset.mem_filter, Finset.mem_univ, true_and]; unfold cur; simp only [he]
          simp only [this]; exact hcnt
        · intro u
          by_cases hu : u = t
          · subst hu
            right; left
            rcases hsh u with ⟨p, h1, h2⟩ | ⟨b, h1⟩ | ⟨h0, h1⟩
            · rw [h1, h2] at hpc; simp at hpc
            · exact ⟨false, by simp [setThr, h1, hg]⟩
            · rw [h1] at hpc; simp at hpc; omega
          · simpa [setThr, hu] using hsh u
      · rename_i hg
        cases h
        have he : ∀ u, (setThr s.th t { s.th t with pc := .out, left := (s.th t).left + 1 } u).entered
            = (s.th u).entered := by
          intro u; unfold setThr; split <;> simp_all
        refine ⟨hthr, hnp, ?_, hcp, ?_⟩
        · have : (Finset.univ.filter (cur (n := n)
              { s with th := setThr s.th t { s.th t with pc := .out, left := (s.th t).left + 1 } }))
              = Finset.univ.filter (cur s) := by
            ext u; simp only [Finset.mem_filter, Finset.mem_univ, true_and]; unfold cur; simp only [he]
          simp only [this]; exact hcnt
        · intro u
          by_cases hu : u = t
          · subst hu
            left
            rcases hsh u with ⟨p, h1, h2⟩ | ⟨b, h1⟩ | ⟨h0, h1⟩
            · rw [h1, h2] at hpc; simp at hpc
            · rw [h1] at hpc; simp at hpc; omega
            · refine ⟨.out, ?_, rfl⟩
              simp [setThr, h1]; omega
          · simpa [setThr, hu] using hsh u
    · cases h

theorem run_entered_mono {n} {s s' : State n} {ops : List (Op n)} (h : run s ops = some s') (t : Fin n) :
    (s.th t).entered ≤ (s'.th t).entered := by
  induction ops generalizing s with
  | nil => simp [run] at h; rw [h]
  | cons op ops ih =>
    simp only [run] at h
    split at h
    · cases h
    · rename_i s1 h1
      exact le_trans (step_entered_mono h1 t) (ih h)

theorem inv_run {n} {s s' : State n} {ops : List (Op n)} (hI : Inv s) (h : run s ops = some s')
    (hb : ∀ t, (s'.th t).entered ≤ 2 ^ 32) : Inv s' := by
  induction ops generalizing s with
  | nil => simp [run] at h; rwa [← h]
  | cons op ops ih =>
    simp only [run] at h
    split at h
    · cases h
    · rename_i s1 h1
      exact ih (inv_step hI h1 (fun t => le_trans (run_entered_mono h t) (hb t))) h

theorem run_append {n} (s : State n) (a b : List (Op n)) :
    run s (a ++ b) = (run s a).bind (fun s' => run s' b) := by
  induction a generalizing s with
  | nil => simp [run]
  | cons op a ih =>
    simp only [run, List.cons_append]
    split <;> simp_all

end Mpdata.Barrier
