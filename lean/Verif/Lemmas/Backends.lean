import Verif.Spec.Backends
import Verif.Props.Decomp
/-! # Lemmas for C69 -/
namespace Mpdata
namespace Backend

/-- all subdomains of a solver with at least one of them make up the whole domain -/
theorem whole_range {o : Solver} (h : 0 < o.algos) : WholeDomain o (List.range o.algos) := by
  refine ⟨List.nodup_range, fun t ht => List.mem_range.1 ht, fun x h0 h1 => ?_⟩
  obtain ⟨r, ⟨⟨r0, r1⟩, hm⟩, hu⟩ := C01_slab_unique_owner ⟨0, (o.grid (splitDim o.nDims) : Int) - 1⟩ o.algos (by exact_mod_cast h)
    (by simp [Rng.length]) x ⟨h0, by simp only []; omega⟩
  refine ⟨r.toNat, ⟨List.mem_range.2 (by omega), ?_⟩, fun t ht => ?_⟩
  · have : ((r.toNat : Nat) : Int) = r := Int.toNat_of_nonneg r0
    simp only [Solver.range, this]; exact hm
  · have h := hu t ⟨⟨by omega, by have := List.mem_range.1 ht.1; exact_mod_cast this⟩, ht.2⟩
    omega

/-- an empty domain -/
theorem whole_empty {o : Solver} (h : o.algos = 0) (h0 : o.grid (splitDim o.nDims) = 0) : WholeDomain o (List.range o.algos) := by
  rw [h]
  exact ⟨by simp, by simp, fun x a b => by rw [h0] at b; simp at b; omega⟩

/-- what is known of a solver object made in the given environment -/
structure Made (e : Env) (o : Solver) : Prop where
  serial : o.kind = .serial → o.algos = 1 ∧ o.memSize = 1
  thr : o.kind ≠ .serial → o.kind ≠ .openmp → o.algos = min (e.asked e.hw) (o.grid (splitDim o.nDims))
  le : o.kind ≠ .serial → o.algos ≤ o.grid (splitDim o.nDims)
  low : o.nDims < 3 → o.memSize = o.algos

theorem step_made {e : Env} {s s' : Sys} {op : Op} (h : step e s op = some s') (hs : ∀ o ∈ s.objs, Made e o) : ∀ o ∈ s'.objs, Made e o := by
  cases op with
  | construct mf k nd g =>
    simp only [step] at h
    split at h
    · cases h
    · cases h
      intro o ho
      rcases List.mem_append.1 ho with ho | ho
      · exact hs o ho
      · rw [List.mem_singleton] at ho
        subst ho
        refine ⟨?_, ?_, ?_, ?_⟩
        · intro hk; simp only [] at hk; subst hk; cases mf <;> simp [sizeOf]
        · intro h1 h2; cases k <;> simp_all <;> cases mf <;> simp [sizeOf]
        · intro h1; cases k <;> simp_all <;> cases mf <;> simp [sizeOf]
        · intro hd
          have hd' : nd < 3 := hd
          cases k <;> cases mf <;> simp [sizeOf, splitDim, hd', Env.asked] <;> cases e.var <;> simp
  | advance i =>
    simp only [step] at h
    split at h
    · cases h
    · cases h; exact hs
  | setNumThreads n => cases h; exact hs

theorem run_made {e : Env} {s s' : Sys} {ops : List Op} (h : run e s ops = some s') (hs : ∀ o ∈ s.objs, Made e o) : ∀ o ∈ s'.objs, Made e o := by
  induction ops generalizing s with
  | nil => cases h; exact hs
  | cons op ops ih =>
    simp only [run, Option.bind_eq_some_iff] at h
    obtain ⟨s1, h1, h2⟩ := h
    exact ih h2 (step_made h1 hs)

theorem step_objs {e : Env} {s s' : Sys} {op : Op} (h : step e s op = some s') : ∃ l, s'.objs = s.objs ++ l := by
  cases op with
  | construct mf k nd g =>
    simp only [step] at h
    split at h
    · cases h
    · cases h; exact ⟨_, rfl⟩
  | advance i =>
    simp only [step] at h
    split at h
    · cases h
    · cases h; exact ⟨[], by simp⟩
  | setNumThreads n => cases h; exact ⟨[], by simp⟩

theorem run_objs {e : Env} {s s' : Sys} {ops : List Op} (h : run e s ops = some s') : ∃ l, s'.objs = s.objs ++ l := by
  induction ops generalizing s with
  | nil => cases h; exact ⟨[], by simp⟩
  | cons op ops ih =>
    simp only [run, Option.bind_eq_some_iff] at h
    obtain ⟨s1, h1, h2⟩ := h
    obtain ⟨l1, e1⟩ := step_objs h1
    obtain ⟨l2, e2⟩ := ih h2
    exact ⟨l1 ++ l2, by rw [e2, e1, List.append_assoc]⟩

theorem objs_keep {e : Env} {s s' : Sys} {ops : List Op} (h : run e s ops = some s') {i : Nat} {o : Solver} (ho : s.objs[i]? = some o) : s'.objs[i]? = some o := by
  obtain ⟨l, e1⟩ := run_objs h
  rw [e1, List.getElem?_append_left (List.getElem?_eq_some_iff.1 ho).1]; exact ho

/-- each entry of the log was made by the solver object it names, with the number of OpenMP threads of that moment, for which an invariant `P` of the objects and that number
is given -/
theorem run_log {e : Env} {P : Nat → Solver → Prop} {Q : Sys → Prop} {ok : Op → Prop}
    (hQ : ∀ s s' op, ok op → Q s → step e s op = some s' → Q s') (hP : ∀ (s : Sys) (i : Nat) (o : Solver), Q s → s.objs[i]? = some o → P s.icv o)
    {s s' : Sys} {ops : List Op} (hops : ∀ op ∈ ops, ok op) (h : run e s ops = some s') (hs : Q s)
    (hl : ∀ i l, (i, l) ∈ s.log → ∃ o c, s.objs[i]? = some o ∧ P c o ∧ l = launched c o) :
    ∀ i l, (i, l) ∈ s'.log → ∃ o c, s'.objs[i]? = some o ∧ P c o ∧ l = launched c o := by
  induction ops generalizing s with
  | nil => cases h; exact hl
  | cons op ops ih =>
    simp only [run, Option.bind_eq_some_iff] at h
    obtain ⟨s1, h1, h2⟩ := h
    refine ih (fun o ho => hops o (List.mem_cons_of_mem _ ho)) h2 (hQ _ _ _ (hops op List.mem_cons_self) hs h1) ?_
    intro i l hm
    have keep : ∀ i o, s.objs[i]? = some o → s1.objs[i]? = some o := fun i o ho =>
      objs_keep (e := e) (ops := [op]) (by simp [run, h1]) ho
    have old : (i, l) ∈ s.log → ∃ o c, s1.objs[i]? = some o ∧ P c o ∧ l = launched c o := fun hm => by
      obtain ⟨o, c, a, b, d⟩ := hl i l hm
      exact ⟨o, c, keep _ _ a, b, d⟩
    cases op with
    | construct mf k nd g =>
      simp only [step] at h1
      split at h1
      · cases h1
      · cases h1; exact old hm
    | advance j =>
      simp only [step] at h1
      split at h1
      · cases h1
      · rename_i o ho
        cases h1
        rcases List.mem_append.1 hm with hm | hm
        · exact old hm
        · rw [List.mem_singleton] at hm
          cases hm
          exact ⟨o, s.icv, ho, hP s _ o hs ho, rfl⟩
    | setNumThreads n => cases h1; exact old hm

end Backend
end Mpdata
