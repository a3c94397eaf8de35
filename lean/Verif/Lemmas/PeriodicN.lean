import Verif.Spec.PeriodicN
import Mathlib.Algebra.BigOperators.Group.Finset.Piecewise
import Mathlib.Algebra.Order.BigOperators.Group.Finset
/-! # Sums of periodic fields are invariant under shifts -/
namespace Mpdata
variable {n : Nat} {V : Type}

theorem stepIdx_add (x : Fin n → Int) (d : Fin n) (a b : Int) : stepIdx (stepIdx x d a) d b = stepIdx x d (a + b) := by
  funext e; unfold stepIdx; split_ifs <;> omega

theorem stepIdx_zero (x : Fin n → Int) (d : Fin n) : stepIdx x d 0 = x := by
  funext e; unfold stepIdx; split_ifs <;> omega

theorem stepIdx_comm (x : Fin n → Int) (d e : Fin n) (a b : Int) : stepIdx (stepIdx x d a) e b = stepIdx (stepIdx x e b) d a := by
  funext i; unfold stepIdx; split_ifs <;> omega

theorem PeriodicN.mul {P : Fin n → Nat} {f : (Fin n → Int) → V} (h : PeriodicN P f) (x : Fin n → Int) (d : Fin n) (m : Int) : f (stepIdx x d (m * P d)) = f x := by
  have hnat : ∀ (m : Nat) (x : Fin n → Int), f (stepIdx x d ((m : Int) * P d)) = f x := by
    intro m
    induction m with
    | zero => intro x; simp [stepIdx_zero]
    | succ m ih =>
      intro x
      have e : ((m + 1 : Nat) : Int) * P d = (m : Int) * P d + P d := by push_cast; ring
      rw [e, ← stepIdx_add, h, ih]
  rcases Int.eq_nat_or_neg m with ⟨k, rfl | rfl⟩
  · exact hnat k x
  · have := hnat k (stepIdx x d (-(k : Int) * P d))
    rw [stepIdx_add] at this
    have e : -(k : Int) * P d + k * P d = 0 := by ring
    rw [e, stepIdx_zero] at this
    exact this.symm

theorem mem_period {P : Fin n → Nat} {x : Fin n → Int} : x ∈ period P ↔ ∀ d, 0 ≤ x d ∧ x d < P d := by
  simp [period, Fintype.mem_piFinset, Finset.mem_Ico]

/-- wrap coordinate `d` into the period -/
def wrapIdx (P : Fin n → Nat) (d : Fin n) (x : Fin n → Int) : Fin n → Int := fun e => if e = d then x e % (P e : Int) else x e

theorem wrap_eq (P : Fin n → Nat) (d : Fin n) (x : Fin n → Int) : wrapIdx P d x = stepIdx x d (-(x d / (P d : Int)) * P d) := by
  funext e
  unfold wrapIdx stepIdx
  split_ifs with h
  · subst h
    have := Int.emod_add_mul_ediv (x e) (P e)
    rw [neg_mul, mul_comm]; omega
  · rfl

/-- the sum of a periodic field over a period does not change when the field is shifted -/
theorem sum_shift [AddCommMonoid V] {P : Fin n → Nat} (hP : ∀ d, 1 ≤ P d) {f : (Fin n → Int) → V} (h : PeriodicN P f) (d : Fin n) (k : Int) :
    ∑ x ∈ period P, f (stepIdx x d k) = ∑ x ∈ period P, f x := by
  have hpos : (0 : Int) < P d := by have := hP d; omega
  refine Finset.sum_bij' (fun x _ => wrapIdx P d (stepIdx x d k)) (fun x _ => wrapIdx P d (stepIdx x d (-k))) ?_ ?_ ?_ ?_ ?_
  · intro x hx
    rw [mem_period] at hx ⊢
    intro e
    unfold wrapIdx stepIdx
    split_ifs with he
    · subst he; exact ⟨Int.emod_nonneg _ (by omega), Int.emod_lt_of_pos _ hpos⟩
    · exact hx e
  · intro x hx
    rw [mem_period] at hx ⊢
    intro e
    unfold wrapIdx stepIdx
    split_ifs with he
    · subst he; exact ⟨Int.emod_nonneg _ (by omega), Int.emod_lt_of_pos _ hpos⟩
    · exact hx e
  · intro x hx
    rw [mem_period] at hx
    funext e
    unfold wrapIdx stepIdx
    split_ifs with he
    · subst he
      have : ((x e + k) % (P e : Int) + -k) % (P e : Int) = x e % (P e : Int) := by
        rw [Int.emod_add_emod]; congr 1; omega
      simp only [if_true]
      rw [this]; exact Int.emod_eq_of_lt (hx e).1 (hx e).2
    · simp only [if_neg he]
  · intro x hx
    rw [mem_period] at hx
    funext e
    unfold wrapIdx stepIdx
    split_ifs with he
    · subst he
      have : ((x e + -k) % (P e : Int) + k) % (P e : Int) = x e % (P e : Int) := by
        rw [Int.emod_add_emod]; congr 1; omega
      simp only [if_true]
      rw [this]; exact Int.emod_eq_of_lt (hx e).1 (hx e).2
    · simp only [if_neg he]
  · intro x _
    rw [wrap_eq, h.mul]

theorem PeriodicN.shift {P : Fin n → Nat} {f : (Fin n → Int) → V} (h : PeriodicN P f) (d : Fin n) (k : Int) : PeriodicN P (fun x => f (stepIdx x d k)) := by
  intro x e; show f _ = f _; rw [stepIdx_comm, h]

theorem PeriodicN.map2 {W U : Type} {P : Fin n → Nat} {f : (Fin n → Int) → V} {g : (Fin n → Int) → W} (op : V → W → U) (hf : PeriodicN P f) (hg : PeriodicN P g) :
    PeriodicN P (fun x => op (f x) (g x)) := by
  intro x e; show op _ _ = op _ _; rw [hf, hg]

theorem PeriodicN.map {U : Type} {P : Fin n → Nat} {f : (Fin n → Int) → V} (op : V → U) (hf : PeriodicN P f) : PeriodicN P (fun x => op (f x)) := by
  intro x e; show op _ = op _; rw [hf]

end Mpdata
