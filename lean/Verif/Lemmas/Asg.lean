import Verif.Model.Bcond
import Verif.Lemmas.Advop1
/-! # Range assignments as conditionals on plain inequalities -/
namespace Mpdata
variable {K : Type} [Field K] [LinearOrder K]

theorem asg2_ite (ri rj : Rng) (e a : Int → Int → K) (i j : Int) :
    asg2 ri rj e a i j = if (ri.first ≤ i ∧ i ≤ ri.last) ∧ (rj.first ≤ j ∧ j ≤ rj.last) then e i j else a i j := by
  unfold asg2
  by_cases h : (ri.first ≤ i ∧ i ≤ ri.last) ∧ (rj.first ≤ j ∧ j ≤ rj.last)
  · rw [if_pos h, if_pos]; exact h
  · rw [if_neg h, if_neg]; exact h

theorem asg3_ite (ri rj rk : Rng) (e a : Int → Int → Int → K) (i j k : Int) :
    asg3 ri rj rk e a i j k
      = if (ri.first ≤ i ∧ i ≤ ri.last) ∧ (rj.first ≤ j ∧ j ≤ rj.last) ∧ (rk.first ≤ k ∧ k ≤ rk.last) then e i j k else a i j k := by
  unfold asg3
  by_cases h : (ri.first ≤ i ∧ i ≤ ri.last) ∧ (rj.first ≤ j ∧ j ≤ rj.last) ∧ (rk.first ≤ k ∧ k ≤ rk.last)
  · rw [if_pos h, if_pos]; exact h
  · rw [if_neg h, if_neg]; exact h

theorem asg2_in {ri rj : Rng} {e a : Int → Int → K} {i j : Int} (h : ri.Mem i ∧ rj.Mem j) : asg2 ri rj e a i j = e i j := by
  unfold asg2; rw [if_pos h]

theorem asg2_out {ri rj : Rng} {e a : Int → Int → K} {i j : Int} (h : ¬ (ri.Mem i ∧ rj.Mem j)) : asg2 ri rj e a i j = a i j := by
  unfold asg2; rw [if_neg h]

theorem asg2_outi {ri rj : Rng} {e a : Int → Int → K} {i j : Int} (h : ¬ ri.Mem i) : asg2 ri rj e a i j = a i j :=
  asg2_out (fun h' => h h'.1)

theorem asg3_in {ri rj rk : Rng} {e a : Int → Int → Int → K} {i j k : Int} (h : ri.Mem i ∧ rj.Mem j ∧ rk.Mem k) :
    asg3 ri rj rk e a i j k = e i j k := by
  unfold asg3; rw [if_pos h]

theorem asg3_out {ri rj rk : Rng} {e a : Int → Int → Int → K} {i j k : Int} (h : ¬ (ri.Mem i ∧ rj.Mem j ∧ rk.Mem k)) :
    asg3 ri rj rk e a i j k = a i j k := by
  unfold asg3; rw [if_neg h]

theorem asg3_outi {ri rj rk : Rng} {e a : Int → Int → Int → K} {i j k : Int} (h : ¬ ri.Mem i) :
    asg3 ri rj rk e a i j k = a i j k := asg3_out (fun h' => h h'.1)

theorem mem_iff (f l i : Int) : (Rng.mk f l).Mem i ↔ f ≤ i ∧ i ≤ l := Iff.rfl

end Mpdata
