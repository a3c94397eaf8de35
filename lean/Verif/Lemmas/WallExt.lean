import Verif.Lemmas.Trap
/-! # Every field on a box with walls on all sides has a continuation to the unbounded grid -/
set_option linter.unusedSectionVars false
namespace Mpdata
variable {n : Nat} {K : Type} [Field K] [LinearOrder K]

/-- position in the box of a point of the unbounded grid -/
def foldW (P k : Int) : Int := if k % (2 * P) ≤ P then k % (2 * P) else 2 * P - k % (2 * P)
/-- position in the box of a face of the unbounded grid -/
def foldF (P k : Int) : Int := if k % (2 * P) < P then k % (2 * P) else 2 * P - 1 - k % (2 * P)
def sgnF (P k : Int) : K := if k % (2 * P) < P then 1 else -1

theorem emod_neg_cases {a b : Int} (hb : 0 < b) : (a % b = 0 ∧ (-a) % b = 0) ∨ (a % b ≠ 0 ∧ (-a) % b = b - a % b) := by
  by_cases h : a % b = 0
  · exact Or.inl ⟨h, by rw [Int.emod_eq_zero_of_dvd]; exact (Int.dvd_neg).2 (Int.dvd_of_emod_eq_zero h)⟩
  · right
    refine ⟨h, ?_⟩
    have h1 := Int.emod_nonneg a hb.ne'
    have h2 := Int.emod_lt_of_pos a hb
    have h3 := Int.emod_add_mul_ediv a b
    have : -a = (b - a % b) + b * (-(a / b) - 1) := by linarith
    rw [this, Int.add_mul_emod_self_left, Int.emod_eq_of_lt (by omega) (by omega)]

theorem emod_flip {a b : Int} (hb : 0 < b) : (-1 - a) % b = b - 1 - a % b := by
  have h1 := Int.emod_nonneg a hb.ne'
  have h2 := Int.emod_lt_of_pos a hb
  have h3 := Int.emod_add_mul_ediv a b
  have : -1 - a = (b - 1 - a % b) + b * (-(a / b) - 1) := by linarith
  rw [this, Int.add_mul_emod_self_left, Int.emod_eq_of_lt (by omega) (by omega)]

section
variable {P : Int} (hP : 1 ≤ P) (k : Int)
include hP
theorem foldW_per : foldW P (k + 2 * P) = foldW P k := by unfold foldW; rw [Int.add_emod_right]
theorem foldF_per : foldF P (k + 2 * P) = foldF P k := by unfold foldF; rw [Int.add_emod_right]
theorem sgnF_per : (sgnF P (k + 2 * P) : K) = sgnF P k := by unfold sgnF; rw [Int.add_emod_right]
theorem foldW_neg : foldW P (-k) = foldW P k := by
  unfold foldW
  have h2 := Int.emod_lt_of_pos k (show 0 < 2 * P by omega)
  have h3 := Int.emod_nonneg k (show 2 * P ≠ 0 by omega)
  rcases emod_neg_cases (a := k) (show 0 < 2 * P by omega) with ⟨h, h'⟩ | ⟨h, h'⟩
  · rw [h, h']
  · rw [h']; split_ifs <;> omega
theorem foldF_flip : foldF P (-1 - k) = foldF P k := by
  unfold foldF
  have h2 := Int.emod_lt_of_pos k (show 0 < 2 * P by omega)
  have h3 := Int.emod_nonneg k (show 2 * P ≠ 0 by omega)
  rw [emod_flip (show 0 < 2 * P by omega)]
  split_ifs <;> omega
theorem sgnF_flip : (sgnF P (-1 - k) : K) = -sgnF P k := by
  unfold sgnF
  have h2 := Int.emod_lt_of_pos k (show 0 < 2 * P by omega)
  have h3 := Int.emod_nonneg k (show 2 * P ≠ 0 by omega)
  rw [emod_flip (show 0 < 2 * P by omega)]
  split_ifs <;> first | omega | simp
theorem foldW_id (h0 : 0 ≤ k) (h1 : k ≤ P) : foldW P k = k := by
  unfold foldW; rw [Int.emod_eq_of_lt h0 (by omega), if_pos h1]
theorem foldF_id (h0 : 0 ≤ k) (h1 : k < P) : foldF P k = k := by
  unfold foldF; rw [Int.emod_eq_of_lt h0 (by omega), if_pos h1]
theorem sgnF_id (h0 : 0 ≤ k) (h1 : k < P) : (sgnF P k : K) = 1 := by
  unfold sgnF; rw [Int.emod_eq_of_lt h0 (by omega), if_pos h1]
end

/-- the continuation of a scalar field -/
def extS (P : Fin n → Nat) (a : Sca n K) : Sca n K := fun x => a (fun e => foldW (P e) (x e))
/-- the continuation of a vector field -/
def extV (P : Fin n → Nat) (A : Vec n K) : Vec n K := fun d x => sgnF (P d) (x d) * A d (fun e => if e = d then foldF (P e) (x e) else foldW (P e) (x e))

theorem extS_cont {P : Fin n → Nat} (hP : ∀ d, 1 ≤ P d) (a : Sca n K) : ContS (fun _ => true) P (extS P a) := by
  have hP' : ∀ d, (1 : Int) ≤ P d := fun d => by exact_mod_cast hP d
  refine ⟨fun _ _ h => by simp at h, fun x d _ => ?_, fun x d _ => ?_⟩ <;> unfold extS <;> congr 1 <;> funext e
  · by_cases he : e = d
    · subst he; rw [stepIdx_self, foldW_per (hP' e)]
    · rw [stepIdx_other _ he]
  · by_cases he : e = d
    · subst he; rw [mirC_self, foldW_neg (hP' e)]
    · rw [mirC_other he]

theorem extS_eq {P : Fin n → Nat} (hP : ∀ d, 1 ≤ P d) (a : Sca n K) (x : Idx n) (hx : InGrid P x) : a x = extS P a x := by
  unfold extS; congr 1; funext e
  rw [foldW_id (by exact_mod_cast hP e) _ (hx e).1 (hx e).2]

theorem extV_cont {P : Fin n → Nat} (hP : ∀ d, 1 ≤ P d) (A : Vec n K) : ContV (fun _ => true) P (extV P A) := by
  have hP' : ∀ d, (1 : Int) ≤ P d := fun d => by exact_mod_cast hP d
  refine ⟨fun _ _ _ h => by simp at h, fun c x d _ => ?_, fun x d _ => ?_, fun c x d hcd _ => ?_⟩
  · unfold extV
    have e1 : (sgnF (P c) (stepIdx x d (2 * P d) c) : K) = sgnF (P c) (x c) := by
      by_cases he : c = d
      · subst he; rw [stepIdx_self, sgnF_per (hP' c)]
      · rw [stepIdx_other _ he]
    rw [e1]; congr 2; funext e
    by_cases he : e = d
    · subst he; rw [stepIdx_self, foldW_per (hP' e), foldF_per (hP' e)]
    · rw [stepIdx_other _ he]
  · unfold extV
    rw [mirF_self, sgnF_flip (hP' d), neg_mul]; congr 3; funext e
    by_cases he : e = d
    · subst he; rw [mirF_self, foldF_flip (hP' e)]; simp
    · rw [mirF_other he, if_neg he]
  · unfold extV
    rw [mirC_other hcd]; congr 2; funext e
    by_cases he : e = d
    · subst he; rw [mirC_self, foldW_neg (hP' e), if_neg (Ne.symm hcd), if_neg (Ne.symm hcd)]
    · rw [mirC_other he]

theorem extV_eq {P : Fin n → Nat} (hP : ∀ d, 1 ≤ P d) (A : Vec n K) (d : Fin n) (x : Idx n) (hx : InFaces P d x) : A d x = extV P A d x := by
  have hP' : ∀ d, (1 : Int) ≤ P d := fun d => by exact_mod_cast hP d
  unfold extV
  rw [sgnF_id (hP' d) _ (hx.1 d).1 hx.2, one_mul]; congr 1; funext e
  split_ifs with he
  · subst he; rw [foldF_id (hP' e) _ (hx.1 e).1 hx.2]
  · rw [foldW_id (hP' e) _ (hx.1 e).1 (hx.1 e).2]

end Mpdata
