import Verif.Spec.Infer
import Verif.Proofs.Float
import Mathlib.Tactic.Common
import Mathlib.Tactic.Linarith
import Mathlib.Tactic.LinearCombination
import Mathlib.Tactic.Ring
import Mathlib.Tactic.NormNum
import Mathlib.Data.List.Sort

/-!
# Proofs about config inference: the comparisons with rounded products are exact
-/
namespace Verif.Infer
open Method Config Float

theorem cmp_core {n m A c P d M r x : Int} (hA : 10 * A = c * P + 2) (h5 : 2 ^ 54 ≤ 5 * A) (hx : x = n * A) (hM : M * d = m * P)
    (hr : 2 * |r * d - x| ≤ d) (hxd : x < 2 ^ 53 * d) (hd : 0 < d) (hd' : d ≤ 2 ^ 40) (hP : 2 ^ 53 ≤ P) (hn : 0 ≤ n) :
    r ≤ M ↔ c * n ≤ 10 * m := by
  have h10 : 10 * x = c * n * P + 2 * n := by rw [hx]; linear_combination n * hA
  have hr1 : 2 * (r * d) ≤ 2 * x + d := by have := le_abs_self (r * d - x); linarith
  have hr2 : 2 * x - d ≤ 2 * (r * d) := by have := neg_abs_le (r * d - x); linarith
  constructor
  · intro h
    by_contra hc
    push Not at hc
    have h1 : (10 * m + 1) * P ≤ c * n * P := mul_le_mul_of_nonneg_right (by omega) (by linarith)
    have h2 : r * d ≤ M * d := mul_le_mul_of_nonneg_right h (le_of_lt hd)
    rw [hM] at h2
    have h3 : (10 * m + 1) * P = 10 * (m * P) + P := by ring
    norm_num at hP hd'
    linarith
  · intro h
    have h1 : r * d < (M + 1) * d := by
      rw [add_mul, hM, one_mul]
      have h2 : c * n * P ≤ 10 * m * P := mul_le_mul_of_nonneg_right h (by linarith)
      have h3 : n * 2 ^ 54 ≤ n * (5 * A) := mul_le_mul_of_nonneg_left h5 hn
      have h4 : n * (5 * A) = 5 * x := by rw [hx]; ring
      norm_num at h3 hxd
      have h5 : 2 * n < 5 * d := by linarith
      have h6 : 10 * m * P = 10 * (m * P) := by ring
      linarith
    have := lt_of_mul_lt_mul_right h1 (le_of_lt hd)
    omega

theorem pow_split {E s : ℕ} (h : s ≤ E) (m : Int) : m * 2 ^ (E - s) * 2 ^ s = m * 2 ^ E := by
  rw [mul_assoc, ← pow_add, Nat.sub_add_cancel h]

/-- The comparison after rounding: `A / 2^E` is the double nearest to `c / 10`. -/
theorem round_cmp {n m : ℕ} {A c : Int} {E : ℕ} (hA : 10 * A = c * 2 ^ E + 2) (hA' : 2 ^ 54 ≤ 5 * A) (hA2 : A < 2 ^ 53) (hE : 53 ≤ E) (hE' : E ≤ 55)
    (hn : n < 2 ^ 40) : geMul m n ⟨A, -E⟩ = true ↔ c * n ≤ 10 * m := by
  obtain ⟨x, hx⟩ : ∃ x : Int, x = n * A := ⟨_, rfl⟩
  have hA0 : 0 ≤ A := by norm_num at hA'; omega
  have hx0 : 0 ≤ x := by rw [hx]; exact mul_nonneg (by omega) hA0
  have hxu : x < 2 ^ 93 := by
    have h1 : (n : Int) * A ≤ (2 ^ 40 - 1) * 2 ^ 53 := mul_le_mul (by omega) (le_of_lt hA2) hA0 (by norm_num)
    rw [hx]
    norm_num at h1 ⊢
    linarith
  have hb93 : bits x ≤ 93 := bits_le (by rw [abs_of_nonneg hx0]; exact hxu)
  have hlt := bits_lt x
  rw [abs_of_nonneg hx0] at hlt
  have hP : (2 : Int) ^ 53 ≤ 2 ^ E := pow_le_pow_right₀ (by norm_num) hE
  unfold geMul f64 roundTo
  simp only
  rw [← hx]
  have hu : max (-(E : Int) + bits x - (53 : ℕ)) (-1074) = (bits x : Int) - 53 - E := by omega
  rw [hu]
  by_cases hb : bits x ≤ 53
  · rw [if_pos (by omega : (bits x : Int) - 53 - E ≤ -(E : Int))]
    rw [if_pos (by right; simp only; omega)]
    simp only
    rw [if_neg (by omega), decide_eq_true_eq]
    have : (- -(E : Int)).toNat = E := by omega
    rw [this]
    have hx53 : x < 2 ^ 53 * 1 := by
      rw [mul_one]; exact lt_of_lt_of_le hlt (pow_le_pow_right₀ (by norm_num) hb)
    exact cmp_core (d := 1) hA hA' hx (by ring) (by simp) hx53 (by norm_num) (by norm_num) hP (by omega)
  · obtain ⟨s, hs⟩ : ∃ s, bits x = s + 53 := ⟨bits x - 53, by omega⟩
    rw [if_neg (by omega : ¬ (bits x : Int) - 53 - E ≤ -(E : Int))]
    have h1 : ((bits x : Int) - 53 - E - -(E : Int)).toNat = s := by omega
    rw [h1]
    have hrb : |rne x s| ≤ 2 ^ 53 := rne_bound (by rw [abs_of_nonneg hx0, add_comm, ← hs]; exact hlt)
    have hrb' : bits (rne x s) ≤ 54 := bits_le (lt_of_le_of_lt hrb (by norm_num))
    rw [if_pos (by right; simp only; omega)]
    simp only
    rw [if_neg (by omega), decide_eq_true_eq]
    have h2 : (-((bits x : Int) - 53 - E)).toNat = E - s := by omega
    rw [h2]
    refine cmp_core (d := 2 ^ s) hA hA' hx (pow_split (by omega) _) (rne_error x s) ?_ (by positivity) (pow_le_pow_right₀ (by norm_num) (by omega)) hP (by omega)
    rw [← pow_add, add_comm, ← hs]; exact hlt

theorem geMul_tenth {m n : ℕ} (hn : n < 2 ^ 40) : geMul m n tenth = true ↔ n ≤ 10 * m := by
  have := round_cmp (m := m) (n := n) (A := 3602879701896397) (c := 1) (E := 55) (by norm_num) (by norm_num) (by norm_num) (by norm_num) (by norm_num) hn
  unfold tenth
  rw [show (-55 : Int) = -((55 : ℕ) : Int) from rfl, this]
  omega

theorem geMul_nine {m n : ℕ} (hn : n < 2 ^ 40) : geMul m n nine = true ↔ 9 * n ≤ 10 * m := by
  have := round_cmp (m := m) (n := n) (A := 8106479329266893) (c := 9) (E := 53) (by norm_num) (by norm_num) (by norm_num) (by norm_num) (by norm_num) hn
  unfold nine
  rw [show (-53 : Int) = -((53 : ℕ) : Int) from rfl, this]
  omega

end Verif.Infer
