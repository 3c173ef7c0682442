import Verif.Model.Dropout
import Mathlib.Tactic.Linarith
import Mathlib.Tactic.FieldSimp
import Mathlib.Tactic.LinearCombination

/-!
# C49, C50, C69: binomial coefficients, mask probabilities, dropout
-/
namespace Verif.Dropout
open Finset

/-! ## Binomial coefficients -/

theorem int64_eq {x : Int} (h0 : 0 ≤ x) (h1 : x < 2 ^ 63) : int64 x = x := by
  unfold int64
  rw [Int.emod_eq_of_lt (by omega) (by omega)]
  omega

theorem choose_step (n i : ℕ) (h : i + 1 ≤ n) : n.choose i * (n - i) = n.choose (i + 1) * (i + 1) :=
  (Nat.choose_succ_right_eq n i).symm

theorem binomLoop_eq (n : ℕ) : ∀ k, k ≤ n → (∀ i ≤ k, n.choose i * i < 2 ^ 63) → binomLoop n k = n.choose k
  | 0, _, _ => by simp [binomLoop]
  | i + 1, hk, hb => by
    have ih := binomLoop_eq n i (by omega) fun j hj => hb j (by omega)
    have e : (n.choose i : Int) * (n - (i + 1) + 1) = (n.choose (i + 1) * (i + 1) : ℕ) := by
      rw [← choose_step n i hk]
      push_cast [Nat.cast_sub (show i ≤ n by omega)]
      ring
    have hb' := hb (i + 1) le_rfl
    rw [binomLoop, ih, e, int64_eq (Int.natCast_nonneg _) (by exact_mod_cast hb')]
    have d : ((n.choose (i + 1) * (i + 1) : ℕ) : Int) / ((i : Int) + 1) = n.choose (i + 1) := by
      push_cast
      exact Int.mul_ediv_cancel _ (by omega)
    rw [d, int64_eq (Int.natCast_nonneg _)]
    have : n.choose (i + 1) ≤ n.choose (i + 1) * (i + 1) := Nat.le_mul_of_pos_right _ (by omega)
    exact_mod_cast this.trans_lt hb'

/-- **C49.**  As long as no product of the loop overflows 64 bits, the helper computes `n` over `k`. -/
theorem C49_binomial (n k : ℕ) (hk : k ≤ n) (hb : ∀ i ≤ min k (n - k), n.choose i * i < 2 ^ 63) :
    binomCoeff n k = n.choose k := by
  unfold binomCoeff
  split_ifs with h
  · rw [binomLoop_eq n (n - k) (by omega) fun i hi => hb i (by omega), Nat.choose_symm hk]
  · exact binomLoop_eq n k hk fun i hi => hb i (by omega)

theorem no_overflow : ∀ n ∈ List.range 62, ∀ i ∈ List.range (n + 1), i ≤ n - i → n.choose i * i < 2 ^ 63 := by
  decide +kernel

/-- **C49.**  In particular the helper is exact for up to 61 models. -/
theorem C49_up_to_61 (n k : ℕ) (hn : n ≤ 61) (hk : k ≤ n) : binomCoeff n k = n.choose k :=
  C49_binomial n k hk fun i hi =>
    no_overflow n (List.mem_range.mpr (by omega)) i (List.mem_range.mpr (by omega)) (by omega)

example : binomCoeff 61 30 = 232714176627630544 := by decide +kernel

/-- **C49**: the bound is sharp, at 62 models the product overflows. -/
theorem C49_overflow : binomCoeff 62 31 ≠ (62 : ℕ).choose 31 := by decide +kernel

/-! ## Sums over sets -/

theorem popcount_zero : popcount 0 = 0 := by simp [popcount]

theorem popcount_even (i : ℕ) : popcount (2 * i) = popcount i := by
  unfold popcount
  rcases Nat.eq_zero_or_pos i with rfl | h
  · simp
  · rw [Nat.bit0_bits i (by omega)]
    simp

theorem popcount_odd (i : ℕ) : popcount (2 * i + 1) = popcount i + 1 := by
  unfold popcount
  rw [Nat.bit1_bits i]
  simp

/-- Sum over all sets of a function of their number of elements. -/
noncomputable def total (n : ℕ) (f : ℕ → ℝ) : ℝ := ∑ i ∈ range (2 ^ n), f (popcount i)

theorem sum_pairs (m : ℕ) (g : ℕ → ℝ) : ∑ i ∈ range (2 * m), g i = ∑ i ∈ range m, (g (2 * i) + g (2 * i + 1)) := by
  induction m with
  | zero => simp
  | succ m ih =>
    rw [show 2 * (m + 1) = 2 * m + 1 + 1 by ring, sum_range_succ, sum_range_succ, ih, sum_range_succ]
    ring

theorem total_succ (n : ℕ) (f : ℕ → ℝ) : total (n + 1) f = total n f + total n fun k => f (k + 1) := by
  unfold total
  rw [pow_succ', sum_pairs, sum_add_distrib]
  simp only [popcount_even, popcount_odd]

theorem total_zero (f : ℕ → ℝ) : total 0 f = f 0 := by simp [total, popcount_zero]

/-- Sum over the sets that contain element `j`. -/
noncomputable def totalWith (n j : ℕ) (f : ℕ → ℝ) : ℝ :=
  ∑ i ∈ range (2 ^ n), if i.testBit j then f (popcount i) else 0

theorem totalWith_eq : ∀ (n j : ℕ) (f : ℕ → ℝ), j < n + 1 → totalWith (n + 1) j f = total n fun k => f (k + 1)
  | n, 0, f, _ => by
    unfold totalWith total
    rw [pow_succ', sum_pairs]
    refine sum_congr rfl fun i _ => ?_
    simp [Nat.testBit_zero, popcount_odd]
  | 0, j + 1, f, h => by omega
  | n + 1, j + 1, f, h => by
    have e : totalWith (n + 1 + 1) (j + 1) f = totalWith (n + 1) j f + totalWith (n + 1) j fun k => f (k + 1) := by
      unfold totalWith
      rw [pow_succ', sum_pairs, ← sum_add_distrib]
      refine sum_congr rfl fun i _ => ?_
      have h1 : (2 * i).testBit (j + 1) = i.testBit j := by
        rw [Nat.testBit_succ]; congr 1; omega
      have h2 : (2 * i + 1).testBit (j + 1) = i.testBit j := by
        rw [Nat.testBit_succ]; congr 1; omega
      rw [h1, h2, popcount_even, popcount_odd]
    rw [e, totalWith_eq n j f (by omega), totalWith_eq n j _ (by omega), total_succ]

theorem popcount_eq_card : ∀ (n i : ℕ), i < 2 ^ n → ((range n).filter fun j => i.testBit j).card = popcount i
  | 0, i, h => by
    have : i = 0 := by simpa using h
    subst this; simp [popcount_zero]
  | n + 1, i, h => by
    have ih := popcount_eq_card n (i / 2) (by rw [pow_succ'] at h; omega)
    have hcard : ((range (n + 1)).filter fun j => i.testBit j).card =
        (if i.testBit 0 then 1 else 0) + ((range n).filter fun j => (i / 2).testBit j).card := by
      simp only [card_filter]
      rw [sum_range_succ']
      simp only [Nat.testBit_succ]
      rw [add_comm]
    rw [hcard, ih]
    rcases Nat.even_or_odd' i with ⟨m, rfl | rfl⟩
    · have : 2 * m / 2 = m := by omega
      rw [this, popcount_even]; simp [Nat.testBit_zero]
    · have : (2 * m + 1) / 2 = m := by omega
      rw [this, popcount_odd]; simp [Nat.testBit_zero]; omega

theorem list_sum_range (m : ℕ) (g : ℕ → ℝ) : ((List.range m).map g).sum = ∑ i ∈ range m, g i := by
  induction m with
  | zero => simp
  | succ m ih => rw [List.range_succ, List.map_append, List.sum_append, ih, sum_range_succ]; simp

theorem nonempty_sum (n : ℕ) (f : ℕ → ℝ) : (nonempty n f).sum = ∑ i ∈ range (2 ^ n), f i - f 0 := by
  unfold nonempty
  rw [list_sum_range]
  have : 2 ^ n = 2 ^ n - 1 + 1 := by have := Nat.two_pow_pos n; omega
  rw [this, sum_range_succ']
  simp

theorem nonempty_total (n : ℕ) (f : ℕ → ℝ) : (nonempty n fun i => f (popcount i)).sum = total n f - f 0 := by
  rw [nonempty_sum]; simp [total, popcount_zero]

theorem nonempty_congr {n : ℕ} {f g : ℕ → ℝ} (h : ∀ i, 0 < i → i < 2 ^ n → f i = g i) : nonempty n f = nonempty n g := by
  unfold nonempty
  refine List.map_congr_left fun j hj => h _ (by omega) ?_
  have := List.mem_range.mp hj
  omega

theorem nonempty_nonneg {n : ℕ} {f : ℕ → ℝ} (h : ∀ i, 0 < i → i < 2 ^ n → 0 ≤ f i) : 0 ≤ (nonempty n f).sum := by
  refine List.sum_nonneg fun x hx => ?_
  obtain ⟨j, hj, rfl⟩ := List.mem_map.mp hx
  have := List.mem_range.mp hj
  exact h _ (by omega) (by omega)

theorem nonempty_linear (n : ℕ) (f g : ℕ → ℝ) (x y : ℝ) :
    (nonempty n fun i => x * f i + y * g i).sum = x * (nonempty n f).sum + y * (nonempty n g).sum := by
  rw [nonempty_sum, nonempty_sum, nonempty_sum, sum_add_distrib, ← mul_sum, ← mul_sum]
  ring

theorem total_delta_zero : ∀ n, total n (fun k => if k = 0 then 1 else 0) = 1
  | 0 => by simp [total_zero]
  | n + 1 => by
    rw [total_succ, total_delta_zero n]
    simp [total]

theorem total_delta_one : ∀ n, total n (fun k => if k = 1 then 1 else 0) = n
  | 0 => by simp [total_zero]
  | n + 1 => by
    rw [total_succ, total_delta_one n]
    have := total_delta_zero n
    simp only [Nat.add_eq_right] at *
    rw [this]; push_cast; ring

theorem popcount_full : ∀ n, popcount (2 ^ n - 1) = n
  | 0 => by simp [popcount_zero]
  | n + 1 => by
    have : 2 ^ (n + 1) - 1 = 2 * (2 ^ n - 1) + 1 := by have := Nat.two_pow_pos n; rw [pow_succ']; omega
    rw [this, popcount_odd, popcount_full n]

theorem popcount_pos {i : ℕ} (h : 0 < i) : 0 < popcount i := by
  induction i using Nat.strong_induction_on with
  | _ i ih =>
    rcases Nat.even_or_odd' i with ⟨m, rfl | rfl⟩
    · rw [popcount_even]; exact ih m (by omega) (by omega)
    · rw [popcount_odd]; omega

theorem popcount_le {n i : ℕ} (h : i < 2 ^ n) : popcount i ≤ n := by
  rw [← popcount_eq_card n i h]
  exact (card_filter_le _ _).trans (by simp)

theorem popcount_lt {n : ℕ} : ∀ {i : ℕ}, i < 2 ^ n - 1 → popcount i < n := by
  induction n with
  | zero => intro i h; simp at h
  | succ n ih =>
    intro i h
    have e : 2 ^ (n + 1) = 2 * 2 ^ n := pow_succ' 2 n
    rcases Nat.even_or_odd' i with ⟨m, rfl | rfl⟩
    · rw [popcount_even]
      have := popcount_le (n := n) (i := m) (by omega)
      omega
    · rw [popcount_odd]
      have := ih (i := m) (by omega)
      omega

theorem full_iff {n i : ℕ} (h : i < 2 ^ n) : i = 2 ^ n - 1 ↔ popcount i = n := by
  constructor
  · rintro rfl; exact popcount_full n
  · intro hp
    by_contra hne
    have := popcount_lt (n := n) (i := i) (by omega)
    omega

/-! ## The distribution -/

variable {n : ℕ} {p overlap emphasis : ℝ}

/-- The first distribution depends on the number of elements only, sums to one and is not negative. -/
theorem basePmf_spec (hn : 1 ≤ n) (overlap : ℝ) : ∃ f : ℕ → ℝ,
    (∀ i, 0 < i → i < 2 ^ n → (basePmf n overlap).1 i = f (popcount i)) ∧
    (∀ k, 0 ≤ f k) ∧ (nonempty n (basePmf n overlap).1).sum = 1 := by
  have hn' : (n : ℝ) ≠ 0 := by positivity
  unfold basePmf
  split_ifs with h1 h2
  · refine ⟨fun k => 1 / n * (if k = 1 then 1 else 0), fun _ _ _ => rfl, fun k => by positivity, ?_⟩
    refine (nonempty_total n fun k => 1 / (n : ℝ) * (if k = 1 then 1 else 0)).trans ?_
    have := total_delta_one n
    unfold total at *
    rw [← mul_sum, this]
    field_simp
    simp
  · refine ⟨fun k => if k = n then 1 else 0, fun i _ hi => by simp only [full_iff hi], fun k => by positivity, ?_⟩
    rw [nonempty_sum]
    have h0 : ¬ (0 = 2 ^ n - 1) := by
      have : 2 ^ 1 ≤ 2 ^ n := Nat.pow_le_pow_right (by norm_num) hn
      omega
    have h1 : 2 ^ n - 1 ∈ range (2 ^ n) := by have := Nat.two_pow_pos n; simp
    simp only [if_neg h0, sub_zero]
    rw [sum_ite_eq' (range (2 ^ n)) (2 ^ n - 1)]
    rw [if_pos h1]
  · have hpos : 0 < (nonempty n (soft n (flipOverlap overlap))).sum := by
      have hne : nonempty n (soft n (flipOverlap overlap)) ≠ [] := by
        unfold nonempty
        have : 2 ^ 1 ≤ 2 ^ n := Nat.pow_le_pow_right (by norm_num) hn
        simp; omega
      refine List.sum_pos _ (fun x hx => ?_) hne
      obtain ⟨j, -, rfl⟩ := List.mem_map.mp hx
      exact Real.exp_pos _
    refine ⟨fun k => Real.exp (Real.tan (Real.pi * (flipOverlap overlap - 1 / 2)) * (k - n / 2)) /
      (nonempty n (soft n (flipOverlap overlap))).sum, fun _ _ _ => rfl, fun k => by positivity, ?_⟩
    have := nonempty_linear n (soft n (flipOverlap overlap)) (fun _ => 0) (nonempty n (soft n (flipOverlap overlap))).sum⁻¹ 0
    simp only [zero_mul, add_zero] at this
    simp only [div_eq_inv_mul]
    rw [this]
    exact inv_mul_cancel₀ hpos.ne'

theorem expanded_eq (hn : n ≤ 61) {i : ℕ} (hi : i < 2 ^ n) :
    expanded n p i = p ^ popcount i * (1 - p) ^ (n - popcount i) := by
  unfold expanded binomPmf
  rw [C49_up_to_61 n _ hn (popcount_le hi)]
  have : ((n.choose (popcount i) : Int) : ℝ) ≠ 0 := by
    have := Nat.choose_pos (popcount_le hi)
    exact_mod_cast this.ne'
  push_cast at *
  field_simp

theorem total_binom : ∀ n, total n (fun k => p ^ k * (1 - p) ^ (n - k)) = 1 := by
  have aux : ∀ n a, total n (fun k => p ^ (k + a) * (1 - p) ^ (n - k)) = p ^ a := by
    intro n
    induction n with
    | zero => intro a; simp [total_zero]
    | succ n ih =>
      intro a
      rw [total_succ]
      have h1 : total n (fun k => p ^ (k + a) * (1 - p) ^ (n + 1 - k)) = (1 - p) * p ^ a := by
        rw [← ih a]
        unfold total
        rw [mul_sum]
        refine sum_congr rfl fun i hi => ?_
        have := popcount_le (mem_range.mp hi)
        dsimp only
        rw [show n + 1 - popcount i = n - popcount i + 1 by omega, pow_succ]
        ring
      have h2 : total n (fun k => p ^ (k + 1 + a) * (1 - p) ^ (n + 1 - (k + 1))) = p ^ (a + 1) := by
        rw [← ih (a + 1)]
        unfold total
        refine sum_congr rfl fun i hi => ?_
        dsimp only
        rw [show n + 1 - (popcount i + 1) = n - popcount i by omega, show popcount i + 1 + a = popcount i + (a + 1) by omega]
      rw [h1, h2]; ring
  intro n
  simpa using aux n 0

theorem expanded_sum (hn : n ≤ 61) : (nonempty n (expanded n p)).sum = 1 - (1 - p) ^ n := by
  rw [nonempty_congr (g := fun i => (fun k => p ^ k * (1 - p) ^ (n - k)) (popcount i)) fun i _ hi => expanded_eq hn hi]
  refine (nonempty_total n fun k => p ^ k * (1 - p) ^ (n - k)).trans ?_
  rw [total_binom]
  simp

theorem expanded_sum_ne (hn : 1 ≤ n) (hn' : n ≤ 61) (h0 : 0 < p) (h1 : p ≤ 1) : (nonempty n (expanded n p)).sum ≠ 0 := by
  rw [expanded_sum hn']
  have : (1 - p) ^ n < 1 := pow_lt_one₀ (by linarith) (by linarith) (by omega)
  linarith

/-- The mixed distribution over the nonempty sets. -/
noncomputable def mixed (n : ℕ) (p overlap emphasis : ℝ) (i : ℕ) : ℝ :=
  wsum ((basePmf n overlap).1 i)
    (wsum ((basePmf n overlap).1 i) (expanded n p i / (nonempty n (expanded n p)).sum)
      (1 - |2 * (basePmf n overlap).2 - 1|)) emphasis

theorem mixed_linear (i : ℕ) : mixed n p overlap emphasis i =
    (1 - emphasis * (1 - |2 * (basePmf n overlap).2 - 1|)) * (basePmf n overlap).1 i +
    (emphasis * (1 - |2 * (basePmf n overlap).2 - 1|) / (nonempty n (expanded n p)).sum) * expanded n p i := by
  unfold mixed wsum
  ring

theorem mixed_sum (hn : 1 ≤ n) (hn' : n ≤ 61) (h0 : 0 < p) (h1 : p ≤ 1) :
    (nonempty n (mixed n p overlap emphasis)).sum = 1 := by
  have e : mixed n p overlap emphasis = fun i => (1 - emphasis * (1 - |2 * (basePmf n overlap).2 - 1|)) * (basePmf n overlap).1 i +
      (emphasis * (1 - |2 * (basePmf n overlap).2 - 1|) / (nonempty n (expanded n p)).sum) * expanded n p i :=
    funext mixed_linear
  rw [e, nonempty_linear]
  obtain ⟨-, -, -, h⟩ := basePmf_spec hn overlap
  rw [h, div_mul_cancel₀ _ (expanded_sum_ne hn hn' h0 h1)]
  ring

theorem mixed_symm (hn : 1 ≤ n) (hn' : n ≤ 61) : ∃ f : ℕ → ℝ, ∀ i, 0 < i → i < 2 ^ n → mixed n p overlap emphasis i = f (popcount i) := by
  obtain ⟨f, hf, -, -⟩ := basePmf_spec hn overlap
  refine ⟨fun k => (1 - emphasis * (1 - |2 * (basePmf n overlap).2 - 1|)) * f k +
    (emphasis * (1 - |2 * (basePmf n overlap).2 - 1|) / (nonempty n (expanded n p)).sum) * (p ^ k * (1 - p) ^ (n - k)), fun i h h' => ?_⟩
  rw [mixed_linear, hf i h h', expanded_eq hn' h']

theorem pmf_eq (hn : 1 ≤ n) (hn' : n ≤ 61) (h0 : 0 < p) (h1 : p ≤ 1) :
    overlappingSetsPmf n p overlap emphasis = some (p :: nonempty n fun i => mixed n p overlap emphasis i * (1 - p)) := by
  unfold overlappingSetsPmf
  rw [if_pos ⟨h0.le, h1, expanded_sum_ne hn hn' h0 h1⟩]
  rfl

/-- **C50.**  For one to 61 deltas and a drop probability in `(0, 1]`, whatever overlap and emphasis are, the
distribution has one entry per set of deltas, gives `p` to the empty set and sums to one. -/
theorem C50_sums_to_one (n : ℕ) (p overlap emphasis : ℝ) (hn : 1 ≤ n) (hn' : n ≤ 61) (h0 : 0 < p) (h1 : p ≤ 1) :
    ∃ pmf, overlappingSetsPmf n p overlap emphasis = some pmf ∧ pmf.length = 2 ^ n ∧ pmf[0]? = some p ∧ pmf.sum = 1 := by
  refine ⟨_, pmf_eq hn hn' h0 h1, ?_, rfl, ?_⟩
  · have := Nat.two_pow_pos n
    simp only [List.length_cons, nonempty, List.length_map, List.length_range]
    omega
  · rw [List.sum_cons]
    have := nonempty_linear n (mixed n p overlap emphasis) (fun _ => 0) (1 - p) 0
    simp only [zero_mul, add_zero] at this
    simp only [mul_comm _ (1 - p)]
    rw [this, mixed_sum hn hn' h0 h1]
    ring

example : ∃ pmf, overlappingSetsPmf 3 (9 / 10) (1 / 4) (1 / 2) = some pmf ∧ pmf.length = 2 ^ 3 ∧ pmf[0]? = some (9 / 10) ∧
    pmf.sum = 1 := C50_sums_to_one 3 _ _ _ (by norm_num) (by norm_num) (by norm_num) (by norm_num)

/-- **C50** (partial: outside of `[0, 1]` the code can give negative probabilities, see below).  For overlap and
emphasis in `[0, 1]` no probability is negative. -/
theorem C50_nonneg_partial (n : ℕ) (p overlap emphasis : ℝ) (hn : 1 ≤ n) (hn' : n ≤ 61) (h0 : 0 < p) (h1 : p ≤ 1)
    (ho : 0 ≤ overlap) (ho' : overlap ≤ 1) (he : 0 ≤ emphasis) (he' : emphasis ≤ 1) :
    ∃ pmf, overlappingSetsPmf n p overlap emphasis = some pmf ∧ ∀ q ∈ pmf, 0 ≤ q := by
  refine ⟨_, pmf_eq hn hn' h0 h1, fun q hq => ?_⟩
  rcases List.mem_cons.mp hq with rfl | hq
  · exact h0.le
  obtain ⟨j, hj, rfl⟩ := List.mem_map.mp hq
  have hj := List.mem_range.mp hj
  refine mul_nonneg ?_ (by linarith)
  obtain ⟨f, hf, hf0, -⟩ := basePmf_spec hn overlap
  rw [mixed_linear, hf _ (by omega) (by omega), expanded_eq hn' (by omega)]
  have hov : (basePmf n overlap).2 = overlap := by
    unfold basePmf
    split_ifs with a1 a2
    · rfl
    · rfl
    · show flipOverlap overlap = overlap
      unfold flipOverlap
      rw [if_neg]
      intro hodd
      have hf0 : 0 ≤ ⌊overlap⌋ := Int.floor_nonneg.mpr ho
      have hf1 : ⌊overlap⌋ ≤ 1 := by
        have : (⌊overlap⌋ : ℝ) ≤ 1 := (Int.floor_le overlap).trans ho'
        exact_mod_cast this
      have hf : ⌊overlap⌋ = 1 := by omega
      have : overlap = 1 := le_antisymm ho' (by have := Int.floor_le overlap; rw [hf] at this; exact_mod_cast this)
      subst this
      apply a1
      have : roundR 1 = 1 := by simp [roundR]
      rw [this]
      unfold npIsclose
      norm_num
  rw [hov]
  have hab : |2 * overlap - 1| ≤ 1 := by rw [abs_le]; constructor <;> linarith
  have hab0 := abs_nonneg (2 * overlap - 1)
  have hm0 : 0 ≤ emphasis * (1 - |2 * overlap - 1|) := mul_nonneg he (by linarith)
  have hm1 : emphasis * (1 - |2 * overlap - 1|) ≤ 1 := by nlinarith
  have hs : 0 ≤ (nonempty n (expanded n p)).sum := by
    rw [expanded_sum hn']
    have : (1 - p) ^ n ≤ 1 := pow_le_one₀ (by linarith) (by linarith)
    linarith
  have hq0 : 0 ≤ p ^ popcount (j + 1) * (1 - p) ^ (n - popcount (j + 1)) :=
    mul_nonneg (pow_nonneg h0.le _) (pow_nonneg (by linarith) _)
  exact add_nonneg (mul_nonneg (by linarith) (hf0 _)) (mul_nonneg (div_nonneg hm0 hs) hq0)

example : ∃ pmf, overlappingSetsPmf 3 (9 / 10) (1 / 4) (1 / 2) = some pmf ∧ ∀ q ∈ pmf, 0 ≤ q :=
  C50_nonneg_partial 3 _ _ _ (by norm_num) (by norm_num) (by norm_num) (by norm_num) (by norm_num) (by norm_num)
    (by norm_num) (by norm_num)

/-- **C50 is false of the code for `p = 0`**: nothing is to be dropped, and the probabilities are all NaN,
whatever overlap and emphasis are. -/
theorem C50_zero_false (n : ℕ) (overlap emphasis : ℝ) (hn : n ≤ 61) : overlappingSetsPmf n 0 overlap emphasis = none := by
  unfold overlappingSetsPmf
  rw [if_neg]
  rintro ⟨-, -, h⟩
  apply h
  rw [expanded_sum hn]
  simp

/-- **C50 is false of the code for an overlap outside of `[0, 1]`**: a probability is negative. -/
theorem C50_negative_false : ∃ pmf, overlappingSetsPmf 2 (9 / 10) (3 / 2) 1 = some pmf ∧ ∃ q ∈ pmf, q < 0 := by
  refine ⟨_, pmf_eq (by norm_num) (by norm_num) (by norm_num) (by norm_num), mixed 2 (9 / 10) (3 / 2) 1 3 * (1 - 9 / 10), ?_, ?_⟩
  · refine List.mem_cons_of_mem _ (List.mem_map.mpr ⟨2, by simp, rfl⟩)
  have hfl : ⌊(3 / 2 : ℝ)⌋ = 1 := by rw [Int.floor_eq_iff]; norm_num
  have hr : roundR (3 / 2) = 2 := by unfold roundR; rw [hfl]; norm_num
  have hb : basePmf 2 (3 / 2) = (fun i => soft 2 (-(3 / 2)) i / (nonempty 2 (soft 2 (-(3 / 2)))).sum, -(3 / 2)) := by
    unfold basePmf
    rw [if_neg]
    · simp only [flipOverlap, hfl]; norm_num
    · rw [hr]
      unfold npIsclose
      norm_num [abs_of_neg]
  have hs : soft 2 (-(3 / 2)) = fun _ => 1 := by
    funext i
    unfold soft
    have : Real.pi * (-(3 / 2) - 1 / 2) = -(2 * Real.pi) := by ring
    rw [this, Real.tan_neg, Real.tan_eq_sin_div_cos, Real.sin_two_pi]
    simp
  have hp : popcount 3 = 2 := by decide +kernel
  rw [mixed_linear, hb, hs, expanded_sum (by norm_num), expanded_eq (by norm_num) (by norm_num), hp]
  dsimp only
  have : |2 * (-(3 / 2)) - 1| = (4 : ℝ) := by norm_num [abs_of_neg]
  rw [this]
  norm_num [nonempty]

/-! ## Expected value of dropout -/

theorem zipIdx_sum (l : List ℝ) (h : ℝ → ℕ → ℝ) :
    (l.zipIdx.map fun d => h d.1 d.2).sum = ∑ j ∈ range l.length, h (l.getD j 0) j := by
  induction l using List.reverseRecOn with
  | nil => simp
  | append_singleton l x ih =>
    rw [List.zipIdx_append, List.map_append, List.sum_append, ih, List.length_append, List.length_singleton, sum_range_succ]
    simp only [List.zipIdx_singleton, List.map_cons, List.map_nil, List.sum_cons, List.sum_nil, add_zero, zero_add]
    congr 1
    · refine sum_congr rfl fun j hj => ?_
      have := mem_range.mp hj
      rw [List.getD_eq_getElem?_getD, List.getD_eq_getElem?_getD, List.getElem?_append_left this]
    · simp

theorem countP_range (m : ℕ) (q : ℕ → Bool) : (List.range m).countP q = ((range m).filter fun j => q j = true).card := by
  induction m with
  | zero => simp
  | succ m ih =>
    rw [List.range_succ, List.countP_append, ih, range_add_one, filter_insert]
    split_ifs with h
    · rw [card_insert_of_notMem (by simp)]; simp [h]
    · simp [h]

theorem dropoutEntry_eq {deltas : List ℝ} {s : ℕ} {p : ℝ} (hs : s < 2 ^ deltas.length) (hs0 : 0 < s) (h1 : p < 1) :
    dropoutEntry deltas s p 1 =
      (∑ j ∈ range deltas.length, if s.testBit j then deltas.getD j 0 else 0) / popcount s / (1 - p) := by
  unfold dropoutEntry
  rw [zipIdx_sum deltas fun x j => if s.testBit j then x else 0, countP_range, popcount_eq_card _ _ hs, max_eq_left (popcount_pos hs0)]
  unfold rescalar
  rw [if_neg h1.ne, Real.rpow_one]

theorem dropoutEntry_zero {deltas : List ℝ} {p r : ℝ} : dropoutEntry deltas 0 p r = 0 := by
  unfold dropoutEntry
  simp

/-- **C69.**  With `rescale = 1` the expected value of `dropout`, over the sets drawn with the computed
probabilities, is the average of the deltas, whatever overlap and emphasis are. -/
theorem C69_unbiased (deltas : List ℝ) (p overlap emphasis : ℝ) (hd : deltas ≠ []) (hn' : deltas.length ≤ 61)
    (h0 : 0 < p) (h1 : p < 1) :
    ∃ pmf, overlappingSetsPmf deltas.length p overlap emphasis = some pmf ∧
      (pmf.zipIdx.map fun q => q.1 * dropoutEntry deltas q.2 p 1).sum = deltas.sum / deltas.length := by
  obtain ⟨n, hn⟩ : ∃ n, n = deltas.length := ⟨_, rfl⟩
  have hn1 : 1 ≤ n := by rw [hn]; exact List.length_pos_iff.mpr hd
  rw [← hn] at hn' ⊢
  refine ⟨_, pmf_eq hn1 hn' h0 h1.le, ?_⟩
  rw [zipIdx_sum _ fun x s => x * dropoutEntry deltas s p 1]
  obtain ⟨f, hf⟩ := mixed_symm (p := p) (overlap := overlap) (emphasis := emphasis) hn1 hn'
  have hlen : (p :: nonempty n fun i => mixed n p overlap emphasis i * (1 - p)).length = 2 ^ n - 1 + 1 := by
    simp [nonempty]
  have h2 : 2 ^ n - 1 + 1 = 2 ^ n := by have := Nat.two_pow_pos n; omega
  have hp : (1 - p) ≠ 0 := by linarith
  rw [hlen, sum_range_succ', dropoutEntry_zero, mul_zero, add_zero]
  have step : ∀ s ∈ range (2 ^ n - 1),
      (p :: nonempty n fun i => mixed n p overlap emphasis i * (1 - p)).getD (s + 1) 0 * dropoutEntry deltas (s + 1) p 1 =
      ∑ j ∈ range n, deltas.getD j 0 * (if (s + 1).testBit j then f (popcount (s + 1)) / popcount (s + 1) else 0) := by
    intro s hs
    have hs := mem_range.mp hs
    have e : (p :: nonempty n fun i => mixed n p overlap emphasis i * (1 - p)).getD (s + 1) 0 = f (popcount (s + 1)) * (1 - p) := by
      rw [← hf (s + 1) (by omega) (by omega)]
      simp [nonempty, List.getD_eq_getElem?_getD, List.getElem?_range hs]
    rw [e, dropoutEntry_eq (by rw [← hn]; omega) (by omega) h1, ← hn]
    have : f (popcount (s + 1)) * (1 - p) * ((∑ j ∈ range n, if (s + 1).testBit j then deltas.getD j 0 else 0) / popcount (s + 1) / (1 - p)) =
        (∑ j ∈ range n, if (s + 1).testBit j then deltas.getD j 0 else 0) * (f (popcount (s + 1)) / popcount (s + 1)) := by
      field_simp
    rw [this, sum_mul]
    refine sum_congr rfl fun j _ => ?_
    split_ifs <;> ring
  rw [sum_congr rfl step, sum_comm]
  obtain ⟨g, hg⟩ : ∃ g : ℕ → ℝ, g = fun k => f k / k := ⟨_, rfl⟩
  have hT : ∀ j ∈ range n, ∑ s ∈ range (2 ^ n - 1), deltas.getD j 0 *
      (if (s + 1).testBit j then f (popcount (s + 1)) / popcount (s + 1) else 0) =
      deltas.getD j 0 * total (n - 1) fun k => g (k + 1) := by
    intro j hj
    rw [← mul_sum]
    congr 1
    obtain ⟨m, rfl⟩ : ∃ m, n = m + 1 := ⟨n - 1, by omega⟩
    rw [show m + 1 - 1 = m from rfl, ← totalWith_eq m j g (mem_range.mp hj)]
    unfold totalWith
    conv_rhs => rw [← h2, sum_range_succ']
    simp [hg]
  rw [sum_congr rfl hT, ← sum_mul]
  have hsum : ∑ j ∈ range n, deltas.getD j 0 = deltas.sum := by
    have := zipIdx_sum deltas fun x _ => x
    rw [hn, ← this]
    congr 1
    simp
  rw [hsum]
  have hc : (n : ℝ) * total (n - 1) (fun k => g (k + 1)) = 1 := by
    rw [← mixed_sum (p := p) (overlap := overlap) (emphasis := emphasis) hn1 hn' h0 h1.le]
    obtain ⟨m, rfl⟩ : ∃ m, n = m + 1 := ⟨n - 1, by omega⟩
    rw [show m + 1 - 1 = m from rfl]
    have e1 : ((m + 1 : ℕ) : ℝ) * total m (fun k => g (k + 1)) = ∑ j ∈ range (m + 1), totalWith (m + 1) j g := by
      rw [sum_congr rfl fun j hj => totalWith_eq m j g (mem_range.mp hj)]
      simp
    rw [e1]
    unfold totalWith
    rw [sum_comm, nonempty_sum, ← h2, sum_range_succ', sum_range_succ' (fun i => mixed (m + 1) p overlap emphasis i)]
    have z : ∑ j ∈ range (m + 1), (if Nat.testBit 0 j then g (popcount 0) else 0) = 0 := by simp
    rw [z, add_zero, add_sub_cancel_right]
    refine sum_congr rfl fun s hs => ?_
    have hs := mem_range.mp hs
    rw [hf _ (by omega) (by omega), ← sum_filter, sum_const, popcount_eq_card (m + 1) (s + 1) (by omega), hg]
    have : (popcount (s + 1) : ℝ) ≠ 0 := by have := popcount_pos (i := s + 1) (by omega); positivity
    simp only [nsmul_eq_mul]
    field_simp
  have hn0 : (n : ℝ) ≠ 0 := by positivity
  field_simp
  linear_combination deltas.sum * hc

example : ∃ pmf, overlappingSetsPmf 3 (1 / 2) (1 / 4) 0 = some pmf ∧
    (pmf.zipIdx.map fun q => q.1 * dropoutEntry [1, 2, 6] q.2 (1 / 2) 1).sum = ([1, 2, 6] : List ℝ).sum / ([1, 2, 6] : List ℝ).length :=
  C69_unbiased [1, 2, 6] (1 / 2) (1 / 4) 0 (by simp) (by simp) (by norm_num) (by norm_num)

/-- **C70 is false of the code**: with its default overlap of 1, `dropout` of any deltas raises, whatever the
other arguments are. -/
theorem C70_default_false (deltas : List ℝ) (p rescale emphasis : ℝ) (draw : List ℝ → ℕ) (hd : deltas ≠ []) :
    dropout deltas p rescale 1 emphasis draw = .error .attribute := by
  unfold dropout
  rw [if_neg hd, if_pos ⟨0, by norm_num⟩]

/-- **C70 is false of the code**: with drop probability 0, `dropout` raises for every overlap. -/
theorem C70_zero_false (deltas : List ℝ) (rescale overlap emphasis : ℝ) (draw : List ℝ → ℕ) (hd : deltas ≠ [])
    (hn : deltas.length ≤ 61) : ∃ e, dropout deltas 0 rescale overlap emphasis draw = .error e := by
  unfold dropout
  rw [if_neg hd, C50_zero_false _ _ _ hn]
  split_ifs
  · exact ⟨_, rfl⟩
  · exact ⟨_, rfl⟩

/-- **C70** (partial: see the two negations above).  For overlap strictly between 0 and 1 or equal to 0, emphasis in
`[0, 1]` and a drop probability in `(0, 1]`, `dropout` returns, and if the set drawn is empty or the
probability is such that all are dropped the value is zero. -/
theorem C70_returns_partial (deltas : List ℝ) (p rescale overlap emphasis : ℝ) (draw : List ℝ → ℕ) (hn : deltas.length ≤ 61)
    (h0 : 0 < p) (h1 : p ≤ 1) (ho : 0 ≤ overlap) (ho' : overlap < 1) (he : 0 ≤ emphasis) (he' : emphasis ≤ 1) :
    ∃ x, dropout deltas p rescale overlap emphasis draw = .ok x ∧ ((∀ pmf, draw pmf = 0) → x = 0) := by
  unfold dropout
  by_cases hd : deltas = []
  · rw [if_pos hd]; exact ⟨0, rfl, fun _ => rfl⟩
  rw [if_neg hd, if_neg]
  · obtain ⟨pmf, e1, e2⟩ := C50_nonneg_partial deltas.length p overlap emphasis (List.length_pos_iff.mpr hd) hn h0 h1 ho ho'.le he he'
    rw [e1]
    dsimp only
    rw [if_neg]
    · exact ⟨_, rfl, fun h => by rw [h]; exact dropoutEntry_zero⟩
    · rintro ⟨q, hq, hq0⟩
      exact absurd (e2 q hq) (not_le.mpr hq0)
  · rintro ⟨k, rfl⟩
    have a : (-1 : ℝ) < 2 * k + 1 := by linarith
    have b : 2 * (k : ℝ) < 0 := by linarith
    have b' : (k : ℝ) < 0 := by linarith
    have b'' : k < 0 := by exact_mod_cast b'
    have : k ≤ -1 := by omega
    have : (k : ℝ) ≤ -1 := by exact_mod_cast this
    linarith

example : ∃ x, dropout [1, 2, 6] (1 / 2) 1 0 0 (fun _ => 5) = .ok x ∧ ((∀ _ : List ℝ, 5 = 0) → x = 0) :=
  C70_returns_partial _ _ _ _ _ _ (by simp) (by norm_num) (by norm_num) (by norm_num) (by norm_num) (by norm_num) (by norm_num)

end Verif.Dropout
