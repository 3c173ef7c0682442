import Verif.Spec.Float
import Mathlib.Tactic.Linarith
import Mathlib.Tactic.Ring
import Mathlib.Tactic.NormNum
import Mathlib.Tactic.FieldSimp
import Mathlib.Tactic.Positivity

/-!
# Rounding
-/
namespace Verif.Float
open Spec

theorem rne_dvd {m k : Int} {s : ℕ} (h : m = k * 2 ^ s) : rne m s = k := by
  have hd : (2 : Int) ^ s ≠ 0 := by positivity
  have h1 : m / 2 ^ s = k := by rw [h]; exact Int.mul_ediv_cancel _ hd
  have h2 : m % 2 ^ s = 0 := by rw [h]; exact Int.mul_emod_left _ _
  have h3 : (0 : Int) < 2 ^ s := by positivity
  unfold rne
  simp only [h1, h2]
  rw [if_pos (by omega)]

theorem bits_lt (m : Int) : |m| < 2 ^ bits m := by
  unfold bits
  split_ifs with h
  · subst h; simp
  · have := Nat.lt_pow_succ_log_self (b := 2) (by norm_num) m.natAbs
    rw [Int.abs_eq_natAbs]
    exact_mod_cast this

theorem le_bits {m : Int} (h : m ≠ 0) : 2 ^ (bits m - 1) ≤ |m| := by
  unfold bits
  rw [if_neg h]
  have := Nat.pow_log_le_self 2 (x := m.natAbs) (by omega)
  rw [Int.abs_eq_natAbs, Nat.add_sub_cancel]
  exact_mod_cast this

theorem bits_pos {m : Int} (h : m ≠ 0) : 1 ≤ bits m := by
  unfold bits; rw [if_neg h]; omega

theorem bits_le {m : Int} {p : ℕ} (h : |m| < 2 ^ p) : bits m ≤ p := by
  by_cases h0 : m = 0
  · subst h0; simp [bits]
  · have h1 := le_bits h0
    have h2 : (2 : Int) ^ (bits m - 1) < 2 ^ p := lt_of_le_of_lt h1 h
    have h3 := (pow_lt_pow_iff_right₀ (by norm_num : (1 : Int) < 2)).1 h2
    have := bits_pos h0
    omega

theorem abs_value_lt (x : Dy) : |value x| < (2 : ℚ) ^ (x.e + bits x.m) := by
  unfold value
  rw [abs_mul, abs_of_pos (by positivity : (0 : ℚ) < 2 ^ x.e), zpow_add₀ (by norm_num), mul_comm]
  have := bits_lt x.m
  have h2 : (|(x.m : ℚ)|) < (2 : ℚ) ^ (bits x.m : Int) := by
    rw [zpow_natCast]; exact_mod_cast this
  exact mul_lt_mul_of_pos_left h2 (by positivity)

theorem le_abs_value {x : Dy} (h : x.m ≠ 0) : (2 : ℚ) ^ (x.e + bits x.m - 1) ≤ |value x| := by
  unfold value
  have hp := bits_pos h
  have h1 := le_bits h
  have : (x.e + bits x.m - 1 : Int) = x.e + ((bits x.m - 1 : ℕ) : Int) := by omega
  rw [this, abs_mul, abs_of_pos (by positivity : (0 : ℚ) < 2 ^ x.e), zpow_add₀ (by norm_num), mul_comm, zpow_natCast]
  apply mul_le_mul_of_nonneg_right _ (by positivity)
  exact_mod_cast h1

theorem value_eq_zero {x : Dy} : value x = 0 ↔ x.m = 0 := by
  unfold value
  have : (2 : ℚ) ^ x.e ≠ 0 := by positivity
  simp [this]

theorem bound_iff (x : Dy) (h : x.m ≠ 0) (b : Int) : |value x| < (2 : ℚ) ^ b ↔ x.e + bits x.m ≤ b := by
  constructor
  · intro h1
    have h2 := lt_of_le_of_lt (le_abs_value h) h1
    have := (zpow_lt_zpow_iff_right₀ (by norm_num : (1 : ℚ) < 2)).1 h2
    omega
  · intro h1
    exact lt_of_lt_of_le (abs_value_lt x) (zpow_le_zpow_right₀ (by norm_num) h1)

/-- Magnitudes of equal numbers agree. -/
theorem top_eq {x y : Dy} (h : value x = value y) (hx : x.m ≠ 0) : x.e + bits x.m = y.e + bits y.m := by
  have hy : y.m ≠ 0 := fun h0 => hx (value_eq_zero.1 (h.trans (value_eq_zero.2 h0)))
  apply le_antisymm
  · rw [← bound_iff x hx, h, bound_iff y hy]
  · rw [← bound_iff y hy, ← h, bound_iff x hx]

theorem value_shift {x : Dy} {k u : Int} (hu : x.e ≤ u) : value x = value ⟨k, u⟩ ↔ x.m = k * 2 ^ (u - x.e).toNat := by
  unfold value
  obtain ⟨n, hn⟩ : ∃ n : ℕ, u = x.e + n := ⟨(u - x.e).toNat, by omega⟩
  subst hn
  have h1 : (x.e + (n : Int) - x.e).toNat = n := by omega
  have h2 : (2 : ℚ) ^ x.e ≠ 0 := by positivity
  simp only [h1]
  rw [zpow_add₀ (by norm_num), zpow_natCast]
  constructor
  · intro h
    have : ((x.m : ℚ)) = k * 2 ^ n := by
      apply mul_right_cancel₀ h2
      rw [h]; ring
    exact_mod_cast this
  · intro h
    rw [h]; push_cast; ring

/-- The exponent of the last place. -/
theorem unit_le {p : ℕ} {emin emax : Int} {x : Dy} (hx : x.m ≠ 0) {m e : Int} (h : value x = m * (2 : ℚ) ^ e) (hm : |m| < 2 ^ p) (he : emin ≤ e) :
    max (x.e + bits x.m - p) emin ≤ e := by
  have h1 : value x = value ⟨m, e⟩ := h
  have h2 := top_eq h1 hx
  have h3 := bits_le hm
  simp only at h2
  omega

theorem rne_bound {m : Int} {s p : ℕ} (h : |m| < 2 ^ (p + s)) : |rne m s| ≤ 2 ^ p := by
  have hd : (0 : Int) < 2 ^ s := by positivity
  have hm := abs_lt.1 h
  rw [pow_add] at hm
  have hq1 : m / 2 ^ s < 2 ^ p := Int.ediv_lt_of_lt_mul hd hm.2
  have hq2 : -2 ^ p ≤ m / 2 ^ s := by
    rw [Int.le_ediv_iff_mul_le hd]; linarith
  have : (0 : Int) ≤ 2 ^ p := by positivity
  unfold rne
  simp only
  rw [abs_le]
  split_ifs <;> constructor <;> omega

theorem rne_error (m : Int) (s : ℕ) : 2 * |rne m s * 2 ^ s - m| ≤ 2 ^ s := by
  have hd : (0 : Int) < 2 ^ s := by positivity
  have h1 := Int.emod_add_mul_ediv m (2 ^ s)
  have h2 := Int.emod_nonneg m (ne_of_gt hd)
  have h3 := Int.emod_lt_of_pos m hd
  unfold rne
  simp only
  generalize (2 : Int) ^ s = d at *
  generalize m / d = q at *
  generalize m % d = r at *
  have e1 : q * d - m = -r := by linarith
  have e2 : (q + 1) * d - m = d - r := by linarith
  split_ifs
  · rw [e1, abs_neg, abs_of_nonneg h2]; omega
  · rw [e2, abs_of_nonneg (by omega)]; omega
  · rw [e1, abs_neg, abs_of_nonneg h2]; omega
  · rw [e2, abs_of_nonneg (by omega)]; omega

theorem roundTo_exact {p : ℕ} {emin emax : Int} {x : Dy} (h : Exact p emin emax (value x)) :
    ∃ y, roundTo p emin emax x = some y ∧ value y = value x := by
  obtain ⟨m, e, h1, h2, h3, h4⟩ := h
  unfold roundTo
  simp only
  by_cases hx : x.m = 0
  · split_ifs with hu hb hb
    · exact ⟨x, rfl, rfl⟩
    · exact absurd (.inl hx) hb
    · refine ⟨_, rfl, ?_⟩
      rw [value_eq_zero.2 hx, value_eq_zero]
      exact rne_dvd (by rw [hx]; ring)
    · refine absurd (.inl ?_) hb
      exact rne_dvd (by rw [hx]; ring)
  · have hu := unit_le (emax := emax) hx h1 h2 h3
    obtain ⟨u, hu'⟩ : ∃ u, u = max (x.e + bits x.m - p) emin := ⟨_, rfl⟩
    rw [← hu'] at hu ⊢
    by_cases hle : u ≤ x.e
    · rw [if_pos hle, if_pos (.inr ((bound_iff x hx emax).1 h4))]
      exact ⟨x, rfl, rfl⟩
    · rw [if_neg hle]
      have hlt : x.e ≤ u := by omega
      have hm : x.m = (m * 2 ^ (e - u).toNat) * 2 ^ (u - x.e).toNat := by
        have := (value_shift (x := x) (k := m) (u := e) (by omega)).1 h1
        rw [this, mul_assoc, ← pow_add]
        congr 2
        omega
      rw [rne_dvd hm]
      have hv : value x = value ⟨m * 2 ^ (e - u).toNat, u⟩ := (value_shift hlt).2 hm
      have hy : (⟨m * 2 ^ (e - u).toNat, u⟩ : Dy).m ≠ 0 := fun h0 => hx (value_eq_zero.1 (hv.trans (value_eq_zero.2 h0)))
      rw [if_pos (.inr ((bound_iff _ hy emax).1 (by rw [← hv]; exact h4)))]
      exact ⟨_, rfl, hv.symm⟩

theorem exact_zero (p : ℕ) (emin emax : Int) : Exact p emin emax 0 :=
  ⟨0, emin, by simp, by simp, le_refl _, by rw [abs_zero]; positivity⟩

theorem roundTo_in {p : ℕ} (hp : 1 ≤ p) {emin emax : Int} {x y : Dy} (h : roundTo p emin emax x = some y) : Exact p emin emax (value y) := by
  unfold roundTo at h
  simp only at h
  obtain ⟨u, hu⟩ : ∃ u, u = max (x.e + bits x.m - p) emin := ⟨_, rfl⟩
  rw [← hu] at h
  by_cases hy : y.m = 0
  · rw [value_eq_zero.2 hy]; exact exact_zero p emin emax
  · split_ifs at h with h1 h2 h2
    · have h := Option.some.inj h
      subst h
      have h2 := h2.resolve_left hy
      refine ⟨x.m, x.e, rfl, ?_, by omega, (bound_iff x hy emax).2 h2⟩
      have hb : bits x.m ≤ p := by omega
      exact lt_of_lt_of_le (bits_lt x.m) (pow_le_pow_right₀ (by norm_num) hb)
    · have h := Option.some.inj h
      subst h
      have h2 := h2.resolve_left hy
      have hb : |rne x.m (u - x.e).toNat| ≤ 2 ^ p := by
        apply rne_bound
        exact lt_of_lt_of_le (bits_lt x.m) (pow_le_pow_right₀ (by norm_num) (by omega))
      have hbound := (bound_iff _ hy emax).2 h2
      rcases lt_or_eq_of_le hb with hlt | heq
      · exact ⟨_, u, rfl, hlt, by omega, hbound⟩
      · obtain ⟨q, rfl⟩ : ∃ q, p = q + 1 := ⟨p - 1, by omega⟩
        rcases abs_eq (by positivity : (0 : Int) ≤ 2 ^ (q + 1)) |>.1 heq with h5 | h5
        · refine ⟨2 ^ q, u + 1, ?_, ?_, by omega, hbound⟩
          · unfold value
            simp only [h5]
            rw [zpow_add₀ (by norm_num)]
            push_cast
            ring
          · rw [abs_of_nonneg (by positivity)]
            exact pow_lt_pow_right₀ (by norm_num) (by omega)
        · refine ⟨-2 ^ q, u + 1, ?_, ?_, by omega, hbound⟩
          · unfold value
            simp only [h5]
            rw [zpow_add₀ (by norm_num)]
            push_cast
            ring
          · rw [abs_neg, abs_of_nonneg (by positivity)]
            exact pow_lt_pow_right₀ (by norm_num) (by omega)

theorem roundTo_e {p : ℕ} {emin emax : Int} {x y : Dy} (h : roundTo p emin emax x = some y) : x.e ≤ y.e := by
  unfold roundTo at h
  simp only at h
  split_ifs at h with h1 h2 h2
  · have h := Option.some.inj h
    subst h
    exact le_refl _
  · have h := Option.some.inj h
    subst h
    simp only
    omega

theorem roundTo_error {p : ℕ} {emin emax : Int} {x y : Dy} (h : roundTo p emin emax x = some y) (hx : (2 : ℚ) ^ (emin + p - 1) ≤ |value x|) :
    |value y - value x| ≤ |value x| / 2 ^ p := by
  have hx0 : x.m ≠ 0 := by
    intro h0
    rw [value_eq_zero.2 h0, abs_zero] at hx
    have : (0 : ℚ) < (2 : ℚ) ^ (emin + p - 1) := by positivity
    linarith
  have htop := le_abs_value hx0
  have hemin : emin ≤ x.e + bits x.m - p := by
    have := lt_of_le_of_lt hx (abs_value_lt x)
    have := (zpow_lt_zpow_iff_right₀ (by norm_num : (1 : ℚ) < 2)).1 this
    omega
  unfold roundTo at h
  simp only at h
  rw [max_eq_left hemin] at h
  obtain ⟨u, hu⟩ : ∃ u, u = x.e + bits x.m - p := ⟨_, rfl⟩
  rw [← hu] at h
  split_ifs at h with h1 h2 h2
  · have h := Option.some.inj h
    subst h
    rw [sub_self, abs_zero]; positivity
  · have h := Option.some.inj h
    subst h
    obtain ⟨n, hn⟩ : ∃ n : ℕ, u = x.e + n := ⟨(u - x.e).toNat, by omega⟩
    have hnn : (u - x.e).toNat = n := by omega
    rw [hnn]
    have herr := rne_error x.m n
    have hdiff : value ⟨rne x.m n, u⟩ - value x = ((rne x.m n * 2 ^ n - x.m : Int) : ℚ) * (2 : ℚ) ^ x.e := by
      unfold value
      simp only
      rw [hn, zpow_add₀ (by norm_num), zpow_natCast]
      push_cast
      ring
    have h2e : (0 : ℚ) < (2 : ℚ) ^ x.e := by positivity
    rw [hdiff, abs_mul, abs_of_pos h2e, le_div_iff₀ (by positivity)]
    have herr' : 2 * |((rne x.m n * 2 ^ n - x.m : Int) : ℚ)| ≤ 2 ^ n := by exact_mod_cast herr
    have hpow : (2 : ℚ) ^ (x.e + bits x.m - 1) * 2 = 2 ^ n * 2 ^ x.e * 2 ^ p := by
      rw [← zpow_natCast 2 n, ← zpow_natCast 2 p, ← zpow_add₀ (by norm_num), ← zpow_add₀ (by norm_num)]
      nth_rewrite 2 [← zpow_one (2 : ℚ)]
      rw [← zpow_add₀ (by norm_num)]
      congr 1
      omega
    have h2p : (0 : ℚ) < 2 ^ p := by positivity
    have : 2 * |((rne x.m n * 2 ^ n - x.m : Int) : ℚ)| * (2 ^ x.e * 2 ^ p) ≤ 2 ^ n * (2 ^ x.e * 2 ^ p) :=
      mul_le_mul_of_nonneg_right herr' (by positivity)
    nlinarith

theorem exact_mono {p p' : ℕ} {emin emin' emax emax' : Int} (hp : p ≤ p') (h1 : emin' ≤ emin) (h2 : emax ≤ emax') {q : ℚ} (h : Exact p emin emax q) :
    Exact p' emin' emax' q := by
  obtain ⟨m, e, a, b, c, d⟩ := h
  exact ⟨m, e, a, lt_of_lt_of_le b (pow_le_pow_right₀ (by norm_num) hp), le_trans h1 c, lt_of_lt_of_le d (zpow_le_zpow_right₀ (by norm_num) h2)⟩

theorem trunc_value {x : Dy} (h : 0 ≤ x.e) : ((trunc x : Int) : ℚ) = value x := by
  unfold trunc value
  rw [if_pos h]
  obtain ⟨n, hn⟩ : ∃ n : ℕ, x.e = n := ⟨x.e.toNat, by omega⟩
  rw [hn, zpow_natCast]
  simp

theorem trunc_of_int {x : Dy} {i : Int} (h : value x = i) : trunc x = i := by
  by_cases hx : 0 ≤ x.e
  · have := trunc_value hx
    rw [h] at this
    exact_mod_cast this
  · unfold trunc
    rw [if_neg hx]
    obtain ⟨n, hn⟩ : ∃ n : ℕ, x.e = -(n : Int) := ⟨(-x.e).toNat, by omega⟩
    have h1 : (-x.e).toNat = n := by omega
    rw [h1]
    unfold value at h
    rw [hn, zpow_neg, zpow_natCast, ← div_eq_mul_inv, div_eq_iff (by positivity)] at h
    have h2 : x.m = i * 2 ^ n := by exact_mod_cast h
    rw [h2]
    exact Int.mul_tdiv_cancel _ (by positivity)

end Verif.Float
