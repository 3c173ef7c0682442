import Verif.Spec.Linear
import Verif.Proofs.ReadmeEntry

/-!
# Errors of nested roundings
-/
namespace Verif.Linear
open Float Float.Spec Ieee Ieee.Spec Spec Readme

/-! ### Weights that are taken for zero or one -/

theorem size_eq {v : FV} {q : ℚ} (hv : val v = some q) : ∃ m e, |q| = (m : ℕ) * (2 : ℚ) ^ (e : ℤ) ∧ size v = min (code double m e) double.infCode := by
  obtain ⟨s, m, e, rfl, rfl⟩ := val_cases hv
  have hi := infCode_lt double
  refine ⟨m, e, ?_, ?_⟩
  · rw [abs_mul, abs_of_pos (by positivity : (0 : ℚ) < 2 ^ e)]
    unfold signed
    cases s <;> simp
  · show (sign double s + min (code double m e) double.infCode) % double.signBit = _
    unfold sign
    split_ifs
    · rw [Nat.add_mod_left, Nat.mod_eq_of_lt (by omega)]
    · rw [zero_add, Nat.mod_eq_of_lt (by omega)]

theorem size_of_le {v : FV} {q : ℚ} {c : ℕ} (hv : val v = some q) (h : |q| ≤ magv double c) : size v ≤ c := by
  obtain ⟨m, e, h1, h2⟩ := size_eq hv
  rw [h1] at h
  have h1 := code_mono (f := double) (m := m) (e := e) h
  rw [code_magv] at h1
  rw [h2]
  exact (min_le_left _ _).trans h1

theorem single_grid {w : ℚ} (h : Has single w) {e : ℤ} (he : (2 : ℚ) ^ e ≤ |w|) : ∃ K : ℤ, w = K * (2 : ℚ) ^ (e - 23) := by
  obtain ⟨N, E, h1, h2, _, _⟩ := h
  have hp : single.p = 24 := by decide
  rw [hp] at h2
  have hlt : (2 : ℚ) ^ e < (2 : ℚ) ^ (24 + E) := by
    refine he.trans_lt ?_
    rw [h1, abs_mul, abs_of_pos (by positivity : (0 : ℚ) < 2 ^ E), zpow_add₀ (by norm_num)]
    refine mul_lt_mul_of_pos_right ?_ (by positivity)
    have : |((N : ℤ) : ℚ)| < ((2 ^ 24 : ℤ) : ℚ) := by exact_mod_cast h2
    push_cast at this
    exact this
  have hE : e - 23 ≤ E := by
    have := (zpow_lt_zpow_iff_right₀ (by norm_num : (1 : ℚ) < 2)).1 hlt
    omega
  obtain ⟨d, hd⟩ : ∃ d : ℕ, E = e - 23 + d := ⟨(E - (e - 23)).toNat, by omega⟩
  refine ⟨N * 2 ^ d, ?_⟩
  rw [h1, hd, zpow_add₀ (by norm_num), zpow_natCast]
  push_cast
  ring

theorem tol0 : magv double 0x3E45798EE2308C3A = 6044629098073146 * (2 : ℚ) ^ (-79 : ℤ) ∧
    magv double (0x3E45798EE2308C3A + 1) = 6044629098073147 * (2 : ℚ) ^ (-79 : ℤ) := by
  have h1 : mag double 0x3E45798EE2308C3A = 6044629098073146 := by decide +kernel
  have h2 : expo double 0x3E45798EE2308C3A = -79 := by decide +kernel
  have h3 : mag double (0x3E45798EE2308C3A + 1) = 6044629098073147 := by decide +kernel
  have h4 : expo double (0x3E45798EE2308C3A + 1) = -79 := by decide +kernel
  constructor
  · unfold magv; rw [h1, h2]; norm_num
  · unfold magv; rw [h3, h4]; norm_num

theorem tol1 : magv double 0x3EE4FE13EC9BF514 = 5908861061690644 * (2 : ℚ) ^ (-69 : ℤ) ∧
    magv double (0x3EE4FE13EC9BF514 + 1) = 5908861061690645 * (2 : ℚ) ^ (-69 : ℤ) := by
  have h1 : mag double 0x3EE4FE13EC9BF514 = 5908861061690644 := by decide +kernel
  have h2 : expo double 0x3EE4FE13EC9BF514 = -69 := by decide +kernel
  have h3 : mag double (0x3EE4FE13EC9BF514 + 1) = 5908861061690645 := by decide +kernel
  have h4 : expo double (0x3EE4FE13EC9BF514 + 1) = -69 := by decide +kernel
  constructor
  · unfold magv; rw [h1, h2]; norm_num
  · unfold magv; rw [h3, h4]; norm_num

theorem isClose_iff {v y : FV} {d : ℚ} {c : ℕ} (hv : val (add v (Ieee.neg y)) = some d) (hc : size (add atol (abs (fmul rtol y))) = c)
    (hi : c < double.infCode) : (isClose v y = true → |d| ≤ magv double (c + 1)) ∧ (|d| ≤ magv double c → isClose v y = true) := by
  unfold isClose
  rw [hc]
  constructor
  · intro h
    exact size_le hv hi (of_decide_eq_true h).2
  · intro h
    have := size_of_le hv h
    exact decide_eq_true ⟨by omega, this⟩

theorem nearZero_iff {v : FV} {w : ℚ} (hv : val v = some w) (hw : Has single w) : isClose v zero = true ↔ NearZero w := by
  have hd := val_add hv (val_neg val_zero)
  rw [neg_zero, add_zero] at hd
  obtain ⟨h1, h2⟩ := isClose_iff hd tol_zero (by decide)
  rw [tol0.1] at h2
  rw [tol0.2] at h1
  unfold NearZero
  by_cases hs : (2 : ℚ) ^ (-27 : ℤ) ≤ |w|
  · obtain ⟨K, hK⟩ := single_grid hw hs
    have hab : |w| = ((|K| : ℤ) : ℚ) * (2 : ℚ) ^ (-50 : ℤ) := by
      rw [hK, abs_mul, abs_of_pos (by positivity : (0 : ℚ) < 2 ^ (-27 - 23 : ℤ))]; norm_num
    rw [hab] at h1 h2 ⊢
    have e1 : (2 : ℚ) ^ (-79 : ℤ) = (2 : ℚ) ^ (-50 : ℤ) / 2 ^ 29 := by norm_num
    have e2 : (1 : ℚ) / 10 ^ 8 = (2 ^ 50 / 10 ^ 8) * (2 : ℚ) ^ (-50 : ℤ) := by norm_num
    have hpos : (0 : ℚ) < (2 : ℚ) ^ (-50 : ℤ) := by positivity
    constructor
    · intro h
      have h := h1 h
      rw [e1, mul_div_assoc', mul_div_right_comm] at h
      have h := le_of_mul_le_mul_right h hpos
      have hk : |K| < 11259000 := by
        have : ((|K| : ℤ) : ℚ) < ((11259000 : ℤ) : ℚ) := lt_of_le_of_lt h (by norm_num)
        exact_mod_cast this
      have hk : |K| ≤ 11258999 := by omega
      rw [e2]
      refine mul_le_mul_of_nonneg_right ?_ hpos.le
      have : ((|K| : ℤ) : ℚ) ≤ ((11258999 : ℤ) : ℚ) := by exact_mod_cast hk
      refine this.trans (by norm_num)
    · intro h
      apply h2
      rw [e2] at h
      have h := le_of_mul_le_mul_right h hpos
      have hk : |K| < 11259000 := by
        have : ((|K| : ℤ) : ℚ) < ((11259000 : ℤ) : ℚ) := lt_of_le_of_lt h (by norm_num)
        exact_mod_cast this
      have hk : |K| ≤ 11258999 := by omega
      rw [e1, mul_div_assoc', mul_div_right_comm]
      refine mul_le_mul_of_nonneg_right ?_ hpos.le
      have : ((|K| : ℤ) : ℚ) ≤ ((11258999 : ℤ) : ℚ) := by exact_mod_cast hk
      refine this.trans (by norm_num)
  · have hs := (not_le.1 hs).le
    exact ⟨fun _ => hs.trans (by norm_num), fun _ => h2 (hs.trans (by norm_num))⟩

theorem nearOne_iff {v : FV} {w : ℚ} (hv : val v = some w) (hw : Has single w) : isClose v one = true ↔ NearOne w := by
  have hd := val_add hv (val_neg val_one)
  rw [← sub_eq_add_neg] at hd
  obtain ⟨h1, h2⟩ := isClose_iff hd tol_one (by decide)
  rw [tol1.1] at h2
  rw [tol1.2] at h1
  unfold NearOne
  by_cases hs : (2 : ℚ) ^ (-1 : ℤ) ≤ |w|
  · obtain ⟨K, hK⟩ := single_grid hw hs
    have hab : |w - 1| = ((|K - 2 ^ 24| : ℤ) : ℚ) * (2 : ℚ) ^ (-24 : ℤ) := by
      have : w - 1 = ((K - 2 ^ 24 : ℤ) : ℚ) * (2 : ℚ) ^ (-24 : ℤ) := by
        rw [hK, show (-1 - 23 : ℤ) = -24 by norm_num]; push_cast; rw [sub_mul]; norm_num
      rw [this, abs_mul, abs_of_pos (by positivity : (0 : ℚ) < 2 ^ (-24 : ℤ))]; push_cast; rfl
    rw [hab] at h1 h2 ⊢
    have e1 : (2 : ℚ) ^ (-69 : ℤ) = (2 : ℚ) ^ (-24 : ℤ) / 2 ^ 45 := by norm_num
    have e2 : (1 : ℚ) / 10 ^ 8 + 1 / 10 ^ 5 = (1001 * 2 ^ 24 / 10 ^ 8) * (2 : ℚ) ^ (-24 : ℤ) := by norm_num
    have hpos : (0 : ℚ) < (2 : ℚ) ^ (-24 : ℤ) := by positivity
    constructor
    · intro h
      have h := h1 h
      rw [e1, mul_div_assoc', mul_div_right_comm] at h
      have h := le_of_mul_le_mul_right h hpos
      have hk : |K - 2 ^ 24| < 168 := by
        have : ((|K - 2 ^ 24| : ℤ) : ℚ) < ((168 : ℤ) : ℚ) := lt_of_le_of_lt h (by norm_num)
        exact_mod_cast this
      have hk : |K - 2 ^ 24| ≤ 167 := by omega
      rw [e2]
      refine mul_le_mul_of_nonneg_right ?_ hpos.le
      have : ((|K - 2 ^ 24| : ℤ) : ℚ) ≤ ((167 : ℤ) : ℚ) := by exact_mod_cast hk
      refine this.trans (by norm_num)
    · intro h
      apply h2
      rw [e2] at h
      have h := le_of_mul_le_mul_right h hpos
      have hk : |K - 2 ^ 24| < 168 := by
        have : ((|K - 2 ^ 24| : ℤ) : ℚ) < ((168 : ℤ) : ℚ) := lt_of_le_of_lt h (by norm_num)
        exact_mod_cast this
      have hk : |K - 2 ^ 24| ≤ 167 := by omega
      rw [e1, mul_div_assoc', mul_div_right_comm]
      refine mul_le_mul_of_nonneg_right ?_ hpos.le
      have : ((|K - 2 ^ 24| : ℤ) : ℚ) ≤ ((167 : ℤ) : ℚ) := by exact_mod_cast hk
      refine this.trans (by norm_num)
  · have hs := not_le.1 hs
    have hge : (1 : ℚ) / 2 ≤ |w - 1| := by
      have := abs_sub_abs_le_abs_sub 1 w
      rw [abs_one, abs_sub_comm] at this
      norm_num at hs
      linarith
    constructor
    · intro h
      exact absurd (hge.trans (h1 h)) (by norm_num)
    · intro h
      exact absurd (hge.trans h) (by norm_num)

/-! ### Approximations -/

/-- `q` approximates `v` up to `n` roundings of numbers of size `s`. -/
structure Appr (n : ℕ) (s v q : ℚ) : Prop where
  le : |v| ≤ s
  err : |q - v| ≤ ((1 + ulp) ^ n - 1) * s

theorem pow_ge (n : ℕ) : (1 : ℚ) ≤ (1 + ulp) ^ n := one_le_pow₀ (by linarith [ulp_small.1])

theorem pow_mono {n m : ℕ} (h : n ≤ m) : (1 + ulp) ^ n ≤ (1 + ulp) ^ m := pow_le_pow_right₀ (by linarith [ulp_small.1]) h

theorem Appr.nonneg {n : ℕ} {s v q : ℚ} (h : Appr n s v q) : 0 ≤ s := (abs_nonneg v).trans h.le

theorem Appr.refl (v : ℚ) : Appr 0 |v| v v := ⟨le_rfl, by simp⟩

theorem Appr.mono {n m : ℕ} {s t v q : ℚ} (h : Appr n s v q) (hn : n ≤ m) (hs : s ≤ t) : Appr m t v q := by
  refine ⟨h.le.trans hs, h.err.trans ?_⟩
  have := pow_mono hn
  have := pow_ge n
  exact mul_le_mul (by linarith) hs h.nonneg (by linarith)

theorem Appr.abs_le {n : ℕ} {s v q : ℚ} (h : Appr n s v q) : |q| ≤ (1 + ulp) ^ n * s := by
  have h1 : |q| ≤ |q - v| + |v| := by
    have := abs_add_le (q - v) v
    rwa [sub_add_cancel] at this
  have := h.err
  have := h.le
  nlinarith

theorem Appr.add {n : ℕ} {s v q s' v' q' : ℚ} (h : Appr n s v q) (h' : Appr n s' v' q') : Appr n (s + s') (v + v') (q + q') := by
  refine ⟨(abs_add_le _ _).trans (add_le_add h.le h'.le), ?_⟩
  have : q + q' - (v + v') = (q - v) + (q' - v') := by ring
  rw [this, mul_add]
  exact (abs_add_le _ _).trans (add_le_add h.err h'.err)

theorem Appr.neg {n : ℕ} {s v q : ℚ} (h : Appr n s v q) : Appr n s (-v) (-q) := by
  refine ⟨by rw [abs_neg]; exact h.le, ?_⟩
  have : -q - -v = -(q - v) := by ring
  rw [this, abs_neg]
  exact h.err

theorem Appr.mul {n m : ℕ} {s v q s' v' q' : ℚ} (h : Appr n s v q) (h' : Appr m s' v' q') : Appr (n + m) (s * s') (v * v') (q * q') := by
  refine ⟨by rw [abs_mul]; exact mul_le_mul h.le h'.le (abs_nonneg _) h.nonneg, ?_⟩
  have e : q * q' - v * v' = q * (q' - v') + (q - v) * v' := by ring
  have h1 := mul_le_mul h.abs_le h'.err (abs_nonneg _) (mul_nonneg (by linarith [pow_ge n]) h.nonneg)
  have h2 := mul_le_mul h.err h'.le (abs_nonneg _) (mul_nonneg (by linarith [pow_ge n]) h.nonneg)
  rw [e]
  refine (abs_add_le _ _).trans ?_
  rw [abs_mul, abs_mul]
  refine (add_le_add h1 h2).trans (le_of_eq ?_)
  rw [pow_add]
  ring

/-- Less than `eta`, more than underflow -/
def eps : ℚ := (2 : ℚ) ^ (-1000 : ℤ)

theorem eps_small : 0 < eps ∧ tiny ≤ ulp * eps ∧ 4 * eps ≤ eta ∧ eta < 1 := by
  unfold eps tiny ulp eta
  refine ⟨by positivity, ?_, ?_, ?_⟩
  · rw [← zpow_add₀ (by norm_num)]
    exact zpow_le_zpow_right₀ (by norm_num) (by norm_num)
  · have : (4 : ℚ) = (2 : ℚ) ^ (2 : ℤ) := by norm_num
    rw [this, ← zpow_add₀ (by norm_num)]
    exact zpow_le_zpow_right₀ (by norm_num) (by norm_num)
  · exact zpow_lt_one_of_neg₀ (by norm_num) (by norm_num)

theorem Appr.round {n : ℕ} {s v q r : ℚ} (h : Appr n s v q) (hr : Round double q r) : Appr (n + 1) (s + eps) v r := by
  obtain ⟨e1, e2, _, _⟩ := eps_small
  refine ⟨h.le.trans (by linarith), ?_⟩
  have h1 : |r - v| ≤ |r - q| + |q - v| := by
    have := abs_add_le (r - q) (q - v)
    rwa [sub_add_sub_cancel] at this
  have h2 := hr.err64
  have h3 := h.err
  have h4 := mul_le_mul_of_nonneg_left h.abs_le ulp_small.1
  have h5 := pow_ge n
  have h6 : ulp * eps ≤ ((1 + ulp) ^ (n + 1) - 1) * eps := by
    refine mul_le_mul_of_nonneg_right ?_ e1.le
    rw [pow_succ]
    nlinarith [ulp_small.1]
  have h7 : ((1 + ulp) ^ (n + 1) - 1) * s = ulp * ((1 + ulp) ^ n * s) + ((1 + ulp) ^ n - 1) * s := by rw [pow_succ]; ring
  rw [mul_add]
  linarith

theorem pow_le_two {n : ℕ} (h : n ≤ 2 ^ 50) : (1 + ulp) ^ n ≤ 2 := by
  have hu := ulp_small.1
  have h1 : (1 : ℚ) + n * (-ulp) ≤ (1 + -ulp) ^ n := one_add_mul_le_pow (by linarith [ulp_small.2.1]) n
  have h2 : (1 + ulp) ^ n * (1 + -ulp) ^ n ≤ 1 := by
    rw [← mul_pow]
    exact pow_le_one₀ (by nlinarith [ulp_small.2.1]) (by nlinarith)
  have h3 : (n : ℚ) * ulp ≤ 1 / 2 := by
    have : (n : ℚ) ≤ 2 ^ 50 := by exact_mod_cast h
    have := mul_le_mul_of_nonneg_right this hu
    refine this.trans ?_
    unfold ulp
    norm_num
  have h4 : (1 : ℚ) / 2 ≤ (1 + -ulp) ^ n := by linarith
  have h5 := pow_ge n
  nlinarith

/-- The error in short -/
theorem Appr.simple {n : ℕ} {s v q : ℚ} (h : Appr n s v q) (hn : n ≤ 2 ^ 50) : |q - v| ≤ n * (2 : ℚ) ^ (-52 : ℤ) * s := by
  refine h.err.trans (mul_le_mul_of_nonneg_right ?_ h.nonneg)
  have e : (2 : ℚ) ^ (-52 : ℤ) = 2 * ulp := by unfold ulp; norm_num
  rw [e]
  have : ∀ m : ℕ, m ≤ n → (1 + ulp) ^ m - 1 ≤ m * (2 * ulp) := by
    intro m hm
    induction m with
    | zero => simp
    | succ m ih =>
      have h1 := ih (by omega)
      have h2 := pow_le_two (n := m) (by omega)
      have h3 := mul_le_mul_of_nonneg_right h2 ulp_small.1
      rw [pow_succ]
      push_cast
      linarith
  exact this n le_rfl

theorem Appr.lt {n : ℕ} {s v q : ℚ} (h : Appr n s v q) (hn : n ≤ 2 ^ 50) (hs : s < 2 ^ 1000) : |q| < limit double := by
  have h1 := h.abs_le.trans (mul_le_mul_of_nonneg_right (pow_le_two hn) h.nonneg)
  have hp : double.emax - double.p - 1 = (970 : ℕ) := by decide
  have he : double.emax = (1024 : ℕ) := by decide
  unfold limit
  rw [hp, he, zpow_natCast, zpow_natCast]
  have e1 : (2 : ℚ) ^ 1000 = 2 ^ 30 * 2 ^ 970 := by rw [← pow_add]
  have e2 : (2 : ℚ) ^ 1024 = 2 ^ 54 * 2 ^ 970 := by rw [← pow_add]
  rw [e1] at hs
  rw [e2]
  have hpos : (0 : ℚ) < 2 ^ 970 := by positivity
  generalize (2 : ℚ) ^ 970 = A at hs hpos ⊢
  linarith

end Verif.Linear
