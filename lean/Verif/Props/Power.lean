import Verif.Model.Power
import Mathlib.Analysis.SpecialFunctions.Trigonometric.Basic
import Mathlib.Analysis.MeanInequalities
import Mathlib.Tactic.LinearCombination

/-!
# C82, C83: merge methods with powers
-/
namespace Verif.Power

/-! ## C82 -/

theorem pow_pos' {a : ℝ} (ha : 0 < a) (x : ℝ) : (a : ℂ) ^ (x : ℂ) = ((a ^ x : ℝ) : ℂ) := (Complex.ofReal_cpow ha.le x).symm

theorem pow_neg' {a : ℝ} (ha : a < 0) (x : ℝ) : (a : ℂ) ^ (x : ℂ) = (((-a) ^ x : ℝ) : ℂ) * Complex.exp (Real.pi * Complex.I * x) := by
  rw [Complex.ofReal_cpow_of_nonpos ha.le, ← Complex.ofReal_neg, pow_pos' (neg_pos.2 ha)]

theorem exp_pi_re (x : ℝ) : (Complex.exp (Real.pi * Complex.I * x)).re = Real.cos (Real.pi * x) := by
  rw [show (Real.pi * Complex.I * x : ℂ) = ((Real.pi * x : ℝ) : ℂ) * Complex.I by push_cast; ring, Complex.exp_ofReal_mul_I_re]

/-- **C82.**  The geometric sum of two numbers other than zero: the weighted geometric mean of the magnitudes, with the sign of both if they
agree, and damped by a cosine if they do not. -/
theorem C82_value (a b alpha : ℝ) :
    (0 < a → 0 < b → geometricSum a b alpha = |a| ^ (1 - alpha) * |b| ^ alpha) ∧
    (a < 0 → b < 0 → geometricSum a b alpha = -(|a| ^ (1 - alpha) * |b| ^ alpha)) ∧
    (0 < a → b < 0 → geometricSum a b alpha = |a| ^ (1 - alpha) * |b| ^ alpha * Real.cos (Real.pi * alpha)) ∧
    (a < 0 → 0 < b → geometricSum a b alpha = -(|a| ^ (1 - alpha) * |b| ^ alpha * Real.cos (Real.pi * alpha))) := by
  unfold geometricSum
  refine ⟨fun ha hb => ?_, fun ha hb => ?_, fun ha hb => ?_, fun ha hb => ?_⟩
  · rw [pow_pos' ha, pow_pos' hb, abs_of_pos ha, abs_of_pos hb, ← Complex.ofReal_mul, Complex.ofReal_re]
  · rw [pow_neg' ha, pow_neg' hb, abs_of_neg ha, abs_of_neg hb, mul_mul_mul_comm, ← Complex.exp_add, ← Complex.ofReal_mul, Complex.re_ofReal_mul,
      show (Real.pi * Complex.I * ((1 - alpha : ℝ) : ℂ) + Real.pi * Complex.I * (alpha : ℂ)) = Real.pi * Complex.I by push_cast; ring, Complex.exp_pi_mul_I]
    simp
  · rw [pow_pos' ha, pow_neg' hb, abs_of_pos ha, abs_of_neg hb, ← mul_assoc, ← Complex.ofReal_mul, Complex.re_ofReal_mul, exp_pi_re]
  · rw [pow_neg' ha, pow_pos' hb, abs_of_neg ha, abs_of_pos hb, mul_right_comm, ← Complex.ofReal_mul, Complex.re_ofReal_mul, exp_pi_re,
      show Real.pi * (1 - alpha) = Real.pi - Real.pi * alpha by ring, Real.cos_pi_sub]
    ring

/-- **C82.**  `alpha = 0` gives `a` and `alpha = 1` gives `b`. -/
theorem C82_ends (a b : ℝ) (ha : a ≠ 0) (hb : b ≠ 0) : geometricSum a b 0 = a ∧ geometricSum a b 1 = b := by
  unfold geometricSum
  have hb' : (b : ℂ) ≠ 0 := by exact_mod_cast hb
  have ha' : (a : ℂ) ≠ 0 := by exact_mod_cast ha
  constructor
  · simp
  · simp

theorem mean_between {x y t : ℝ} (hx : 0 < x) (hy : 0 < y) (h0 : 0 ≤ t) (h1 : t ≤ 1) :
    min x y ≤ x ^ (1 - t) * y ^ t ∧ x ^ (1 - t) * y ^ t ≤ max x y := by
  have hmin : 0 < min x y := lt_min hx hy
  have hmax : 0 < max x y := lt_max_of_lt_left hx
  constructor
  · calc min x y = min x y ^ (1 - t) * min x y ^ t := by rw [← Real.rpow_add hmin, sub_add_cancel, Real.rpow_one]
      _ ≤ x ^ (1 - t) * y ^ t := mul_le_mul (Real.rpow_le_rpow hmin.le (min_le_left _ _) (by linarith)) (Real.rpow_le_rpow hmin.le (min_le_right _ _) h0)
          (Real.rpow_nonneg hmin.le _) (Real.rpow_nonneg hx.le _)
  · calc x ^ (1 - t) * y ^ t ≤ max x y ^ (1 - t) * max x y ^ t := mul_le_mul (Real.rpow_le_rpow hx.le (le_max_left _ _) (by linarith))
          (Real.rpow_le_rpow hy.le (le_max_right _ _) h0) (Real.rpow_nonneg hy.le _) (Real.rpow_nonneg hmax.le _)
      _ = max x y := by rw [← Real.rpow_add hmax, sub_add_cancel, Real.rpow_one]

/-- **C82** (partial: numbers of the same sign).  For `0 ≤ alpha ≤ 1` the result lies between `a` and `b`. -/
theorem C82_between_partial (a b alpha : ℝ) (h : 0 < a * b) (h0 : 0 ≤ alpha) (h1 : alpha ≤ 1) :
    min a b ≤ geometricSum a b alpha ∧ geometricSum a b alpha ≤ max a b := by
  obtain ⟨v1, v2, -, -⟩ := C82_value a b alpha
  rcases pos_and_pos_or_neg_and_neg_of_mul_pos h with ⟨ha, hb⟩ | ⟨ha, hb⟩
  · rw [v1 ha hb, abs_of_pos ha, abs_of_pos hb]
    exact mean_between ha hb h0 h1
  · rw [v2 ha hb, abs_of_neg ha, abs_of_neg hb]
    have := mean_between (neg_pos.2 ha) (neg_pos.2 hb) h0 h1
    rw [min_neg_neg, max_neg_neg] at this
    constructor <;> linarith [this.1, this.2]

/-- **C82.**  The result is never larger in magnitude than both. -/
theorem C82_bounded (a b alpha : ℝ) (ha : a ≠ 0) (hb : b ≠ 0) (h0 : 0 ≤ alpha) (h1 : alpha ≤ 1) : |geometricSum a b alpha| ≤ max |a| |b| := by
  obtain ⟨v1, v2, v3, v4⟩ := C82_value a b alpha
  have hm := (mean_between (abs_pos.2 ha) (abs_pos.2 hb) h0 h1).2
  have hn : 0 ≤ |a| ^ (1 - alpha) * |b| ^ alpha := mul_nonneg (Real.rpow_nonneg (abs_nonneg _) _) (Real.rpow_nonneg (abs_nonneg _) _)
  have hc : ∀ x, 0 ≤ x → |x * Real.cos (Real.pi * alpha)| ≤ x := by
    intro x hx
    rw [abs_mul, abs_of_nonneg hx]
    exact mul_le_of_le_one_right hx (Real.abs_cos_le_one _)
  rcases lt_or_gt_of_ne ha with ha | ha <;> rcases lt_or_gt_of_ne hb with hb | hb
  · rw [v2 ha hb, abs_neg, abs_of_nonneg hn]
    exact hm
  · rw [v4 ha hb, abs_neg]
    exact (hc _ hn).trans hm
  · rw [v3 ha hb]
    exact (hc _ hn).trans hm
  · rw [v1 ha hb, abs_of_nonneg hn]
    exact hm

/-- **C82** is false for numbers of opposite sign: a third of the way from 1 to -64 lies 2. -/
theorem C82_between_false : geometricSum 1 (-64) (1 / 3) = 2 ∧ ¬ (min (1 : ℝ) (-64) ≤ 2 ∧ (2 : ℝ) ≤ max 1 (-64)) := by
  refine ⟨?_, by norm_num⟩
  obtain ⟨-, -, v3, -⟩ := C82_value 1 (-64) (1 / 3)
  rw [v3 one_pos (by norm_num), abs_one, Real.one_rpow, one_mul, abs_neg, abs_of_pos (by norm_num : (0 : ℝ) < 64),
    show Real.pi * (1 / 3) = Real.pi / 3 by ring, Real.cos_pi_div_three, show (64 : ℝ) = 4 ^ (3 : ℝ) by norm_num, ← Real.rpow_mul (by norm_num)]
  norm_num

/-- Half way between -1 and -4 lies -2. -/
example : geometricSum (-1) (-4) (1 / 2) = -2 := by
  rw [(C82_value (-1) (-4) (1 / 2)).2.1 (by norm_num) (by norm_num), abs_neg, abs_neg, abs_one, Real.one_rpow, one_mul,
    abs_of_pos (by norm_num : (0 : ℝ) < 4), show (4 : ℝ) = 2 ^ (2 : ℝ) by norm_num, ← Real.rpow_mul (by norm_num)]
  norm_num

/-! ## C83 -/

/-- An index into a tensor of shape `s` -/
def Index (s i : List ℕ) : Prop := List.Forall₂ (· < ·) i s

theorem bindex_self {s i : List ℕ} (h : Index s i) : bindex s i = i := by
  unfold bindex
  rw [List.Forall₂.length_eq h, Nat.sub_self, List.drop_zero]
  unfold Index at h
  induction h with
  | nil => rfl
  | @cons x y xs ys hxy _ ih =>
    simp only [List.zip_cons_cons, List.map_cons]
    rw [ih]
    by_cases hy : y = 1
    · rw [if_pos hy]
      congr 1
      omega
    · rw [if_neg hy]

theorem broadcastRev_self (s : List ℕ) : broadcastRev s s = some s := by
  induction s with
  | nil => rfl
  | cons x s ih => simp [broadcastRev, ih]

theorem broadcast_self (s : List ℕ) : broadcast s s = some s := by
  unfold broadcast
  rw [broadcastRev_self]
  simp

/-- **C83.**  A coefficient of the shape of the parameter, entry by entry. -/
theorem multiply_entry {a b c alpha r alpha' : Ten} (hs : alpha.shape = a.shape) (h : multiplyQuotient a b c alpha = some (r, alpha')) {i : List ℕ}
    (hi : Index a.shape i) : r.shape = a.shape ∧ alpha'.shape = a.shape ∧ alpha'.val i = alpha.val i * factor (a.val i) (b.val i) (c.val i) ∧
      r.val i = quotientPower (a.val i) (b.val i) (c.val i) (alpha'.val i) := by
  unfold multiplyQuotient at h
  split at h
  · simp only [Option.some.injEq, Prod.mk.injEq] at h
    obtain ⟨rfl, rfl⟩ := h
    simp only [bindex_self hi, hs, and_self]
  · cases h

theorem factor_zero {a b c : ℝ} (h : 0 ≤ logRatio a c * logRatio b c) : factor a b c = 0 := by
  unfold factor
  split
  · simp
  · apply max_eq_right
    rw [neg_nonpos]
    positivity

theorem logRatio_nonneg {a c : ℝ} (hc : c ≠ 0) (h : |c| ≤ |a|) : 0 ≤ logRatio a c :=
  sub_nonneg.2 (Real.log_le_log (abs_pos.2 hc) h)

theorem logRatio_nonpos {a c : ℝ} (ha : a ≠ 0) (h : |a| ≤ |c|) : logRatio a c ≤ 0 :=
  sub_nonpos.2 (Real.log_le_log (abs_pos.2 ha) h)

theorem quotientPower_zero (a b c : ℝ) : quotientPower a b c 0 = a := by simp [quotientPower]

theorem quotientPower_pos {a b c : ℝ} (h : 0 < b / c) (x : ℝ) : quotientPower a b c x = a * (b / c) ^ x := by
  unfold quotientPower
  rw [← Complex.ofReal_div, pow_pos' h, ← Complex.ofReal_mul, Complex.ofReal_re]

/-- The factor, when `a` and `b` lie on different sides of `c` -/
theorem factor_opposite {a b c : ℝ} (h : logRatio a c * logRatio b c < 0) :
    0 ≤ factor a b c ∧ factor a b c * |logRatio b c| ≤ |logRatio a c| ∧
      (|logRatio a c| ≤ |logRatio b c| → factor a b c * |logRatio b c| = |logRatio a c|) := by
  set x := logRatio a c with hx
  set y := logRatio b c with hy
  have hxn : x ≠ 0 := by rintro h0; rw [h0, zero_mul] at h; exact lt_irrefl _ h
  have hyn : y ≠ 0 := by rintro h0; rw [h0, mul_zero] at h; exact lt_irrefl _ h
  have hxp : 0 < |x| := abs_pos.2 hxn
  have hyp : 0 < |y| := abs_pos.2 hyn
  have hxy : -(x * y) = |x| * |y| := by rw [← abs_mul, abs_of_neg h]
  have hm : 0 < max |x| |y| := lt_max_of_lt_left hxp
  have hf : factor a b c = |x| * |y| / max |x| |y| ^ 2 := by
    unfold factor
    rw [if_neg hm.ne', ← neg_div, hxy]
    exact max_eq_left (by positivity)
  refine ⟨hf ▸ by positivity, ?_, fun hle => ?_⟩
  · rw [hf, div_mul_eq_mul_div, div_le_iff₀ (by positivity), mul_assoc]
    apply mul_le_mul_of_nonneg_left _ hxp.le
    rw [← sq]
    exact pow_le_pow_left₀ hyp.le (le_max_right _ _) 2
  · rw [hf, max_eq_right hle]
    field_simp

/-- **C83.**  Where `a` and `b` lie on the same side of `c` in magnitude, the result is `a`, whatever the coefficient. -/
theorem C83_same_side {a b c alpha r alpha' : Ten} (hs : alpha.shape = a.shape) (h : multiplyQuotient a b c alpha = some (r, alpha')) {i : List ℕ}
    (hi : Index a.shape i) (ha : a.val i ≠ 0) (hb : b.val i ≠ 0) (hc : c.val i ≠ 0)
    (hside : (|c.val i| ≤ |a.val i| ∧ |c.val i| ≤ |b.val i|) ∨ (|a.val i| ≤ |c.val i| ∧ |b.val i| ≤ |c.val i|)) : r.val i = a.val i := by
  obtain ⟨-, -, h1, h2⟩ := multiply_entry hs h hi
  rw [h2, h1, factor_zero, mul_zero, quotientPower_zero]
  rcases hside with ⟨h3, h4⟩ | ⟨h3, h4⟩
  · exact mul_nonneg (logRatio_nonneg hc h3) (logRatio_nonneg hc h4)
  · exact mul_nonneg_of_nonpos_of_nonpos (logRatio_nonpos ha h3) (logRatio_nonpos hb h4)

theorem abs_eq_exp {a c : ℝ} (ha : a ≠ 0) (hc : c ≠ 0) : |a| = |c| * Real.exp (logRatio a c) := by
  unfold logRatio
  rw [Real.exp_sub, Real.exp_log (abs_pos.2 ha), Real.exp_log (abs_pos.2 hc)]
  field_simp [abs_ne_zero.2 hc]

theorem result_abs {a b c : ℝ} (ha : a ≠ 0) (hc : c ≠ 0) (hbc : 0 < b / c) (x : ℝ) :
    |quotientPower a b c x| = |c| * Real.exp (logRatio a c + x * logRatio b c) := by
  rw [quotientPower_pos hbc, abs_mul, abs_of_pos (Real.rpow_pos_of_pos hbc _), Real.rpow_def_of_pos hbc, Real.exp_add, abs_eq_exp ha hc, mul_assoc]
  congr 3
  have hb : b ≠ 0 := by rintro rfl; simp at hbc
  rw [mul_comm]
  congr 1
  unfold logRatio
  rw [Real.log_abs, Real.log_abs, Real.log_div hb hc]

theorem quotientPower_sign {a b c : ℝ} (ha : a ≠ 0) (hbc : 0 < b / c) (x : ℝ) : 0 < quotientPower a b c x * a := by
  rw [quotientPower_pos hbc]
  have := Real.rpow_pos_of_pos hbc x
  have h2 : 0 < a * a := mul_self_pos.2 ha
  nlinarith [mul_pos h2 this]

theorem logRatio_pos {a c : ℝ} (hc : c ≠ 0) (h : |c| < |a|) : 0 < logRatio a c :=
  sub_pos.2 (Real.log_lt_log (abs_pos.2 hc) h)

theorem logRatio_neg {a c : ℝ} (ha : a ≠ 0) (h : |a| < |c|) : logRatio a c < 0 :=
  sub_neg.2 (Real.log_lt_log (abs_pos.2 ha) h)

/-- **C83** (partial: `b` and `c` have the same sign).  Where `c` lies between `a` and `b` in magnitude, the result keeps the sign of `a`,
and its magnitude goes from that of `a` towards that of `c`, never past it.  With a coefficient of one it is that of `c`, if `b` is at least
as many times larger or smaller than `c` as `a` is smaller or larger. -/
theorem C83_opposite_partial {a b c alpha r alpha' : Ten} (hs : alpha.shape = a.shape) (h : multiplyQuotient a b c alpha = some (r, alpha'))
    {i : List ℕ} (hi : Index a.shape i) (ha : a.val i ≠ 0) (hbc : 0 < b.val i * c.val i) (h0 : 0 ≤ alpha.val i) (h1 : alpha.val i ≤ 1) :
    (|a.val i| < |c.val i| → |c.val i| < |b.val i| → 0 < r.val i * a.val i ∧ |a.val i| ≤ |r.val i| ∧ |r.val i| ≤ |c.val i| ∧
      (alpha.val i = 1 → |c.val i| * |c.val i| ≤ |a.val i| * |b.val i| → |r.val i| = |c.val i|)) ∧
    (|b.val i| < |c.val i| → |c.val i| < |a.val i| → 0 < r.val i * a.val i ∧ |c.val i| ≤ |r.val i| ∧ |r.val i| ≤ |a.val i| ∧
      (alpha.val i = 1 → |a.val i| * |b.val i| ≤ |c.val i| * |c.val i| → |r.val i| = |c.val i|)) := by
  obtain ⟨-, -, e1, e2⟩ := multiply_entry hs h hi
  generalize a.val i = a at *
  generalize b.val i = b at *
  generalize c.val i = c at *
  generalize alpha.val i = t at *
  generalize alpha'.val i = e at *
  generalize r.val i = r at *
  have hb : b ≠ 0 := by rintro rfl; simp at hbc
  have hc : c ≠ 0 := by rintro rfl; simp at hbc
  have hq : 0 < b / c := by
    rw [show b / c = b * c / (c * c) by field_simp]
    exact div_pos hbc (mul_self_pos.2 hc)
  have hcp : 0 < |c| := abs_pos.2 hc
  have hr := result_abs ha hc hq e
  have hsg := quotientPower_sign ha hq e
  rw [← e2] at hr hsg
  have haa := abs_eq_exp ha hc
  have hlog : logRatio a c + logRatio b c = Real.log (|a| * |b|) - Real.log (|c| * |c|) := by
    unfold logRatio
    rw [Real.log_mul (abs_ne_zero.2 ha) (abs_ne_zero.2 hb), Real.log_mul hcp.ne' hcp.ne']
    ring
  have hpos : 0 < |a| * |b| := mul_pos (abs_pos.2 ha) (abs_pos.2 hb)
  refine ⟨fun hac hcb => ?_, fun hbc' hca => ?_⟩
  · have hx := logRatio_neg ha hac
    have hy := logRatio_pos hc hcb
    obtain ⟨f0, f1, f2⟩ := factor_opposite (mul_neg_of_neg_of_pos hx hy)
    rw [abs_of_neg hx, abs_of_pos hy] at f1 f2
    have g1 : 0 ≤ e * logRatio b c := by rw [e1]; positivity
    have g2 : e * logRatio b c ≤ -logRatio a c := by
      rw [e1, mul_assoc]
      exact (mul_le_of_le_one_left (by positivity) h1).trans f1
    refine ⟨hsg, ?_, ?_, fun ht hle => ?_⟩
    · rw [hr, haa]
      exact mul_le_mul_of_nonneg_left (Real.exp_le_exp.2 (by linarith)) hcp.le
    · rw [hr]
      exact mul_le_of_le_one_right hcp.le (Real.exp_le_one_iff.2 (by linarith))
    · have : 0 ≤ logRatio a c + logRatio b c := by
        rw [hlog]
        exact sub_nonneg.2 (Real.log_le_log (mul_pos hcp hcp) hle)
      have := f2 (by linarith)
      rw [hr, e1, ht, one_mul, this, add_neg_cancel, Real.exp_zero, mul_one]
  · have hx := logRatio_pos hc hca
    have hy := logRatio_neg hb hbc'
    obtain ⟨f0, f1, f2⟩ := factor_opposite (mul_neg_of_pos_of_neg hx hy)
    rw [abs_of_pos hx, abs_of_neg hy] at f1 f2
    have g1 : 0 ≤ e * -logRatio b c := by
      rw [e1]
      exact mul_nonneg (mul_nonneg h0 f0) (by linarith)
    have g2 : e * -logRatio b c ≤ logRatio a c := by
      rw [e1, mul_assoc]
      exact (mul_le_of_le_one_left (mul_nonneg f0 (by linarith)) h1).trans f1
    refine ⟨hsg, ?_, ?_, fun ht hle => ?_⟩
    · rw [hr]
      exact le_mul_of_one_le_right hcp.le (Real.one_le_exp (by linarith))
    · rw [hr, haa]
      exact mul_le_mul_of_nonneg_left (Real.exp_le_exp.2 (by linarith)) hcp.le
    · have : logRatio a c + logRatio b c ≤ 0 := by
        rw [hlog]
        exact sub_nonpos.2 (Real.log_le_log hpos hle)
      have := f2 (by linarith)
      rw [hr, e1, ht, one_mul, show logRatio a c + factor a b c * logRatio b c = 0 by linarith, Real.exp_zero, mul_one]

/-- **C83.**  A coefficient of the shape of the parameters never fails. -/
theorem C83_returns (a b c alpha : Ten) (hb : a.shape = b.shape) (hc : b.shape = c.shape) (hs : alpha.shape = a.shape) :
    (multiplyQuotient a b c alpha).isSome := by
  unfold multiplyQuotient
  rw [if_pos ⟨hb, hc, by rw [hs, broadcast_self]⟩]
  rfl

/-- **C83** is false of a single number for the coefficient, as is the default: unless the parameter is a single number as well, the method
raises. -/
theorem C83_number_false (a b c alpha : Ten) (hs : alpha.shape = []) (ha : a.shape ≠ []) : multiplyQuotient a b c alpha = none := by
  unfold multiplyQuotient
  rw [if_neg]
  rintro ⟨-, -, h⟩
  rw [hs] at h
  simp [broadcast, broadcastRev, ha] at h

/-- More generally, it raises whenever the parameter has more dimensions than the coefficient. -/
theorem broadcastRev_length (s t u : List ℕ) (h : broadcastRev s t = some u) : t.length ≤ u.length := by
  induction s generalizing t u with
  | nil => simp only [broadcastRev, Option.some.injEq] at h; exact h ▸ le_rfl
  | cons x s ih =>
    cases t with
    | nil => exact Nat.zero_le _
    | cons y t =>
      simp only [broadcastRev] at h
      split at h
      · obtain ⟨v, hv, rfl⟩ := Option.map_eq_some_iff.1 h
        simpa using ih _ _ hv
      · split at h
        · obtain ⟨v, hv, rfl⟩ := Option.map_eq_some_iff.1 h
          simpa using ih _ _ hv
        · cases h

/-- **C83** is false more generally of any coefficient with fewer dimensions than the parameters. -/
theorem C83_dimensions_false (a b c alpha : Ten) (hs : alpha.shape.length < a.shape.length) : multiplyQuotient a b c alpha = none := by
  unfold multiplyQuotient
  rw [if_neg]
  rintro ⟨-, -, h⟩
  unfold broadcast at h
  obtain ⟨v, hv, hu⟩ := Option.map_eq_some_iff.1 h
  have := broadcastRev_length _ _ _ hv
  rw [← hu] at hs
  simp at this hs
  omega

/-- A constant tensor of one entry -/
def one1 (x : ℝ) : Ten := ⟨[1], fun _ => x⟩

theorem one_shape (x y : ℝ) : (one1 x).shape = (one1 y).shape := rfl

theorem index_one : Index (one1 x).shape [0] := List.Forall₂.cons Nat.zero_lt_one List.Forall₂.nil

/-- **C83** is false of a coefficient used twice: the method changes the tensor it is passed.  A call whose parameters agree with `c` leaves a
coefficient of zero behind, and the next call returns `a` where it would have returned `c`. -/
theorem C83_again_false : ∃ alpha r alpha' r1 alpha1 r2 alpha2 : Ten,
    multiplyQuotient (one1 3) (one1 5) (one1 3) alpha = some (r, alpha') ∧
    multiplyQuotient (one1 1) (one1 4) (one1 2) alpha = some (r1, alpha1) ∧ |r1.val [0]| = 2 ∧
    multiplyQuotient (one1 1) (one1 4) (one1 2) alpha' = some (r2, alpha2) ∧ r2.val [0] = 1 := by
  obtain ⟨⟨r, alpha'⟩, h⟩ := Option.isSome_iff_exists.1 (C83_returns (one1 3) (one1 5) (one1 3) (one1 1) rfl rfl rfl)
  obtain ⟨⟨r1, alpha1⟩, h1⟩ := Option.isSome_iff_exists.1 (C83_returns (one1 1) (one1 4) (one1 2) (one1 1) rfl rfl rfl)
  obtain ⟨hs, hs', e1, -⟩ := multiply_entry (one_shape _ _) h index_one
  obtain ⟨⟨r2, alpha2⟩, h2⟩ := Option.isSome_iff_exists.1 (C83_returns (one1 1) (one1 4) (one1 2) alpha' rfl rfl hs')
  refine ⟨one1 1, r, alpha', r1, alpha1, r2, alpha2, h, h1, ?_, h2, ?_⟩
  · have := (C83_opposite_partial (one_shape _ _) h1 index_one (by norm_num [one1]) (by norm_num [one1]) (by norm_num [one1]) (by norm_num [one1])).1
      (by norm_num [one1]) (by norm_num [one1])
    have := this.2.2.2 rfl (by norm_num [one1])
    simpa [one1] using this
  · obtain ⟨-, -, e3, e4⟩ := multiply_entry (hs'.trans (one_shape 3 1)) h2 index_one
    have h0 : alpha'.val [0] = 0 := by
      rw [e1, factor_zero, mul_zero]
      simp [one1, logRatio]
    rw [e4, e3, h0, zero_mul, quotientPower_zero]
    rfl

/-- The same side of 2: 3 and 5; opposite sides: 1 and 8 -/
example : ∃ r alpha' : Ten, multiplyQuotient (one1 3) (one1 5) (one1 2) (one1 1) = some (r, alpha') ∧ r.val [0] = 3 := by
  obtain ⟨⟨r, alpha'⟩, h⟩ := Option.isSome_iff_exists.1 (C83_returns (one1 3) (one1 5) (one1 2) (one1 1) rfl rfl rfl)
  exact ⟨r, alpha', h, C83_same_side (one_shape _ _) h index_one (by norm_num [one1]) (by norm_num [one1]) (by norm_num [one1]) (Or.inl (by norm_num [one1]))⟩

example : ∃ r alpha' : Ten, multiplyQuotient (one1 (-1)) (one1 8) (one1 2) (one1 1) = some (r, alpha') ∧ |r.val [0]| = 2 := by
  obtain ⟨⟨r, alpha'⟩, h⟩ := Option.isSome_iff_exists.1 (C83_returns (one1 (-1)) (one1 8) (one1 2) (one1 1) rfl rfl rfl)
  have := ((C83_opposite_partial (one_shape _ _) h index_one (by norm_num [one1]) (by norm_num [one1]) (by norm_num [one1]) (by norm_num [one1])).1
    (by norm_num [one1]) (by norm_num [one1])).2.2.2 rfl (by norm_num [one1])
  exact ⟨r, alpha', h, by simpa [one1] using this⟩

example : multiplyQuotient ⟨[2, 3], fun _ => 1⟩ ⟨[2, 3], fun _ => 1⟩ ⟨[2, 3], fun _ => 1⟩ ⟨[], fun _ => 1⟩ = none :=
  C83_number_false _ _ _ _ rfl (by simp)

end Verif.Power
