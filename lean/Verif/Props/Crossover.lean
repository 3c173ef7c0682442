import Verif.Model.Crossover
import Mathlib.Analysis.SpecialFunctions.Trigonometric.Basic
import Mathlib.Tactic.NormNum
import Mathlib.Tactic.Linarith
import Mathlib.Tactic.FieldSimp
import Mathlib.Tactic.Positivity
import Mathlib.Algebra.Order.Floor.Ring

/-!
# C84: mixing the frequencies of two tensors
-/
namespace Verif.Crossover

theorem clip_range (x : ℝ) : 0 ≤ clip x ∧ clip x ≤ 1 := ⟨le_min (le_max_right _ _) zero_le_one, min_le_right _ _⟩

theorem clip_mono {x y : ℝ} (h : x ≤ y) : clip x ≤ clip y := min_le_min_right _ (max_le_max_right _ h)

theorem clip_of {x : ℝ} (h0 : 0 ≤ x) (h1 : x ≤ 1) : clip x = x := by
  unfold clip
  rw [max_eq_left h0, min_eq_left h1]

theorem raw_range (m alpha tilt : ℝ) : 0 ≤ rawFilter m alpha tilt ∧ rawFilter m alpha tilt ≤ 1 := by
  unfold rawFilter
  split
  · split <;> norm_num
  · split
    · split <;> norm_num
    · split <;> exact clip_range _

theorem filterAt_some {alpha : ℝ} (h0 : 0 ≤ alpha) (h1 : alpha ≤ 1) (m tilt : ℝ) :
    filterAt m alpha tilt = some (if tiltOf tilt > 2 then 1 - rawFilter m (1 - alpha) (tiltOf tilt) else rawFilter m alpha (tiltOf tilt)) :=
  if_pos ⟨h0, h1⟩

/-- **C84.**  The filter takes values in the unit interval. -/
theorem C84_range (m alpha tilt f : ℝ) (h : filterAt m alpha tilt = some f) : 0 ≤ f ∧ f ≤ 1 := by
  unfold filterAt at h
  split at h
  · cases h
    split
    · have := raw_range m (1 - alpha) (tiltOf tilt)
      constructor <;> linarith [this.1, this.2]
    · exact raw_range _ _ _
  · cases h

theorem tiltOf_range (tilt : ℝ) : 0 ≤ tiltOf tilt ∧ tiltOf tilt < 4 := by
  unfold tiltOf
  have h1 := Int.floor_le (tilt / 4)
  have h2 := Int.lt_floor_add_one (tilt / 4)
  constructor <;> linarith

theorem tiltOf_of {tilt : ℝ} (h0 : 0 ≤ tilt) (h1 : tilt < 4) : tiltOf tilt = tilt := by
  unfold tiltOf
  have : ⌊tilt / 4⌋ = 0 := Int.floor_eq_zero_iff.2 ⟨by positivity, by linarith⟩
  rw [this]
  simp

theorem cot_nonneg {t : ℝ} (h : (0 ≤ t ∧ t ≤ 1) ∨ (2 ≤ t ∧ t ≤ 3)) : 0 ≤ Real.cot (Real.pi * t / 2) := by
  have hp := Real.pi_pos
  rw [Real.cot_eq_cos_div_sin]
  rcases h with ⟨h0, h1⟩ | ⟨h0, h1⟩
  · exact div_nonneg (Real.cos_nonneg_of_neg_pi_div_two_le_of_le (by nlinarith) (by nlinarith)) (Real.sin_nonneg_of_nonneg_of_le_pi (by positivity) (by nlinarith))
  · rw [show Real.pi * t / 2 = Real.pi * (t - 2) / 2 + Real.pi by ring, Real.cos_add_pi, Real.sin_add_pi, neg_div_neg_eq]
    have h0' : 0 ≤ t - 2 := by linarith
    exact div_nonneg (Real.cos_nonneg_of_neg_pi_div_two_le_of_le (by nlinarith) (by nlinarith)) (Real.sin_nonneg_of_nonneg_of_le_pi (by positivity) (by nlinarith))

theorem cot_nonpos {t : ℝ} (h : (1 ≤ t ∧ t ≤ 2) ∨ (3 ≤ t ∧ t ≤ 4)) : Real.cot (Real.pi * t / 2) ≤ 0 := by
  have hp := Real.pi_pos
  rw [Real.cot_eq_cos_div_sin]
  rcases h with ⟨h0, h1⟩ | ⟨h0, h1⟩
  · exact div_nonpos_of_nonpos_of_nonneg (Real.cos_nonpos_of_pi_div_two_le_of_le (by nlinarith) (by nlinarith)) (Real.sin_nonneg_of_nonneg_of_le_pi (by positivity) (by nlinarith))
  · rw [show Real.pi * t / 2 = Real.pi * (t - 2) / 2 + Real.pi by ring, Real.cos_add_pi, Real.sin_add_pi, neg_div_neg_eq]
    have h0' : 0 ≤ t - 2 := by linarith
    exact div_nonpos_of_nonpos_of_nonneg (Real.cos_nonpos_of_pi_div_two_le_of_le (by nlinarith) (by nlinarith)) (Real.sin_nonneg_of_nonneg_of_le_pi (by positivity) (by nlinarith))

/-- The tilts at which the cut is not a step -/
def Sloped (t : ℝ) : Prop := 1e-10 ≤ t ∧ 1e-10 ≤ |t - 2| ∧ 1e-10 ≤ |t - 4|

theorem raw_sloped {t : ℝ} (h : Sloped t) (m alpha : ℝ) : rawFilter m alpha t = if t ≤ 1 ∨ (2 < t ∧ t ≤ 3) then
    clip ((m - (1 - alpha)) * Real.cot (Real.pi * t / 2) + alpha) else clip ((m - alpha) * Real.cot (Real.pi * t / 2) + alpha) := by
  unfold rawFilter
  rw [if_neg (by rintro (h' | h'); exacts [absurd h' (not_lt.2 h.1), absurd h' (not_lt.2 h.2.2)]), if_neg (not_lt.2 h.2.1)]
  split <;> congr 1 <;> ring

/-- **C84** (partial: the cut is not a step).  The filter takes the value `alpha` at the frequency `1 - alpha` where it lets the high
frequencies of `b` through, and at the frequency `alpha` where it lets the low frequencies through. -/
theorem C84_pivot_partial (alpha tilt : ℝ) (h0 : 0 ≤ alpha) (h1 : alpha ≤ 1) (h : Sloped (tiltOf tilt)) :
    filterAt (if tiltOf tilt ≤ 1 ∨ 3 < tiltOf tilt then 1 - alpha else alpha) alpha tilt = some alpha := by
  rw [filterAt_some h0 h1, raw_sloped h, raw_sloped h]
  congr 1
  generalize tiltOf tilt = t
  by_cases a1 : t ≤ 1
  · have e1 : t ≤ 1 ∨ 3 < t := Or.inl a1
    have e2 : ¬ t > 2 := by linarith
    have e3 : t ≤ 1 ∨ 2 < t ∧ t ≤ 3 := Or.inl a1
    rw [if_neg e2, if_pos e1, if_pos e3, sub_self, zero_mul, zero_add, clip_of h0 h1]
  · by_cases a2 : t ≤ 2
    · have e1 : ¬ (t ≤ 1 ∨ 3 < t) := by rintro (h | h) <;> linarith
      have e2 : ¬ t > 2 := by linarith
      have e3 : ¬ (t ≤ 1 ∨ 2 < t ∧ t ≤ 3) := by rintro (h | ⟨h, -⟩) <;> linarith
      rw [if_neg e2, if_neg e1, if_neg e3, sub_self, zero_mul, zero_add, clip_of h0 h1]
    · by_cases a3 : t ≤ 3
      · have e1 : ¬ (t ≤ 1 ∨ 3 < t) := by rintro (h | h) <;> linarith
        have e2 : t > 2 := by linarith
        have e3 : t ≤ 1 ∨ 2 < t ∧ t ≤ 3 := Or.inr ⟨e2, a3⟩
        rw [if_pos e2, if_neg e1, if_pos e3, sub_sub_cancel, sub_self, zero_mul, zero_add, clip_of (by linarith) (by linarith), sub_sub_cancel]
      · have e1 : t ≤ 1 ∨ 3 < t := Or.inr (by linarith)
        have e2 : t > 2 := by linarith
        have e3 : ¬ (t ≤ 1 ∨ 2 < t ∧ t ≤ 3) := by rintro (h | ⟨-, h⟩) <;> linarith
        rw [if_pos e2, if_pos e1, if_neg e3, sub_self, zero_mul, zero_add, clip_of (by linarith) (by linarith), sub_sub_cancel]

/-- **C84.**  For a tilt of at most 1 or of more than 3 (up to the last 1e-10) the filter lets the high frequencies of `b` through: it grows
with the frequency. -/
theorem C84_high_partial (alpha tilt m m' f f' : ℝ) (ht : tiltOf tilt ≤ 1 ∨ (3 < tiltOf tilt ∧ 1e-10 ≤ |tiltOf tilt - 4|)) (hm : m ≤ m')
    (hf : filterAt m alpha tilt = some f) (hf' : filterAt m' alpha tilt = some f') : f ≤ f' := by
  have hr := tiltOf_range tilt
  have ha : 0 ≤ alpha ∧ alpha ≤ 1 := by
    by_contra hc
    rw [filterAt, if_neg hc] at hf
    cases hf
  rw [filterAt_some ha.1 ha.2] at hf hf'
  cases hf
  cases hf'
  generalize tiltOf tilt = t at *
  rcases ht with ht | ⟨ht, h4⟩
  · rw [if_neg (by linarith), if_neg (by linarith)]
    by_cases h : t < 1e-10
    · unfold rawFilter
      rw [if_pos (Or.inl h), if_pos (Or.inl h)]
      split
      · rw [if_pos (by linarith)]
      · split <;> norm_num
    · have hs : Sloped t := ⟨not_lt.1 h, by rw [abs_of_neg (by linarith)]; norm_num; linarith, by rw [abs_of_neg (by linarith)]; norm_num; linarith⟩
      rw [raw_sloped hs, raw_sloped hs, if_pos (Or.inl ht), if_pos (Or.inl ht)]
      apply clip_mono
      have := cot_nonneg (Or.inl ⟨hr.1, ht⟩)
      nlinarith
  · rw [if_pos (by linarith), if_pos (by linarith)]
    have hs : Sloped t := ⟨by norm_num; linarith, by rw [abs_of_pos (by linarith)]; norm_num; linarith, h4⟩
    have hn : ¬ (t ≤ 1 ∨ 2 < t ∧ t ≤ 3) := by rintro (h | ⟨-, h⟩) <;> linarith
    rw [raw_sloped hs, raw_sloped hs, if_neg hn, if_neg hn]
    apply sub_le_sub_left
    apply clip_mono
    have := cot_nonpos (Or.inr ⟨ht.le, hr.2.le⟩)
    nlinarith

/-- **C84.**  For a tilt of more than 1 and at most 3 (except just above 2) the filter lets the low frequencies of `b` through: it falls with
the frequency. -/
theorem C84_low_partial (alpha tilt m m' f f' : ℝ) (h1 : 1 < tiltOf tilt) (h3 : tiltOf tilt ≤ 3) (ht : tiltOf tilt ≤ 2 ∨ 1e-10 ≤ |tiltOf tilt - 2|)
    (hm : m ≤ m') (hf : filterAt m alpha tilt = some f) (hf' : filterAt m' alpha tilt = some f') : f' ≤ f := by
  have ha : 0 ≤ alpha ∧ alpha ≤ 1 := by
    by_contra hc
    rw [filterAt, if_neg hc] at hf
    cases hf
  rw [filterAt_some ha.1 ha.2] at hf hf'
  cases hf
  cases hf'
  generalize tiltOf tilt = t at *
  have h4 : ¬ (t < 1e-10 ∨ |t - 4| < 1e-10) := by
    rw [abs_of_neg (by linarith)]
    norm_num
    constructor <;> linarith
  by_cases h2 : |t - 2| < 1e-10
  · have : t ≤ 2 := by
      rcases ht with ht | ht
      · exact ht
      · linarith
    rw [if_neg (by linarith), if_neg (by linarith)]
    unfold rawFilter
    rw [if_neg h4, if_neg h4, if_pos h2, if_pos h2]
    split
    · rw [if_pos (by linarith)]
    · split <;> norm_num
  · push Not at h4 h2
    have hs : Sloped t := ⟨h4.1, h2, h4.2⟩
    by_cases ht2 : t > 2
    · rw [if_pos ht2, if_pos ht2, raw_sloped hs, raw_sloped hs, if_pos (Or.inr ⟨ht2, h3⟩), if_pos (Or.inr ⟨ht2, h3⟩)]
      apply sub_le_sub_left
      apply clip_mono
      have := cot_nonneg (Or.inr ⟨ht2.le, h3⟩)
      nlinarith
    · have hn : ¬ (t ≤ 1 ∨ 2 < t ∧ t ≤ 3) := by rintro (h | ⟨h, -⟩) <;> linarith
      rw [if_neg ht2, if_neg ht2, raw_sloped hs, raw_sloped hs, if_neg hn, if_neg hn]
      apply clip_mono
      have := cot_nonpos (Or.inl ⟨h1.le, not_lt.1 ht2⟩)
      nlinarith

/-- **C84.**  For a tilt between 0 and 1 more of `b` is let through at every frequency as `alpha` grows. -/
theorem C84_alpha (alpha alpha' tilt m f f' : ℝ) (ht : tiltOf tilt ≤ 1) (hle : alpha ≤ alpha')
    (hf : filterAt m alpha tilt = some f) (hf' : filterAt m alpha' tilt = some f') : f ≤ f' := by
  have hr := tiltOf_range tilt
  have ha : 0 ≤ alpha ∧ alpha ≤ 1 := by
    by_contra hc
    rw [filterAt, if_neg hc] at hf
    cases hf
  have ha' : 0 ≤ alpha' ∧ alpha' ≤ 1 := by
    by_contra hc
    rw [filterAt, if_neg hc] at hf'
    cases hf'
  rw [filterAt_some ha.1 ha.2] at hf
  rw [filterAt_some ha'.1 ha'.2] at hf'
  cases hf
  cases hf'
  generalize tiltOf tilt = t at *
  rw [if_neg (by linarith), if_neg (by linarith)]
  by_cases h : t < 1e-10
  · unfold rawFilter
    rw [if_pos (Or.inl h), if_pos (Or.inl h)]
    split
    · rw [if_pos (by linarith)]
    · split <;> norm_num
  · have hs : Sloped t := ⟨not_lt.1 h, by rw [abs_of_neg (by linarith)]; norm_num; linarith, by rw [abs_of_neg (by linarith)]; norm_num; linarith⟩
    rw [raw_sloped hs, raw_sloped hs, if_pos (Or.inl ht), if_pos (Or.inl ht)]
    apply clip_mono
    have := cot_nonneg (Or.inl ⟨hr.1, ht⟩)
    nlinarith

theorem cot_le {t : ℝ} (h0 : 3 / 2 ≤ t) (h1 : t < 2) : Real.cot (Real.pi * t / 2) ≤ -1 := by
  have hp := Real.pi_pos
  have hs : 0 < Real.sin (Real.pi * t / 2) := Real.sin_pos_of_pos_of_lt_pi (by positivity) (by nlinarith)
  rw [Real.cot_eq_cos_div_sin, div_le_iff₀ hs, neg_one_mul]
  have e1 : Real.cos (Real.pi * t / 2) = -Real.cos (Real.pi - Real.pi * t / 2) := by rw [Real.cos_pi_sub, neg_neg]
  have e2 : Real.sin (Real.pi * t / 2) = Real.cos (Real.pi / 2 - (Real.pi - Real.pi * t / 2)) := by rw [Real.cos_pi_div_two_sub, Real.sin_pi_sub]
  rw [e1, e2, neg_le_neg_iff]
  apply Real.cos_le_cos_of_nonneg_of_le_pi
  · nlinarith
  · nlinarith
  · nlinarith

/-- **C84** is false of a tilt of 2: for every tilt from 3/2 up to, but not including, 2 (and not closer than 1e-10 to it), the middle
frequency stays as in `a` when `alpha` is a quarter, but for a tilt of 2 it is taken from `b`. -/
theorem C84_two_false : (∀ t : ℝ, 3 / 2 ≤ t → t ≤ 2 - 1e-10 → filterAt (1 / 2) (1 / 4) t = some 0) ∧ filterAt (1 / 2) (1 / 4) 2 = some 1 := by
  refine ⟨fun t h0 h1 => ?_, ?_⟩
  · have h1' : t < 2 := by norm_num at h1; linarith
    have hs : Sloped t := ⟨by norm_num; linarith, by rw [abs_of_neg (by linarith)]; norm_num at h1 ⊢; linarith,
      by rw [abs_of_neg (by linarith)]; norm_num; linarith⟩
    have e3 : ¬ (t ≤ 1 ∨ 2 < t ∧ t ≤ 3) := by rintro (h | ⟨h, -⟩) <;> linarith
    rw [filterAt_some (by norm_num) (by norm_num), tiltOf_of (by linarith) (by linarith), if_neg (by linarith), raw_sloped hs, if_neg e3]
    have := cot_le h0 h1'
    unfold clip
    rw [max_eq_right (by linarith), min_eq_left zero_le_one]
  · rw [filterAt_some (by norm_num) (by norm_num), tiltOf_of (by norm_num) (by norm_num), if_neg (by norm_num)]
    unfold rawFilter
    rw [if_neg (by norm_num), if_pos (by norm_num), if_pos (by norm_num)]

/-- **C84** is false of a tilt just below 0 (or 4): a tilt of 0 lets the high frequencies of `b` through, one of -1e-11 the low ones. -/
theorem C84_four_false : filterAt 0 (1 / 2) 0 = some 0 ∧ filterAt 1 (1 / 2) 0 = some 1 ∧
    filterAt 0 (1 / 2) (-1e-11) = some 1 ∧ filterAt 1 (1 / 2) (-1e-11) = some 0 := by
  have h : tiltOf (-1e-11) = 4 - 1e-11 := by
    unfold tiltOf
    rw [show ⌊(-1e-11 : ℝ) / 4⌋ = -1 by rw [Int.floor_eq_iff]; norm_num]
    norm_num
  refine ⟨?_, ?_, ?_, ?_⟩
  · rw [filterAt_some (by norm_num) (by norm_num), tiltOf_of (by norm_num) (by norm_num), if_neg (by norm_num)]
    unfold rawFilter
    rw [if_pos (by norm_num), if_neg (by norm_num)]
  · rw [filterAt_some (by norm_num) (by norm_num), tiltOf_of (by norm_num) (by norm_num), if_neg (by norm_num)]
    unfold rawFilter
    rw [if_pos (by norm_num), if_pos (by norm_num)]
  · rw [filterAt_some (by norm_num) (by norm_num), h, if_pos (by norm_num)]
    unfold rawFilter
    rw [if_pos (Or.inr (by norm_num)), if_neg (by norm_num)]
    norm_num
  · rw [filterAt_some (by norm_num) (by norm_num), h, if_pos (by norm_num)]
    unfold rawFilter
    rw [if_pos (Or.inr (by norm_num)), if_pos (by norm_num)]
    norm_num

/-! ## The frequencies -/

theorem linspace_length (x y : ℝ) (n : ℕ) : (linspace x y n).length = n := by simp [linspace]

theorem linspace_getD (x y : ℝ) (n i : ℕ) (h : i < n) : (linspace x y n).getD i 0 = if n = 1 then x else x + i * ((y - x) / (n - 1)) := by
  unfold linspace
  rw [List.getD_eq_getElem?_getD, List.getElem?_map, List.getElem?_range h]
  rfl

theorem getD_map' (f : ℝ → ℝ) (l : List ℝ) (i : ℕ) (d : ℝ) : (l.map f).getD i (f d) = f (l.getD i d) := by
  rw [List.getD_eq_getElem?_getD, List.getD_eq_getElem?_getD, List.getElem?_map]
  cases l[i]? <;> rfl

theorem getD_left (l l' : List ℝ) (i : ℕ) (d : ℝ) (h : i < l.length) : (l ++ l').getD i d = l.getD i d := by
  rw [List.getD_eq_getElem?_getD, List.getD_eq_getElem?_getD, List.getElem?_append_left h]

theorem getD_right (l l' : List ℝ) (i : ℕ) (d : ℝ) (h : l.length ≤ i) : (l ++ l').getD i d = l'.getD (i - l.length) d := by
  rw [List.getD_eq_getElem?_getD, List.getD_eq_getElem?_getD, List.getElem?_append_right h]

/-- The frequency of an index in a dimension, as a part of the highest: the last dimension holds the frequencies from zero to the highest, the
others those of `numpy.fft.fftfreq` -/
noncomputable def freqOf (last : Bool) (s i : ℕ) : ℝ := if last then i / (s - 1 : ℕ) else (min i (s - i) : ℕ) / (s / 2 : ℕ)

/-- **C84.**  The gradients are the absolute frequencies, in every dimension. -/
theorem C84_frequency (last : Bool) (s i : ℕ) (h : i < s) : (gradient last s).getD i 0 = freqOf last s i := by
  unfold gradient freqOf
  by_cases h1 : s = 1
  · subst h1
    obtain rfl : i = 0 := by omega
    rw [if_pos (Or.inr rfl), linspace_getD _ _ _ _ h]
    cases last <;> simp
  · cases last with
    | true =>
      rw [if_pos (Or.inl rfl), if_pos rfl, linspace_getD _ _ _ _ h, if_neg h1, Nat.cast_sub (by omega)]
      simp [div_eq_mul_inv]
    | false =>
      rw [if_neg (by simp [h1]), if_neg (by simp)]
      have hg : ∀ l : List ℝ, (l.map (· / ((s / 2 : ℕ) : ℝ))).getD i 0 = l.getD i 0 / ((s / 2 : ℕ) : ℝ) := by
        intro l
        have := getD_map' (· / ((s / 2 : ℕ) : ℝ)) l i 0
        simpa only [zero_div] using this
      rw [hg]
      congr 1
      by_cases h2 : i < s - s / 2
      · rw [getD_left _ _ _ _ (by rw [linspace_length]; exact h2), linspace_getD _ _ _ _ h2]
        by_cases h3 : s - s / 2 = 1
        · rw [if_pos h3]
          have : i = 0 := by omega
          subst this
          simp
        · rw [if_neg h3, show min i (s - i) = i by omega, Nat.cast_sub (by omega)]
          have h4 : ((s : ℝ) - (s / 2 : ℕ) - 1) = ((s - 1) / 2 : ℕ) := by
            rw [← Nat.cast_sub (by omega), ← Nat.cast_one, ← Nat.cast_sub (by omega)]
            congr 1
            omega
          rw [h4, sub_zero, div_self, mul_one, zero_add]
          rw [Nat.cast_ne_zero]
          omega
      · rw [getD_right _ _ _ _ (by rw [linspace_length]; omega), linspace_length, linspace_getD _ _ _ _ (by omega)]
        by_cases h3 : s / 2 = 1
        · rw [if_pos h3, h3]
          congr 1
          omega
        · rw [if_neg h3, show min i (s - i) = s - i by omega]
          have h5 : ((s / 2 : ℕ) : ℝ) - 1 ≠ 0 := by
            rw [sub_ne_zero, Ne, Nat.cast_eq_one]
            exact h3
          rw [show (1 - ((s / 2 : ℕ) : ℝ)) / ((s / 2 : ℕ) - 1) = -1 by rw [← neg_sub, neg_div, div_self h5], Nat.cast_sub (by omega), Nat.cast_sub h.le,
            Nat.cast_sub (by omega)]
          ring

theorem freqOf_range (last : Bool) (s i : ℕ) (h : i < s) : 0 ≤ freqOf last s i ∧ freqOf last s i ≤ 1 := by
  unfold freqOf
  cases last
  · rw [if_neg (by simp)]
    refine ⟨by positivity, div_le_one_of_le₀ ?_ (by positivity)⟩
    exact_mod_cast (by omega : min i (s - i) ≤ s / 2)
  · rw [if_pos rfl]
    refine ⟨by positivity, div_le_one_of_le₀ ?_ (by positivity)⟩
    exact_mod_cast (by omega : i ≤ s - 1)

/-- **C84.**  A frequency and its negative are treated alike: away from the last dimension, of which only one half is stored. -/
theorem C84_symmetric (s i : ℕ) (h : i < s) : freqOf false s ((s - i) % s) = freqOf false s i := by
  unfold freqOf
  rw [if_neg (by simp), if_neg (by simp)]
  congr 2
  by_cases h0 : i = 0
  · subst h0
    simp
  · rw [Nat.mod_eq_of_lt (by omega)]
    omega

/-- The frequencies of an index -/
noncomputable def freqs : List ℕ → List ℕ → List ℝ
  | [s], [i] => [freqOf true s i]
  | s :: t, i :: is => freqOf false s i :: freqs t is
  | _, _ => []

/-- An index into a tensor of shape `s` -/
def Index (s i : List ℕ) : Prop := List.Forall₂ (· < ·) i s

theorem pick_freqs {s i : List ℕ} (h : Index s i) : pick (gradients s) i = freqs s i := by
  unfold Index at h
  induction h with
  | nil => rfl
  | @cons x y xs ys hxy ht ih =>
    cases ht with
    | nil => simp only [gradients, pick, freqs, C84_frequency _ _ _ hxy]
    | @cons x' y' xs' ys' hxy' ht' =>
      simp only [gradients, pick, freqs, C84_frequency _ _ _ hxy]
      rw [← ih]

theorem freqs_range {s i : List ℕ} (h : Index s i) : ∀ x ∈ freqs s i, 0 ≤ x ∧ x ≤ 1 := by
  unfold Index at h
  induction h with
  | nil => simp [freqs]
  | @cons x y xs ys hxy ht ih =>
    cases ht with
    | nil => simpa [freqs] using freqOf_range true y x hxy
    | @cons x' y' xs' ys' hxy' ht' =>
      simp only [freqs, List.mem_cons]
      rintro z (rfl | hz)
      · exact freqOf_range _ _ _ hxy
      · exact ih _ hz

theorem freqs_length {s i : List ℕ} (h : Index s i) : (freqs s i).length = s.length := by
  unfold Index at h
  induction h with
  | nil => rfl
  | @cons x y xs ys hxy ht ih =>
    cases ht with
    | nil => rfl
    | @cons x' y' xs' ys' hxy' ht' =>
      simp only [freqs, List.length_cons]
      rw [ih]
      rfl

theorem sum_range (l : List ℝ) (h : ∀ x ∈ l, 0 ≤ x ∧ x ≤ 1) : 0 ≤ (l.map (· ^ 2)).sum ∧ (l.map (· ^ 2)).sum ≤ (l.length : ℝ) := by
  induction l with
  | nil => simp
  | cons x l ih =>
    have h1 := ih fun y hy => h y (List.mem_cons_of_mem _ hy)
    have h2 := h x List.mem_cons_self
    simp only [List.map_cons, List.sum_cons, List.length_cons, Nat.cast_add, Nat.cast_one]
    constructor
    · nlinarith
    · nlinarith

/-- **C84.**  The mesh is the root of the mean of the squares of the frequencies; it lies in the unit interval. -/
theorem C84_mesh {s i : List ℕ} (h : Index s i) (hs : s ≠ []) :
    mesh s i = Real.sqrt (((freqs s i).map (· ^ 2)).sum / s.length) ∧ 0 ≤ mesh s i ∧ mesh s i ≤ 1 := by
  have hm : mesh s i = Real.sqrt (((freqs s i).map (· ^ 2)).sum / s.length) := by
    unfold mesh
    rw [pick_freqs h]
    split
    · rfl
    · have hl : s.length = 1 := by
        have := List.length_pos_iff.2 hs
        omega
      have hf := freqs_length h
      have hr := freqs_range h
      rw [hl] at hf
      obtain ⟨x, hx⟩ := List.length_eq_one_iff.1 hf
      rw [hx] at hr ⊢
      rw [hl]
      simp [Real.sqrt_sq (hr x (by simp)).1]
  refine ⟨hm, hm ▸ Real.sqrt_nonneg _, ?_⟩
  rw [hm, Real.sqrt_le_one]
  apply div_le_one_of_le₀ _ (by positivity)
  rw [← freqs_length h]
  exact (sum_range _ (freqs_range h)).2

/-! ## The merge -/

variable {ι κ : Type} (F : (ι → ℝ) →ₗ[ℝ] (κ → ℂ)) (G : (κ → ℂ) →ₗ[ℝ] (ι → ℝ)) (freq : κ → ℝ) (dims : ℕ) (near : (ι → ℝ) → (ι → ℝ) → Bool)

/-- **C84.**  `alpha = 0` gives `a`, `alpha = 1` gives `b`, and a tilt of 1 the weighted sum. -/
theorem C84_ends (a b : ι → ℝ) (alpha tilt : ℝ) : crossover F G freq dims near a b 0 tilt = some a ∧ crossover F G freq dims near a b 1 tilt = some b ∧
    crossover F G freq dims near a b alpha 1 = some fun i => (1 - alpha) * a i + alpha * b i := by
  unfold crossover
  refine ⟨if_pos rfl, by rw [if_neg one_ne_zero, if_pos rfl], ?_⟩
  split
  · subst alpha
    simp
  · split
    · subst alpha
      simp
    · rw [if_pos rfl]
      rfl

/-- **C84.**  Nothing is lost: merging `a` with `b` and `b` with `a` under the same options splits their sum. -/
theorem C84_swap (hG : ∀ x, G (F x) = x) (hn : ∀ x y, near x y = near y x) (a b r r' : ι → ℝ) (alpha tilt : ℝ)
    (h : crossover F G freq dims near a b alpha tilt = some r) (h' : crossover F G freq dims near b a alpha tilt = some r') : r + r' = a + b := by
  unfold crossover at h h'
  rw [hn b a] at h'
  split at h
  · rw [if_pos ‹_›] at h'
    cases h
    cases h'
    rfl
  · rw [if_neg ‹_›] at h'
    split at h
    · rw [if_pos ‹_›] at h'
      cases h
      cases h'
      exact add_comm _ _
    · rw [if_neg ‹_›] at h'
      split at h
      · rw [if_pos ‹_›] at h'
        cases h
        cases h'
        funext i
        simp only [weightedSum, Pi.add_apply]
        ring
      · rw [if_neg ‹_›] at h'
        split at h
        · rw [if_pos ‹_›] at h'
          cases h
          cases h'
          funext i
          simp only [weightedSum, Pi.add_apply]
          ring
        · rw [if_neg ‹_›] at h'
          split at h
          · rw [if_pos ‹_›] at h'
            cases h
            cases h'
            rw [← map_add, ← hG (a + b), map_add F]
            refine congrArg G ?_
            funext k
            simp only [Pi.add_apply]
            push_cast
            ring
          · cases h

/-- **C84.**  Two equal tensors give the same tensor. -/
theorem C84_same (hG : ∀ x, G (F x) = x) (a r : ι → ℝ) (alpha tilt : ℝ) (h : crossover F G freq dims near a a alpha tilt = some r) : r = a := by
  have hw : ∀ t, weightedSum a a t = a := by
    intro t
    funext i
    simp only [weightedSum]
    ring
  unfold crossover at h
  split at h
  · cases h; rfl
  · split at h
    · cases h; rfl
    · split at h
      · cases h; exact hw _
      · split at h
        · cases h; exact hw _
        · split at h
          · cases h
            refine Eq.trans (congrArg G ?_) (hG a)
            funext k
            push_cast
            ring
          · cases h

/-- **C84.**  In the general case the result is `a`, plus the difference of `b` and `a` filtered. -/
theorem C84_filter (hG : ∀ x, G (F x) = x) (a b : ι → ℝ) (alpha tilt : ℝ) (h0 : 0 < alpha) (h1 : alpha < 1) (ht : tilt ≠ 1) (hd : dims ≠ 0)
    (hn : near a b = false) (f : κ → ℝ) (hf : ∀ k, filterAt (freq k) alpha tilt = some (f k)) :
    crossover F G freq dims near a b alpha tilt = some (a + G fun k => (f k : ℂ) * F (b - a) k) := by
  unfold crossover
  rw [if_neg h0.ne', if_neg h1.ne, if_neg ht, if_neg (by simp [hd, hn]), if_pos ⟨h0.le, h1.le⟩]
  congr 1
  nth_rewrite 2 [← hG a]
  rw [← map_add, map_sub]
  congr 1
  funext k
  rw [hf k]
  simp only [Option.getD_some, Pi.add_apply, Pi.sub_apply]
  push_cast
  ring

/-- **C84** is false of a parameter that is a single number, and of parameters that are nearly equal: `alpha` is ignored, and a weighted sum is
taken whose weight is the tilt.  With the default tilt of 0 the result is `a`, and with a tilt of 3 it lies beyond `b`. -/
theorem C84_number_false (a b : ι → ℝ) (alpha : ℝ) (h0 : 0 < alpha) (h1 : alpha < 1) (hd : dims = 0 ∨ near a b = true) :
    crossover F G freq dims near a b alpha 0 = some a ∧ crossover F G freq dims near a b alpha 3 = some fun i => b i + 2 * (b i - a i) := by
  unfold crossover
  rw [if_neg h0.ne', if_neg h1.ne, if_neg zero_ne_one, if_pos hd, if_neg h0.ne', if_neg h1.ne, if_neg (by norm_num), if_pos hd]
  constructor
  · congr 1
    funext i
    simp [weightedSum]
  · congr 1
    funext i
    simp only [weightedSum]
    ring

/-! ## Examples -/

/-- Reading the tensor as its own spectrum meets the assumptions on the transforms. -/
example : ∃ (F : (Fin 4 → ℝ) →ₗ[ℝ] (Fin 4 → ℂ)) (G : (Fin 4 → ℂ) →ₗ[ℝ] (Fin 4 → ℝ)), ∀ x, G (F x) = x :=
  ⟨{ toFun := fun x i => (x i : ℂ), map_add' := fun x y => by funext i; simp, map_smul' := fun r x => by funext i; simp },
   { toFun := fun y i => (y i).re, map_add' := fun x y => by funext i; simp, map_smul' := fun r x => by funext i; simp }, fun x => by funext i; simp⟩

/-- Half a tilt: a slope of 45 degrees through (3/4, 1/4) -/
example : filterAt (3 / 4) (1 / 4) (1 / 2) = some (1 / 4) := by
  have ht : tiltOf (1 / 2) = 1 / 2 := tiltOf_of (by norm_num) (by norm_num)
  have := C84_pivot_partial (1 / 4) (1 / 2) (by norm_num) (by norm_num) (by rw [ht, Sloped]; norm_num)
  rw [ht, if_pos (by norm_num)] at this
  rw [show (3 / 4 : ℝ) = 1 - 1 / 4 by norm_num]
  exact this

/-- The frequencies of five and of six entries -/
example : (gradient false 5).getD 3 0 = 1 ∧ (gradient false 6).getD 4 0 = 2 / 3 := by
  rw [C84_frequency _ _ _ (by norm_num), C84_frequency _ _ _ (by norm_num)]
  norm_num [freqOf]

end Verif.Crossover
