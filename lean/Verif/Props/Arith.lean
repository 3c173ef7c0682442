import Verif.Model.Arith
import Verif.Spec.Arith
import Verif.Model.Float
import Mathlib.Tactic.Linarith
import Mathlib.Tactic.FieldSimp
import Mathlib.Tactic.NormNum
import Mathlib.Tactic.Ring
import Mathlib.Tactic.Positivity

/-!
# C51, C53, C54, C57: averages, clamp, masks
-/
namespace Verif.Arith
open Spec
set_option linter.unusedSectionVars false

variable {K : Type} [Field K] [LinearOrder K] [IsStrictOrderedRing K] {ι : Type}

/-! ## C53 -/

/-- **C53.**  For an `alpha` that is 0 everywhere `weighted_sum` gives what reading `a` gives, and never reads
`b`, so that `b` may lack the key. -/
theorem C53_zero {E : Type} (a b : Except E (ι → K)) : weightedSum a b (fun _ => 0) = a := by
  unfold weightedSum
  rw [if_pos fun i => by unfold close; simp]

/-- **C53.**  For an `alpha` that is 1 everywhere it gives what reading `b` gives, and never reads `a`. -/
theorem C53_one {E : Type} [Nonempty ι] (a b : Except E (ι → K)) : weightedSum a b (fun _ => 1) = b := by
  unfold weightedSum
  rw [if_neg, if_pos fun i => by unfold close; simp; positivity]
  intro h
  have := h (Classical.arbitrary ι)
  unfold close at this
  norm_num at this

/-- **C53.**  For every `alpha` and two readable tensors the result is within `1.001e-5 · |a - b|` of
`(1 - alpha) a + alpha b`, entry by entry. -/
theorem C53_near {E : Type} (x y alpha : ι → K) : ∃ z, weightedSum (E := E) (.ok x) (.ok y) alpha = .ok z ∧
    ∀ i, |z i - ((1 - alpha i) * x i + alpha i * y i)| ≤ 1001 / 10 ^ 8 * |x i - y i| := by
  unfold weightedSum
  split_ifs with h0 h1
  · refine ⟨x, rfl, fun i => ?_⟩
    have h := h0 i
    unfold close at h
    rw [show x i - ((1 - alpha i) * x i + alpha i * y i) = alpha i * (x i - y i) by ring, abs_mul]
    refine mul_le_mul_of_nonneg_right ?_ (abs_nonneg _)
    rw [sub_zero, abs_zero, mul_zero, add_zero] at h
    refine h.trans (by norm_num)
  · refine ⟨y, rfl, fun i => ?_⟩
    have h := h1 i
    unfold close at h
    rw [show y i - ((1 - alpha i) * x i + alpha i * y i) = (alpha i - 1) * (x i - y i) by ring, abs_mul]
    refine mul_le_mul_of_nonneg_right ?_ (abs_nonneg _)
    rw [abs_one, mul_one] at h
    refine h.trans (by norm_num)
  · refine ⟨_, rfl, fun i => ?_⟩
    unfold wsum
    rw [sub_self, abs_zero]
    positivity

example : ∃ z, weightedSum (E := Unit) (K := ℚ) (ι := Unit) (.ok fun _ => 2) (.ok fun _ => 6) (fun _ => 1 / 4) = .ok z ∧
    ∀ i, |z i - ((1 - 1 / 4) * 2 + 1 / 4 * 6)| ≤ 1001 / 10 ^ 8 * |(2 : ℚ) - 6| := C53_near _ _ _

/-- **C53.**  `n_average` does not depend on the order of the models. -/
theorem C53_average_perm (models models' : List (ι → K)) (h : models.Perm models') : nAverage models = nAverage models' := by
  unfold nAverage
  have e : models = [] ↔ models' = [] := by
    constructor
    · rintro rfl; exact h.nil_eq.symm
    · rintro rfl; exact h.eq_nil
  simp only [e]
  split_ifs
  · rfl
  · congr 1
    funext i
    rw [(h.map fun m => m i).sum_eq, h.length_eq]

theorem mean_between {xs : List K} {lo hi : K} (hne : xs ≠ []) (h : ∀ x ∈ xs, lo ≤ x ∧ x ≤ hi) :
    lo ≤ xs.sum / xs.length ∧ xs.sum / xs.length ≤ hi := by
  have hl : (0 : K) < xs.length := by exact_mod_cast List.length_pos_iff.mpr hne
  constructor
  · rw [le_div_iff₀ hl]
    have := List.card_nsmul_le_sum xs lo fun x hx => (h x hx).1
    rw [nsmul_eq_mul] at this
    linarith
  · rw [div_le_iff₀ hl]
    have := List.sum_le_card_nsmul xs hi fun x hx => (h x hx).2
    rw [nsmul_eq_mul] at this
    linarith

/-- **C53.**  Every entry of `n_average` lies between the smallest and the largest of that entry over the
models, and the average of no models is an error. -/
theorem C53_average_between (models : List (ι → K)) (hne : models ≠ []) : ∃ z, nAverage models = some z ∧
    ∀ i lo hi, (∀ m ∈ models, lo ≤ m i ∧ m i ≤ hi) → lo ≤ z i ∧ z i ≤ hi := by
  unfold nAverage
  rw [if_neg hne]
  refine ⟨_, rfl, fun i lo hi h => ?_⟩
  have := mean_between (xs := models.map fun m => m i) (lo := lo) (hi := hi) (by simpa using hne) (by simpa using h)
  simpa using this

example : nAverage (K := ℚ) (ι := Bool) [fun i => if i then 1 else 2, fun i => if i then 3 else 8] =
    some fun i => if i then 2 else 5 := by
  simp only [nAverage, reduceCtorEq, if_false]
  congr 1
  funext i
  cases i <;> norm_num

/-! ## C54 -/

/-- **C54.**  Adding the difference of `b` and `a` to `a` gives `b`, and the three-model form with a
factor gives `a + alpha (b - c)`, in exact arithmetic. -/
theorem C54_inverse (a b c alpha : ι → K) :
    addDifference a (subtract b a) (fun _ => 1) = b ∧
    addDifference a (subtract b c) alpha = fun i => a i + alpha i * (b i - c i) := by
  constructor <;> funext i <;> simp only [addDifference, subtract] <;> ring

example : addDifference (K := ℚ) (ι := Unit) (fun _ => 3) (subtract (fun _ => 7) (fun _ => 3)) (fun _ => 1) = fun _ => 7 :=
  (C54_inverse _ _ (fun _ => 0) (fun _ => 0)).1

/-- **C54 is false in float32**: for `a = 1` and `b = 2⁻³⁰` the difference is rounded to `-1`, and adding it to `a`
gives 0. -/
theorem C54_float32_false : ∃ d s : Float.Dy,
    Float.f32 ⟨1 - 2 ^ 30, -30⟩ = some d ∧ d = ⟨-2 ^ 24, -24⟩ ∧ Float.f32 ⟨2 ^ 24 + d.m, -24⟩ = some s ∧ s.m = 0 :=
  ⟨⟨-2 ^ 24, -24⟩, ⟨0, -24⟩, by decide +kernel, rfl, by decide +kernel, rfl⟩

/-! ## C51 -/

theorem foldl_max_spec (bs : List K) : ∀ b : K, (∀ x ∈ b :: bs, x ≤ bs.foldl max b) ∧ bs.foldl max b ∈ b :: bs := by
  induction bs with
  | nil => intro b; simp
  | cons c bs ih =>
    intro b
    obtain ⟨h1, h2⟩ := ih (max b c)
    rw [List.foldl_cons]
    constructor
    · intro x hx
      simp only [List.mem_cons] at hx h1
      rcases hx with rfl | rfl | hx
      · exact (le_max_left _ _).trans (h1 _ (.inl rfl))
      · exact (le_max_right _ _).trans (h1 _ (.inl rfl))
      · exact h1 _ (.inr hx)
    · simp only [List.mem_cons] at h2 ⊢
      rcases h2 with h2 | h2
      · rcases max_choice b c with e | e
        · exact .inl (h2.trans e)
        · exact .inr (.inl (h2.trans e))
      · exact .inr (.inr h2)

theorem foldl_min_spec (bs : List K) : ∀ b : K, (∀ x ∈ b :: bs, bs.foldl min b ≤ x) ∧ bs.foldl min b ∈ b :: bs := by
  induction bs with
  | nil => intro b; simp
  | cons c bs ih =>
    intro b
    obtain ⟨h1, h2⟩ := ih (min b c)
    rw [List.foldl_cons]
    constructor
    · intro x hx
      simp only [List.mem_cons] at hx h1
      rcases hx with rfl | rfl | hx
      · exact (h1 _ (.inl rfl)).trans (min_le_left _ _)
      · exact (h1 _ (.inl rfl)).trans (min_le_right _ _)
      · exact h1 _ (.inr hx)
    · simp only [List.mem_cons] at h2 ⊢
      rcases h2 with h2 | h2
      · rcases min_choice b c with e | e
        · exact .inl (h2.trans e)
        · exact .inr (.inl (h2.trans e))
      · exact .inr (.inr h2)

/-- Folding `stepUp` gives the smallest of the start value and the bounds that are not below the average. -/
theorem foldl_stepUp (avg : K) (bs : List K) : ∀ s : K, avg ≤ s →
    avg ≤ bs.foldl (stepUp avg) s ∧ bs.foldl (stepUp avg) s ≤ s ∧ (∀ b ∈ bs, avg ≤ b → bs.foldl (stepUp avg) s ≤ b) ∧
    (bs.foldl (stepUp avg) s = s ∨ bs.foldl (stepUp avg) s ∈ bs) := by
  induction bs with
  | nil => intro s hs; simp [hs]
  | cons c bs ih =>
    intro s hs
    rw [List.foldl_cons]
    by_cases h : s ≥ c ∧ c ≥ avg
    · have e : stepUp avg s c = c := if_pos h
      rw [e]
      obtain ⟨h1, h2, h3, h4⟩ := ih c h.2
      refine ⟨h1, h2.trans h.1, fun b hb hab => ?_, ?_⟩
      · rcases List.mem_cons.mp hb with rfl | hb
        · exact h2
        · exact h3 b hb hab
      · rcases h4 with h4 | h4
        · exact .inr (List.mem_cons.mpr (.inl h4))
        · exact .inr (List.mem_cons_of_mem _ h4)
    · have e : stepUp avg s c = s := if_neg h
      rw [e]
      obtain ⟨h1, h2, h3, h4⟩ := ih s hs
      refine ⟨h1, h2, fun b hb hab => ?_, ?_⟩
      · rcases List.mem_cons.mp hb with rfl | hb
        · rcases le_total b s with hbs | hbs
          · exact absurd ⟨hbs, hab⟩ h
          · exact h2.trans hbs
        · exact h3 b hb hab
      · rcases h4 with h4 | h4
        · exact .inl h4
        · exact .inr (List.mem_cons_of_mem _ h4)

theorem foldl_stepDown (avg : K) (bs : List K) : ∀ s : K, s ≤ avg →
    bs.foldl (stepDown avg) s ≤ avg ∧ s ≤ bs.foldl (stepDown avg) s ∧ (∀ b ∈ bs, b ≤ avg → b ≤ bs.foldl (stepDown avg) s) ∧
    (bs.foldl (stepDown avg) s = s ∨ bs.foldl (stepDown avg) s ∈ bs) := by
  induction bs with
  | nil => intro s hs; simp [hs]
  | cons c bs ih =>
    intro s hs
    rw [List.foldl_cons]
    by_cases h : s ≤ c ∧ c ≤ avg
    · have e : stepDown avg s c = c := if_pos h
      rw [e]
      obtain ⟨h1, h2, h3, h4⟩ := ih c h.2
      refine ⟨h1, h.1.trans h2, fun b hb hab => ?_, ?_⟩
      · rcases List.mem_cons.mp hb with rfl | hb
        · exact h2
        · exact h3 b hb hab
      · rcases h4 with h4 | h4
        · exact .inr (List.mem_cons.mpr (.inl h4))
        · exact .inr (List.mem_cons_of_mem _ h4)
    · have e : stepDown avg s c = s := if_neg h
      rw [e]
      obtain ⟨h1, h2, h3, h4⟩ := ih s hs
      refine ⟨h1, h2, fun b hb hab => ?_, ?_⟩
      · rcases List.mem_cons.mp hb with rfl | hb
        · rcases le_total s b with hbs | hbs
          · exact absurd ⟨hbs, hab⟩ h
          · exact hbs.trans h2
        · exact h3 b hb hab
      · rcases h4 with h4 | h4
        · exact .inl h4
        · exact .inr (List.mem_cons_of_mem _ h4)

/-- `x` is `a` moved into `[lo, hi]` by the shortest way. -/
def _root_.Verif.Arith.Spec.Clamped (a lo hi x : K) : Prop :=
  lo ≤ x ∧ x ≤ hi ∧ (lo ≤ a → a ≤ hi → x = a) ∧ (a < lo → x = lo) ∧ (hi < a → x = hi)

theorem clamped_min_max {a lo hi : K} (h : lo ≤ hi) : Clamped a lo hi (min (max a lo) hi) := by
  refine ⟨le_min (le_max_right _ _) h, min_le_right _ _, fun h1 h2 => ?_, fun h1 => ?_, fun h1 => ?_⟩
  · rw [max_eq_left h1, min_eq_left h2]
  · rw [max_eq_right h1.le, min_eq_left h]
  · exact min_eq_right (h1.le.trans (le_max_left _ _))

/-- **C51.**  With stiffness 0, `clamp` moves a value between the smallest and the largest bound: a value
already there is unchanged, others become the nearer of the two. -/
theorem C51_plain (a : K) (bounds : List K) (hne : bounds ≠ []) :
    ∃ lo hi x, lo ∈ bounds ∧ hi ∈ bounds ∧ (∀ b ∈ bounds, lo ≤ b ∧ b ≤ hi) ∧ clamp a bounds 0 = some x ∧ Clamped a lo hi x := by
  obtain ⟨b, bs, rfl⟩ := List.exists_cons_of_ne_nil hne
  obtain ⟨h1, h2⟩ := foldl_max_spec bs b
  obtain ⟨h3, h4⟩ := foldl_min_spec bs b
  refine ⟨_, _, _, h4, h2, fun x hx => ⟨h3 x hx, h1 x hx⟩, ?_, clamped_min_max (h3 _ h2)⟩
  simp [clamp, maxOf, minOf]

/-- **C51.**  With a stiffness `s` in `[0, 1]` the lower end moves from the smallest bound to the largest bound
not above the average of the bounds, the upper end from the largest to the smallest bound not below it, both
linearly in `s`; the value is moved between the two ends and so stays within the bounds. -/
theorem C51_stiff (a : K) (bounds : List K) (s : K) (hne : bounds ≠ []) (hs0 : 0 ≤ s) (hs1 : s ≤ 1) :
    ∃ lo lo' hi' hi x, lo ∈ bounds ∧ lo' ∈ bounds ∧ hi' ∈ bounds ∧ hi ∈ bounds ∧ (∀ b ∈ bounds, lo ≤ b ∧ b ≤ hi) ∧
      lo' ≤ mean bounds ∧ (∀ b ∈ bounds, b ≤ mean bounds → b ≤ lo') ∧
      mean bounds ≤ hi' ∧ (∀ b ∈ bounds, mean bounds ≤ b → hi' ≤ b) ∧
      clamp a bounds s = some x ∧ Clamped a (lo + s * (lo' - lo)) (hi - s * (hi - hi')) x ∧ lo ≤ x ∧ x ≤ hi := by
  obtain ⟨b, bs, rfl⟩ := List.exists_cons_of_ne_nil hne
  obtain ⟨h1, h2⟩ := foldl_max_spec bs b
  obtain ⟨h3, h4⟩ := foldl_min_spec bs b
  obtain ⟨m1, m2⟩ := mean_between (xs := b :: bs) hne fun x hx => ⟨h3 x hx, h1 x hx⟩
  have hm : mean (b :: bs) = (b :: bs).sum / (b :: bs).length := by simp [mean]
  rw [hm]
  obtain ⟨u1, u2, u3, u4⟩ := foldl_stepUp ((b :: bs).sum / (b :: bs).length) (b :: bs) _ m2
  obtain ⟨d1, d2, d3, d4⟩ := foldl_stepDown ((b :: bs).sum / (b :: bs).length) (b :: bs) _ m1
  have ule : (b :: bs).foldl (stepDown ((b :: bs).sum / (b :: bs).length)) (bs.foldl min b) ≤
      (b :: bs).foldl (stepUp ((b :: bs).sum / (b :: bs).length)) (bs.foldl max b) := d1.trans u1
  have e1 : ∀ x y : K, wsum x y s = x + s * (y - x) := fun x y => by unfold wsum; ring
  have key : ∀ lo lo' hi' hi : K, lo ≤ lo' → lo' ≤ hi' → hi' ≤ hi →
      Clamped a (lo + s * (lo' - lo)) (hi - s * (hi - hi')) (min (max a (lo + s * (lo' - lo))) (hi - s * (hi - hi'))) ∧
      lo ≤ min (max a (lo + s * (lo' - lo))) (hi - s * (hi - hi')) ∧
      min (max a (lo + s * (lo' - lo))) (hi - s * (hi - hi')) ≤ hi := by
    intro lo lo' hi' hi a1 a2 a3
    have b1 : lo + s * (lo' - lo) ≤ lo' := by nlinarith
    have b2 : hi' ≤ hi - s * (hi - hi') := by nlinarith
    have c := clamped_min_max (a := a) (b1.trans (a2.trans b2))
    refine ⟨c, le_trans ?_ c.1, c.2.1.trans ?_⟩ <;> nlinarith
  refine ⟨_, _, _, _, min (max a (bs.foldl min b + s * ((b :: bs).foldl (stepDown ((b :: bs).sum / (b :: bs).length)) (bs.foldl min b) - bs.foldl min b)))
    (bs.foldl max b - s * (bs.foldl max b - (b :: bs).foldl (stepUp ((b :: bs).sum / (b :: bs).length)) (bs.foldl max b))),
    h4, ?_, ?_, h2, fun x hx => ⟨h3 x hx, h1 x hx⟩, d1, d3, u1, u3, ?_, key _ _ _ _ d2 ule u2⟩
  · rcases d4 with d4 | d4
    · rw [d4]; exact h4
    · exact d4
  · rcases u4 with u4 | u4
    · rw [u4]; exact h2
    · exact u4
  · unfold clamp
    dsimp only [maxOf, minOf]
    split_ifs with hz
    · rw [e1, e1]
      congr 2
      ring
    · have : s = 0 := not_not.mp hz
      subst this
      simp

example : clamp (1 : ℚ) [0, 4, 10] (1 / 2) = some 2 := by
  norm_num [clamp, maxOf, minOf, stepUp, stepDown, wsum]

/-! ## C57 -/

section
variable (R : Rounding K)

theorem Rounding.zero : R.f 0 = 0 := by
  have := R.neg 0
  rw [neg_zero] at this
  linarith

theorem Rounding.nonneg {x : K} (h : 0 ≤ x) : 0 ≤ R.f x := by rw [← R.zero]; exact R.mono h

theorem Rounding.abs_fix (x : K) : R.f |R.f x| = |R.f x| := by
  rcases abs_choice (R.f x) with h | h <;> rw [h]
  · exact R.idem x
  · rw [R.neg, R.idem]

theorem quotient_le_one {big x y : K} (h0 : 0 ≤ x) (h : x ≤ y) : 0 ≤ quotient R big x y ∧ quotient R big x y ≤ 1 := by
  unfold quotient
  by_cases hy : y = 0
  · have : x = 0 := le_antisymm (hy ▸ h) h0
    rw [if_pos hy, if_pos this]
    exact ⟨le_rfl, zero_le_one⟩
  · rw [if_neg hy]
    have hy0 : 0 < y := lt_of_le_of_ne (h0.trans h) (Ne.symm hy)
    refine ⟨R.nonneg (div_nonneg h0 hy0.le), ?_⟩
    rw [← R.one]
    exact R.mono ((div_le_one hy0).mpr h)

theorem scaled {m q : K} (hm : R.f m = m) (hm0 : 0 ≤ m) (hq : 0 ≤ q ∧ q ≤ 1) : 0 ≤ R.f (m * q) ∧ R.f (m * q) ≤ m := by
  refine ⟨R.nonneg (mul_nonneg hm0 hq.1), ?_⟩
  conv_rhs => rw [← hm]
  exact R.mono (by nlinarith [hq.1, hq.2])

/-- **C57.**  However the operations are rounded, `train_difference_mask` lies between 0 and the rounded
product of `alpha` and 1.8. -/
theorem C57_train (big c18 a b c alpha : K) (h : 0 ≤ alpha) (h18 : 0 ≤ c18) :
    0 ≤ trainDifferenceMask R big c18 a b c alpha ∧ trainDifferenceMask R big c18 a b c alpha ≤ R.f (alpha * c18) := by
  refine scaled R (R.idem _) (R.nonneg (mul_nonneg h h18)) (quotient_le_one R (abs_nonneg _) ?_)
  conv_lhs => rw [← R.abs_fix (b - a)]
  exact R.mono (by linarith [abs_nonneg (R.f (b - c))])

/-- **C57.**  However the operations are rounded, `add_opposite_mask` lies between 0 and the rounded double
of `alpha`. -/
theorem C57_opposite (big a b c alpha : K) (h : 0 ≤ alpha) :
    0 ≤ addOppositeMask R big a b c alpha ∧ addOppositeMask R big a b c alpha ≤ R.f (alpha * 2) := by
  refine scaled R (R.idem _) (R.nonneg (by linarith)) (quotient_le_one R (abs_nonneg _) ?_)
  conv_lhs => rw [← R.abs_fix (a - b)]
  exact R.mono (by linarith [abs_nonneg (R.f (R.f (a + b) - R.f (2 * c)))])

theorem quotient_abs_le {big x y : K} (h : |x| ≤ y) : quotient R big x y ≤ 1 := by
  unfold quotient
  by_cases hy : y = 0
  · have : x = 0 := by rw [hy] at h; exact abs_nonpos_iff.mp h
    rw [if_pos hy, if_pos this]
    exact zero_le_one
  · rw [if_neg hy]
    have hy0 : 0 < y := lt_of_le_of_ne ((abs_nonneg x).trans h) (Ne.symm hy)
    rw [← R.one]
    exact R.mono ((div_le_one hy0).mpr ((le_abs_self x).trans h))

/-- **C57.**  However the operations are rounded, `add_strict_opposite_mask` lies between 0 and the rounded
double of `alpha`, for an `alpha` of the format. -/
theorem C57_strict (big a b c alpha : K) (h : 0 ≤ alpha) (hf : R.f alpha = alpha) :
    0 ≤ addStrictOppositeMask R big a b c alpha ∧ addStrictOppositeMask R big a b c alpha ≤ R.f (alpha * 2) := by
  unfold addStrictOppositeMask
  obtain ⟨q, hq⟩ : ∃ q, q = quotient R big (R.f (R.f (c - a) * R.f (b - c)))
    (R.f (max |R.f (a - c)| |R.f (b - c)| * max |R.f (a - c)| |R.f (b - c)|)) := ⟨_, rfl⟩
  have hq1 : q ≤ 1 := by
    rw [hq]
    refine quotient_abs_le R ?_
    have e : |R.f (c - a)| = |R.f (a - c)| := by rw [← neg_sub a c, R.neg, abs_neg]
    have hprod : |R.f (c - a) * R.f (b - c)| ≤ max |R.f (a - c)| |R.f (b - c)| * max |R.f (a - c)| |R.f (b - c)| := by
      rw [abs_mul, e]
      exact mul_le_mul (le_max_left _ _) (le_max_right _ _) (abs_nonneg _) ((abs_nonneg _).trans (le_max_left _ _))
    rw [abs_le] at hprod ⊢
    rw [← R.neg]
    exact ⟨R.mono hprod.1, R.mono hprod.2⟩
  rw [← hq]
  obtain ⟨h1, h2⟩ := scaled R hf h (q := max q 0) ⟨le_max_right _ _, max_le hq1 zero_le_one⟩
  exact ⟨R.nonneg (by linarith), R.mono (by linarith)⟩

end

/-- Exact arithmetic is a rounding. -/
def exact : Rounding ℚ := ⟨id, id, fun _ => rfl, fun _ => rfl, rfl⟩

example : trainDifferenceMask exact 0 (9 / 5) 1 4 5 2 = 27 / 10 := by
  norm_num [trainDifferenceMask, exact, quotient]

/-- Truncation to multiples of `1 / n` is a rounding. -/
def fixed (n : ℕ) (hn : 0 < n) : Rounding ℚ where
  f x := if 0 ≤ x then (⌊x * n⌋ : ℚ) / n else -((⌊-x * n⌋ : ℚ) / n)
  mono := by
    intro x y h
    have hn' : (0 : ℚ) < n := by exact_mod_cast hn
    have pos : ∀ z : ℚ, 0 ≤ z → 0 ≤ (⌊z * n⌋ : ℚ) / n := fun z hz =>
      div_nonneg (by exact_mod_cast Int.floor_nonneg.mpr (by positivity)) hn'.le
    split_ifs with hx hy hy
    · have : ⌊x * n⌋ ≤ ⌊y * n⌋ := Int.floor_le_floor (by nlinarith)
      have : (⌊x * n⌋ : ℚ) ≤ ⌊y * n⌋ := by exact_mod_cast this
      exact div_le_div_of_nonneg_right this hn'.le
    · exact absurd (hx.trans h) hy
    · have := pos (-x) (by linarith [not_le.mp hx])
      have := pos y hy
      linarith
    · have : ⌊-y * n⌋ ≤ ⌊-x * n⌋ := Int.floor_le_floor (by nlinarith)
      have : (⌊-y * n⌋ : ℚ) ≤ ⌊-x * n⌋ := by exact_mod_cast this
      have := div_le_div_of_nonneg_right this hn'.le
      linarith
  neg := by
    intro x
    rcases lt_trichotomy x 0 with h | h | h
    · rw [if_pos (by linarith), if_neg (by linarith)]; ring
    · subst h; simp
    · rw [if_neg (by linarith), if_pos h.le, neg_neg]
  idem := by
    intro x
    have hn' : (n : ℚ) ≠ 0 := by positivity
    by_cases h : 0 ≤ x
    · have : 0 ≤ (⌊x * n⌋ : ℚ) / n := div_nonneg (by exact_mod_cast Int.floor_nonneg.mpr (by positivity)) (by positivity)
      rw [if_pos h, if_pos this, div_mul_cancel₀ _ hn', Int.floor_intCast]
    · have h0 : 0 ≤ (⌊-x * n⌋ : ℚ) / n :=
        div_nonneg (by exact_mod_cast Int.floor_nonneg.mpr (mul_nonneg (by linarith) (by positivity))) (by positivity)
      rw [if_neg h]
      split_ifs with h1
      · have : (⌊-x * n⌋ : ℚ) / n = 0 := by linarith
        rw [this]; simp
      · rw [neg_neg, div_mul_cancel₀ _ hn', Int.floor_intCast]
  one := by
    have hn' : (n : ℚ) ≠ 0 := by positivity
    rw [if_pos zero_le_one, one_mul, Int.floor_natCast]
    push_cast
    exact div_self hn'

example : trainDifferenceMask (fixed 10 (by norm_num)) 0 (9 / 5) 1 4 8 2 ≤ (fixed 10 (by norm_num)).f (2 * (9 / 5)) :=
  (C57_train _ 0 (9 / 5) 1 4 8 2 (by norm_num) (by norm_num)).2
example : addStrictOppositeMask exact 0 0 4 1 3 = 2 := by norm_num [addStrictOppositeMask, exact, quotient]

end Verif.Arith
