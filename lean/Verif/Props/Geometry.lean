import Verif.Model.Geometry
import Verif.Props.Ties
import Mathlib.Analysis.Convex.Hull
import Mathlib.Algebra.BigOperators.Field
import Mathlib.Tactic.LinearCombination

/-!
# C55, C56, C72-C75: perpendicular component, geometric median, slerp, selection
-/
set_option linter.unusedSectionVars false

namespace Verif.Geometry
open Finset

variable {ι : Type} [Fintype ι]

theorem dot_self_nonneg (a : ι → ℝ) : 0 ≤ dot a a := sum_nonneg fun i _ => mul_self_nonneg (a i)

theorem norm_nonneg (a : ι → ℝ) : 0 ≤ norm a := Real.sqrt_nonneg _

theorem norm_sq (a : ι → ℝ) : norm a * norm a = dot a a := Real.mul_self_sqrt (dot_self_nonneg a)

theorem norm_eq_zero {a : ι → ℝ} : norm a = 0 ↔ ∀ i, a i = 0 := by
  unfold norm
  rw [Real.sqrt_eq_zero (dot_self_nonneg a)]
  unfold dot
  rw [sum_eq_zero_iff_of_nonneg fun i _ => mul_self_nonneg (a i)]
  simp

/-! ## C55 -/

/-- **C55.**  The perpendicular component of `b` is orthogonal to `a`. -/
theorem C55_orthogonal (a b : ι → ℝ) : ∑ i, a i * perpendicularComponent a b i = 0 := by
  unfold perpendicularComponent
  by_cases h : norm a = 0
  · rw [if_pos h]; simp
  · rw [if_neg h]
    have e : ∑ j, a j / norm a * (b j / norm a) = (∑ j, a j * b j) / (norm a * norm a) := by
      rw [sum_div]
      refine sum_congr rfl fun j _ => ?_
      field_simp
    have e2 : ∀ i, a i * (b i - a i * ((∑ j, a j * b j) / (norm a * norm a))) =
        a i * b i - a i * a i * ((∑ j, a j * b j) / (norm a * norm a)) := fun i => by ring
    simp only [e, e2]
    rw [sum_sub_distrib, ← sum_mul, norm_sq]
    have hd : dot a a ≠ 0 := by rw [← norm_sq]; exact mul_ne_zero h h
    have : (∑ i, a i * a i) * ((∑ j, a j * b j) / dot a a) = ∑ j, a j * b j := by
      rw [mul_div_assoc']
      exact mul_div_cancel_left₀ _ hd
    rw [this, sub_self]

/-- **C55** (partial: for `a = 0` see below).  It is `b` minus a multiple of `a`. -/
theorem C55_multiple_partial (a b : ι → ℝ) (h : ∃ i, a i ≠ 0) : ∃ c : ℝ, ∀ i, perpendicularComponent a b i = b i - c * a i := by
  have : norm a ≠ 0 := fun h0 => by
    obtain ⟨i, hi⟩ := h
    exact hi (norm_eq_zero.mp h0 i)
  refine ⟨∑ j, a j / norm a * (b j / norm a), fun i => ?_⟩
  unfold perpendicularComponent
  rw [if_neg this, mul_comm]

example : ∃ i : Bool, (fun _ => 1 : Bool → ℝ) i ≠ 0 := ⟨true, one_ne_zero⟩

/-- **C55 is false of the code for `a = 0`**: all of `b` is perpendicular to zero, but the result is zero. -/
theorem C55_zero_false (b : ι → ℝ) : perpendicularComponent (fun _ => 0) b = fun _ => 0 := by
  unfold perpendicularComponent
  rw [if_pos (norm_eq_zero.mpr fun _ => rfl)]

/-! ## C56 -/

theorem weightedAverage_mem {models : List (ι → ℝ)} {w : (ι → ℝ) → ℝ} (hw : ∀ p ∈ models, 0 < w p) (hne : models ≠ []) :
    weightedAverage models w ∈ convexHull ℝ {p | p ∈ models} := by
  suffices ∀ (l : List (ι → ℝ)), l ≠ [] → (∀ p ∈ l, 0 < w p) → ∀ S : Set (ι → ℝ), (∀ p ∈ l, p ∈ S) →
      0 < (l.map w).sum ∧ weightedAverage l w ∈ convexHull ℝ S from
    (this models hne hw _ fun p hp => hp).2
  intro l
  induction l with
  | nil => intro h; exact absurd rfl h
  | cons q l ih =>
    intro _ hpos S hS
    have hq := hpos q (by simp)
    have hqS : q ∈ convexHull ℝ S := subset_convexHull ℝ S (hS q (by simp))
    by_cases hl : l = []
    · subst hl
      refine ⟨by simpa using hq, ?_⟩
      have : weightedAverage [q] w = q := by
        funext i
        simp [weightedAverage, hq.ne']
      rw [this]; exact hqS
    · obtain ⟨h1, h2⟩ := ih hl (fun p hp => hpos p (by simp [hp])) S fun p hp => hS p (by simp [hp])
      have hsum : 0 < w q + (l.map w).sum := add_pos hq h1
      refine ⟨by simpa using hsum, ?_⟩
      have e : weightedAverage (q :: l) w =
          (w q / (w q + (l.map w).sum)) • q + ((l.map w).sum / (w q + (l.map w).sum)) • weightedAverage l w := by
        funext i
        simp only [weightedAverage, List.map_cons, List.sum_cons, Pi.add_apply, Pi.smul_apply, smul_eq_mul]
        field_simp
      rw [e]
      exact convex_convexHull ℝ S hqS h2 (div_nonneg hq.le hsum.le) (div_nonneg h1.le hsum.le)
        (by rw [← add_div, div_self hsum.ne'])

theorem newWeights_pos {eps : ℝ} (he : 0 < eps) (median p : ι → ℝ) : 0 < newWeights eps median p :=
  div_pos one_pos (lt_max_of_lt_right he)

/-- What holds of the weights at the start and is kept by an iteration holds of those at the end. -/
theorem medianLoop_induct {models : List (ι → ℝ)} {eps ftol : ℝ} (P : ((ι → ℝ) → ℝ) → Prop)
    (step : ∀ w, P w → P (newWeights eps (weightedAverage models w))) :
    ∀ (n : ℕ) (w : (ι → ℝ) → ℝ) (obj : ℝ), P w → P (medianLoop models eps ftol n (weightedAverage models w) w obj)
  | 0, w, obj, h => by rw [medianLoop]; exact h
  | n + 1, w, obj, h => by
    rw [medianLoop]
    split_ifs
    · exact step w h
    · exact medianLoop_induct P step n _ _ (step w h)

/-- **C56.**  Whatever the number of iterations and the tolerance, the result of `geometric_median` lies in the convex
hull of the models. -/
theorem C56_hull (models : List (ι → ℝ)) (eps ftol : ℝ) (maxiter : Int) (he : 0 < eps) (hne : models ≠ []) :
    ∃ x, geometricMedian models eps ftol maxiter = some x ∧ x ∈ convexHull ℝ {p | p ∈ models} := by
  unfold geometricMedian
  rw [if_neg hne]
  refine ⟨_, rfl, weightedAverage_mem (fun p _ => ?_) hne⟩
  exact medianLoop_induct (fun w => ∀ p, 0 < w p) (fun w _ p => newWeights_pos he _ p) _ (fun _ => 1) _ (fun _ => one_pos) p

example : ∃ x, geometricMedian (ι := Bool) [fun _ => 0, fun _ => 1, fun i => if i then 5 else 2] (1 / 10 ^ 6) (1 / 10 ^ 20) 100 = some x ∧
    x ∈ convexHull ℝ {p | p ∈ [(fun _ => 0 : Bool → ℝ), fun _ => 1, fun i => if i then 5 else 2]} :=
  C56_hull _ _ _ _ (by norm_num) (by simp)

/-! ## C73: descent -/

/-- The distance with its kink at zero smoothed. -/
noncomputable def huber (eps d : ℝ) : ℝ := if eps ≤ d then d else d ^ 2 / (2 * eps) + eps / 2

theorem huber_le {eps d t : ℝ} (he : 0 < eps) (ht : eps ≤ t) (hd : 0 ≤ d) : huber eps d ≤ d ^ 2 / (2 * t) + t / 2 := by
  have ht0 : 0 < t := he.trans_le ht
  unfold huber
  split_ifs with h
  · have : d ^ 2 / (2 * t) + t / 2 - d = (d - t) ^ 2 / (2 * t) := by field_simp; ring
    have : 0 ≤ (d - t) ^ 2 / (2 * t) := by positivity
    linarith
  · have h := not_le.mp h
    have e : d ^ 2 / (2 * t) + t / 2 - (d ^ 2 / (2 * eps) + eps / 2) = (t - eps) * (t * eps - d ^ 2) / (2 * t * eps) := by
      field_simp; ring
    have : 0 ≤ (t - eps) * (t * eps - d ^ 2) / (2 * t * eps) := by
      refine div_nonneg (mul_nonneg (by linarith) ?_) (by positivity)
      nlinarith
    linarith

theorem huber_eq {eps d : ℝ} (he : 0 < eps) (hd : 0 ≤ d) : d ^ 2 / (2 * max d eps) + max d eps / 2 = huber eps d := by
  unfold huber
  split_ifs with h
  · rw [max_eq_left h]
    rcases hd.eq_or_lt with h0 | h0
    · linarith
    · field_simp; ring
  · rw [max_eq_right (not_le.mp h).le]

theorem le_huber {eps d : ℝ} (he : 0 < eps) : d ≤ huber eps d := by
  unfold huber
  split_ifs with h
  · exact le_rfl
  · have : d ^ 2 / (2 * eps) + eps / 2 - d = (d - eps) ^ 2 / (2 * eps) := by field_simp; ring
    have : 0 ≤ (d - eps) ^ 2 / (2 * eps) := by positivity
    linarith

theorem huber_le_add {eps d : ℝ} (he : 0 < eps) (hd : 0 ≤ d) : huber eps d ≤ d + eps / 2 := by
  unfold huber
  split_ifs with h
  · linarith
  · have h := not_le.mp h
    have : d ^ 2 / (2 * eps) ≤ d := by
      rw [div_le_iff₀ (by positivity)]
      nlinarith
    linarith

/-- The smoothed sum of distances. -/
noncomputable def smooth (eps : ℝ) (models : List (ι → ℝ)) (x : ι → ℝ) : ℝ := (models.map fun p => huber eps (dist p x)).sum

theorem dist_nonneg (a b : ι → ℝ) : 0 ≤ dist a b := norm_nonneg _

theorem dist_sq (a b : ι → ℝ) : dist a b ^ 2 = ∑ i, (a i - b i) ^ 2 := by
  rw [sq]
  unfold dist
  rw [norm_sq]
  exact sum_congr rfl fun i _ => by ring

theorem list_sum_comm (l : List (ι → ℝ)) (f : (ι → ℝ) → ι → ℝ) : (l.map fun p => ∑ i, f p i).sum = ∑ i, (l.map fun p => f p i).sum := by
  induction l with
  | nil => simp
  | cons p l ih => simp only [List.map_cons, List.sum_cons]; rw [ih, sum_add_distrib]

theorem sum_map_add' (l : List (ι → ℝ)) (f g : (ι → ℝ) → ℝ) : (l.map fun p => f p + g p).sum = (l.map f).sum + (l.map g).sum := by
  induction l with
  | nil => simp
  | cons p l ih => simp only [List.map_cons, List.sum_cons]; rw [ih]; ring

theorem sum_map_mul' (l : List (ι → ℝ)) (f : (ι → ℝ) → ℝ) (c : ℝ) : (l.map fun p => c * f p).sum = c * (l.map f).sum := by
  induction l with
  | nil => simp
  | cons p l ih => simp only [List.map_cons, List.sum_cons]; rw [ih]; ring

/-- The weighted average minimizes the weighted sum of squared distances. -/
theorem weightedAverage_min {models : List (ι → ℝ)} {w : (ι → ℝ) → ℝ} (hW : 0 < (models.map w).sum) (x : ι → ℝ) :
    (models.map fun p => w p * dist p (weightedAverage models w) ^ 2).sum ≤ (models.map fun p => w p * dist p x ^ 2).sum := by
  simp only [dist_sq, mul_sum]
  rw [list_sum_comm models fun p i => w p * (p i - weightedAverage models w i) ^ 2, list_sum_comm models fun p i => w p * (p i - x i) ^ 2]
  refine sum_le_sum fun i _ => ?_
  obtain ⟨A, hA⟩ : ∃ A, A = (models.map fun p => p i * w p).sum := ⟨_, rfl⟩
  obtain ⟨B, hB⟩ : ∃ B, B = (models.map fun p => w p * p i ^ 2).sum := ⟨_, rfl⟩
  obtain ⟨W, hWe⟩ : ∃ W, W = (models.map w).sum := ⟨_, rfl⟩
  have expand : ∀ y : ℝ, (models.map fun p => w p * (p i - y) ^ 2).sum = B + (-2 * y) * A + y ^ 2 * W := by
    intro y
    rw [hA, hB, hWe, ← sum_map_mul', ← sum_map_mul', ← sum_map_add', ← sum_map_add']
    congr 1
    refine List.map_congr_left fun p _ => ?_
    ring
  rw [expand, expand]
  have hy : weightedAverage models w i = A / W := by rw [hA, hWe]; rfl
  rw [hy]
  rw [← hWe] at hW
  have : B + -2 * x i * A + x i ^ 2 * W - (B + -2 * (A / W) * A + (A / W) ^ 2 * W) = W * (x i - A / W) ^ 2 := by
    field_simp; ring
  nlinarith [sq_nonneg (x i - A / W)]

theorem sum_pos_of {models : List (ι → ℝ)} {w : (ι → ℝ) → ℝ} (hne : models ≠ []) (hw : ∀ p, 0 < w p) : 0 < (models.map w).sum :=
  List.sum_pos _ (fun x hx => by obtain ⟨p, -, rfl⟩ := List.mem_map.mp hx; exact hw p) (by simpa using hne)

/-- One iteration does not increase the smoothed sum of distances. -/
theorem smooth_step {models : List (ι → ℝ)} {eps : ℝ} (he : 0 < eps) (hne : models ≠ []) (x : ι → ℝ) :
    smooth eps models (weightedAverage models (newWeights eps x)) ≤ smooth eps models x := by
  have h1 : smooth eps models (weightedAverage models (newWeights eps x)) ≤
      (models.map fun p => (1 / 2) * (newWeights eps x p * dist p (weightedAverage models (newWeights eps x)) ^ 2) + max (dist p x) eps / 2).sum := by
    refine List.sum_le_sum fun p _ => ?_
    refine (huber_le he (le_max_right (dist p x) eps) (dist_nonneg _ _)).trans (le_of_eq ?_)
    unfold newWeights
    have : max (dist p x) eps ≠ 0 := (lt_max_of_lt_right he).ne'
    field_simp
  have h2 : smooth eps models x =
      (models.map fun p => (1 / 2) * (newWeights eps x p * dist p x ^ 2) + max (dist p x) eps / 2).sum := by
    unfold smooth
    congr 1
    refine List.map_congr_left fun p _ => ?_
    rw [← huber_eq he (dist_nonneg p x)]
    unfold newWeights
    have : max (dist p x) eps ≠ 0 := (lt_max_of_lt_right he).ne'
    field_simp
  refine h1.trans ?_
  rw [h2, sum_map_add', sum_map_add', sum_map_mul', sum_map_mul']
  have := weightedAverage_min (sum_pos_of hne (newWeights_pos he x)) x
  linarith

/-- **C73.**  The sum of the distances from the result of `geometric_median` to the models is at most that from the average
of the models plus `eps / 2` per model, whatever the number of iterations. -/
theorem C73_descent (models : List (ι → ℝ)) (eps ftol : ℝ) (maxiter : Int) (he : 0 < eps) (hne : models ≠ []) :
    ∃ x avg, geometricMedian models eps ftol maxiter = some x ∧ (∀ i, avg i = (models.map fun p => p i).sum / models.length) ∧
      (models.map fun p => dist p x).sum ≤ (models.map fun p => dist p avg).sum + models.length * (eps / 2) := by
  unfold geometricMedian
  rw [if_neg hne]
  have key := medianLoop_induct (models := models) (eps := eps) (ftol := ftol)
    (fun w => smooth eps models (weightedAverage models w) ≤ smooth eps models (weightedAverage models fun _ => 1))
    (fun w hw => (smooth_step he hne _).trans hw) (max 0 maxiter).toNat (fun _ => 1)
    (objective models (weightedAverage models fun _ => 1)) le_rfl
  refine ⟨_, weightedAverage models fun _ => 1, rfl, fun i => by simp [weightedAverage], ?_⟩
  refine le_trans ?_ (key.trans ?_)
  · exact List.sum_le_sum fun p _ => le_huber he
  · refine (List.sum_le_sum fun p _ => huber_le_add he (dist_nonneg p _)).trans (le_of_eq ?_)
    rw [sum_map_add']
    simp

example : (0 : ℝ) < 1 / 10 ^ 6 ∧ [(fun _ => 0 : Bool → ℝ), fun _ => 1, fun i => if i then 5 else 2] ≠ [] := by
  constructor
  · norm_num
  · simp

/-! ## C72: flags of `ties_sum_extended` -/

theorem median_half (eps ftol : ℝ) (maxiter : Int) :
    geometricMedian (ι := Fin 1) [fun _ => 1, fun _ => 0] eps ftol maxiter = some fun _ => 1 / 2 := by
  have hne : ([fun _ => 1, fun _ => 0] : List (Fin 1 → ℝ)) ≠ [] := by simp
  unfold geometricMedian
  rw [if_neg hne]
  have avg : ∀ w : (Fin 1 → ℝ) → ℝ, (w (fun _ => 1) = w (fun _ => 0) ∧ w (fun _ => 0) ≠ 0) →
      weightedAverage [fun _ => 1, fun _ => 0] w = fun _ => 1 / 2 := by
    rintro w ⟨h1, h2⟩
    funext i
    simp only [weightedAverage, List.map_cons, List.map_nil, List.sum_cons, List.sum_nil, h1]
    rw [one_mul, zero_mul, add_zero, add_zero, div_eq_iff (by intro h; exact h2 (by linarith))]
    ring
  have d : ∀ c : ℝ, dist (fun _ : Fin 1 => c) (fun _ => 1 / 2) = |c - 1 / 2| := by
    intro c
    simp [dist, norm, dot, Real.sqrt_mul_self_eq_abs]
  have key := medianLoop_induct (models := [fun _ => 1, fun _ => 0]) (eps := eps) (ftol := ftol)
    (fun w => w (fun _ : Fin 1 => (1 : ℝ)) = w (fun _ => 0) ∧ w (fun _ => 0) ≠ 0) (fun w hw => by
      rw [avg w hw]
      unfold newWeights
      rw [d, d]
      have e1 : |(1 : ℝ) - 1 / 2| = 1 / 2 := by norm_num
      have e2 : |(0 : ℝ) - 1 / 2| = 1 / 2 := by norm_num
      rw [e1, e2]
      exact ⟨rfl, (one_div_pos.mpr (lt_max_of_lt_left (by norm_num))).ne'⟩) (max 0 maxiter).toNat (fun _ => 1)
    (objective [fun _ : Fin 1 => (1 : ℝ), fun _ => 0] (weightedAverage [fun _ => 1, fun _ => 0] fun _ => 1)) ⟨rfl, one_ne_zero⟩
  refine congrArg some ?_
  exact avg _ key

theorem trim_one (a : Fin 1 → ℝ) : Arith.filterTopK a 1 = some a := by
  have hc : Arith.topCount 1 1 = 1 := by simp [Arith.topCount, Region.pyTrunc]
  obtain ⟨t, h1, j, h2, -⟩ := Arith.filterTopK_spec (K := ℝ) (k := 1) (m := 1) (by omega) a
  rw [h1]
  congr 1
  funext i
  rw [h2 i, Subsingleton.elim i j, if_pos le_rfl]

theorem Ex.deltas (v : Bool) : tiesDeltas (m := 1) [fun _ => 1, fun _ => 0] 1 v = some ([fun _ => 1, fun _ => 0], fun _ => 1) := by
  unfold tiesDeltas Arith.trimAll
  rw [if_neg (by simp), Arith.mapM_some id _ trim_one]
  cases v <;> norm_num [Arith.sgn, Arith.electedSign, Arith.filteredDelta]

/-- **C72 is false of the code**: with the default flags `ties_sum_extended` gives the geometric median of the deltas and
not their TIES average, here 1/2 instead of 1, whatever the number of iterations. -/
theorem C72_median_false (stock : List (Fin 1 → ℝ) → Fin 1 → ℝ) (eps ftol : ℝ) (maxiter : Int) (v : Bool) :
    tiesSumExtended 0 stock [fun _ => 1, fun _ => 0] 1 v false false eps ftol maxiter = some (fun _ => 1 / 2) ∧
    Arith.tiesSum (m := 1) 0 [fun _ => (1 : ℝ), fun _ => 0] 1 v = some fun _ => 1 := by
  constructor
  · unfold tiesSumExtended
    rw [Ex.deltas]
    exact median_half eps ftol maxiter
  · have : Arith.tiesSum (m := 1) 0 [fun _ => (1 : ℝ), fun _ => 0] 1 v = _ :=
      Arith.tiesSum_eq (by simp) (g := id) trim_one
    rw [this]
    congr 1
    funext i
    cases v <;> norm_num [Arith.elects, Arith.Spec.byCount, Arith.Spec.byMass, Arith.Spec.tiesValue, Arith.Spec.mean]

/-- **C72** (what holds instead).  The documented plain TIES average is obtained by setting both `apply_median` and
`apply_stock`; with `apply_stock` off the sum is scaled by the model stock factor; with `apply_median` off the result is
the geometric median. -/
theorem C72_swapped_partial {m : ℕ} (big : ℝ) (stock : List (Fin m → ℝ) → Fin m → ℝ) (models : List (Fin m → ℝ)) (k : ℚ)
    (voteSgn : Bool) (eps ftol : ℝ) (maxiter : Int) :
    tiesSumExtended big stock models k voteSgn true true eps ftol maxiter = Arith.tiesSum big models k voteSgn := by
  unfold tiesSumExtended tiesDeltas Arith.tiesSum
  cases Arith.trimAll models k with
  | none => rfl
  | some ds =>
    simp only [Option.map_some, if_true, mul_one, List.map_map]
    congr 1
    funext i
    congr 1
    unfold Arith.filteredDelta
    rw [List.map_map]
    rfl

/-! ## C74: slerp -/

theorem dot_sq_le (a b : ι → ℝ) : dot a b ^ 2 ≤ dot a a * dot b b := by
  unfold dot
  have := sum_mul_sq_le_sq_mul_sq univ a b
  simpa [sq] using this

theorem unit_dot {a b : ι → ℝ} (ha : norm a ≠ 0) (hb : norm b ≠ 0) :
    ∑ i, a i / norm a * (b i / norm b) = dot a b / (norm a * norm b) := by
  unfold dot
  rw [sum_div]
  exact sum_congr rfl fun i _ => by field_simp

theorem cos_omega {a b : ι → ℝ} (ha : norm a ≠ 0) (hb : norm b ≠ 0) : Real.cos (omega a b) = dot a b / (norm a * norm b) := by
  have hpa : 0 < norm a := lt_of_le_of_ne (norm_nonneg a) (Ne.symm ha)
  have hpb : 0 < norm b := lt_of_le_of_ne (norm_nonneg b) (Ne.symm hb)
  have h2 : (dot a b / (norm a * norm b)) ^ 2 ≤ 1 := by
    rw [div_pow, div_le_one (by positivity)]
    have := dot_sq_le a b
    rw [← norm_sq a, ← norm_sq b] at this
    linarith [this, show (norm a * norm b) ^ 2 = norm a * norm a * (norm b * norm b) by ring]
  have h3 := sq_le_one_iff_abs_le_one _ |>.mp h2
  rw [abs_le] at h3
  unfold omega
  rw [unit_dot ha hb, max_eq_left h3.1, min_eq_left h3.2, Real.cos_arccos h3.1 h3.2]

/-- The angle between two tensors. -/
noncomputable def _root_.Verif.Geometry.Spec.angle (a b : ι → ℝ) : ℝ := Real.arccos (dot a b / (norm a * norm b))

theorem omega_eq {a b : ι → ℝ} (ha : norm a ≠ 0) (hb : norm b ≠ 0) : omega a b = Spec.angle a b := by
  unfold Spec.angle
  rw [← cos_omega ha hb, Real.arccos_cos]
  · exact Real.arccos_nonneg _
  · exact Real.arccos_le_pi _

theorem slerp_generic {a b alpha : ι → ℝ} (ha : norm a ≠ 0) (hb : norm b ≠ 0) (hs : Real.sin (omega a b) ≠ 0) :
    slerp a b alpha = some fun i => slerpNum a b alpha i / Real.sin (omega a b) * wsum (norm a) (norm b) (alpha i) := by
  unfold slerp
  have hq : ∀ i, qdiv (slerpNum a b alpha i) (Real.sin (omega a b)) = .fin (slerpNum a b alpha i / Real.sin (omega a b)) := fun i => if_neg hs
  rw [if_neg, if_neg]
  · rintro ⟨i, hi⟩; rw [hq] at hi; cases hi
  · rintro (h | h | ⟨i, hi⟩)
    · exact ha h
    · exact hb h
    · rw [hq] at hi; cases hi

/-- With parallel tensors the numerators vanish as well. -/
theorem slerpNum_parallel {a b : ι → ℝ} (alpha : ι → ℝ) (ha : norm a ≠ 0) (hb : norm b ≠ 0) (hs : Real.sin (omega a b) = 0) (i : ι) :
    slerpNum a b alpha i = 0 := by
  have hpa : 0 < norm a := lt_of_le_of_ne (norm_nonneg a) (Ne.symm ha)
  have hpb : 0 < norm b := lt_of_le_of_ne (norm_nonneg b) (Ne.symm hb)
  have hc := cos_omega ha hb
  have h0 : 0 ≤ omega a b := Real.arccos_nonneg _
  have hpi : omega a b ≤ Real.pi := Real.arccos_le_pi _
  have hor : omega a b = 0 ∨ omega a b = Real.pi := by
    by_contra h
    push Not at h
    have := Real.sin_pos_of_pos_of_lt_pi (lt_of_le_of_ne h0 (Ne.symm h.1)) (lt_of_le_of_ne hpi h.2)
    exact this.ne' hs
  unfold slerpNum
  rcases hor with h | h
  · rw [h]; simp
  · rw [h] at hc ⊢
    rw [Real.cos_pi] at hc
    have hdot : dot a b = -(norm a * norm b) := by field_simp at hc; linarith
    have hz : norm (fun j => a j / norm a + b j / norm b) = 0 := by
      have : dot (fun j => a j / norm a + b j / norm b) (fun j => a j / norm a + b j / norm b) = 0 := by
        have e : ∀ j, (a j / norm a + b j / norm b) * (a j / norm a + b j / norm b) =
            a j * a j / (norm a * norm a) + 2 * (a j / norm a * (b j / norm b)) + b j * b j / (norm b * norm b) := by
          intro j; field_simp; ring
        unfold dot
        simp only [e]
        rw [sum_add_distrib, sum_add_distrib, ← sum_div, ← sum_div, ← mul_sum, unit_dot ha hb, hdot]
        have ea : (∑ j, a j * a j) = norm a * norm a := (norm_sq a).symm
        have eb : (∑ j, b j * b j) = norm b * norm b := (norm_sq b).symm
        rw [ea, eb]
        field_simp
        norm_num
      rw [show norm (fun j => a j / norm a + b j / norm b) = Real.sqrt (dot (fun j => a j / norm a + b j / norm b) fun j => a j / norm a + b j / norm b) from rfl, this, Real.sqrt_zero]
    have hi := norm_eq_zero.mp hz i
    have : Real.sin ((1 - alpha i) * Real.pi) = Real.sin (alpha i * Real.pi) := by
      rw [show (1 - alpha i) * Real.pi = Real.pi - alpha i * Real.pi by ring, Real.sin_pi_sub]
    rw [this, ← add_mul, hi, zero_mul]

theorem slerp_degenerate {a b alpha : ι → ℝ} [Nonempty ι] (h : norm a = 0 ∨ norm b = 0 ∨ Real.sin (omega a b) = 0) :
    slerp a b alpha = some fun i => wsum (a i) (b i) (alpha i) := by
  unfold slerp
  rw [if_pos]
  by_cases ha : norm a = 0
  · exact .inl ha
  by_cases hb : norm b = 0
  · exact .inr (.inl hb)
  have hs : Real.sin (omega a b) = 0 := by tauto
  refine .inr (.inr ⟨Classical.arbitrary ι, ?_⟩)
  unfold qdiv
  rw [if_pos hs, if_pos (slerpNum_parallel alpha ha hb hs _)]

/-- **C74.**  `slerp` is finite, gives `a` for `alpha = 0` and `b` for `alpha = 1`, for all tensors, parallel or zero ones
included. -/
theorem C74_ends [Nonempty ι] (a b : ι → ℝ) : slerp a b (fun _ => 0) = some a ∧ slerp a b (fun _ => 1) = some b := by
  by_cases h : norm a = 0 ∨ norm b = 0 ∨ Real.sin (omega a b) = 0
  · rw [slerp_degenerate h, slerp_degenerate h]
    constructor <;> congr 1 <;> funext i <;> simp [wsum]
  · push Not at h
    rw [slerp_generic h.1 h.2.1 h.2.2, slerp_generic h.1 h.2.1 h.2.2]
    have h1 := h.1; have h2 := h.2.1; have h3 := h.2.2
    constructor <;> congr 1 <;> funext i <;> simp [wsum, slerpNum] <;> field_simp

/-- **C74.**  For tensors that are neither zero nor parallel and a factor in `[0, 1]`, the norm of the result is the
interpolation of the two norms, and the angle between `a` and the result is `alpha` times the angle between `a` and
`b`. -/
theorem C74_arc (a b : ι → ℝ) (t : ℝ) (h0 : 0 ≤ t) (h1 : t ≤ 1) (ha : norm a ≠ 0) (hb : norm b ≠ 0)
    (hang : 0 < Spec.angle a b) (hang' : Spec.angle a b < Real.pi) :
    ∃ x, slerp a b (fun _ => t) = some x ∧ norm x = (1 - t) * norm a + t * norm b ∧ Spec.angle a x = t * Spec.angle a b := by
  have hpa : 0 < norm a := lt_of_le_of_ne (norm_nonneg a) (Ne.symm ha)
  have hpb : 0 < norm b := lt_of_le_of_ne (norm_nonneg b) (Ne.symm hb)
  rw [← omega_eq ha hb] at hang hang' ⊢
  have hs : 0 < Real.sin (omega a b) := Real.sin_pos_of_pos_of_lt_pi hang hang'
  have hc := cos_omega ha hb
  refine ⟨_, slerp_generic ha hb hs.ne', ?_⟩
  obtain ⟨w, hw⟩ : ∃ w, w = omega a b := ⟨_, rfl⟩
  obtain ⟨L, hL⟩ : ∃ L, L = wsum (norm a) (norm b) t := ⟨_, rfl⟩
  have hLpos : 0 < L := by
    rw [hL]; unfold wsum
    rcases h0.eq_or_lt with h | h
    · rw [← h]; linarith
    · nlinarith [mul_pos h hpb, mul_nonneg (sub_nonneg.mpr h1) hpa.le]
  obtain ⟨x, hx⟩ : ∃ x : ι → ℝ, x = fun i => slerpNum a b (fun _ => t) i / Real.sin (omega a b) * wsum (norm a) (norm b) t := ⟨_, rfl⟩
  obtain ⟨A, hA⟩ : ∃ A, A = Real.sin ((1 - t) * w) := ⟨_, rfl⟩
  obtain ⟨B, hB⟩ : ∃ B, B = Real.sin (t * w) := ⟨_, rfl⟩
  obtain ⟨S, hS⟩ : ∃ S, S = Real.sin w := ⟨_, rfl⟩
  obtain ⟨C, hC⟩ : ∃ C, C = Real.cos w := ⟨_, rfl⟩
  obtain ⟨D, hD⟩ : ∃ D, D = Real.cos (t * w) := ⟨_, rfl⟩
  rw [← hw] at hs hc
  rw [← hS] at hs
  rw [← hC] at hc
  have hAe : A = S * D - C * B := by
    rw [hA, hS, hC, hD, hB, show (1 - t) * w = w - t * w by ring, Real.sin_sub]
  have hSC : S ^ 2 + C ^ 2 = 1 := by rw [hS, hC]; exact Real.sin_sq_add_cos_sq w
  have hBD : B ^ 2 + D ^ 2 = 1 := by rw [hB, hD]; exact Real.sin_sq_add_cos_sq (t * w)
  have hxi : ∀ i, x i = L / S * (A * (a i / norm a) + B * (b i / norm b)) := by
    intro i
    rw [hx]
    simp only [slerpNum]
    rw [← hw, ← hA, ← hB, ← hS, ← hL]
    ring
  have uu : ∑ i, a i / norm a * (a i / norm a) = 1 := by
    rw [unit_dot ha ha, norm_sq]; exact div_self (by rw [← norm_sq]; positivity)
  have vv : ∑ i, b i / norm b * (b i / norm b) = 1 := by
    rw [unit_dot hb hb, norm_sq]; exact div_self (by rw [← norm_sq]; positivity)
  have uv : ∑ i, a i / norm a * (b i / norm b) = C := by rw [unit_dot ha hb, hc]
  have hxx : dot x x = L ^ 2 := by
    have e : ∀ i, x i * x i = (L / S) ^ 2 * (A ^ 2 * (a i / norm a * (a i / norm a)) + 2 * A * B * (a i / norm a * (b i / norm b)) +
        B ^ 2 * (b i / norm b * (b i / norm b))) := by
      intro i; rw [hxi]; ring
    unfold dot
    simp only [e]
    rw [← mul_sum, sum_add_distrib, sum_add_distrib, ← mul_sum, ← mul_sum, ← mul_sum, uu, uv, vv]
    have : A ^ 2 * 1 + 2 * A * B * C + B ^ 2 * 1 = S ^ 2 := by
      rw [hAe]
      linear_combination -B ^ 2 * hSC + S ^ 2 * hBD
    rw [this]
    field_simp
  have hnx : norm x = L := by
    unfold norm
    rw [hxx, Real.sqrt_sq hLpos.le]
  have hax : dot a x = norm a * L * D := by
    have e : ∀ i, a i * x i = norm a * (L / S) * (A * (a i / norm a * (a i / norm a)) + B * (a i / norm a * (b i / norm b))) := by
      intro i; rw [hxi]; field_simp
    unfold dot
    simp only [e]
    rw [← mul_sum, sum_add_distrib, ← mul_sum, ← mul_sum, uu, uv, hAe]
    field_simp
    ring
  rw [← hx]
  refine ⟨by rw [hnx, hL]; rfl, ?_⟩
  unfold Spec.angle
  rw [hax, hnx, ← hw]
  have : norm a * L * D / (norm a * L) = D := by field_simp
  rw [this, hD, Real.arccos_cos]
  · rw [hw]; exact mul_nonneg h0 hang.le
  · rw [hw]; nlinarith

/-- Two orthogonal vectors. -/
example : ∃ a b : Bool → ℝ, norm a ≠ 0 ∧ norm b ≠ 0 ∧ 0 < Spec.angle a b ∧ Spec.angle a b < Real.pi := by
  refine ⟨fun i => if i then 1 else 0, fun i => if i then 0 else 2, ?_, ?_, ?_, ?_⟩
  · intro h; have := norm_eq_zero.mp h true; simp at this
  · intro h; have := norm_eq_zero.mp h false; simp at this
  · simp [Spec.angle, dot]
    exact Real.pi_pos
  · simp [Spec.angle, dot]
    exact Real.pi_pos

/-! ## C75: selection -/

/-- **C75.**  Every entry of `select_max_delta` is one of the two entries, and `alpha = 0` gives `a`. -/
theorem C75_select (a b alpha : ι → ℝ) (i : ι) :
    (selectMaxDelta a b alpha i = a i ∨ selectMaxDelta a b alpha i = b i) ∧ selectMaxDelta a b (fun _ => 0) = a := by
  constructor
  · unfold selectMaxDelta; split_ifs <;> simp
  · funext j
    unfold selectMaxDelta
    rw [if_pos]
    have : 0 ≤ standard a j := by unfold standard; split_ifs <;> positivity
    linarith

/-- **C75 is false of the code at the other end**: for tensors with a single entry even `alpha = 1` gives `a`. -/
theorem C75_single_false (a b alpha : Fin 1 → ℝ) : selectMaxDelta a b alpha = a := by
  funext i
  unfold selectMaxDelta standard
  simp

/-- **C75** (partial: an entry of `b` that equals the mean of `b` is not selected).  With `alpha = 1` every other entry is
`b`'s. -/
theorem C75_one_partial (a b : ι → ℝ) (i : ι) (hc : 2 ≤ Fintype.card ι) (h : b i ≠ tmean b) :
    selectMaxDelta a b (fun _ => 1) i = b i := by
  have hpos : (0 : ℝ) < (Fintype.card ι - 1 : ℕ) := by
    have : 0 < Fintype.card ι - 1 := by omega
    exact_mod_cast this
  have hv : 0 < tvar b := by
    refine div_pos (sum_pos' (fun j _ => sq_nonneg _) ⟨i, mem_univ i, ?_⟩) hpos
    have : b i - tmean b ≠ 0 := sub_ne_zero.mpr h
    positivity
  have : 0 < standard b i := by
    unfold standard
    rw [if_neg (by push Not; exact ⟨by omega, hv.ne'⟩)]
    exact abs_pos.mpr (div_ne_zero (sub_ne_zero.mpr h) (Real.sqrt_pos.mpr hv).ne')
  unfold selectMaxDelta
  rw [if_neg (by linarith)]

example : 2 ≤ Fintype.card Bool ∧ (fun i => if i then 1 else 0 : Bool → ℝ) true ≠ tmean fun i : Bool => if i then 1 else 0 := by
  constructor
  · simp
  · simp [tmean]

end Verif.Geometry
