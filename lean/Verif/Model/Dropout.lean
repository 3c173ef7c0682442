import Verif.Model.Region
import Mathlib.Analysis.SpecialFunctions.Pow.Real
import Mathlib.Analysis.SpecialFunctions.Trigonometric.Basic
import Mathlib.Data.Nat.Choose.Sum

/-!
# Dropout and the distribution of its masks

`sd_mecha/extensions/builtin/merge_methods/__init__.py` lines 583-651 and 711-717.

Simplified: floats are exact reals, but the 64-bit integers of `binomial_coefficient_np` wrap around as in
numpy.  NaN is modelled by `none`.  The random choice of the masks is an argument.
-/
namespace Verif.Dropout

/-- A 64-bit signed integer holding the value `x` after wrap-around. -/
def int64 (x : Int) : Int := (x + 2 ^ 63) % 2 ^ 64 - 2 ^ 63

/-- The loop of `binomial_coefficient_np`, lines 714-716, after `i` rounds. -/
def binomLoop (n : ℕ) : ℕ → Int
  | 0 => 1
  | i + 1 => int64 ((int64 (binomLoop n i * (n - (i + 1) + 1))) / (i + 1))

/-- `binomial_coefficient_np(n, k)`, lines 711-717.  A negative `k` runs the loop zero times. -/
def binomCoeff (n k : ℕ) : Int :=
  if (k : Int) > n - k then binomLoop n (n - k) else binomLoop n k

/-- `bin(i).count("1")`. -/
def popcount (i : ℕ) : ℕ := (Nat.bits i).count true

/-- `np.isclose(x, y)` with numpy's default tolerances. -/
def npIsclose (x y : ℝ) : Prop := |x - y| ≤ 1 / 10 ^ 8 + 1 / 10 ^ 5 * |y|

open Classical in
/-- Python's `round` on reals: nearest integer, ties to even. -/
noncomputable def roundR (x : ℝ) : Int :=
  if x - ⌊x⌋ < 1 / 2 then ⌊x⌋
  else if 1 / 2 < x - ⌊x⌋ then ⌊x⌋ + 1
  else if ⌊x⌋ % 2 = 0 then ⌊x⌋ else ⌊x⌋ + 1

/-- `scipy.stats.binom.pmf(k, n, p)` for `0 ≤ p ≤ 1`. -/
noncomputable def binomPmf (k n : ℕ) (p : ℝ) : ℝ := n.choose k * p ^ k * (1 - p) ^ (n - k)

/-- `weighted_sum_impl`, line 34. -/
def wsum (a b alpha : ℝ) : ℝ := (1 - alpha) * a + alpha * b

/-- The values for the nonempty sets `1 … 2ⁿ - 1`, in this order. -/
def nonempty (n : ℕ) (f : ℕ → ℝ) : List ℝ := (List.range (2 ^ n - 1)).map fun j => f (j + 1)

/-- Lines 629-630: `overlap` negated when its floor is odd. -/
noncomputable def flipOverlap (overlap : ℝ) : ℝ := if ⌊overlap⌋ % 2 = 1 then -overlap else overlap

/-- `np.exp(pmf)` before normalization, lines 632-637. -/
noncomputable def soft (n : ℕ) (overlap : ℝ) (i : ℕ) : ℝ :=
  Real.exp (Real.tan (Real.pi * (overlap - 1 / 2)) * (popcount i - n / 2))

open Classical in
/-- Lines 623-637: the first distribution and the overlap used from then on. -/
noncomputable def basePmf (n : ℕ) (overlap : ℝ) : (ℕ → ℝ) × ℝ :=
  if npIsclose overlap (roundR overlap) then
    if roundR overlap % 2 = 0 then (fun i => 1 / n * (if popcount i = 1 then 1 else 0), overlap)
    else (fun i => if i = 2 ^ n - 1 then 1 else 0, overlap)
  else
    (fun i => soft n (flipOverlap overlap) i / (nonempty n (soft n (flipOverlap overlap))).sum, flipOverlap overlap)

/-- Lines 639-643, before normalization. -/
noncomputable def expanded (n : ℕ) (p : ℝ) (i : ℕ) : ℝ := binomPmf (popcount i) n p / binomCoeff n (popcount i)

open Classical in
/-- `overlapping_sets_pmf(n, p, overlap, overlap_emphasis)`, lines 622-651, for `n ≥ 1`.  `none` stands for
an array of NaNs: scipy's pmf is NaN for `p` outside `[0, 1]`, and the normalization divides by zero if all
entries are zero. -/
noncomputable def overlappingSetsPmf (n : ℕ) (p overlap emphasis : ℝ) : Option (List ℝ) :=
  if 0 ≤ p ∧ p ≤ 1 ∧ (nonempty n (expanded n p)).sum ≠ 0 then
    some (p :: nonempty n fun i =>
      wsum ((basePmf n overlap).1 i)
        (wsum ((basePmf n overlap).1 i) (expanded n p i / (nonempty n (expanded n p)).sum)
          (1 - |2 * (basePmf n overlap).2 - 1|))
        emphasis * (1 - p))
  else none

/-- Lines 614-618: the divisor that makes up for the dropped deltas. -/
noncomputable def rescalar (p rescale : ℝ) : ℝ := if p = 1 then 1 else (1 - p) ^ rescale

/-- One entry of the result of `dropout`, lines 610-619, when the mask drawn for it is the set `s` of deltas:
delta `i` is kept if bit `i` of `s` is set. -/
noncomputable def dropoutEntry (deltas : List ℝ) (s : ℕ) (p rescale : ℝ) : ℝ :=
  ((deltas.zipIdx.map fun d => if s.testBit d.2 then d.1 else 0).sum /
    (max ((List.range deltas.length).countP fun i => s.testBit i) 1 : ℕ)) / rescalar p rescale

/-- What stops a call of `dropout`. -/
inductive Err where
  /-- `'tuple' object has no attribute 'sum'`, line 619: the masks of line 600 are a tuple -/
  | attribute
  /-- `rng.choice` refuses NaN and negative probabilities, line 607 -/
  | value
  deriving DecidableEq

open Classical in
/-- One entry of `dropout(*deltas, probability, rescale, overlap, overlap_emphasis)`, lines 583-619.  `draw`
is the random generator: it turns a distribution over sets into a set.  Simplified: on the path of line 599
the binomial draws, which cannot be seen since the call fails, are left out. -/
noncomputable def dropout (deltas : List ℝ) (p rescale overlap emphasis : ℝ) (draw : List ℝ → ℕ) : Except Err ℝ :=
  if deltas = [] then .ok 0
  else if ∃ k : Int, overlap = 2 * k + 1 then .error .attribute
  else
    match overlappingSetsPmf deltas.length p overlap emphasis with
    | none => .error .value
    | some pmf => if ∃ q ∈ pmf, q < 0 then .error .value else .ok (dropoutEntry deltas (draw pmf) p rescale)

end Verif.Dropout
