import Verif.Model.Region
import Mathlib.Algebra.Order.Field.Basic
import Mathlib.Algebra.BigOperators.Group.List.Basic
import Mathlib.Algebra.Order.BigOperators.Group.List
import Mathlib.Data.List.Sort
import Mathlib.Data.Sign.Basic

/-!
# Elementwise merge methods

`sd_mecha/extensions/builtin/merge_methods/__init__.py`.  A tensor is a function from its (finite) index type
to an ordered field `K`; arguments are taken after broadcasting.  Simplified: arithmetic is exact except for
the three masks, which are modelled with an arbitrary rounding of every operation; overflow to infinity is left
out.
-/
namespace Verif.Arith
open Region (pyTrunc)

variable {K : Type} [Field K] [LinearOrder K] [IsStrictOrderedRing K] {ι : Type}

/-! ## Averages -/

/-- `torch.allclose(x, y)` on one entry, with torch's default tolerances. -/
def close (x y : K) : Prop := |x - y| ≤ 1 / 10 ^ 8 + 1 / 10 ^ 5 * |y|

/-- `weighted_sum_impl`, lines 34-35. -/
def wsum (a b alpha : K) : K := (1 - alpha) * a + alpha * b

open Classical in
/-- `weighted_sum`, lines 17-31.  `a` and `b` are what reading the key from either state dict gives, which is
only looked at where the code reads the key. -/
noncomputable def weightedSum {E : Type} (a b : Except E (ι → K)) (alpha : ι → K) : Except E (ι → K) :=
  if ∀ i, close (alpha i) 0 then a
  else if ∀ i, close (alpha i) 1 then b
  else do
    let x ← a
    let y ← b
    return fun i => wsum (x i) (y i) (alpha i)

/-- `n_average`, lines 38-42: `torch.stack` raises on an empty list. -/
def nAverage (models : List (ι → K)) : Option (ι → K) :=
  if models = [] then none else some fun i => (models.map fun m => m i).sum / models.length

/-- `add_difference`, lines 67-77: `a.addcmul(b, alpha)`. -/
def addDifference (a b alpha : ι → K) : ι → K := fun i => a i + b i * alpha i

/-- `subtract`, lines 80-85. -/
def subtract (a b : ι → K) : ι → K := fun i => a i - b i

/-! ## Clamp -/

/-- `functools.reduce(torch.maximum, bounds)` on one entry. -/
def maxOf (b : K) (bs : List K) : K := bs.foldl max b

/-- `functools.reduce(torch.minimum, bounds)` on one entry. -/
def minOf (b : K) (bs : List K) : K := bs.foldl min b

/-- Line 468: one step towards the smallest bound above the average. -/
def stepUp (average : K) (s bound : K) : K := if s ≥ bound ∧ bound ≥ average then bound else s

/-- Line 469: one step towards the largest bound below the average. -/
def stepDown (average : K) (s bound : K) : K := if s ≤ bound ∧ bound ≤ average then bound else s

/-- One entry of `clamp(a, *bounds, stiffness)`, lines 451-474.  `functools.reduce` raises on an empty list. -/
def clamp (a : K) (bounds : List K) (stiffness : K) : Option K :=
  match bounds with
  | [] => none
  | b :: bs =>
    let hi := maxOf b bs
    let lo := minOf b bs
    if stiffness ≠ 0 then
      let average := (b :: bs).sum / (b :: bs).length
      let up := (b :: bs).foldl (stepUp average) hi
      let down := (b :: bs).foldl (stepDown average) lo
      some (min (max a (wsum lo down stiffness)) (wsum hi up stiffness))
    else some (min (max a lo) hi)

/-! ## Masks -/

/-- Rounding of an arithmetic result to a number the format has: monotone, odd, exact on numbers of the
format, which include 0 and 1.  IEEE formats satisfy this as long as nothing overflows. -/
structure Rounding (K : Type) [Field K] [LinearOrder K] where
  f : K → K
  mono : ∀ {x y : K}, x ≤ y → f x ≤ f y
  neg : ∀ x : K, f (-x) = -f x
  idem : ∀ x : K, f (f x) = f x
  one : f 1 = 1

/-- `torch.nan_to_num(x / y, nan=0)` where `0 / 0` is NaN; `big` stands for what an infinite quotient
becomes. -/
def quotient (R : Rounding K) (big x y : K) : K :=
  if y = 0 then (if x = 0 then 0 else if 0 < x then big else -big) else R.f (x / y)

/-- `train_difference_mask` on one entry, lines 219-226; `c18` is the format's `1.8`. -/
def trainDifferenceMask (R : Rounding K) (big c18 a b c alpha : K) : K :=
  R.f (R.f (alpha * c18) *
    quotient R big |R.f (b - a)| (R.f (|R.f (b - a)| + |R.f (b - c)|)))

/-- `add_opposite_mask` on one entry, lines 229-236. -/
def addOppositeMask (R : Rounding K) (big a b c alpha : K) : K :=
  R.f (R.f (alpha * 2) *
    quotient R big |R.f (a - b)| (R.f (|R.f (a - b)| + |R.f (R.f (a + b) - R.f (2 * c))|)))

/-- `add_strict_opposite_mask` on one entry, lines 239-247. -/
def addStrictOppositeMask (R : Rounding K) (big a b c alpha : K) : K :=
  R.f (R.f (alpha * max (quotient R big (R.f (R.f (c - a) * R.f (b - c)))
    (R.f (max |R.f (a - c)| |R.f (b - c)| * max |R.f (a - c)| |R.f (b - c)|))) 0) * 2)

/-! ## TIES -/

/-- `t.kthvalue(k)` of a flat tensor: the `k`-th smallest entry; out of range raises. -/
def kthValue (xs : List K) (k : ℕ) : Option K := if k = 0 then none else (xs.insertionSort (· ≤ ·))[k - 1]?

/-- Line 577: how many entries may be trimmed, plus one. -/
def topCount (k : ℚ) (m : ℕ) : ℕ := (max (pyTrunc ((1 - k) * m)) 1).toNat

/-- `filter_top_k`, lines 576-580. -/
def filterTopK {m : ℕ} (a : Fin m → K) (k : ℚ) : Option (Fin m → K) :=
  (kthValue (List.ofFn fun i => |a i|) (topCount k m)).map fun v => fun i => a i * (if |a i| ≥ v then 1 else 0)

/-- `torch.sign`. -/
def sgn (x : K) : K := if 0 < x then 1 else if x < 0 then -1 else 0

/-- Lines 553-559 on one entry of the trimmed deltas: the elected sign. -/
def electedSign (voteSgn : Bool) (ds : List K) : K := sgn (if voteSgn then ds.sum else (ds.map sgn).sum)

/-- `filtered_delta` and `param_counts` on one entry, lines 561-573. -/
def filteredDelta (voteSgn : Bool) (ds : List K) : List K × K :=
  (ds.map fun d => d * (if sgn d = electedSign voteSgn ds then 1 else 0),
    (ds.map fun d => if sgn d = electedSign voteSgn ds then (1 : K) else 0).sum)

/-- `torch.nan_to_num(x / y)` for exact numbers; `big` as in `quotient`. -/
def nanDiv (big x y : K) : K := if y = 0 then (if x = 0 then 0 else if 0 < x then big else -big) else x / y

/-- `ties_sum_deltas`, lines 537-550, step 1: every model trimmed.  `torch.stack` raises on an empty list. -/
def trimAll {m : ℕ} (models : List (Fin m → K)) (k : ℚ) : Option (List (Fin m → K)) :=
  if models = [] then none else models.mapM fun a => filterTopK a k

/-- `ties_sum(*models, k, vote_sgn)`, lines 525-534. -/
def tiesSum {m : ℕ} (big : K) (models : List (Fin m → K)) (k : ℚ) (voteSgn : Bool) : Option (Fin m → K) :=
  (trimAll models k).map fun ds => fun i =>
    nanDiv big (filteredDelta voteSgn (ds.map fun d => d i)).1.sum (filteredDelta voteSgn (ds.map fun d => d i)).2

end Verif.Arith
