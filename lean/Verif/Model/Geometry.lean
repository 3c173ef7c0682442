import Verif.Model.Arith
import Mathlib.Analysis.SpecialFunctions.Pow.Real
import Mathlib.Analysis.SpecialFunctions.Trigonometric.Inverse
import Mathlib.Algebra.BigOperators.Group.Finset.Basic

/-!
# Merge methods that look at a tensor as a vector

`sd_mecha/extensions/builtin/merge_methods/__init__.py`.  A tensor is a function from its finite index type to ℝ.
Simplified: arithmetic is exact; NaN and infinities appear only where a division by zero makes them.
-/
namespace Verif.Geometry
open Finset

variable {ι : Type} [Fintype ι]

/-- `(a * b).sum()` -/
noncomputable def dot (a b : ι → ℝ) : ℝ := ∑ i, a i * b i

/-- `torch.linalg.norm(a)`, `a.norm()` -/
noncomputable def norm (a : ι → ℝ) : ℝ := Real.sqrt (dot a a)

/-- `torch.dist(a, b)` -/
noncomputable def dist (a b : ι → ℝ) : ℝ := norm fun i => a i - b i

/-- The result of a division: a number, an infinity or NaN. -/
inductive Quot where
  | fin (x : ℝ)
  | inf
  | nan

open Classical in
/-- IEEE division of exact numbers (the sign of an infinity is not needed). -/
noncomputable def qdiv (x y : ℝ) : Quot := if y = 0 then (if x = 0 then .nan else .inf) else .fin (x / y)

open Classical in
/-- `perpendicular_component(a, b)`, lines 88-97.  The quotients `a / norm_a` are NaN exactly if the norm is zero, since
then every entry is zero too; one NaN makes the sum and so the whole result NaN, unless it has no entries. -/
noncomputable def perpendicularComponent (a b : ι → ℝ) : ι → ℝ :=
  if norm a = 0 then fun _ => 0
  else fun i => b i - a i * ∑ j, a j / norm a * (b j / norm a)

/-! ## Slerp -/

/-- `weighted_sum_impl`, lines 34-35. -/
def wsum (a b alpha : ℝ) : ℝ := (1 - alpha) * a + alpha * b

/-- The angle of lines 53-57: the inner product of the normalized tensors, clipped to `[-1, 1]`. -/
noncomputable def omega (a b : ι → ℝ) : ℝ :=
  Real.arccos (min (max (∑ i, a i / norm a * (b i / norm b)) (-1)) 1)

/-- The numerator of line 60 at entry `i`. -/
noncomputable def slerpNum (a b alpha : ι → ℝ) (i : ι) : ℝ :=
  a i / norm a * Real.sin ((1 - alpha i) * omega a b) + b i / norm b * Real.sin (alpha i * omega a b)

open Classical in
/-- `slerp(a, b, alpha)`, lines 45-64.  A zero norm makes every entry NaN.  `none`: the result has an infinite
entry. -/
noncomputable def slerp (a b alpha : ι → ℝ) : Option (ι → ℝ) :=
  if norm a = 0 ∨ norm b = 0 ∨ ∃ i, qdiv (slerpNum a b alpha i) (Real.sin (omega a b)) = .nan then
    some fun i => wsum (a i) (b i) (alpha i)
  else if ∃ i, qdiv (slerpNum a b alpha i) (Real.sin (omega a b)) = .inf then none
  else some fun i => slerpNum a b alpha i / Real.sin (omega a b) * wsum (norm a) (norm b) (alpha i)

/-! ## Geometric median -/

/-- `weighted_average_tuple(points, weights)`, lines 781-782.  Simplified: the weight of a model is a function of the
model (all weights of the code are). -/
noncomputable def weightedAverage (models : List (ι → ℝ)) (w : (ι → ℝ) → ℝ) : ι → ℝ :=
  fun i => (models.map fun p => p i * w p).sum / (models.map w).sum

/-- `geometric_median_objective`, lines 785-786, with all weights one. -/
noncomputable def objective (models : List (ι → ℝ)) (median : ι → ℝ) : ℝ :=
  (models.map fun p => dist p median).sum / models.length

/-- Lines 770-771: the new weights. -/
noncomputable def newWeights (eps : ℝ) (median p : ι → ℝ) : ℝ := 1 / max (dist p median) eps

open Classical in
/-- The loop of lines 768-776: the weights of the last iteration. -/
noncomputable def medianLoop (models : List (ι → ℝ)) (eps ftol : ℝ) : ℕ → (ι → ℝ) → ((ι → ℝ) → ℝ) → ℝ → ((ι → ℝ) → ℝ)
  | 0, _, w, _ => w
  | n + 1, median, _, prev =>
    let w := newWeights eps median
    let median' := weightedAverage models w
    let obj := objective models median'
    if |prev - obj| ≤ ftol * obj then w else medianLoop models eps ftol n median' w obj

/-- `geometric_median(*models, eps, maxiter, ftol)`, lines 753-778, for at least one model (`models[0]` raises
otherwise). -/
noncomputable def geometricMedian (models : List (ι → ℝ)) (eps ftol : ℝ) (maxiter : Int) : Option (ι → ℝ) :=
  if models = [] then none
  else
    let median := weightedAverage models fun _ => 1
    some (weightedAverage models (medianLoop models eps ftol (max 0 maxiter).toNat median (fun _ => 1) (objective models median)))

/-! ## Selection of the larger delta -/

/-- `a.mean()` -/
noncomputable def tmean (a : ι → ℝ) : ℝ := (∑ i, a i) / Fintype.card ι

/-- The square of `a.std()`, with torch's default correction. -/
noncomputable def tvar (a : ι → ℝ) : ℝ := (∑ i, (a i - tmean a) ^ 2) / (Fintype.card ι - 1 : ℕ)

open Classical in
/-- Line 255: `((a - a.mean()) / a.std()).nan_to_num(nan=0).abs()`.  With one entry the deviation is NaN; if it is zero
all entries equal the mean and the quotients are NaN. -/
noncomputable def standard (a : ι → ℝ) (i : ι) : ℝ :=
  if Fintype.card ι ≤ 1 ∨ tvar a = 0 then 0 else |(a i - tmean a) / Real.sqrt (tvar a)|

open Classical in
/-- `select_max_delta(a, b, alpha)`, lines 249-257. -/
noncomputable def selectMaxDelta (a b alpha : ι → ℝ) : ι → ℝ := fun i =>
  if (1 - alpha i) * standard a i ≥ alpha i * standard b i then a i else b i

/-! ## TIES with a median -/

/-- The trimmed deltas of `ties_sum_deltas` as tensors, and the counts, lines 537-573. -/
noncomputable def tiesDeltas {m : ℕ} (models : List (Fin m → ℝ)) (k : ℚ) (voteSgn : Bool) :
    Option (List (Fin m → ℝ) × (Fin m → ℝ)) :=
  (Arith.trimAll models k).map fun ds =>
    (ds.map fun d => fun i =>
      d i * (if Arith.sgn (d i) = Arith.electedSign voteSgn (ds.map fun d => d i) then 1 else 0),
     fun i => (Arith.filteredDelta voteSgn (ds.map fun d => d i)).2)

/-- `ties_sum_extended`, lines 486-512.  Simplified: the factor `get_model_stock_t` of lines 737-749 is the argument
`stock`; `nan_to_num` of the median changes nothing. -/
noncomputable def tiesSumExtended {m : ℕ} (big : ℝ) (stock : List (Fin m → ℝ) → Fin m → ℝ) (models : List (Fin m → ℝ))
    (k : ℚ) (voteSgn applyStock applyMedian : Bool) (eps ftol : ℝ) (maxiter : Int) : Option (Fin m → ℝ) :=
  match tiesDeltas models k voteSgn with
  | none => none
  | some (ds, counts) =>
    if applyMedian then
      some fun i => Arith.nanDiv big ((ds.map fun d => d i).sum * (if applyStock then 1 else stock ds i)) (counts i)
    else geometricMedian ds eps ftol maxiter

end Verif.Geometry
