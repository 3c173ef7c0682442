import Mathlib.Analysis.SpecialFunctions.Trigonometric.Cotangent
import Mathlib.Analysis.SpecialFunctions.Pow.Real
import Mathlib.Algebra.Module.LinearMap.Defs
import Mathlib.LinearAlgebra.Pi

/-!
# Mixing the frequencies of two tensors

`sd_mecha/extensions/builtin/merge_methods/__init__.py` lines 299-379.  Simplified: arithmetic is exact, including `1 / math.tan`, which is
the cotangent; the comparisons with `1e-10` are kept.
-/
namespace Verif.Crossover

/-- `torch.linspace(x, y, n)` -/
noncomputable def linspace (x y : ℝ) (n : ℕ) : List ℝ := (List.range n).map fun k : ℕ => if n = 1 then x else x + (k : ℝ) * ((y - x) / (n - 1))

/-- The gradient of a dimension of size `s` (lines 348-357); `last` is `i == 0`. -/
noncomputable def gradient (last : Bool) (s : ℕ) : List ℝ :=
  if last ∨ s = 1 then linspace 0 1 s
  else (linspace 0 ((s - 1) / 2 : ℕ) (s - s / 2) ++ linspace (s / 2 : ℕ) 1 (s / 2)).map (· / (s / 2 : ℕ))

/-- `gradients` (lines 348-357), the last dimension being at the end -/
noncomputable def gradients : List ℕ → List (List ℝ)
  | [] => []
  | [s] => [gradient true s]
  | s :: t => gradient false s :: gradients t

/-- The entries of the gradients at an index -/
noncomputable def pick : List (List ℝ) → List ℕ → List ℝ
  | g :: gs, i :: is => g.getD i 0 :: pick gs is
  | _, _ => []

/-- One entry of `mesh` (lines 359-363) -/
noncomputable def mesh (shape : List ℕ) (i : List ℕ) : ℝ :=
  if shape.length > 1 then Real.sqrt (((pick (gradients shape) i).map (· ^ 2)).sum / shape.length)
  else (pick (gradients shape) i).headD 0

/-- `tilt` after line 341 (`tilt // 4 * 4` is a multiple of 4) -/
noncomputable def tiltOf (tilt : ℝ) : ℝ := tilt - ⌊tilt / 4⌋ * 4

/-- Clipping to the unit interval (line 375) -/
noncomputable def clip (x : ℝ) : ℝ := min (max x 0) 1

/-- Lines 365-375 on one entry `m` of the mesh, for `tilt` and `alpha` as they are then -/
noncomputable def rawFilter (m alpha tilt : ℝ) : ℝ :=
  if tilt < 1e-10 ∨ |tilt - 4| < 1e-10 then if m > 1 - alpha then 1 else 0
  else if |tilt - 2| < 1e-10 then if m < 1 - alpha then 1 else 0
  else if tilt ≤ 1 ∨ (2 < tilt ∧ tilt ≤ 3) then
    clip (m * Real.cot (Real.pi * tilt / 2) + alpha * Real.cot (Real.pi * tilt / 2) + alpha - Real.cot (Real.pi * tilt / 2))
  else clip (m * Real.cot (Real.pi * tilt / 2) - alpha * Real.cot (Real.pi * tilt / 2) + alpha)

/-- One entry of `create_filter(shape, alpha, tilt)` (lines 327-379); `none` is the ValueError. -/
noncomputable def filterAt (m alpha tilt : ℝ) : Option ℝ :=
  if 0 ≤ alpha ∧ alpha ≤ 1 then
    some (if tiltOf tilt > 2 then 1 - rawFilter m (1 - alpha) (tiltOf tilt) else rawFilter m alpha (tiltOf tilt))
  else none

/-- `weighted_sum_impl(a, b, alpha=alpha)` -/
def weightedSum {ι : Type} (a b : ι → ℝ) (alpha : ℝ) : ι → ℝ := fun i => (1 - alpha) * a i + alpha * b i

/-- `crossover(a, b, alpha, tilt)` (lines 299-324).  `F` and `G` are `torch.fft.rfftn` and `torch.fft.irfftn`, of which only what the theorems
assume is known; `freq` gives the entries of the mesh; `dims` is the number of dimensions and `near` says whether
`torch.allclose(a.half(), b.half())`. -/
noncomputable def crossover {ι κ : Type} (F : (ι → ℝ) →ₗ[ℝ] (κ → ℂ)) (G : (κ → ℂ) →ₗ[ℝ] (ι → ℝ)) (freq : κ → ℝ) (dims : ℕ)
    (near : (ι → ℝ) → (ι → ℝ) → Bool) (a b : ι → ℝ) (alpha tilt : ℝ) : Option (ι → ℝ) :=
  open Classical in
  if alpha = 0 then some a
  else if alpha = 1 then some b
  else if tilt = 1 then some (weightedSum a b alpha)
  else if dims = 0 ∨ near a b = true then some (weightedSum a b tilt)
  else if 0 ≤ alpha ∧ alpha ≤ 1 then
    some (G fun k => ((1 - ((filterAt (freq k) alpha tilt).getD 0 : ℝ) : ℝ) : ℂ) * F a k + (((filterAt (freq k) alpha tilt).getD 0 : ℝ) : ℂ) * F b k)
  else none

end Verif.Crossover
