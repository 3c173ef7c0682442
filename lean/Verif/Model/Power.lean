import Verif.Model.Broadcast
import Mathlib.Analysis.SpecialFunctions.Pow.Complex
import Mathlib.Analysis.SpecialFunctions.Pow.Real
import Mathlib.Analysis.SpecialFunctions.Log.Basic

/-!
# Merge methods with powers

`sd_mecha/extensions/builtin/merge_methods/__init__.py` lines 100-109 and 277-296.  Simplified: arithmetic is exact; nothing is said about
entries that are zero, whose powers and logarithms depend on the platform.
-/
namespace Verif.Power

/-- One entry of `geometric_sum(a, b, alpha)` (lines 100-109): principal powers of complex numbers -/
noncomputable def geometricSum (a b alpha : ℝ) : ℝ := ((a : ℂ) ^ ((1 - alpha : ℝ) : ℂ) * (b : ℂ) ^ (alpha : ℂ)).re

/-- `ac_log`, `bc_log` on one entry (lines 284-285) -/
noncomputable def logRatio (a c : ℝ) : ℝ := Real.log |a| - Real.log |c|

open Classical in
/-- What `alpha` is multiplied with on one entry (lines 290-291); a zero threshold makes the quotient NaN. -/
noncomputable def factor (a b c : ℝ) : ℝ :=
  max (-(if max |logRatio a c| |logRatio b c| = 0 then 0 else logRatio a c * logRatio b c / max |logRatio a c| |logRatio b c| ^ 2)) 0

/-- One entry of the result (lines 293-296), `alpha` being the value after line 291 -/
noncomputable def quotientPower (a b c alpha : ℝ) : ℝ := ((a : ℂ) * ((b : ℂ) / (c : ℂ)) ^ (alpha : ℂ)).re

/-- A tensor: its shape and its entries by index.  Entries outside of the shape do not matter. -/
structure Ten where
  shape : List ℕ
  val : List ℕ → ℝ

/-- `multiply_quotient(a, b, c, alpha)` (lines 277-296): the result, and `alpha` after the call, which line 291 changes in place; `none` is
the RuntimeError of an in-place operation whose result has another shape.  Simplified: `a`, `b` and `c` of different shapes are left out
(`none`). -/
noncomputable def multiplyQuotient (a b c alpha : Ten) : Option (Ten × Ten) :=
  if a.shape = b.shape ∧ b.shape = c.shape ∧ broadcast alpha.shape a.shape = some alpha.shape then
    let e : List ℕ → ℝ := fun i => alpha.val i * factor (a.val (bindex a.shape i)) (b.val (bindex a.shape i)) (c.val (bindex a.shape i))
    some (⟨alpha.shape, fun i => quotientPower (a.val (bindex a.shape i)) (b.val (bindex a.shape i)) (c.val (bindex a.shape i)) (e i)⟩,
      ⟨alpha.shape, e⟩)
  else none

end Verif.Power
