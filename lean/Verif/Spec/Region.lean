import Mathlib.Data.Rat.Floor
import Mathlib.Tactic.Common

/-!
# What region a width and an offset describe

The unit circle `ℚ / ℤ` is cut at `offset` and at `offset + width`; the arc between the two is the
region.  Row `i` of `n` has its centre at `(i + 1/2) / n`.
-/
namespace Verif.Region.Spec

/-- `c` lies strictly inside the arc between `offset` and `offset + width`, up to whole turns. -/
def Inside (width offset c : ℚ) : Prop :=
  ∃ t : Int, min offset (offset + width) < c + t ∧ c + t < max offset (offset + width)

/-- `c` lies on the arc or on one of its ends. -/
def Touches (width offset c : ℚ) : Prop :=
  ∃ t : Int, min offset (offset + width) ≤ c + t ∧ c + t ≤ max offset (offset + width)

/-- The centre of row `i` out of `n`. -/
def centre (n i : ℕ) : ℚ := ((i : ℚ) + 1 / 2) / n

end Verif.Region.Spec
