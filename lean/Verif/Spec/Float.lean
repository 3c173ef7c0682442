import Verif.Model.Float
import Mathlib.Data.Rat.Init
import Mathlib.Algebra.Order.Field.Basic
import Mathlib.Algebra.Order.Field.Power
import Mathlib.Data.Rat.Cast.Order

/-!
# Vocabulary for C34
-/
namespace Verif.Float.Spec
open Verif.Float

/-- The value of a binary number -/
def value (x : Dy) : ℚ := x.m * (2 : ℚ) ^ x.e

/-- The rationals a format of `p` bits, smallest exponent `emin` and upper bound `2^emax` has exactly -/
def Exact (p : ℕ) (emin emax : Int) (q : ℚ) : Prop :=
  ∃ m e : Int, q = m * (2 : ℚ) ^ e ∧ |m| < 2 ^ p ∧ emin ≤ e ∧ |q| < (2 : ℚ) ^ emax

/-- The rationals that are float32 numbers -/
def InF32 : ℚ → Prop := Exact 24 (-149) 128
/-- The rationals that are python floats -/
def InF64 : ℚ → Prop := Exact 53 (-1074) 1024

end Verif.Float.Spec
