import Verif.Model.Ieee
import Verif.Spec.Float

/-!
# Vocabulary for casts: numbers and what a format can hold
-/
namespace Verif.Ieee.Spec
open Verif.Ieee Float.Spec
open StreamOut (Tensor)

/-- The number a finite value is -/
def val : FV → Option ℚ
  | .fin s m e => some (if s then -(m * (2 : ℚ) ^ e) else m * (2 : ℚ) ^ e)
  | _ => none

/-- The sign -/
def isNeg : FV → Bool
  | .fin s _ _ => s
  | .inf s => s
  | .nan => false

/-- The numbers a format has -/
def Has (f : Fmt) (q : ℚ) : Prop := Exact f.p f.emin f.emax q

/-- `g` has all numbers of `f` -/
structure Wider (f g : Fmt) : Prop where
  p : f.p ≤ g.p
  emin : g.emin ≤ f.emin
  emax : f.emax ≤ g.emax

/-- Numbers from here on are rounded to infinity: halfway between the largest number and the next power of two -/
def limit (f : Fmt) : ℚ := (2 : ℚ) ^ f.emax - (2 : ℚ) ^ (f.emax - f.p - 1)

/-- The bits `n` hold the number nearest to `v`; the even one of two that are equally near.  Infinities, NaN and signs are kept. -/
def Rounded (f : Fmt) (v : FV) (n : ℕ) : Prop :=
  match v with
  | .nan => decode f n = .nan
  | .inf s => decode f n = .inf s
  | .fin s _ _ => ∃ q, val v = some q ∧
      (limit f ≤ |q| → decode f n = .inf s) ∧
      (|q| < limit f → isNeg (decode f n) = s ∧ ∃ r, val (decode f n) = some r ∧
        ∀ r', Has f r' → |r - q| ≤ |r' - q| ∧ (r' ≠ r → |r' - q| = |r - q| → n % 2 = 0))

/-- The same number (zeros have a sign), infinity or both NaN -/
def Same : FV → FV → Prop
  | .nan, .nan => True
  | .inf s, .inf t => s = t
  | .fin s m e, .fin t n g => s = t ∧ val (.fin s m e) = val (.fin t n g)
  | _, _ => False

end Verif.Ieee.Spec
