import Verif.Model.Eval
import Mathlib.Data.Nat.Log

/-!
# Numbers given to merge methods (sd_mecha/merging.py:649-669)

What `cast_node_value` does to numbers: `torch.tensor(v, dtype=torch.float32)`, `float(t)`, `int(t)`.  PyTorch is not part of /repo;
its conversions are modelled as IEEE 754 rounding to nearest, ties to even.  A finite binary number is `m * 2^e`.  Infinities and
NaNs are the one value `none`.
-/
namespace Verif.Float
open Method Recipe Eval

/-- `m * 2^e` -/
structure Dy where
  m : Int
  e : Int
deriving DecidableEq, Repr

/-- `m / 2^s` rounded to the nearest integer, ties to even -/
def rne (m : Int) (s : ℕ) : Int :=
  let d : Int := 2 ^ s
  let q := m / d
  let r := m % d
  if 2 * r < d then q else if d < 2 * r then q + 1 else if q % 2 = 0 then q else q + 1

/-- The number of binary digits of `|m|` -/
def bits (m : Int) : ℕ := if m = 0 then 0 else Nat.log 2 m.natAbs + 1

/-- Rounding to a format with `p` significant bits, smallest exponent `emin` and values below `2^emax`: the exponent of the unit in
the last place, then the multiple of that unit nearest to `x`. -/
def roundTo (p : ℕ) (emin emax : Int) (x : Dy) : Option Dy :=
  let u := max (x.e + bits x.m - p) emin
  let y : Dy := if u ≤ x.e then x else ⟨rne x.m (u - x.e).toNat, u⟩
  if y.m = 0 ∨ y.e + bits y.m ≤ emax then some y else none

/-- Rounding to `torch.float32` -/
def f32 : Dy → Option Dy := roundTo 24 (-149) 128
/-- Rounding to `torch.float64`, python's `float` -/
def f64 : Dy → Option Dy := roundTo 53 (-1074) 1024

/-- `int(x)`: towards zero -/
def trunc (x : Dy) : Int := if 0 ≤ x.e then x.m * 2 ^ x.e.toNat else x.m.tdiv (2 ^ (-x.e).toNat)

/-- `int(v)`, `float(v)` and `torch.tensor(v, dtype=torch.float32)` on python numbers and tensors with one element.  A python number
becomes a C double before it is stored in a float32 tensor; an infinite tensor has no `int`. -/
def numConv : Conv (Option Dy) (Option Dy) where
  toInt v := match v with
    | .int i => .ok i
    | .bool b => .ok (if b then 1 else 0)
    | .float (some x) | .tensor (some x) => .ok (trunc x)
    | .str _ => .error .value
    | _ => .error .type
  toFloat v := match v with
    | .int i => match f64 ⟨i, 0⟩ with | some x => .ok (some x) | none => .error .value
    | .bool b => .ok (some ⟨if b then 1 else 0, 0⟩)
    | .float x | .tensor x => .ok x
    | .str _ => .error .value
    | _ => .error .type
  toTensor v := match v with
    | .int i => match f64 ⟨i, 0⟩ with | some x => .ok (f32 x) | none => .error .value
    | .bool b => .ok (some ⟨if b then 1 else 0, 0⟩)
    | .float x => .ok (x.bind f32)
    | .tensor x => .ok x
    | _ => .error .type

end Verif.Float
