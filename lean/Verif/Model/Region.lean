import Mathlib.Tactic.Common
import Mathlib.Data.Rat.Floor

/-!
# `tensor_sum` and the region it copies

`sd_mecha/extensions/builtin/merge_methods/__init__.py` lines 142-162 and 196-217.

Simplified: python floats are exact rationals (no rounding, no infinities, no NaN).  A tensor with at
least one dimension is the list of its rows; a tensor of shape `()` is a single row that cannot be
indexed.  Tensors live in a store, because the method writes into its argument.
-/
namespace Verif.Region

/-- Python's `round(x)`: to the nearest integer, ties to the even one. -/
def pyRound (x : ℚ) : Int :=
  if x - ⌊x⌋ < 1 / 2 then ⌊x⌋
  else if 1 / 2 < x - ⌊x⌋ then ⌊x⌋ + 1
  else if ⌊x⌋ % 2 = 0 then ⌊x⌋ else ⌊x⌋ + 1

/-- Python's `int(x)`: truncation towards zero. -/
def pyTrunc (x : ℚ) : Int := if 0 ≤ x then ⌊x⌋ else -⌊-x⌋

/-- `math.fmod(x, 1.0)`: the remainder has the sign of `x`. -/
def fmod1 (x : ℚ) : ℚ := x - pyTrunc x

/-- Lines 197-199: a negative width extends to the left. -/
def shiftOffset (width offset : ℚ) : ℚ := if width < 0 then offset + width else offset

/-- Lines 197-200: `min(|width|, 1)`. -/
def clipWidth (width : ℚ) : ℚ := min (if width < 0 then -width else width) 1

/-- Lines 202-204: the offset modulo one. -/
def wrapOffset (offset : ℚ) : ℚ := fmod1 (if offset < 0 then 1 + offset - pyTrunc offset else offset)

/-- `ratio_to_region(width, offset, n)`, lines 196-217: start, end, inverted. -/
def ratioToRegion (width offset : ℚ) (n : ℕ) : Int × Int × Bool :=
  let w := clipWidth width
  let o := wrapOffset (shiftOffset width offset)
  if w + o ≤ 1 then (pyRound (o * n), pyRound ((w + o) * n), false)
  else (pyRound ((w + o - 1) * n), pyRound (o * n), true)

/-- `xs[start:end] = ys[start:end]` for two tensors of equal shape and non-negative bounds: torch
clips both bounds to the size and an empty range changes nothing. -/
def copyRows {R : Type} (xs ys : List R) (s e : Int) : List R :=
  xs.take s.toNat ++ (ys.take e.toNat).drop s.toNat ++ xs.drop (max s.toNat e.toNat)

/-- A tensor: a scalar of shape `()` or a list of rows. -/
inductive Tensor (R : Type) where
  | scalar (x : R)
  | rows (xs : List R)
  deriving DecidableEq

/-- What a call sees and leaves behind: tensors by reference. -/
abbrev Store (R : Type) := ℕ → Tensor R

/-- Overwrite one tensor of the store. -/
def Store.put {R : Type} (σ : Store R) (i : ℕ) (t : Tensor R) : Store R := fun j => if j = i then t else σ j

/-- `tensor_sum(a, b, width, offset)`, lines 143-162, on references into a store: the store after the
call and the reference that is returned.  Simplified: tensors of different shapes, for which the slice
assignment raises or broadcasts, leave the store unchanged and give no result. -/
def tensorSum {R : Type} (σ : Store R) (a b : ℕ) (width offset : ℚ) : Option (Store R × ℕ) :=
  match σ a, σ b with
  | .scalar _, .scalar _ => some (σ, if 1 / 2 < width then b else a)
  | .rows xs, .rows ys =>
    if xs.length = ys.length then
      match ratioToRegion width offset xs.length with
      | (s, e, true) => some (σ.put b (.rows (copyRows ys xs s e)), b)
      | (s, e, false) => some (σ.put a (.rows (copyRows xs ys s e)), a)
    else none
  | _, _ => none

end Verif.Region
