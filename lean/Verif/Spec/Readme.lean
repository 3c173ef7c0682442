import Verif.Spec.Ieee
import Verif.Spec.Threads

/-!
# Specification: a weighted sum of numbers, and what a model holds
-/
namespace Verif.Readme.Spec
open Ieee Ieee.Spec Method Config
open StreamOut (Tensor)

/-- The number nearest to `e` among the float16 numbers is the one with bits `o`, the even one if two are equally near. -/
def Nearest (e : ℚ) (o : ℕ) : Prop :=
  ∃ r, val (decode half o) = some r ∧ ∀ r', Has half r' → |r - e| ≤ |r' - e| ∧ (r' ≠ r → |r' - e| = |r - e| → o % 2 = 0)

/-- `o` is an acceptable weighted sum of the finite float16 numbers with bits `m` and `n`: it lies between them, is the same if these are, and is as
precise as float16 can be; if the weight is a multiple of `2^-13`, it is the exact sum rounded once. -/
structure Blended (t : ℚ) (m n o : ℕ) : Prop where
  number : ∀ a b, val (decode half m) = some a → val (decode half n) = some b → ∃ r, val (decode half o) = some r ∧ min a b ≤ r ∧ r ≤ max a b ∧
    |r - ((1 - t) * a + t * b)| ≤ ((2 : ℚ) ^ (-11 : ℤ) + (2 : ℚ) ^ (-22 : ℤ)) * max |a| |b| + (2 : ℚ) ^ (-24 : ℤ)
  once : ∀ (k j : ℕ), j ≤ 13 → t = k / 2 ^ j → ∀ a b, val (decode half m) = some a → val (decode half n) = some b → Nearest ((1 - t) * a + t * b) o
  same : m = n → (val (decode half m)).isSome → o = m

/-- The tensor an open file stores under a name -/
def tensorIn (opened : Str → Option StreamIn.State) (path name : Str) : Option Tensor :=
  match Threads.Spec.stored opened path name with
  | .ok t => some t
  | .error _ => none

/-- The tensor a model holds for a key: under its name, or else under the first of its aliases that is there -/
def held (opened : Str → Option StreamIn.State) (cfg : ModelConfig) (path key : Str) : Option Tensor :=
  (key :: (cfg.aliases.get? key).getD []).findSome? (tensorIn opened path)

end Verif.Readme.Spec
