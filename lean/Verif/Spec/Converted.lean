import Verif.Props.ConvertSpec
import Verif.Spec.Readme
import Verif.Spec.Strided

/-!
# Specification: a checkpoint in another layout
-/
namespace Verif.Converted.Spec
open Method Config Convert Ieee
open StreamOut (Tensor)

/-- The tensors a conversion needs for a key, if all of them are there; `names` gives the names of keys. -/
def needed (f : Text → Option Convert.Conv) (codes : Str → Text) (names : Text → Str) (held : Str → Option Tensor) (key : Str) : Option (List Tensor) :=
  match f (codes key) with
  | none => none
  | some c => (Convert.Spec.reads c).mapM fun k => held (names k)

/-- `t` has the bytes of the tensors `us`, one after the other, and the shape that goes with them: matrices are put below each other, vectors become rows, a
linear layer becomes a 1×1 convolution. -/
def Arranged : Convert.Conv → List Tensor → Tensor → Prop
  | .read _, us, t => us = [t]
  | .conv1x1 _, us, t => ∃ u, us = [u] ∧ t.dtype = u.dtype ∧ t.bytes = u.bytes ∧ t.shape = if u.shape.length = 1 then u.shape else u.shape ++ [1, 1]
  | .stacked _, us, t => (∀ u ∈ us, t.dtype = u.dtype) ∧ t.bytes = us.flatMap (·.bytes) ∧
      (∀ (ms : List ℕ) (rest : List ℕ), rest ≠ [] → us.map (·.shape) = ms.map (· :: rest) → t.shape = ms.sum :: rest) ∧
      ∀ n, (∀ u ∈ us, u.shape = [n]) → t.shape = [us.length, n]
  | .transposed _, us, t => ∃ u, us = [u] ∧ t.dtype = u.dtype ∧ t.bytes = u.bytes ∧ t.shape = u.shape.reverse

/-- `t` is the matrix `u`, transposed. -/
def Transposed (u t : Tensor) : Prop :=
  ∃ a b, u.shape = [a, b] ∧ t.shape = [b, a] ∧ t.dtype = u.dtype ∧ ∀ i j, i < a → j < b → (entries t)[j * a + i]? = (entries u)[i * b + j]?

end Verif.Converted.Spec
