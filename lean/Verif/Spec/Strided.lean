import Verif.Model.Strided
import Verif.Spec.Safetensors

/-!
# Specification: the elements of a tensor in row-major order
-/
namespace Verif.Strided.Spec

/-- All indexes of a shape, last dimension fastest. -/
def indices : List ℕ → List (List ℕ)
  | [] => [[]]
  | n :: sh => (List.range n).flatMap fun i => (indices sh).map (i :: ·)

/-- Position of an element relative to the first. -/
def dot : List ℕ → List ℕ → ℕ
  | i :: is, s :: ss => i * s + dot is ss
  | _, _ => 0

/-- The bytes of the element at an index. -/
def elem (t : View) (idx : List ℕ) : Bytes :=
  slice t.mem ((t.offset + dot idx t.strides) * Safetensors.width t.dtype) (Safetensors.width t.dtype)

/-- The tensor's elements in row-major order. -/
def rowMajor (t : View) : Bytes := (indices t.shape).flatMap (elem t)

/-- `is_contiguous()`: strides of dimensions of size one do not matter. -/
def Contiguous : List ℕ → List ℕ → Prop
  | [], [] => True
  | n :: sh, s :: st => (n ≠ 1 → s = numel sh) ∧ Contiguous sh st
  | _, _ => False

instance : (sh st : List ℕ) → Decidable (Contiguous sh st)
  | [], [] => isTrue trivial
  | n :: sh, s :: st =>
    have := instDecidableContiguous sh st
    inferInstanceAs (Decidable ((n ≠ 1 → s = numel sh) ∧ Contiguous sh st))
  | [], _ :: _ => isFalse id
  | _ :: _, [] => isFalse id

/-- All bytes of the storage are in memory. -/
def Backed (t : View) : Prop := t.storageLen ≤ t.mem.length

end Verif.Strided.Spec
