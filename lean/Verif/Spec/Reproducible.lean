import Verif.Spec.StreamOut

/-!
# Specification: the one file that a list of tensors makes

No buffer, no thread and no flush appears here.
-/
namespace Verif.Reproducible.Spec
open StreamOut

/-- Tensors placed one behind the other from `off`. -/
def places (off : ℕ) : List (Key × Tensor) → Header
  | [] => []
  | p :: l => (p.1, .tensor ⟨p.2.dtype, p.2.shape, off, off + p.2.bytes.length⟩) :: places (off + p.2.bytes.length) l

/-- The header: the recipe, then the tensors in the order given. -/
def header (recipe : Option (List Char)) (ts : List (Key × Tensor)) : Header :=
  (metadataKey, .metadata (recipe.toList.map fun r => ("mecha_recipe".toList, r))) :: places 0 ts

/-- The file of `ts` with `reserved` bytes for the header. -/
def IsFileOf (reserved : ℕ) (recipe : Option (List Char)) (ts : List (Key × Tensor)) (file : Bytes) : Prop :=
  Safetensors.IsFile file (header recipe ts) (reserved - (Safetensors.headerText (header recipe ts)).length) (ts.flatMap fun p => p.2.bytes)

/-- The thread that takes a step. -/
def threadOf : Action → ℕ
  | .begin tid _ _ => tid
  | .locked tid => tid
  | .finish tid => tid

/-- All steps are taken by one thread. -/
def OneThread (as : List Action) : Prop := ∃ tid, ∀ a ∈ as, threadOf a = tid

end Verif.Reproducible.Spec
