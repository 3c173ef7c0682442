import Verif.Spec.Readme
import Verif.Model.Lora

/-!
# Specification: what a LoRA holds for the keys of its base model
-/
namespace Verif.Lora.Spec
open Method Config
open StreamOut (Tensor)

/-- The key without a last part `weight` -/
def stem (key : Str) : Str :=
  if key = "weight".toList then [] else if ".weight".toList <:+ key then key.take (key.length - 7) else key

/-- The name of the module of a key: dots become underscores. -/
def module (key : Str) : Str := "lora_".toList ++ (stem key).map fun c => if c = '.' then '_' else c

/-- The module of a key, if the mapping has all three tensors of it: `alpha`, `down` and `up`; biases have none. -/
def parts {V : Type} (lookup : Str → Option V) (key : Str) : Option (V × V × V) :=
  if "bias".toList <:+ key then none
  else
    match lookup (module key ++ ".alpha".toList), lookup (module key ++ ".lora_down.weight".toList), lookup (module key ++ ".lora_up.weight".toList) with
    | some alpha, some down, some up => some (alpha, down, up)
    | _, _, _ => none

end Verif.Lora.Spec
