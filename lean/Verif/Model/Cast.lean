import Verif.Model.Builtin

/-!
# Casting the inputs of a recipe (sd_mecha/merging.py:672-700)
-/
namespace Verif.Eval
open Method Recipe Config
variable {F : Type}

/-- `isinstance(v, torch.Tensor | int | float)`; `bool` is a subclass of `int`. -/
def isScalar : Val F → Bool
  | .tensor _ | .int _ | .float _ | .bool _ => true
  | _ => false

mutual
/-- `recipe.accept(CastInputDicts(device, dtype))` (merging.py:672-700).  `next(iter(...))` of an empty mapping is a
`StopIteration`; what is not a node has no `accept`.  `MergeRecipeNode(...)` checks merge spaces (recipe_nodes.py:171-175). -/
def castInputs (E : Env F) (d t : Option Str) : Val F → Except Err (Val F)
  | .lit (.dict []) _ _ => .error .stopIteration
  | .lit (.dict ((k, v) :: es)) c s =>
    if isScalar v then toNode E (.lit (.dict ((k, v) :: es)) c s) d t
    else if v.isNode then
      match castInputsK E d t ((k, v) :: es) with
      | .error e => .error e
      | .ok es' => mkLit E (.dict es') c (some s)
    else .ok (.lit (.dict ((k, v) :: es)) c s)
  | .lit v c s => if isScalar v then toNode E (.lit v c s) d t else .ok (.lit v c s)
  | .model p c s => toNode E (.model p c s) d t
  | .merge m args kwargs =>
    match castInputsL E d t args, castInputsK E d t kwargs with
    | .error e, _ => .error e
    | _, .error e => .error e
    | .ok as, .ok ks =>
      match (Val.merge m as ks).space E with
      | .error e => .error e
      | .ok _ => .ok (.merge m as ks)
  | _ => .error .attribute
def castInputsL (E : Env F) (d t : Option Str) : List (Val F) → Except Err (List (Val F))
  | [] => .ok []
  | v :: l =>
    match castInputs E d t v, castInputsL E d t l with
    | .error e, _ => .error e
    | _, .error e => .error e
    | .ok v, .ok l => .ok (v :: l)
def castInputsK (E : Env F) (d t : Option Str) : List (Str × Val F) → Except Err (List (Str × Val F))
  | [] => .ok []
  | (k, v) :: l =>
    match castInputs E d t v, castInputsK E d t l with
    | .error e, _ => .error e
    | _, .error e => .error e
    | .ok v, .ok l => .ok ((k, v) :: l)
end

end Verif.Eval
