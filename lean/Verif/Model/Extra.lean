import Verif.Model.Builtin

/-!
# Forwarding extra keys (sd_mecha/merging.py:213-259)

`merge(..., omit_extra_keys=False)`.  The recipe is one whose inputs are open: its nodes know their config, see `Verif/Model/Eval.lean`.
-/
namespace Verif.Extra
open Method Recipe Config Eval
variable {F T : Type}

/-- What `copy_extra_keys` sees of the inputs -/
structure Inputs (F : Type) where
  /-- `node.state_dict.metadata()`, by path -/
  file : Str → Except Err (Dict Str TensorMeta)
  /-- shape and dtype of a tensor in memory -/
  tensor : ℕ → TensorMeta
  /-- `bool(tensor == v)` for a value that is not the same object: python raises for tensors of several elements. -/
  eq : ℕ → Val F → Except Err Bool

/-- `a == b` of two values in dicts: first `is`, then `==`.  The left one is a tensor. -/
def valueEq (I : Inputs F) : Val F → Val F → Except Err Bool
  | .tensor i, .tensor j => if i = j then .ok true else I.eq i (.tensor j)
  | .tensor i, v => I.eq i v
  | _, _ => .ok false

/-- The loop of `a == b` for dicts: over the entries of `a`, up to the first difference -/
def dictEqLoop (I : Inputs F) (b : Dict Str (Val F)) : Dict Str (Val F) → Except Err Bool
  | [] => .ok true
  | (k, v) :: a =>
    match b.get? k with
    | none => .ok false
    | some v' =>
      match valueEq I v v' with
      | .error e => .error e
      | .ok false => .ok false
      | .ok true => dictEqLoop I b a

/-- `a == b` for dicts -/
def dictEq (I : Inputs F) (a b : Dict Str (Val F)) : Except Err Bool := if a.length = b.length then dictEqLoop I b a else .ok false

/-- `node in n` for a forwardable node `n` (recipe_nodes.py:117-121, 155-159) -/
def isIn (I : Inputs F) (node n : Val F) : Except Err Bool :=
  match n, node with
  | .model p _ _, .model q _ _ => .ok (decide (p = q))
  | .lit (.dict a) _ _, .lit (.dict b) _ _ => dictEq I a b
  | _, _ => .ok false

abbrev Found (F : Type) := List (Val F × Dict Str TensorMeta)

/-- `any(node in n[0] for n in self.forwardable_nodes)` -/
def anyIn (I : Inputs F) (node : Val F) : Found F → Except Err Bool
  | [] => .ok false
  | n :: ns =>
    match isIn I node n.1 with
    | .error e => .error e
    | .ok true => .ok true
    | .ok false => anyIn I node ns

/-- `TensorMetadata(v.shape, v.dtype)` for all values (merging.py:246-249) -/
def dictMeta (I : Inputs F) : Dict Str (Val F) → Except Err (Dict Str TensorMeta)
  | [] => .ok []
  | (k, .tensor i) :: es => match dictMeta I es with | .error e => .error e | .ok d => .ok ((k, I.tensor i) :: d)
  | _ :: _ => .error .attribute

/-- Appends a node that is not there yet. -/
def addNew (I : Inputs F) (node : Val F) (md : Except Err (Dict Str TensorMeta)) (acc : Found F) : Except Err (Found F) :=
  match anyIn I node acc with
  | .error e => .error e
  | .ok true => .ok acc
  | .ok false => match md with | .error e => .error e | .ok d => .ok (acc ++ [(node, d)])

mutual
/-- `ForwardableNodesVisitor` (merging.py:228-259) with `target_config` and `target_merge_space`.  What is not a node has no `accept`. -/
def visit (I : Inputs F) (config : Str) (space : Option Str) : Val F → Found F → Except Err (Found F)
  | .lit (.dict []) _ _, acc => .ok acc
  | .lit (.dict ((k, first) :: es)) c s, acc =>
    if first.isNode then visitK I config space ((k, first) :: es) acc
    else if first.isTensor ∧ c = some config ∧ some s = space then
      addNew I (.lit (.dict ((k, first) :: es)) c s) (dictMeta I ((k, first) :: es)) acc
    else .ok acc
  | .lit _ _ _, acc => .ok acc
  | .model path c s, acc => if c = some config then addNew I (.model path c s) (I.file path) acc else .ok acc
  | .merge _ args kwargs, acc =>
    match visitL I config space args acc with
    | .error e => .error e
    | .ok acc => visitK I config space kwargs acc
  | _, _ => .error .attribute
def visitL (I : Inputs F) (config : Str) (space : Option Str) : List (Val F) → Found F → Except Err (Found F)
  | [], acc => .ok acc
  | v :: l, acc =>
    match visit I config space v acc with
    | .error e => .error e
    | .ok acc => visitL I config space l acc
def visitK (I : Inputs F) (config : Str) (space : Option Str) : List (Str × Val F) → Found F → Except Err (Found F)
  | [], acc => .ok acc
  | (_, v) :: l, acc =>
    match visit I config space v acc with
    | .error e => .error e
    | .ok acc => visitK I config space l acc
end

/-- `functools.reduce(operator.or_, nodes, recipe)` -/
def orAll (E : Env F) : Val F → List (Val F) → Except Err (Val F)
  | r, [] => .ok r
  | r, n :: ns =>
    match orNode E r n with
    | .error e => .error e
    | .ok r' => orAll E r' ns

/-- `aliases` (merging.py:217) -/
def aliasMap (c : ModelConfig) : Dict Str Str := Dict.ofList (c.aliases.flatMap fun p => p.2.map fun a => (a, p.1))

/-- `copy_extra_keys` (merging.py:213-225): the new recipe and the keys to merge -/
def copyExtra (W : World F T) (I : Inputs F) (recipe : Val F) : Except Err (Val F × Dict Str TensorMeta) :=
  match recipe.config W.env with
  | .error e => .error e
  | .ok none => .error .attribute
  | .ok (some c) =>
    match W.configs c with
    | none => .error .attribute
    | some cfg =>
      match recipe.space W.env with
      | .error e => .error e
      | .ok space =>
        match visit I c space recipe [] with
        | .error e => .error e
        | .ok found =>
          match orAll W.env recipe (found.map (·.1)) with
          | .error e => .error e
          | .ok r => .ok (r, Dict.update (Dict.ofList (found.flatMap fun n => n.2.map fun p => (((aliasMap cfg).get? p.1).getD p.1, p.2))) cfg.metadata)

end Verif.Extra
