import Verif.Model.Eval

/-!
# Builtin methods that are not numeric (sd_mecha/extensions/builtin/merge_methods/__init__.py:806-909)
and the recipe operators that use them (sd_mecha/recipe_nodes.py:49-65)
-/
namespace Verif.Eval
open Method Recipe Config
variable {F T : Type}

/-- A parameter without declared merge space and config -/
def plain : Param := ⟨none, none, false⟩

/-- A parameter of type `str` -/
def strParam : Param := ⟨none, none, true⟩

/-- Signature of `fallback` (__init__.py:807-811) -/
def fallbackSig : Sig (Val F) := ⟨[("a".toList, plain), ("default".toList, plain)], none, [], [], [], .none, none⟩

/-- `fallback` (__init__.py:806-816): only a `StateDictKeyError` is caught. -/
def fallbackImpl : Impl F T where
  types := ⟨[.sd .typeVar, .sd .typeVar], none, []⟩
  run args _ key :=
    match args with
    | [.sd a _, .sd b _] =>
      match a key with
      | .ok v => .ok v
      | .error .stateDictKey => b key
      | .error e => .error e
    | _ => .error .type

/-- The names in `cast_dtype_map` (__init__.py:837-856) -/
def dtypeNames : List Str :=
  ["float64", "int64", "float32", "int32", "float16", "bfloat16", "int16", "float8_e4m3fn", "float8_e5m2", "int8", "bool", "uint64",
    "uint32", "uint16", "uint8"].map String.toList

/-- Signature of `cast` (__init__.py:820-824) -/
def castSig : Sig (Val F) :=
  ⟨[("a".toList, plain), ("device".toList, strParam), ("dtype".toList, strParam)], none, [], [.none, .none], [], .none, none⟩

/-- `to_kwargs["device"]` (__init__.py:826-827); `.to` rejects other types. -/
def deviceArg : RVal F T → Except Err (Option Str)
  | .none => .ok none
  | .str s => .ok (some s)
  | _ => .error .type

/-- `to_kwargs["dtype"]` (__init__.py:829-832) -/
def dtypeArg : RVal F T → Except Err (Option Str)
  | .none => .ok none
  | .str s => if s ∈ dtypeNames then .ok (some s) else .error .value
  | _ => .error .value

/-- `cast` (__init__.py:819-834); `move d t x` is `x.to(device=d, dtype=t)`, absent keywords being `none`. -/
def castImpl (move : Option Str → Option Str → T → Except Err T) : Impl F T where
  types := ⟨[.val .tensor, .val .str, .val .str], none, []⟩
  run args _ _ :=
    match args with
    | [.val a, .val device, .val dtype] =>
      match deviceArg device, dtypeArg dtype with
      | .error e, _ => .error e
      | _, .error e => .error e
      | .ok d, .ok t =>
        match a with
        | .tensor x => (move d t x).map RVal.tensor
        | _ => .error .attribute
    | _ => .error .type

/-- Signature of `pick_component` and `omit_component` (__init__.py:875-879, 894-898) -/
def componentSig : Sig (Val F) :=
  ⟨[("a".toList, plain), ("component".toList, ⟨some (.set [paramSpace]), none, true⟩)], none, [], [], [], .none, none⟩

/-- `a.model_config.components()[component].keys()` with the errors of __init__.py:880-884 -/
def componentKeys (config : Except Err (Option ModelConfig)) (component : RVal F T) : Except Err (List Str) :=
  match config with
  | .error e => .error e
  | .ok none => .error .attribute
  | .ok (some cfg) =>
    match component with
    | .str c =>
      match cfg.components.get? c with
      | some comp => .ok (Dict.keys comp)
      | none => .error .value
    | _ => .error .value

/-- `pick_component` (__init__.py:874-890) -/
def pickImpl : Impl F T where
  types := ⟨[.sd .typeVar, .val .str], none, []⟩
  run args _ key :=
    match args with
    | [.sd a config, .val component] =>
      match componentKeys config component with
      | .error e => .error e
      | .ok keys => if key ∈ keys then a key else .error .stateDictKey
    | _ => .error .type

/-- `omit_component` (__init__.py:893-909) -/
def omitImpl : Impl F T where
  types := ⟨[.sd .typeVar, .val .str], none, []⟩
  run args _ key :=
    match args with
    | [.sd a config, .val component] =>
      match componentKeys config component with
      | .error e => .error e
      | .ok keys => if key ∈ keys then .error .stateDictKey else a key
    | _ => .error .type

def nFallback : Str := "fallback".toList
def nCast : Str := "cast".toList
def nPick : Str := "pick_component".toList
def nOmit : Str := "omit_component".toList

/-- The builtin methods are registered under their names. -/
structure Builtin (W : World F T) (move : Option Str → Option Str → T → Except Err T) : Prop where
  sigFallback : W.env.resolve nFallback = .ok fallbackSig
  implFallback : W.impl nFallback = fallbackImpl
  sigCast : W.env.resolve nCast = .ok castSig
  implCast : W.impl nCast = castImpl move
  sigPick : W.env.resolve nPick = .ok componentSig
  implPick : W.impl nPick = pickImpl
  sigOmit : W.env.resolve nOmit = .ok componentSig
  implOmit : W.impl nOmit = omitImpl

/-- `a | b` (recipe_nodes.py:49-51) -/
def orNode (E : Env F) (a b : Val F) : Except Err (Val F) := do
  let b ← valueToNode E b
  createRecipe E nFallback [a, b] []

/-- `node.to(device=d, dtype=t)` with names or `None` (recipe_nodes.py:57-65) -/
def toNode (E : Env F) (a : Val F) (device dtype : Option Str) : Except Err (Val F) :=
  let v : Option Str → Val F := fun o => match o with | none => .none | some s => .str s
  createRecipe E nCast [a] [("device".toList, v device), ("dtype".toList, v dtype)]

end Verif.Eval
