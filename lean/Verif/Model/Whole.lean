import Verif.Model.Cast
import Verif.Model.Merge
import Verif.Model.Serialize
import Verif.Model.Program

/-!
# `merge` from its arguments to the keys it merges (sd_mecha/merging.py:27-206, 262-297)

With `omit_extra_keys=True`, the default (the other case is `Verif/Model/Extra.lean`).  The recipe is one whose inputs are open: the nodes of
models know their config (`Verif/Model/Inputs.lean` is how they get it).  Merging the keys is `Verif/Model/Threads.lean`, the file that is
written `Verif/Model/StreamOut.lean`.
-/
namespace Verif.Whole
open Method Recipe Config Eval

variable {F T : Type}

/-- The arguments of `merge` (merging.py:27-45) that say what is computed.  Devices and dtypes are given by name. -/
structure Options (F : Type) where
  fallback : Option (Val F)
  mergeDevice : Option Str
  mergeDtype : Option Str
  outputDevice : Option Str
  outputDtype : Option Str
  strict : Bool
  omitEma : Bool

/-- `if merge_device is not None or merge_dtype is not None` (merging.py:133) -/
def Options.castsInputs (o : Options F) : Bool := o.mergeDevice.isSome || o.mergeDtype.isSome

/-- `if output_device is not None or output_dtype is not None` (merging.py:136) -/
def Options.castsOutput (o : Options F) : Bool := o.outputDevice.isSome || o.outputDtype.isSome

/-- `recipe | fallback_model` (merging.py:130-131) -/
def withFallback (E : Env F) (o : Options F) (r : Val F) : Except Err (Val F) :=
  match o.fallback with
  | none => .ok r
  | some fb => orNode E r fb

/-- `recipe.accept(CastInputDicts(merge_device, merge_dtype))` (merging.py:133-134) -/
def withInputs (E : Env F) (o : Options F) (r : Val F) : Except Err (Val F) :=
  if o.castsInputs then castInputs E o.mergeDevice o.mergeDtype r else .ok r

/-- `recipe.to(device=output_device, dtype=output_dtype)` (merging.py:136-137) -/
def withOutput (E : Env F) (o : Options F) (r : Val F) : Except Err (Val F) :=
  if o.castsOutput then toNode E r o.outputDevice o.outputDtype else .ok r

/-- `original_recipe` and the recipe that is merged (merging.py:128-137) -/
def prepare (E : Env F) (o : Options F) (recipe : Val F) : Except Err (Val F × Val F) := do
  let original ← valueToNode E recipe
  let r ← withFallback E o original
  let r ← withInputs E o r
  let r ← withOutput E o r
  .ok (original, r)

def weight : Str := "weight".toList

/-- The check of the merge space and the keys (merging.py:157-168).  `recipe.merge_space` may be `None`, which has no `identifier`. -/
def plan (W : World F T) (o : Options F) (r : Val F) : Except Err (List Str) :=
  if o.strict then
    match r.space W.env with
    | .error e => .error e
    | .ok none => .error .attribute
    | .ok (some s) => if s ≠ weight then .error .value else Merge.recipeKeys W r o.omitEma
  else Merge.recipeKeys W r o.omitEma

/-- What is written to the header (merging.py:278-282): a `TypeError` is caught. -/
def recipeText (N : Serialize.Num F) (original : Val F) : Except Err (Option Str) :=
  match Serialize.serialize N original with
  | .ok t => .ok (some t)
  | .error .type => .ok none
  | .error e => .error e

/-! ## The builtin methods as programs

As `Verif/Model/Builtin.lean`, with the questions to the mappings left open. -/

open Program

/-- `fallback` (extensions/builtin/merge_methods/__init__.py:806-816) -/
def fallbackSource : Source F T where
  types := ⟨[.sd .typeVar, .sd .typeVar], none, []⟩
  body args _ key :=
    match args with
    | [.sd _, .sd _] => .ask (.pos 0) key fun
      | .ok v => .done (.ok v)
      | .error .stateDictKey => .ask (.pos 1) key .done
      | .error e => .done (.error e)
    | _ => .done (.error .type)

/-- `cast` (__init__.py:819-834) -/
def castSource (move : Option Str → Option Str → T → Except Err T) : Source F T where
  types := ⟨[.val .tensor, .val .str, .val .str], none, []⟩
  body args _ _ :=
    match args with
    | [.val a, .val device, .val dtype] =>
      match deviceArg device, dtypeArg dtype with
      | .error e, _ => .done (.error e)
      | _, .error e => .done (.error e)
      | .ok d, .ok t =>
        match a with
        | .tensor x => .done ((move d t x).map RVal.tensor)
        | _ => .done (.error .attribute)
    | _ => .done (.error .type)

/-- `pick_component` (__init__.py:874-890) -/
def pickSource : Source F T where
  types := ⟨[.sd .typeVar, .val .str], none, []⟩
  body args _ key :=
    match args with
    | [.sd config, .val component] =>
      match componentKeys config component with
      | .error e => .done (.error e)
      | .ok keys => if key ∈ keys then .ask (.pos 0) key .done else .done (.error .stateDictKey)
    | _ => .done (.error .type)

/-- `omit_component` (__init__.py:893-909) -/
def omitSource : Source F T where
  types := ⟨[.sd .typeVar, .val .str], none, []⟩
  body args _ key :=
    match args with
    | [.sd config, .val component] =>
      match componentKeys config component with
      | .error e => .done (.error e)
      | .ok keys => if key ∈ keys then .done (.error .stateDictKey) else .ask (.pos 0) key .done
    | _ => .done (.error .type)

/-- The builtin methods are registered under their names. -/
structure Registered (P : PWorld F T) (move : Option Str → Option Str → T → Except Err T) : Prop where
  sigFallback : P.env.resolve nFallback = .ok fallbackSig
  fallback : P.source nFallback = fallbackSource
  sigCast : P.env.resolve nCast = .ok castSig
  cast : P.source nCast = castSource move
  sigPick : P.env.resolve nPick = .ok componentSig
  pick : P.source nPick = pickSource
  sigOmit : P.env.resolve nOmit = .ok componentSig
  omit_ : P.source nOmit = omitSource

end Verif.Whole
