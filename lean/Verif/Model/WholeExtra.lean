import Verif.Model.Whole
import Verif.Model.Extra
import Verif.Model.ByName

/-!
# `merge` with `omit_extra_keys=False` (sd_mecha/merging.py:153-168)

What comes before is `prepare` of `Verif/Model/Whole.lean`, `copy_extra_keys` is `copyExtra` of `Verif/Model/Extra.lean`.
-/
namespace Verif.WholeExtra
open Method Recipe Config Eval Whole
variable {F T : Type}

/-- What `copy_extra_keys` sees of the files that are open.  `node.state_dict` is `None` for others. -/
def inputsOf (opened : Str → Option StreamIn.State) (tensor : ℕ → TensorMeta) (eq : ℕ → Val F → Except Err Bool) : Extra.Inputs F where
  file p := match opened p with | some s => .ok (ByName.metadata s) | none => .error .attribute
  tensor := tensor
  eq := eq

/-- `del recipe_metadata[key]` for the keys of the ema component (merging.py:164-168).  The config asked is that of the new recipe. -/
def dropEma (W : World F T) (omitEma : Bool) (r : Val F) (md : Dict Str TensorMeta) : Except Err (Dict Str TensorMeta) :=
  if omitEma then
    match configOf W r with
    | .error e => .error e
    | .ok none => .error .attribute
    | .ok (some cfg) =>
      match cfg.components.get? "ema".toList with
      | none => .ok md
      | some ema => .ok (md.filter fun p => decide (p.1 ∉ Dict.keys ema))
  else .ok md

/-- The check of the merge space, the recipe that is merged and its keys (merging.py:154-168).  `recipe.model_config.metadata()` before
`copy_extra_keys` raises as that does for a recipe without config. -/
def planExtra (W : World F T) (I : Extra.Inputs F) (o : Options F) (r : Val F) : Except Err (Val F × Dict Str TensorMeta) :=
  let go : Except Err (Val F × Dict Str TensorMeta) :=
    match Extra.copyExtra W I r with
    | .error e => .error e
    | .ok (new, md) =>
      match dropEma W o.omitEma new md with
      | .error e => .error e
      | .ok md => .ok (new, md)
  if o.strict then
    match r.space W.env with
    | .error e => .error e
    | .ok none => .error .attribute
    | .ok (some s) => if s ≠ weight then .error .value else go
  else go

end Verif.WholeExtra
