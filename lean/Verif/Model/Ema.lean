import Verif.Data.Entry

/-!
# Exchange of the averaged weights

sd_mecha/extensions/builtin/merge_methods/ema.py.  Simplified: the state dict is the function that gives the tensor for a key, `none` if it is not
in the file.
-/
namespace Verif.Ema
open Data

/-- `lambda k: f"model_ema.{k[len('model.'):].replace('.', '')}"` (ema.py:25) -/
def toEma (k : Text) : Text := key% "model_ema." ++ Text.replace (key% ".") [] (k.drop 6)

/-- `to_ema_key_fns.get(identifier, lambda k: k)` (ema.py:12, 24-26) -/
def toEmaFn (identifier : Text) : Text → Text := if identifier = key% "sd1-ldm" then toEma else fun k => k

/-- The key that `exchange_ema` reads for a key (ema.py:10-21) -/
def exchangeKey (t : Table) (k : Text) : Text :=
  if toEmaFn t.identifier k ∈ t.entries.map (·.key) then toEmaFn t.identifier k
  else
    match (t.entries.map (·.key)).find? fun i => toEmaFn t.identifier i = k with
    | some i => i
    | none => k

/-- `exchange_ema(model)` for a key (ema.py:5-21) -/
def exchangeEma {T : Type} (t : Table) (model : Text → Option T) (k : Text) : Option T := model (exchangeKey t k)

end Verif.Ema
