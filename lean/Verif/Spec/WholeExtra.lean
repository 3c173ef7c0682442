import Verif.Model.WholeExtra
import Verif.Spec.Extra
import Verif.Spec.Whole
import Verif.Spec.Threads

/-!
# Specification: what a merge stores that keeps extra keys
-/
namespace Verif.WholeExtra.Spec
open Method Recipe Config Eval Whole Whole.Spec
open StreamOut (Tensor)
variable {F T : Type}

mutual
/-- The inputs of config `c`, in the order in which the recipe mentions them: files, and dicts of tensors in the merge space -/
def inputs (c : Str) (space : Option Str) : Val F → List (Val F)
  | .lit (.dict es) c' s =>
    if es.all (fun p => p.2.isNode) then inputsK c space es
    else if es.all (fun p => p.2.isTensor) ∧ c' = some c ∧ some s = space then [.lit (.dict es) c' s]
    else []
  | .model p c' s => if c' = some c then [.model p c' s] else []
  | .merge _ args kwargs => inputsL c space args ++ inputsK c space kwargs
  | _ => []
def inputsL (c : Str) (space : Option Str) : List (Val F) → List (Val F)
  | [] => []
  | v :: l => inputs c space v ++ inputsL c space l
def inputsK (c : Str) (space : Option Str) : List (Str × Val F) → List (Val F)
  | [] => []
  | (_, v) :: l => inputs c space v ++ inputsK c space l
end

/-- The first result that is not a missing key -/
def firstOf : List (Res F T) → Res F T
  | [] => .error .stateDictKey
  | .error .stateDictKey :: l => firstOf l
  | r :: _ => r

/-- The inputs of the recipe, then those of the fallback model -/
def allInputs (c : Str) (space : Option Str) (r : Val F) (fallback : Option (Val F)) : List (Val F) :=
  inputs c space r ++ match fallback with | none => [] | some fb => inputs c space fb

/-- What the merge should store for a key: what it stores without extra keys; where that is missing, what the first input holds that has the key, as
it is in the input. -/
def kept (W : World F T) (move : Option Str → Option Str → T → Except Err T) (tensors : ℕ → T) (enc : Val F → ℕ) (o : Options F)
    (r : Val F) (fallback : Option (Val F)) (c : Str) (space : Option Str) (key : Str) : Res F T :=
  firstOf (final W move tensors enc o r fallback key :: (allInputs c space r fallback).map fun n => eval W n key)

/-- `k` is the name of a tensor in the input. -/
inductive Listed (opened : Str → Option StreamIn.State) : Val F → Str → Prop
  | file {path : Str} {c s : Option Str} {k : Str} {t : Tensor} (h : Threads.Spec.stored opened path k = .ok t) : Listed opened (.model path c s) k
  | dict {es : Dict Str (Val F)} {c : Option Str} {s : Str} {k : Str} (hk : k ∈ es.keys) : Listed opened (.lit (.dict es) c s) k

/-- The config's name: the recipe's config; if it has none, the fallback model's -/
def NamedConfig (W : World F T) (r : Val F) (fallback : Option (Val F)) (c : Str) : Prop :=
  r.config W.env = .ok (some c) ∨ r.config W.env = .ok none ∧ ∃ fb, fallback = some fb ∧ fb.config W.env = .ok (some c)

/-- A key of the ema component that is to be omitted -/
def Dropped (cfg : ModelConfig) (o : Options F) (k : Str) : Prop :=
  o.omitEma = true ∧ ∃ ema, cfg.components.get? "ema".toList = some ema ∧ k ∈ Dict.keys ema

/-- No name is an alias of two keys. -/
def Unambiguous (cfg : ModelConfig) : Prop :=
  ∀ k1 k2 as1 as2 a, cfg.aliases.get? k1 = some as1 → cfg.aliases.get? k2 = some as2 → a ∈ as1 → a ∈ as2 → k1 = k2

/-- The keys that are merged: those of the config and those of the inputs under their name in the config -/
def WantedExtra (opened : Str → Option StreamIn.State) (cfg : ModelConfig) (o : Options F) (ins : List (Val F)) (k : Str) : Prop :=
  ((∃ p ∈ cfg.components, k ∈ Dict.keys p.2) ∨ ∃ n ∈ ins, ∃ k', Listed opened n k' ∧ Extra.Spec.Name cfg k' k) ∧ ¬ Dropped cfg o k

/-- What was asked for: the recipe and the fallback model as nodes, their config and their merge space.  (A model may have no merge space.) -/
structure Asked (W : World F T) (o : Options F) (recipe r : Val F) (fallback : Option (Val F)) (c : Str) (cfg : ModelConfig) (space : Option Str) :
    Prop where
  node : valueToNode W.env recipe = .ok r
  given : IsFallback W.env o fallback
  named : NamedConfig W r fallback c
  config : W.configs c = some cfg
  spaces : ∀ s, space = some s → r.space W.env = .ok (some s) ∧ ∀ b, fallback = some b → b.space W.env = .ok (some s)
  strict : o.strict = true → space = some weight

end Verif.WholeExtra.Spec
