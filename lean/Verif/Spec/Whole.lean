import Verif.Model.Whole
import Verif.Spec.Cast

/-!
# Specification: what a merge computes, in terms of the recipe that was asked for
-/
namespace Verif.Whole.Spec
open Method Recipe Config Eval Eval.Spec
variable {F T : Type}

/-- The value of a recipe where its inputs are cast as asked for: the files hold tensors that were cast beforehand, and literals are replaced by
their casts (the tensors numbered by `enc`). -/
def computed (W : World F T) (move : Option Str → Option Str → T → Except Err T) (tensors : ℕ → T) (enc : Val F → ℕ) (o : Options F)
    (r : Val F) : Str → Res F T :=
  if o.mergeDevice = none ∧ o.mergeDtype = none then eval W r
  else eval (castWorld W (move o.mergeDevice o.mergeDtype) tensors) (precast enc r)

/-- Where the recipe has no value, that of the fallback model -/
def combined (W : World F T) (move : Option Str → Option Str → T → Except Err T) (tensors : ℕ → T) (enc : Val F → ℕ) (o : Options F)
    (r : Val F) (fallback : Option (Val F)) : Str → Res F T :=
  match fallback with
  | none => computed W move tensors enc o r
  | some fb => orElse (computed W move tensors enc o r) (computed W move tensors enc o fb)

/-- The value as it is stored: moved to the output device and dtype if these are given -/
def delivered (C : Conv F T) (move : Option Str → Option Str → T → Except Err T) (o : Options F) (v : RVal F T) : Res F T :=
  if o.outputDevice = none ∧ o.outputDtype = none then .ok v
  else match castTo C .tensor v with
    | .ok (.tensor x) =>
      match move o.outputDevice o.outputDtype x with
      | .ok y => .ok (.tensor y)
      | .error e => .error e
    | .ok _ => .error .attribute
    | .error e => .error e

/-- What a merge should store for a key -/
def final (W : World F T) (move : Option Str → Option Str → T → Except Err T) (tensors : ℕ → T) (enc : Val F → ℕ) (o : Options F)
    (r : Val F) (fallback : Option (Val F)) (key : Str) : Res F T :=
  match combined W move tensors enc o r fallback key with
  | .error e => .error e
  | .ok v => delivered W.conv move o v

/-- `fb` is the node of the fallback model, if one was given -/
def IsFallback (E : Env F) (o : Options F) (fb : Option (Val F)) : Prop :=
  match o.fallback with
  | none => fb = none
  | some b => ∃ b', valueToNode E b = .ok b' ∧ fb = some b'

/-- The config whose keys are merged: the recipe's; if it has none, the fallback model's -/
def HasConfig (W : World F T) (r : Val F) (fallback : Option (Val F)) (cfg : ModelConfig) : Prop :=
  configOf W r = .ok (some cfg) ∨ configOf W r = .ok none ∧ ∃ fb, fallback = some fb ∧ configOf W fb = .ok (some cfg)

/-- The keys that are merged -/
def Wanted (cfg : ModelConfig) (o : Options F) (k : Str) : Prop :=
  (∃ p ∈ cfg.components, k ∈ Dict.keys p.2) ∧
    ¬ (o.omitEma = true ∧ ∃ ema, cfg.components.get? "ema".toList = some ema ∧ k ∈ Dict.keys ema)

/-- What is asked of a recipe and a fallback model: every merge node has an argument, and if inputs are cast, that their inputs can be cast
as C32 has it. -/
structure Fits (W : World F T) (move : Option Str → Option Str → T → Except Err T) (tensors : ℕ → T) (enc : Val F → ℕ) (o : Options F)
    (r : Val F) : Prop where
  proper : Proper r
  cast : ¬ (o.mergeDevice = none ∧ o.mergeDtype = none) → Castable W (move o.mergeDevice o.mergeDtype) tensors enc r

end Verif.Whole.Spec
