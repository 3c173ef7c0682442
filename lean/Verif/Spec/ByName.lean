import Verif.Model.ByName
import Verif.Spec.Threads

/-!
# Specification: recipes whose inputs were given no config
-/
namespace Verif.ByName.Spec
open Method Recipe Config Eval Infer Inputs
variable {F : Type}

mutual
/-- The inputs of a recipe: the nodes of models and of state dicts -/
def inputs : Val F → List (Val F)
  | .model p c s => [.model p c s]
  | .lit v c s =>
    match v with
    | .dict es => .lit (.dict es) c s :: inputsD es
    | _ => []
  | .merge _ args kwargs => inputsL args ++ inputsD kwargs
  | _ => []
def inputsD : List (Str × Val F) → List (Val F)
  | [] => []
  | (_, v) :: es => inputs v ++ inputsD es
def inputsL : List (Val F) → List (Val F)
  | [] => []
  | v :: l => inputs v ++ inputsL l
end

/-- The inputs of a recipe and of its fallback model -/
def together (r : Val F) (fb : Option (Val F)) : List (Val F) := inputs r ++ (match fb with | none => [] | some b => inputs b)

/-- The config that the input was given -/
def given : Val F → Option Str
  | .model _ c _ => c
  | .lit _ c _ => c
  | _ => none

/-- The names of the tensors of an input -/
def tensorNames (opened : Str → Option StreamIn.State) : Val F → List Str
  | .model p _ _ => match opened p with | some s => StreamIn.keys s | none => []
  | .lit v _ _ => match v with | .dict es => es.map (·.1) | _ => []
  | _ => []

mutual
/-- The recipe in which every input has the config it was given, or else the one found for it -/
def assign (found : Val F → RegCfg) : Val F → Val F
  | .model p c s => .model p (some (c.getD (found (.model p c s)).config.identifier)) s
  | .lit v c s =>
    match v with
    | .dict es => .lit (.dict es) (some (c.getD (found (.lit (.dict es) c s)).config.identifier)) s
    | v => .lit v c s
  | .merge m args kwargs => .merge m (assignL found args) (assignK found kwargs)
  | v => v
def assignL (found : Val F → RegCfg) : List (Val F) → List (Val F)
  | [] => []
  | v :: l => assign found v :: assignL found l
def assignK (found : Val F → RegCfg) : List (Str × Val F) → List (Str × Val F)
  | [] => []
  | (k, v) :: l => (k, assign found v) :: assignK found l
end

/-- No state dict of the recipe holds recipes. -/
def Plain (v : Val F) : Prop := ∀ es c s, Val.lit (.dict es) c s ∈ inputs v → ∀ p ∈ es, p.2.isNode = false

/-- The state dicts of the recipe hold numbers and tensors. -/
def Numeric (v : Val F) : Prop := ∀ es c s, Val.lit (.dict es) c s ∈ inputs v → ∀ p ∈ es, isScalar p.2 = true

/-- An input that was given no config -/
def Bare : Val F → Prop
  | .model _ c _ => c = none
  | .lit v c _ => match v with | .dict _ => c = none | _ => False
  | _ => False

mutual
/-- No input without config is given to a parameter that declares one. -/
def Unhinted (S : Site F) : Val F → Prop
  | .merge m args kwargs =>
    (∀ (i : ℕ) a, args[i]? = some a → Bare a → S.hint m args.length (.pos i) = none) ∧
    (∀ k a, (k, a) ∈ kwargs → Bare a → S.hint m args.length (.name k) = none) ∧ UnhintedL S args ∧ UnhintedK S kwargs
  | _ => True
def UnhintedL (S : Site F) : List (Val F) → Prop
  | [] => True
  | v :: l => Unhinted S v ∧ UnhintedL S l
def UnhintedK (S : Site F) : List (Str × Val F) → Prop
  | [] => True
  | (_, v) :: l => Unhinted S v ∧ UnhintedK S l
end

end Verif.ByName.Spec
