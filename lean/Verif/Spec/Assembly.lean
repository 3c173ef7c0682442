import Verif.Model.Builtin

/-!
# Specification: recipes put together by component
-/
namespace Verif.Assembly.Spec
open Method Recipe Config Eval
variable {F T : Type}

/-- How a recipe is put together from others, which are numbered: `pick_component(a, c)`, `omit_component(a, c)` and `a | b`, as in
examples/split_unet_text_encoder.py -/
inductive Assembly where
  | part (i : ℕ)
  | pick (a : Assembly) (component : Str)
  | drop (a : Assembly) (component : Str)
  | either (a b : Assembly)

/-- What python builds, with the recipes `r` for the parts -/
def Assembly.build (E : Env F) (r : ℕ → Val F) : Assembly → Except Err (Val F)
  | .part i => .ok (r i)
  | .pick a c => (a.build E r).bind fun x => createRecipe E nPick [x, .str c] []
  | .drop a c => (a.build E r).bind fun x => createRecipe E nOmit [x, .str c] []
  | .either a b => (a.build E r).bind fun x => (b.build E r).bind fun y => orNode E x y

/-- The parts it mentions -/
def Assembly.parts : Assembly → List ℕ
  | .part i => [i]
  | .pick a _ | .drop a _ => a.parts
  | .either a b => a.parts ++ b.parts

/-- The components it mentions are components of the config. -/
def Assembly.Within (cfg : ModelConfig) : Assembly → Prop
  | .part _ => True
  | .pick a c | .drop a c => a.Within cfg ∧ c ∈ Dict.keys cfg.components
  | .either a b => a.Within cfg ∧ b.Within cfg

/-- The key belongs to the component. -/
def isIn (cfg : ModelConfig) (component key : Str) : Bool :=
  match cfg.components.get? component with
  | some keys => decide (key ∈ Dict.keys keys)
  | none => false

/-- The parts a key is taken from: from the first that has it -/
def Assembly.sources (cfg : ModelConfig) (key : Str) : Assembly → List ℕ
  | .part i => [i]
  | .pick a c => if isIn cfg c key then a.sources cfg key else []
  | .drop a c => if isIn cfg c key then [] else a.sources cfg key
  | .either a b => a.sources cfg key ++ b.sources cfg key

end Verif.Assembly.Spec
