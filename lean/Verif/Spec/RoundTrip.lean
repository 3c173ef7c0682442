import Verif.Spec.Text

/-!
# Which recipes survive the text format
-/
namespace Verif.Serialize.Spec
open Method Recipe
variable {F : Type}

/-- The value a literal without config stands for. -/
def raw : Val F → Val F
  | .lit v none _ => v
  | v => v

def rawK (l : List (Str × Val F)) : List (Str × Val F) := l.map fun p => (p.1, raw p.2)

/-- A string given by position contains no `=`. -/
def PosOk : Val F → Prop
  | .str s => '=' ∉ s
  | _ => True

/-- Strings on a line. -/
def NoBreak (s : Str) : Prop := '\n' ∉ s

instance (s : Str) : Decidable (NoBreak s) := by unfold NoBreak; infer_instance

/-- Keys and parameter names that can stand before `=`. -/
def PlainKey (k : Str) : Prop := Plain k ∧ '=' ∉ k ∧ NoBreak k

instance (s : Str) : Decidable (PlainKey s) := by unfold PlainKey; infer_instance

mutual
/-- Values and nodes in the class, of any depth and width.

* strings contain no line break; floats are finite; there are no booleans and no tensors;
* keys of dicts are plain and distinct, their values are in the class (not literals without config);
* a literal has a config, both config and merge space are registered, and the constructor accepts it as it is;
* the path of a model is a normal path without `=`, its config (if any) and merge space are registered;
* the method of a merge node is registered under a name without `=`; its arguments are in the class or are
  literals without config around values in the class, strings given by position contain no `=`; and calling
  the method on these values builds this node. -/
def RT (N : Num F) (E : Env F) : Val F → Prop
  | .str s => NoBreak s
  | .int _ => True
  | .float f => N.finite f
  | .bool _ => False
  | .none => True
  | .tensor _ => False
  | .dict es => (es.map (·.1)).Nodup ∧ RTK N E es
  | .lit v c s =>
    match c with
    | none => False
    | some c => RT N E v ∧ PosOk v ∧ c ∈ E.configs ∧ s ∈ E.spaces ∧ NoBreak c ∧ NoBreak s ∧
        mkLit E v (some c) (some s) = .ok (.lit v (some c) s)
  | .model p c s =>
    NoBreak p ∧ '=' ∉ p ∧ E.norm p = p ∧ (∀ x, c = some x → x ∈ E.configs ∧ NoBreak x) ∧
      ∃ x, s = some x ∧ x ∈ E.spaces ∧ NoBreak x
  | .merge m args kwargs =>
    NoBreak m ∧ '=' ∉ m ∧ (kwargs.map (·.1)).Nodup ∧ "self".toList ∉ kwargs.map (·.1) ∧
      RTL N E args ∧ RTKA N E kwargs ∧
      createRecipe E m (args.map raw) (rawK kwargs) = .ok (.merge m args kwargs)
/-- positional arguments -/
def RTL (N : Num F) (E : Env F) : List (Val F) → Prop
  | [] => True
  | .lit v none _ :: l => (RT N E v ∧ PosOk v) ∧ RTL N E l
  | v :: l => (RT N E v ∧ PosOk v) ∧ RTL N E l
/-- keyword arguments -/
def RTKA (N : Num F) (E : Env F) : List (Str × Val F) → Prop
  | [] => True
  | (k, .lit v none _) :: l => (PlainKey k ∧ RT N E v) ∧ RTKA N E l
  | (k, v) :: l => (PlainKey k ∧ RT N E v) ∧ RTKA N E l
/-- entries of a dict -/
def RTK (N : Num F) (E : Env F) : List (Str × Val F) → Prop
  | [] => True
  | (k, v) :: l => (PlainKey k ∧ RT N E v) ∧ RTK N E l
end

end Verif.Serialize.Spec
