import Verif.Model.Registry

/-!
# Vocabulary for C38, C43 to C45
-/
namespace Verif.Registry.Spec
open Method Config Registry

/-- A call of `register` or `register_aux` -/
structure Reg (C : Type) where
  aux : Bool
  id : Str
  obj : C

/-- The object first registered under `id` -/
def first {C : Type} (ops : List (Reg C)) (id : Str) : Option C := (ops.find? fun o => o.id = id).map (·.obj)

/-- A history of registrations, from an empty registry -/
def after {C : Type} (ops : List (Reg C)) : Configs C := ops.foldl (fun R o => (register o.aux R o.id o.obj).1) ⟨[], []⟩

/-- The same for a single registry -/
def afterNew {V : Type} (ops : List (Str × V)) : Dict Str V := ops.foldl (fun R o => (registerNew R o.1 o.2).1) []

def firstNew {V : Type} (ops : List (Str × V)) (id : Str) : Option V := (ops.find? fun o => o.1 = id).map (·.2)

/-- A use of the decorator `merge_method` -/
structure Def (M : Type) where
  register : Bool
  isConversion : Bool
  id : Str
  method : M

/-- A history of method definitions -/
def afterDefs {M : Type} (valid : M → Bool) (ops : List (Def M)) : Methods M :=
  ops.foldl (fun R o => (registerMethod valid o.register o.isConversion R o.id o.method).1) ⟨[], []⟩

/-- The method last registered under `id` -/
def last {M : Type} (ops : List (Def M)) (id : Str) : Option M := (ops.reverse.find? fun o => o.register && decide (o.id = id)).map (·.method)

/-- The order of python strings: lexicographic in the code points -/
def codes (s : Str) : List ℕ := s.map Char.toNat

/-- An allowed character of an identifier part -/
def Allowed (c : Char) : Prop := c ∈ "abcdefghijklmnopqrstuvwxyz0123456789._+".toList

/-- A nonempty string of allowed characters -/
def Part (s : Str) : Prop := s ≠ [] ∧ ∀ c ∈ s, Allowed c

/-- A call on a config -/
inductive View where
  | keys | metadata | aliases

/-- The state after a call -/
def View.call (s : Cached) : View → Cached
  | .keys => (callKeys s).1
  | .metadata => (callMetadata s).1
  | .aliases => (callAliases s).1

/-- A merge, as far as its options bear on the keys considered -/
structure MergeCall where
  omitExtra : Bool
  omitEma : Bool
  extra : Dict Str TensorMeta

/-- A history of merges in one process -/
def afterMerges (c : ModelConfig) (h : List MergeCall) : Cached :=
  h.foldl (fun s m => (mergeKeys s m.omitExtra m.omitEma m.extra).1) (fresh c)

/-- The ema keys of a config -/
def emaKeys (c : ModelConfig) : List Str := match c.components.get? "ema".toList with | some e => Dict.keys e | none => []

end Verif.Registry.Spec
