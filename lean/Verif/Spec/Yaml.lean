import Verif.Model.Yaml
import Verif.Spec.Registry

/-!
# Vocabulary for C100 to C102
-/
namespace Verif.Yaml.Spec
open Method Config Registry.Spec Yaml

/-- A valid identifier -/
def Valid (s : Str) : Prop := ∃ a b, s = a ++ '-' :: b ∧ Part a ∧ Part b

/-! ### What a document says -/

/-- A shape as it is written -/
def shapeDoc : Option (List ℕ) → Obj
  | none => .null
  | some l => .list (l.map fun n => .int n)

/-- A shape as an object -/
def shapeObj : Option (List ℕ) → Obj
  | none => .null
  | some l => .size (l.map fun n => (n : ℤ))

/-- A dtype as an object -/
def dtypeObj : Option Str → Obj
  | none => .null
  | some n => .dtype n

/-- The text of a dtype: any name that `torch` knows it by -/
def DtypeSays (torch : Str → Option Obj) (o : Obj) (d : Option Str) : Prop :=
  (o = .null ∧ d = none) ∨ ∃ n name, o = .str n ∧ torch n = some (.dtype name) ∧ d = some name

/-- The lines of a key say `m`: shape and dtype are given, aliases and whether the key is optional may be left out -/
structure EntrySays (torch : Str → Option Obj) (fields : List (Str × Obj)) (m : KeyMeta) : Prop where
  distinct : (fields.map (·.1)).Nodup
  known : ∀ p ∈ fields, p.1 ∈ ["shape".toList, "dtype".toList, "aliases".toList, "optional".toList]
  shape : ("shape".toList, shapeDoc m.shape) ∈ fields
  dtype : ∃ o, ("dtype".toList, o) ∈ fields ∧ DtypeSays torch o m.dtype
  aliases : ("aliases".toList, .list (m.aliases.map .str)) ∈ fields ∨ ("aliases".toList ∉ fields.map (·.1) ∧ m.aliases = [])
  optional : ("optional".toList, .bool m.optional) ∈ fields ∨ ("optional".toList ∉ fields.map (·.1) ∧ m.optional = false)

/-- The lines of a component say `ks` -/
def KeysSay (torch : Str → Option Obj) (l : List (Str × Obj)) (ks : Component) : Prop :=
  (l.map (·.1)).Nodup ∧ List.Forall₂ (fun p q => p.1 = q.1 ∧ ∃ fields, p.2 = .map fields ∧ EntrySays torch fields q.2) l ks

/-- The lines of all components say `cs` -/
def ComponentsSay (torch : Str → Option Obj) (l : List (Str × Obj)) (cs : Dict Str Component) : Prop :=
  (l.map (·.1)).Nodup ∧ List.Forall₂ (fun p q => p.1 = q.1 ∧ ∃ keys, p.2 = .map keys ∧ KeysSay torch keys q.2) l cs

/-- The document says `c` -/
def Says (torch : Str → Option Obj) (doc : Obj) (c : ModelConfig) : Prop :=
  ∃ fields comps, doc = .map fields ∧ fields.Perm [("identifier".toList, .str c.identifier), ("components".toList, .map comps)] ∧
    ComponentsSay torch comps c.components

/-- The object that a config has for a key -/
def Shown (o : Obj) (m : KeyMeta) : Prop :=
  ∃ al, o = .keyMeta (shapeObj m.shape) (dtypeObj m.dtype) al (.bool m.optional) ∧ (al = .list (m.aliases.map .str) ∨ (al = .tuple [] ∧ m.aliases = []))

/-- Two mappings agree key by key, in the same order -/
def Agree {α β : Type} (R : α → β → Prop) (l : List (Str × α)) (l' : List (Str × β)) : Prop :=
  List.Forall₂ (fun p q => p.1 = q.1 ∧ R p.2 q.2) l l'

/-! ### Which documents are accepted -/

/-- The fields of a key -/
def EntryOk (torch : Str → Option Obj) (fields : List (Str × Obj)) : Prop :=
  (∀ p ∈ fields, p.1 ∈ ["shape".toList, "dtype".toList, "aliases".toList, "optional".toList]) ∧
  (∃ s, Dict.get? fields "shape".toList = some s ∧ ∀ l, s = .list l → ∀ x ∈ l, ∃ n, x = .int n) ∧
  ∃ d, Dict.get? fields "dtype".toList = some d ∧ ∀ n, d = .str n → (torch n).isSome = true

/-- The names of the fields of a config, and that none is missing.  The names with an underscore are accepted as well. -/
def FieldsOk (fields : List (Str × Obj)) : Prop :=
  (∀ p ∈ fields, p.1 ∈ ["identifier".toList, "_identifier".toList, "components".toList, "_components".toList]) ∧
  (∃ p ∈ fields, p.1 = "identifier".toList ∨ p.1 = "_identifier".toList) ∧ ∃ p ∈ fields, p.1 = "components".toList ∨ p.1 = "_components".toList

/-- The field of this name; otherwise, with an underscore -/
def field (fields : List (Str × Obj)) (name : Str) : Option Obj := (Dict.get? fields name).or (Dict.get? fields ('_' :: name))

/-- Accepted data: what is no mapping passes unchecked as a component or a key -/
def Acceptable (torch : Str → Option Obj) (data : Obj) : Prop :=
  ∃ fields s comps, data = .map fields ∧ FieldsOk fields ∧ field fields "identifier".toList = some (.str s) ∧ Valid s ∧
    field fields "components".toList = some (.map comps) ∧
    ∀ p ∈ comps, ∀ keys, p.2 = .map keys → ∀ q ∈ keys, ∀ fs, q.2 = .map fs → EntryOk torch fs

/-! ### First use -/

/-- One use of a config: what its file holds at that moment, and the attribute -/
structure Use where
  file : Except Err Obj
  attr : Attr

/-- The answers to a list of uses -/
def answers (torch : Str → Option Obj) : Lazy → List Use → List (Except Err View)
  | _, [] => []
  | c, u :: us => (c.get torch u.file u.attr).2 :: answers torch (c.get torch u.file u.attr).1 us

/-- The config afterwards -/
def after (torch : Str → Option Obj) (c : Lazy) (us : List Use) : Lazy := us.foldl (fun c u => (c.get torch u.file u.attr).1) c

/-- What reading the file gives at this moment -/
def content (torch : Str → Option Obj) (u : Use) : Except Err Obj := match u.file with | .ok doc => fromYaml torch doc | .error e => .error e

/-- A use that needs the file -/
def Use.needs (u : Use) : Bool := u.attr ≠ .identifier

/-- What was read by the first use that needed the file and could read it -/
def firstRead (torch : Str → Option Obj) : List Use → Option Obj
  | [] => none
  | u :: us => if u.needs then (match content torch u with | .ok o => some o | .error _ => firstRead torch us) else firstRead torch us

/-- The answer to a use, after the uses before -/
def expected (torch : Str → Option Obj) (name : Str) (before : List Use) (u : Use) : Except Err View :=
  if u.attr = .identifier then .ok (.text (stem name))
  else match firstRead torch before with
    | some o => view o u.attr
    | none => (content torch u).bind fun o => view o u.attr

/-- The uses up to the first that reads the file successfully -/
def upToFirst (torch : Str → Option Obj) : List Use → List Use
  | [] => []
  | u :: us => if u.needs && (content torch u).toOption.isSome then [u] else u :: upToFirst torch us

end Verif.Yaml.Spec
