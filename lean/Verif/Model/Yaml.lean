import Verif.Model.Registry

/-!
# Configs from YAML, and configs that are read when they are first used (sd_mecha/extensions/model_configs.py:21-67, 109-221, 293-364)

Left out: the syntax of YAML.  A document is the data that `yaml.load` makes of it, with duplicate keys of a mapping as they are written; keys of
mappings are strings; there are no tags (with `yaml.CLoader`, tags can call any python function).  `yaml.load(yaml.safe_dump(data)) == data` is
taken for granted.
-/
namespace Verif.Yaml
open Method Config Registry

/-- The python objects that occur in documents and configs.  `float` holds the text of a float. -/
inductive Obj where
  | null
  | bool (b : Bool)
  | int (n : ℤ)
  | float (t : Str)
  | str (s : Str)
  | list (l : List Obj)
  | tuple (l : List Obj)
  | map (m : List (Str × Obj))
  /-- `torch.float32` and so on, by its name -/
  | dtype (name : Str)
  /-- `torch.Size` -/
  | size (l : List ℤ)
  /-- `KeyMetadata` (model_configs.py:21-26) -/
  | keyMeta (shape dtype aliases optional : Obj)
  /-- `ModelComponent` (model_configs.py:38-40) -/
  | component (keys : List (Str × Obj))
  /-- `ModelConfigImpl` (model_configs.py:109-116), without its caches -/
  | config (identifier components : Obj)
  /-- Anything that is none of these, nor a mapping, nor iterable: a bound method, a module, a config of another class -/
  | other (n : ℕ)
  deriving Repr

/-! ### Loading -/

mutual
/-- `yaml.load`: among duplicate keys of a mapping the last value is kept, at the first position -/
def load : Obj → Obj
  | .list l => .list (loadList l)
  | .map m => .map (Dict.ofList (loadPairs m))
  | o => o
def loadList : List Obj → List Obj
  | [] => []
  | o :: l => load o :: loadList l
def loadPairs : List (Str × Obj) → List (Str × Obj)
  | [] => []
  | (k, o) :: m => (k, load o) :: loadPairs m
end

/-- `torch.Size(list)`: numbers only.  (`True` and `False` are not numbers here.) -/
def size : List Obj → Except Err (List ℤ)
  | [] => .ok []
  | .int n :: l => (size l).map (n :: ·)
  | _ :: _ => .error .type

/-- The first lines of `KeyMetadata.__post_init__` (model_configs.py:29-30) -/
def shapeOf : Obj → Except Err Obj
  | .list l => (size l).map .size
  | o => .ok o

/-- The other lines of `KeyMetadata.__post_init__` (model_configs.py:31-32).  `torch` gives the attributes of the module `torch`. -/
def dtypeOf (torch : Str → Option Obj) : Obj → Except Err Obj
  | .str s => match torch s with | some o => .ok o | none => .error .attribute
  | o => .ok o

/-- The parameters of `KeyMetadata` -/
def entryFields : List Str := ["shape".toList, "dtype".toList, "aliases".toList, "optional".toList]

/-- `KeyMetadata(**v)` (model_configs.py:21-32): unknown and missing parameters are TypeErrors -/
def newEntry (torch : Str → Option Obj) (v : Dict Str Obj) : Except Err Obj :=
  if v.keys.all (· ∈ entryFields) then
    match v.get? "shape".toList, v.get? "dtype".toList with
    | some shape, some dtype =>
      match shapeOf shape with
      | .error e => .error e
      | .ok shape =>
        match dtypeOf torch dtype with
        | .error e => .error e
        | .ok dtype =>
          .ok (.keyMeta shape dtype ((v.get? "aliases".toList).getD (.tuple [])) ((v.get? "optional".toList).getD (.bool false)))
    | _, _ => .error .type
  else .error .type

/-- `ModelComponent.__post_init__` (model_configs.py:42-49) for the items of a mapping -/
def newKeys (torch : Str → Option Obj) : List (Str × Obj) → Except Err (List (Str × Obj))
  | [] => .ok []
  | (k, .map v) :: m =>
    match newEntry torch v with
    | .error e => .error e
    | .ok o => (newKeys torch m).map ((k, o) :: ·)
  | (k, v) :: m => (newKeys torch m).map ((k, v) :: ·)

/-- The last lines of `ModelConfigImpl.__post_init__` (model_configs.py:127-133) for the items of a mapping -/
def newComponents (torch : Str → Option Obj) : List (Str × Obj) → Except Err (List (Str × Obj))
  | [] => .ok []
  | (k, .map v) :: m =>
    match newKeys torch v with
    | .error e => .error e
    | .ok keys => (newComponents torch m).map ((k, .component keys) :: ·)
  | (k, v) :: m => (newComponents torch m).map ((k, v) :: ·)

/-- `re.fullmatch("[a-z0-9._+]+-[a-z0-9._+]+", identifier)` (model_configs.py:119); `Verif.Yaml.validId_iff` is the link to `idRx` -/
def validId (s : Str) : Bool :=
  match splitDash s with
  | [a, b] => !a.isEmpty && !b.isEmpty && (a ++ b).all idChar
  | _ => false

/-- `ModelConfigImpl(identifier, components)` (model_configs.py:109-133) -/
def newConfig (torch : Str → Option Obj) : Obj → Obj → Except Err Obj
  | .str s, components =>
    if validId s then
      match components with
      | .map m => (newComponents torch m).map fun m => .config (.str s) (.map m)
      | _ => .error .attribute
    else .error .value
  | _, _ => .error .type

/-- One step of the loop of `ModelConfigImpl__init__patch` (model_configs.py:177-179) -/
def rename (serial name : Str) (kw : Dict Str Obj) : Dict Str Obj :=
  match kw.get? serial with
  | some v => (kw.erase serial).set name v
  | none => kw

/-- `ModelConfigImpl(**kwargs)` (model_configs.py:176-181) -/
def newConfigKw (torch : Str → Option Obj) (kw : Dict Str Obj) : Except Err Obj :=
  let kw := rename "components".toList "_components".toList (rename "identifier".toList "_identifier".toList kw)
  if kw.keys.all (· ∈ ["_identifier".toList, "_components".toList]) then
    match kw.get? "_identifier".toList, kw.get? "_components".toList with
    | some identifier, some components => newConfig torch identifier components
    | _, _ => .error .type
  else .error .type

/-- `from_yaml` (model_configs.py:362-364) -/
def fromYaml (torch : Str → Option Obj) (doc : Obj) : Except Err Obj :=
  match load doc with
  | .map m => newConfigKw torch m
  | _ => .error .type

/-! ### Views of a config -/

/-- The pairs over which the views of `ModelConfigImpl` range (model_configs.py:151-154, 160-163, 169-172), each value passed through `f`.  A
component that is no `ModelComponent` has no such method (AttributeError). -/
def pairs {α : Type} (f : Obj → Except Err α) : List (Str × Obj) → Except Err (List (Str × α))
  | [] => .ok []
  | (_, .component keys) :: m =>
    match values keys with
    | .error e => .error e
    | .ok l => (pairs f m).map (l ++ ·)
  | _ :: _ => .error .attribute
where
  /-- `ModelComponent.keys`, `.metadata`, `.aliases` (model_configs.py:51-67) -/
  values : List (Str × Obj) → Except Err (List (Str × α))
    | [] => .ok []
    | (k, v) :: m =>
      match f v with
      | .error e => .error e
      | .ok a => (values m).map ((k, a) :: ·)

/-- `v.metadata()` (model_configs.py:34-35), as the pair of shape and dtype -/
def metadataOf : Obj → Except Err (Obj × Obj)
  | .keyMeta shape dtype _ _ => .ok (shape, dtype)
  | _ => .error .attribute

/-- `v.aliases` -/
def aliasesOf : Obj → Except Err Obj
  | .keyMeta _ _ aliases _ => .ok aliases
  | _ => .error .attribute

/-- What the attributes of a config give -/
inductive View where
  | text (s : Str)
  | components (m : Dict Str Obj)
  | keys (m : Dict Str Obj)
  | metadata (m : Dict Str (Obj × Obj))
  | aliases (m : Dict Str Obj)

/-- The attributes of a config (model_configs.py:79-106), the methods called -/
inductive Attr where
  | identifier | architecture | implementation | components | keys | metadata | aliases
  deriving DecidableEq

/-- An attribute of a `ModelConfigImpl` (model_configs.py:135-173).  Without the caches: C45. -/
def view : Obj → Attr → Except Err View
  | .config (.str s) _, .identifier => .ok (.text s)
  | .config (.str s) _, .architecture => (architecture s).map .text
  | .config (.str s) _, .implementation => (implementation s).map .text
  | .config _ (.map m), .components => .ok (.components m)
  | .config _ (.map m), .keys => (pairs .ok m).map fun l => .keys (Dict.ofList l)
  | .config _ (.map m), .metadata => (pairs metadataOf m).map fun l => .metadata (Dict.ofList l)
  | .config _ (.map m), .aliases => (pairs aliasesOf m).map fun l => .aliases (Dict.ofList l)
  | _, _ => .error .attribute

/-! ### Writing -/

/-- `bool(o)` for the values a field may hold -/
def truthy : Obj → Bool
  | .null => false
  | .bool b => b
  | .int n => n ≠ 0
  | .str s => !s.isEmpty
  | .list l => !l.isEmpty
  | .tuple l => !l.isEmpty
  | .map m => !m.isEmpty
  | .size l => !l.isEmpty
  | _ => true

/-- `field.metadata["exclude"]`, if there is one: a value or a function -/
inductive Exclude where
  | absent
  | value (b : Bool)
  | fn (f : Obj → Bool)

/-- Whether a field is left out (model_configs.py:322-323): `callable(e) and e(v) or e`, where a function counts as true -/
def excluded : Exclude → Obj → Bool
  | .absent, _ => false
  | .value b, _ => b
  | .fn f, v => f v || true

/-- The fields `aliases` and `optional` (model_configs.py:25-26) -/
def aliasesExclude : Exclude := .fn fun p => truthy p
def optionalExclude : Exclude := .fn fun p => !truthy p

mutual
/-- `serialize` (model_configs.py:314-337) -/
def serialize : Obj → Except Err Obj
  | .component _ => .error .value  -- `serialize(obj.keys)`, where `obj.keys` is a bound method
  | .config identifier components =>
    match serialize identifier, serialize components with
    | .ok i, .ok c => .ok (.map [("identifier".toList, i), ("components".toList, c)])
    | .error e, _ => .error e
    | _, .error e => .error e
  | .keyMeta shape dtype aliases optional =>
    match serialize shape with
    | .error e => .error e
    | .ok s =>
      match serialize dtype with
      | .error e => .error e
      | .ok d =>
        match (if excluded aliasesExclude aliases then .ok [] else (serialize aliases).map fun a => [("aliases".toList, a)] :
            Except Err (List (Str × Obj))) with
        | .error e => .error e
        | .ok a =>
          match (if excluded optionalExclude optional then .ok [] else (serialize optional).map fun o => [("optional".toList, o)] :
              Except Err (List (Str × Obj))) with
          | .error e => .error e
          | .ok o => .ok (.map ([("shape".toList, s), ("dtype".toList, d)] ++ a ++ o))
  | .null => .ok .null
  | .bool b => .ok (.bool b)
  | .int n => .ok (.int n)
  | .float t => .ok (.float t)
  | .str s => .ok (.str s)
  | .dtype name => .ok (.str name)
  | .size l => .ok (.list (l.map .int))
  | .map m => (serializePairs m).map .map
  | .list l => (serializeList l).map .list
  | .tuple l => (serializeList l).map .list
  | .other _ => .error .value
def serializeList : List Obj → Except Err (List Obj)
  | [] => .ok []
  | o :: l =>
    match serialize o with
    | .error e => .error e
    | .ok o => (serializeList l).map (o :: ·)
def serializePairs : List (Str × Obj) → Except Err (List (Str × Obj))
  | [] => .ok []
  | (k, o) :: l =>
    match serialize o with
    | .error e => .error e
    | .ok o => (serializePairs l).map ((k, o) :: ·)
end

/-- `to_yaml` (model_configs.py:340-359): the data that the text stands for -/
def toYaml (c : Obj) : Except Err Obj := serialize c

/-- `create_model_config` of the script (scripts/yaml_from_safetensors.py:9-21), for the header of a file: the data written -/
def createModelConfig (torch : Str → Option Obj) (id : Str) (header : List (Str × List ℤ × Str)) : Except Err Obj :=
  match newConfig torch (.str id)
    (.map [("diffuser".toList, .component (header.map fun p => (p.1, .keyMeta (.size p.2.1) (.dtype p.2.2) (.tuple []) (.bool false))))]) with
  | .error e => .error e
  | .ok c => toYaml c

/-! ### Configs read at first use -/

/-- `pathlib.Path(name).stem` -/
def stem (name : Str) : Str :=
  let suffix := name.reverse.takeWhile (· ≠ '.')
  let rest := name.reverse.drop (suffix.length + 1)
  if suffix.isEmpty || rest.isEmpty then name else rest.reverse

/-- A `YamlModelConfig` (model_configs.py:293-297) -/
structure Lazy where
  name : Str
  underlying : Option Obj
  /-- how often the file was opened -/
  reads : ℕ

/-- `YamlModelConfig(path)` for a file of this name -/
def Lazy.new (name : Str) : Lazy := ⟨name, none, 0⟩

/-- `_ensure_config` with `create_config` (model_configs.py:204-208, 303-307); `file` is what the file holds at this moment -/
def Lazy.ensure (torch : Str → Option Obj) (file : Except Err Obj) (c : Lazy) : Lazy × Except Err Obj :=
  match c.underlying with
  | some u => (c, .ok u)
  | none =>
    match file with
    | .error e => ({ c with reads := c.reads + 1 }, .error e)
    | .ok doc =>
      match fromYaml torch doc with
      | .error e => ({ c with reads := c.reads + 1 }, .error e)
      | .ok u => ({ c with underlying := some u, reads := c.reads + 1 }, .ok u)

/-- An attribute of a `YamlModelConfig` (model_configs.py:192-221, 299-301): the identifier is known, everything else is looked up in the
underlying config -/
def Lazy.get (torch : Str → Option Obj) (file : Except Err Obj) (c : Lazy) (a : Attr) : Lazy × Except Err View :=
  if a = .identifier then (c, .ok (.text (stem c.name)))
  else
    match c.ensure torch file with
    | (c, .error e) => (c, .error e)
    | (c, .ok u) => (c, view u a)

end Verif.Yaml
