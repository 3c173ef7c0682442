import Verif.Model.Config
import Verif.Py.Err
import Mathlib.Data.List.Basic
import Mathlib.Data.List.Sort

/-!
# Registries, config identifiers and config caches (sd_mecha/extensions/model_configs.py, merge_spaces.py, model_formats.py,
merge_methods.py)
-/
namespace Verif.Registry
open Method Config

/-! ### Registered objects -/

/-- `_model_configs_registry_base`, `_model_configs_registry_aux` (model_configs.py:308-309).  `C` are the config objects. -/
structure Configs (C : Type) where
  base : Dict Str C
  aux : Dict Str C

variable {C : Type}

/-- `register(config)` (`aux = false`, model_configs.py:367-371) and `register_aux(config)` (`aux = true`, :374-378); `id` is
`config.identifier`. -/
def register (aux : Bool) (R : Configs C) (id : Str) (c : C) : Configs C × Except Err Unit :=
  if id ∈ R.base.keys ∨ id ∈ R.aux.keys then (R, .error .value)
  else if aux then ({ R with aux := R.aux.set id c }, .ok ())
  else ({ R with base := R.base.set id c }, .ok ())

/-- `resolve(identifier)` (model_configs.py:381-405).  `infer` is the constant `INFER`.  The search for a suggestion in the error
message is left out. -/
def resolve (infer : C) (R : Configs C) (id : Str) : Except Err C :=
  match R.base.get? id with
  | some c => .ok c
  | none =>
    match R.aux.get? id with
    | some c => .ok c
    | none => if id = "infer".toList then .ok infer else .error .value

/-- `a ≤ b` for python strings -/
def strLe : Str → Str → Bool
  | [], _ => true
  | _ :: _, [] => false
  | a :: s, b :: t => if a.toNat < b.toNat then true else if b.toNat < a.toNat then false else strLe s t

/-- `get_all` (model_configs.py:408-411): sorted by decreasing identifier.  Configs come with their identifiers. -/
def getAll (R : Configs C) : List (Str × C) :=
  (R.base ++ R.aux).mergeSort fun p q => strLe q.1 p.1

/-- `register_merge_space(identifier)` (merge_spaces.py:33-36) and `__register_model_format_impl` (model_formats.py:44-60): a dict
in which used identifiers are rejected. -/
def registerNew {V : Type} (R : Dict Str V) (id : Str) (v : V) : Dict Str V × Except Err Unit :=
  if id ∈ R.keys then (R, .error .value) else (R.set id v, .ok ())

/-- `resolve` of merge spaces and formats (merge_spaces.py:39-44, model_formats.py:63-68) and of merge methods
(merge_methods.py:531-536); these registries are never empty, so that the search for a suggestion succeeds. -/
def lookup {V : Type} (R : Dict Str V) (id : Str) : Except Err V :=
  match R.get? id with
  | some v => .ok v
  | none => .error .value

/-- `_merge_methods_registry`, `_conversion_registry` (merge_methods.py:527-528) -/
structure Methods (M : Type) where
  methods : Dict Str M
  converters : Dict Str M

/-- `__recipe_impl` (merge_methods.py:498-515) after `MergeMethod(fn, identifier)` succeeded; `valid` is what
`validate_config_conversion` (:518-524) asserts. -/
def registerMethod {M : Type} (valid : M → Bool) (register isConversion : Bool) (R : Methods M) (id : Str) (m : M) :
    Methods M × Except Err M :=
  if register then
    if isConversion then
      if valid m then (⟨R.methods.set id m, R.converters.set id m⟩, .ok m)
      else ({ R with methods := R.methods.set id m }, .error (.other 0))
    else ({ R with methods := R.methods.set id m }, .ok m)
  else if isConversion then (R, .error .value)
  else (R, .ok m)

/-! ### Identifiers -/

/-- Regular expressions, as far as used -/
inductive Rx where
  | cls (p : Char → Bool)
  | seq (a b : Rx)
  | plus (a : Rx)

/-- Python's `re.fullmatch` is taken to be membership in the language of the expression. -/
inductive Rx.Matches : Rx → Str → Prop
  | cls {p : Char → Bool} {c : Char} (h : p c = true) : Matches (.cls p) [c]
  | seq {a b : Rx} {s t : Str} (h : Matches a s) (h' : Matches b t) : Matches (.seq a b) (s ++ t)
  | one {a : Rx} {s : Str} (h : Matches a s) : Matches (.plus a) s
  | more {a : Rx} {s t : Str} (h : Matches a s) (h' : Matches (.plus a) t) : Matches (.plus a) (s ++ t)

/-- `[a-z0-9._+]` -/
def idChar (c : Char) : Bool :=
  ('a'.toNat ≤ c.toNat && c.toNat ≤ 'z'.toNat) || ('0'.toNat ≤ c.toNat && c.toNat ≤ '9'.toNat) || c == '.' || c == '_' || c == '+'

/-- `"[a-z0-9._+]+-[a-z0-9._+]+"` (model_configs.py:119) -/
def idRx : Rx := .seq (.plus (.cls idChar)) (.seq (.cls (· == '-')) (.plus (.cls idChar)))

/-- `s.split("-")` -/
def splitDash : Str → List Str
  | [] => [[]]
  | c :: s => if c = '-' then [] :: splitDash s else match splitDash s with | [] => [[c]] | h :: t => (c :: h) :: t

/-- `get_architecture_identifier` (model_configs.py:139-140) -/
def architecture (id : Str) : Except Err Str := match (splitDash id)[0]? with | some s => .ok s | none => .error .index
/-- `get_implementation_identifier` (model_configs.py:142-143) -/
def implementation (id : Str) : Except Err Str := match (splitDash id)[1]? with | some s => .ok s | none => .error .index

/-! ### Caches -/

/-- A `ModelConfigImpl` with its three caches (model_configs.py:110-115).  A `StructuralModelConfig` starts with the first cache
filled (:227-230). -/
structure Cached where
  config : ModelConfig
  keys : Option (Dict Str KeyMeta)
  metadata : Option (Dict Str TensorMeta)
  aliases : Option (Dict Str (List Str))
  deriving DecidableEq

/-- A config on which nothing was called yet -/
def fresh (c : ModelConfig) : Cached := ⟨c, none, none, none⟩

/-- `keys()` (model_configs.py:148-155): the result is the cache itself. -/
def callKeys (s : Cached) : Cached × Dict Str KeyMeta :=
  match s.keys with
  | some d => (s, d)
  | none => ({ s with keys := some s.config.keys }, s.config.keys)

/-- `metadata()` (model_configs.py:157-164) -/
def callMetadata (s : Cached) : Cached × Dict Str TensorMeta :=
  match s.metadata with
  | some d => (s, d)
  | none => ({ s with metadata := some s.config.metadata }, s.config.metadata)

/-- `aliases()` (model_configs.py:166-173) -/
def callAliases (s : Cached) : Cached × Dict Str (List Str) :=
  match s.aliases with
  | some d => (s, d)
  | none => ({ s with aliases := some s.config.aliases }, s.config.aliases)

/-- The keys a merge considers, for a recipe of this config (merging.py:157-165).  With `omit_extra_keys=False`,
`copy_extra_keys` (:213-225) makes a new mapping, of which `extra` is the part that comes from the inputs; otherwise
`recipe_metadata` is the cache of the config, and deleting from it (:163-165) changes the config. -/
def mergeKeys (s : Cached) (omitExtra omitEma : Bool) (extra : Dict Str TensorMeta) : Cached × List Str :=
  let (s, md) := callMetadata s
  let ema := match s.config.components.get? "ema".toList with | some c => if omitEma then c.keys else [] | none => []
  if omitExtra then
    let md : Dict Str TensorMeta := md.filter fun p => p.1 ∉ ema
    ({ s with metadata := some md }, md.keys)
  else
    let (s, _) := callAliases s
    (s, Dict.keys ((Dict.update extra md).filter fun p => p.1 ∉ ema))

end Verif.Registry
