import Verif.Model.Infer

/-!
# Opening and closing the inputs of a merge (sd_mecha/merging.py:345-459, 511-526)

Recipe nodes are objects: `LoadInputDictsVisitor` stores the opened file and the config it found in the node.  A recipe is a tree in which
nodes that can change carry an object number; the same number is the same object.
-/
namespace Verif.Inputs
open Method Config Infer

/-- What is stored for a key: `KeyMetadata` (model_configs.py:21-35) or `TensorMetadata` (streaming.py:19-56) -/
inductive Meta where
  | key (m : KeyMeta)
  | tensor (m : TensorMeta)
deriving DecidableEq

/-- `m.shape` -/
def Meta.shape : Meta → Option (List ℕ)
  | .key m => m.shape
  | .tensor m => m.shape

/-- `m.metadata().shape.numel()`, for a shape that is not `None`; `TensorMetadata` has no `metadata`. -/
def Meta.numel : Meta → Except Err ℕ
  | .key m => match m.shape with | some s => .ok s.prod | none => .error .attribute
  | .tensor _ => .error .attribute

/-- A config: registered, `INFER`, or a `StructuralModelConfig`, which refers to a mapping that is shared and changes. -/
inductive Cfg where
  | reg (c : RegCfg)
  | infer
  | struct (ref : ℕ)
deriving DecidableEq

/-- A recipe, as far as the visitors look at it: `raw` is a value in a dict that is not a node (a tensor or something else), `lit` a
literal whose value is not a mapping, `merge` has the arguments with the config of their parameters. -/
inductive Tree where
  | raw (tensor : Option TensorMeta)
  | lit
  | dict (id : ℕ) (entries : List (Str × Tree))
  | model (id : ℕ) (path : Str)
  | merge (children : List (Option RegCfg × Tree))

/-- `isinstance(v, RecipeNode)` -/
def Tree.isNode : Tree → Bool
  | .raw _ => false
  | _ => true

/-- What opening a file does -/
inductive Opened where
  /-- it cannot be opened -/
  | fail (e : Err)
  /-- it was opened, but its header is not valid: `__init__` raises (streaming.py:79-85) -/
  | broken (e : Err)
  /-- it is open; the result of its `metadata()` -/
  | ok (data : Except Err (Dict Str TensorMeta))

/-- The file system: paths are strings. -/
structure Fs where
  isAbsolute : Str → Bool
  /-- `dir / path` -/
  join : Str → Str → Str
  «exists» : Str → Bool
  /-- `str(path.resolve())` -/
  resolve : Str → Str
  /-- the number of formats that match -/
  formats : Str → ℕ
  «open» : Str → Opened

/-- What `LoadInputDictsVisitor` is given (merging.py:365-371), and the registered configs.  `ref` is the object
`structural_metadata`, which the copies of the visitor share. -/
structure Env where
  fs : Fs
  dirs : List Str
  strip : Bool
  mandatory : Bool
  registry : List RegCfg
  ref : ℕ

/-- An `InSafetensorsDict`: the resolved path, what `metadata()` gives, whether it is open, and whether it is referred to only by the
exception its constructor raised. -/
structure File where
  key : Str
  data : Except Err (Dict Str TensorMeta)
  isOpen : Bool
  orphan : Bool

/-- All objects: `config` and `sd` (`state_dict`) of the nodes, the mappings structural configs refer to, all files opened so far, and
`dicts_cache` of the visitor. -/
structure St where
  config : ℕ → Option Cfg
  sd : ℕ → Option ℕ
  structs : ℕ → Dict Str Meta
  files : List File
  cache : Dict Str ℕ

/-- Changing one entry -/
def upd {α : Type} (f : ℕ → α) (i : ℕ) (a : α) : ℕ → α := fun j => if j = i then a else f j

def St.setConfig (s : St) (id : ℕ) (c : Cfg) : St := { s with config := upd s.config id (some c) }
def St.setSd (s : St) (id : ℕ) (h : Option ℕ) : St := { s with sd := upd s.sd id h }

/-- The path that is opened (merging.py:404-412) -/
def searchDirs (fs : Fs) (path : Str) : List Str → Str
  | [] => path
  | d :: ds => if fs.exists (fs.join d path) then fs.join d path else searchDirs fs path ds
def search (fs : Fs) (dirs : List Str) (path : Str) : Str := if fs.isAbsolute path then path else searchDirs fs path dirs

/-- The path that is written (merging.py:271-276) -/
def outputPath (fs : Fs) (dirs : List Str) (path : Str) : Str :=
  if fs.isAbsolute path then path else match dirs with | [] => path | d :: _ => fs.join d path

/-- `__load_dict` (merging.py:399-428) -/
def loadDict (E : Env) (id : ℕ) (path : Str) (s : St) : St × Except Err ℕ :=
  match s.sd id with
  | some h => (s, .ok h)
  | none =>
    let p := search E.fs E.dirs path
    let key := E.fs.resolve p
    match s.cache.get? key with
    | some h => (s, .ok h)
    | none =>
      if E.fs.formats p = 1 then
        match E.fs.open p with
        | .fail e => (s, .error e)
        | .broken e => ({ s with files := s.files ++ [⟨key, .error e, true, true⟩] }, .error e)
        | .ok data => ({ s with files := s.files ++ [⟨key, data, true, false⟩], cache := s.cache.set key s.files.length }, .ok s.files.length)
      else (s, .error .runtime)

/-- `state_dict.metadata()` (streaming.py:115-117); a closed file has no header. -/
def metadataOf (s : St) (h : ℕ) : Except Err (Dict Str TensorMeta) :=
  match s.files[h]? with
  | some f => if f.isOpen then f.data else .error .attribute
  | none => .error .attribute

/-- Whether the entry of a key is replaced (merging.py:446-449) -/
def bigger (m m' : Meta) : Except Err Bool :=
  if m'.shape = none then .ok true
  else if m.shape = none then .ok false
  else
    match m.numel with
    | .error e => .error e
    | .ok a =>
      match m'.numel with
      | .error e => .error e
      | .ok b => .ok (decide (b < a))

/-- The loop over `list(self.structural_metadata)` (merging.py:443-450) -/
def intersectLoop (md : Dict Str Meta) : List Str → Dict Str Meta → Dict Str Meta × Except Err Unit
  | [], d => (d, .ok ())
  | k :: ks, d =>
    match md.get? k with
    | none => intersectLoop md ks (d.erase k)
    | some m =>
      match d.get? k with
      | none => (d, .error .key)
      | some m' =>
        match bigger m m' with
        | .error e => (d, .error e)
        | .ok true => intersectLoop md ks (d.set k m)
        | .ok false => intersectLoop md ks d

/-- The update of `structural_metadata` (merging.py:440-450) -/
def intersect (md d : Dict Str Meta) : Dict Str Meta × Except Err Unit :=
  if d = [] then (Dict.update d md, .ok ()) else intersectLoop md d.keys d

/-- What is inferred (merging.py:433-438): `none` if nothing. -/
def inferred (E : Env) (param : Option RegCfg) (keys : List Str) : Except Err (Option RegCfg) :=
  match Infer.infer E.registry keys with
  | .error e => .error e
  | .ok gs =>
    match param with
    | some c =>
      if gs ≠ [] ∧ c.hashable = false then .error .type
      else if ∃ g ∈ gs, c ∈ g then .ok (some c)
      else match gs with | [c] :: _ => .ok (some c) | _ => .ok none
    | none => match gs with | [c] :: _ => .ok (some c) | _ => .ok none

/-- `__determine_model_config` (merging.py:430-453) -/
def determine (E : Env) (param : Option RegCfg) (md : Dict Str Meta) (hint : Option Cfg) (s : St) : St × Except Err Cfg :=
  match hint with
  | some (.reg c) => (s, .ok (.reg c))
  | some (.struct r) => (s, .ok (.struct r))
  | _ =>
    match inferred E param md.keys with
    | .error e => (s, .error e)
    | .ok (some c) => (s, .ok (.reg c))
    | .ok none =>
      if hint = some .infer then (s, .error .runtime)
      else
        match intersect md (s.structs E.ref) with
        | (d, .error e) => ({ s with structs := upd s.structs E.ref d }, .error e)
        | (d, .ok _) => ({ s with structs := upd s.structs E.ref d }, .ok (.struct E.ref))

/-- `config.keys()` -/
def keysOf (s : St) : Cfg → Except Err (Dict Str Meta)
  | .reg c => .ok (c.config.keys.map fun p => (p.1, .key p.2))
  | .struct r => .ok (s.structs r)
  | .infer => .error .runtime

/-- The entries that are `KeyMetadata` -/
def keyMetas (d : Dict Str Meta) : Dict Str KeyMeta :=
  d.filterMap fun p => match p.2 with | .key m => some (p.1, m) | .tensor _ => none

def isTensor : Meta → Bool
  | .tensor _ => true
  | .key _ => false

/-- `check_model_config` (merging.py:484-508): both parts read attributes that `TensorMetadata` does not have. -/
def checkConfig (E : Env) (sdKeys : List Str) (c : Cfg) (s : St) : Except Err Unit :=
  match keysOf s c with
  | .error e => if E.strip ∨ E.mandatory then .error e else .ok ()
  | .ok d =>
    if (E.strip ∨ E.mandatory) ∧ ∃ p ∈ d, isTensor p.2 = true then .error .attribute
    else if E.mandatory ∧ missing sdKeys (keyMetas d) ≠ [] then .error .runtime
    else .ok ()

/-- The metadata of a literal dict (merging.py:377-384) -/
def literalMeta (es : List (Str × Tree)) : Dict Str Meta :=
  es.filterMap fun p =>
    match p.2 with
    | .raw (some m) => some (p.1, .key ⟨m.shape, m.dtype, [], true⟩)
    | .raw none => some (p.1, .key ⟨none, none, [], true⟩)
    | _ => none

/-- The second half of `visit_literal` and `visit_model` (merging.py:386-387, 391-393) -/
def finishLoad (E : Env) (param : Option RegCfg) (id : ℕ) (md : Dict Str Meta) (sdKeys : List Str) (s : St) : St × Except Err Unit :=
  match determine E param md (s.config id) s with
  | (s, .error e) => (s, .error e)
  | (s, .ok c) => (s.setConfig id c, checkConfig E sdKeys c (s.setConfig id c))

mutual
/-- `LoadInputDictsVisitor` (merging.py:373-397) with `param_config` -/
def load (E : Env) (param : Option RegCfg) : Tree → St → St × Except Err Unit
  | .raw _, s => (s, .ok ())
  | .lit, s => (s, .ok ())
  | .dict id es, s =>
    match loadE E param es s with
    | (s, .error e) => (s, .error e)
    | (s, .ok _) => finishLoad E param id (literalMeta es) (es.map (·.1)) s
  | .model id path, s =>
    match loadDict E id path s with
    | (s, .error e) => (s, .error e)
    | (s, .ok h) =>
      match metadataOf (s.setSd id (some h)) h with
      | .error e => (s.setSd id (some h), .error e)
      | .ok md => finishLoad E param id (Dict.ofList (md.map fun p => (p.1, .tensor p.2))) md.keys (s.setSd id (some h))
  | .merge cs, s => loadC E cs s
/-- the values of a dict -/
def loadE (E : Env) (param : Option RegCfg) : List (Str × Tree) → St → St × Except Err Unit
  | [], s => (s, .ok ())
  | (_, t) :: es, s =>
    match load E param t s with
    | (s, .error e) => (s, .error e)
    | (s, .ok _) => loadE E param es s
/-- the arguments of a merge -/
def loadC (E : Env) : List (Option RegCfg × Tree) → St → St × Except Err Unit
  | [], s => (s, .ok ())
  | (param, t) :: cs, s =>
    match load E param t s with
    | (s, .error e) => (s, .error e)
    | (s, .ok _) => loadC E cs s
end

/-- `state_dict.close()` (streaming.py:99-104) -/
def closeFile (h : ℕ) (s : St) : St :=
  { s with files := s.files.modify h fun f => { f with isOpen := false } }

/-- `visit_model` of `CloseInputDictsVisitor` (merging.py:519-522) -/
def closeModel (id : ℕ) (s : St) : St :=
  match s.sd id with
  | some h => (closeFile h s).setSd id none
  | none => s.setSd id none

/-- Whether `visit_literal` goes on to the values (merging.py:514) -/
def visitsValues : List (Str × Tree) → Bool
  | [] => true
  | (_, t) :: _ => t.isNode

mutual
/-- `CloseInputDictsVisitor` (merging.py:511-526).  A value that is not a node has no `accept`. -/
def close : Tree → St → St × Except Err Unit
  | .raw _, s => (s, .error .attribute)
  | .lit, s => (s, .ok ())
  | .dict _ es, s => if visitsValues es then closeE es s else (s, .ok ())
  | .model id _, s => (closeModel id s, .ok ())
  | .merge cs, s => closeC cs s
def closeE : List (Str × Tree) → St → St × Except Err Unit
  | [], s => (s, .ok ())
  | (_, t) :: es, s =>
    match close t s with
    | (s, .error e) => (s, .error e)
    | (s, .ok _) => closeE es s
def closeC : List (Option RegCfg × Tree) → St → St × Except Err Unit
  | [], s => (s, .ok ())
  | (_, t) :: cs, s =>
    match close t s with
    | (s, .error e) => (s, .error e)
    | (s, .ok _) => closeC cs s
end

/-- `with open_input_dicts(recipe, ...): body` (merging.py:345-361); each call has a new visitor with an empty cache.  The body only reads.
An exception from closing replaces the one from the body. -/
def withInputs {α : Type} (E : Env) (t : Tree) (body : St → Except Err α) (s : St) : St × Except Err α :=
  let (s1, r) := load E none t { s with cache := [], structs := upd s.structs E.ref [] }
  let r : Except Err α := match r with | .error e => .error e | .ok _ => body s1
  match close t s1 with
  | (s2, .error e) => (s2, .error e)
  | (s2, .ok _) => (s2, r)

end Verif.Inputs
