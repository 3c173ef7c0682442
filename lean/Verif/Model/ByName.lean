import Verif.Model.Whole
import Verif.Model.Inputs
import Verif.Model.StreamIn

/-!
# Recipes that name files (sd_mecha/merging.py:128-137, 157-163, 345-397; sd_mecha/streaming.py:119-121)

`Verif/Model/Whole.lean` is a merge of recipes whose nodes know their config, `Verif/Model/Inputs.lean` is how the nodes of models and dicts get it.
Here the two are joined: the recipe that is merged is laid out as objects, the inputs are opened, and what is merged (and written to the header) is the
recipe with the configs that the objects then have.
-/
namespace Verif.ByName
open Method Recipe Config Eval Infer Inputs
variable {F : Type}

/-! ## Files -/

/-- The file system: how paths are resolved, and what the file at a resolved path holds.  `bufferSize` is that of the call, `cap` as in
`Verif/Model/StreamIn.lean`. -/
structure Disk where
  isAbsolute : Str → Bool
  join : Str → Str → Str
  «exists» : Str → Bool
  resolve : Str → Str
  formats : Str → ℕ
  bytes : Str → Option Bytes
  bufferSize : ℕ
  cap : ℕ

/-- `metadata()` (streaming.py:119-121) -/
def metadata (s : StreamIn.State) : Dict Str TensorMeta :=
  s.header.filterMap fun p =>
    if p.1 = metadataKey then none
    else match p.2 with
      | .tensor e => some (p.1, ⟨some e.shape, some e.dtype.name⟩)
      | .metadata _ => none

/-- `InSafetensorsDict(path, buffer_size)` (streaming.py:65-97) of the file at a resolved path -/
def Disk.state (D : Disk) (key : Str) : Option StreamIn.State :=
  match D.bytes key with
  | none => none
  | some file =>
    match StreamIn.open_ file D.bufferSize D.cap with
    | .error _ => none
    | .ok s => some s

/-- The same as far as `LoadInputDictsVisitor` sees it -/
def Disk.open (D : Disk) (path : Str) : Inputs.Opened :=
  match D.bytes (D.resolve path) with
  | none => .fail .os
  | some file =>
    match StreamIn.open_ file D.bufferSize D.cap with
    | .error e => .broken e
    | .ok s => .ok (.ok (metadata s))

def Disk.fs (D : Disk) : Fs := ⟨D.isAbsolute, D.join, D.exists, D.resolve, D.formats, D.open⟩

/-- The file a model node with the path `p` reads -/
def Disk.opened (D : Disk) (dirs : List Str) (p : Str) : Option StreamIn.State := D.state (D.resolve (search D.fs dirs p))

/-! ## Objects -/

/-- What there is besides the recipe: registered methods and configs, and the shapes of tensors -/
structure Site (F : Type) where
  env : Recipe.Env F
  config : Str → Option RegCfg
  shape : ℕ → TensorMeta

/-- `input_configs[k]` (merging.py:396-397) -/
def Site.hint (S : Site F) (m : Str) (n : ℕ) (k : Idx) : Option RegCfg :=
  match S.env.resolve m with
  | .error _ => none
  | .ok sig =>
    match (sig.inputConfigs.asDict (some n)).get? k with
    | some (some c) => S.config c
    | _ => none

/-- The number of the object at a position of the recipe.  Equal numbers are one object. -/
abbrev Layout := List ℕ → ℕ

mutual
/-- The recipe as `LoadInputDictsVisitor` sees it -/
def tree (S : Site F) (num : Layout) (pos : List ℕ) : Val F → Tree
  | .model p _ _ => .model (num pos) p
  | .lit v _ _ =>
    match v with
    | .dict es => .dict (num pos) (treeD S num pos 0 es)
    | _ => .lit
  | .merge m args kwargs =>
    .merge (treeL S num pos m args.length 0 args ++ treeK S num pos m args.length args.length kwargs)
  | .tensor i => .raw (some (S.shape i))
  | _ => .raw none
/-- the values of a dict -/
def treeD (S : Site F) (num : Layout) (pos : List ℕ) (i : ℕ) : List (Str × Val F) → List (Str × Tree)
  | [] => []
  | (k, v) :: es => (k, tree S num (pos ++ [i]) v) :: treeD S num pos (i + 1) es
/-- positional arguments of `m`, `n` in all -/
def treeL (S : Site F) (num : Layout) (pos : List ℕ) (m : Str) (n i : ℕ) : List (Val F) → List (Option RegCfg × Tree)
  | [] => []
  | v :: l => (S.hint m n (.pos i), tree S num (pos ++ [i]) v) :: treeL S num pos m n (i + 1) l
/-- keyword arguments -/
def treeK (S : Site F) (num : Layout) (pos : List ℕ) (m : Str) (n i : ℕ) : List (Str × Val F) → List (Option RegCfg × Tree)
  | [] => []
  | (k, v) :: l => (S.hint m n (.name k), tree S num (pos ++ [i]) v) :: treeK S num pos m n (i + 1) l
end

/-- `config.identifier`.  The others are never in a node when a merge of recognised inputs starts. -/
def nameOf : Option Cfg → Option Str
  | some (.reg c) => some c.config.identifier
  | _ => none

mutual
/-- The recipe with the configs that its objects have now (`node.model_config = ...`, merging.py:386, 392) -/
def fill (num : Layout) (s : St) (pos : List ℕ) : Val F → Val F
  | .model p _ sp => .model p (nameOf (s.config (num pos))) sp
  | .lit v c sp =>
    match v with
    | .dict es => .lit (.dict (fillD num s pos 0 es)) (nameOf (s.config (num pos))) sp
    | v => .lit v c sp
  | .merge m args kwargs => .merge m (fillL num s pos 0 args) (fillD num s pos args.length kwargs)
  | v => v
def fillD (num : Layout) (s : St) (pos : List ℕ) (i : ℕ) : List (Str × Val F) → List (Str × Val F)
  | [] => []
  | (k, v) :: es => (k, fill num s (pos ++ [i]) v) :: fillD num s pos (i + 1) es
def fillL (num : Layout) (s : St) (pos : List ℕ) (i : ℕ) : List (Val F) → List (Val F)
  | [] => []
  | v :: l => fill num s (pos ++ [i]) v :: fillL num s pos (i + 1) l
end

mutual
/-- The nodes of models and dicts, with their positions -/
def leaves (pos : List ℕ) : Val F → List (List ℕ × Val F)
  | .model p c s => [(pos, .model p c s)]
  | .lit v c s =>
    match v with
    | .dict es => (pos, .lit (.dict es) c s) :: leavesD pos 0 es
    | _ => []
  | .merge _ args kwargs => leavesL pos 0 args ++ leavesD pos args.length kwargs
  | _ => []
def leavesD (pos : List ℕ) (i : ℕ) : List (Str × Val F) → List (List ℕ × Val F)
  | [] => []
  | (_, v) :: es => leaves (pos ++ [i]) v ++ leavesD pos (i + 1) es
def leavesL (pos : List ℕ) (i : ℕ) : List (Val F) → List (List ℕ × Val F)
  | [] => []
  | v :: l => leaves (pos ++ [i]) v ++ leavesL pos (i + 1) l
end

end Verif.ByName
