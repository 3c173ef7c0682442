import Verif.Model.Inputs
import Verif.Spec.Infer

/-!
# What is claimed about the inputs of a merge
-/
namespace Verif.Inputs.Spec
open Method Config Infer

mutual
/-- The model nodes of a recipe: object and path -/
def models : Tree → List (ℕ × Str)
  | .raw _ => []
  | .lit => []
  | .dict _ es => modelsE es
  | .model id path => [(id, path)]
  | .merge cs => modelsC cs
def modelsE : List (Str × Tree) → List (ℕ × Str)
  | [] => []
  | (_, t) :: es => models t ++ modelsE es
def modelsC : List (Option RegCfg × Tree) → List (ℕ × Str)
  | [] => []
  | (_, t) :: cs => models t ++ modelsC cs
end

mutual
/-- The recipe is a node, and each literal dict in it holds nodes only or values only. -/
def Plain : Tree → Prop
  | .raw _ => False
  | .lit => True
  | .dict _ es => RawE es ∨ PlainE es
  | .model _ _ => True
  | .merge cs => PlainC cs
def PlainE : List (Str × Tree) → Prop
  | [] => True
  | (_, t) :: es => Plain t ∧ PlainE es
def PlainC : List (Option RegCfg × Tree) → Prop
  | [] => True
  | (_, t) :: cs => Plain t ∧ PlainC cs
def RawE : List (Str × Tree) → Prop
  | [] => True
  | (_, t) :: es => t.isNode = false ∧ RawE es
end

/-- The file at position `i` -/
def FileAt (s : St) (i : ℕ) (f : File) : Prop := s.files[i]? = some f

/-- The path that a model node stands for: absolute paths as they are, relative ones in the first directory that has them. -/
inductive Finds (fs : Fs) (dirs : List Str) (path : Str) : Str → Prop
  | absolute (h : fs.isAbsolute path = true) : Finds fs dirs path path
  | found {pre post : List Str} {d : Str} (h : fs.isAbsolute path = false) (hd : dirs = pre ++ d :: post)
      (hpre : ∀ x ∈ pre, fs.exists (fs.join x path) = false) (hex : fs.exists (fs.join d path) = true) : Finds fs dirs path (fs.join d path)
  | nowhere (h : fs.isAbsolute path = false) (hex : ∀ x ∈ dirs, fs.exists (fs.join x path) = false) : Finds fs dirs path path

/-! ### Inputs of unknown architecture -/

mutual
/-- The literal dicts of a recipe, in the order they are visited: object and entries -/
def dicts : Tree → List (ℕ × List (Str × Tree))
  | .raw _ => []
  | .lit => []
  | .dict id es => dictsE es ++ [(id, es)]
  | .model _ _ => []
  | .merge cs => dictsC cs
def dictsE : List (Str × Tree) → List (ℕ × List (Str × Tree))
  | [] => []
  | (_, t) :: es => dicts t ++ dictsE es
def dictsC : List (Option RegCfg × Tree) → List (ℕ × List (Str × Tree))
  | [] => []
  | (_, t) :: cs => dicts t ++ dictsC cs
end

/-- `k` is a tensor of this shape and dtype in the dict. -/
def Has (es : List (Str × Tree)) (k : Str) (shape : List ℕ) (dtype : Option Str) : Prop := (k, Tree.raw (some ⟨some shape, dtype⟩)) ∈ es

/-- A state dict in memory: different keys, all with tensors -/
def StateDict (es : List (Str × Tree)) : Prop :=
  (es.map (·.1)).Nodup ∧ ∀ p ∈ es, ∃ shape dtype, p.2 = Tree.raw (some ⟨some shape, dtype⟩)

/-- No registered config matches a tenth of the keys. -/
def Unknown (registry : List RegCfg) (es : List (Str × Tree)) : Prop :=
  ∀ c ∈ registry, ¬ Infer.Spec.Enough (es.map (·.1)) c.config

/-- The key is in all the dicts. -/
def Common (ds : List (ℕ × List (Str × Tree))) (k : Str) : Prop := ∀ d ∈ ds, k ∈ d.2.map (·.1)

/-- Objects of the recipe that can change -/
def ids (t : Tree) : List ℕ := (models t).map (·.1) ++ (dicts t).map (·.1)

/-- What a node's config says about keys, during a merge -/
def view (s : St) (id : ℕ) : Option (Except Err (Dict Str Meta)) := (s.config id).map (keysOf s)

/-- What a merge sees: the keys of each node with a config, and the file of each model -/
def observe (t : Tree) (s : St) : List (Option (Except Err (Dict Str Meta))) × List (Option File) :=
  ((ids t).map (view s), (models t).map fun p => (s.sd p.1).bind fun h => s.files[h]?)

/-- Merging recipes one after the other -/
def run : List (Env × Tree) → St → St
  | [], s => s
  | (E, t) :: hs, s => run hs (withInputs E t (fun _ => .ok ()) s).1

end Verif.Inputs.Spec
