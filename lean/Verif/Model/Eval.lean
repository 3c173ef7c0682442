import Verif.Model.Recipe
import Verif.Model.Config

/-!
# Merging one key (sd_mecha/merging.py: `KeyMergeVisitor`, `ErrorHolder`, `MergeNodeWrapperStateDict`, `cast_node_value`)

`eval W r key` is `r.accept(KeyMergeVisitor(key))` for a recipe whose input files are open (`open_input_dicts`), that is, whose
model and dict nodes know their config.
Values of tensors are of an abstract type `T`, floats of a type `F`.  A python merge method is a function of its arguments and
the key; the optional per-node `cache` and other side effects are not modelled.
-/
namespace Verif.Eval
open Method Recipe Config

/-- What a merge method gets and returns: `NonDictLiteralValue` (recipe_nodes.py:68-69). -/
inductive RVal (F T : Type) where
  | str (s : Str)
  | int (i : Int)
  | float (f : F)
  | bool (b : Bool)
  | none
  | tensor (t : T)
  deriving DecidableEq, Repr

/-- Annotated types of values; `typeVar` stands for any `TypeVar`. -/
inductive Ty where
  | str | int | float | bool | none | tensor | typeVar
  deriving DecidableEq, Repr

/-- Annotated types of parameters: a value or a `StateDict[...]`. -/
inductive PTy where
  | val (t : Ty)
  | sd (t : Ty)
  deriving DecidableEq, Repr

variable {F T : Type}

/-- The result of evaluating something -/
abbrev Res (F T : Type) := Except Err (RVal F T)

/-- `int(v)`, `float(v)` and `torch.tensor(v, dtype=torch.float32)`; all can raise. -/
structure Conv (F T : Type) where
  toInt : RVal F T → Except Err Int
  toFloat : RVal F T → Except Err F
  toTensor : RVal F T → Except Err T

/-- `isinstance(v, t)`; `bool` is a subclass of `int`. -/
def RVal.isInstance : RVal F T → Ty → Bool
  | .str _, .str | .int _, .int | .float _, .float | .bool _, .bool | .bool _, .int | .none, .none | .tensor _, .tensor => true
  | _, _ => false

/-- `cast_node_value` (merging.py:649-669) for a value type: `None` passes, instances pass, then `int` (also for `bool`),
`float` and tensors convert, the rest passes. -/
def castTo (C : Conv F T) (ty : Ty) (v : RVal F T) : Res F T :=
  match v with
  | .none => .ok .none
  | _ =>
    if ty = .typeVar ∨ v.isInstance ty = true then .ok v
    else
      match ty with
      | .int | .bool => (C.toInt v).map RVal.int
      | .float => (C.toFloat v).map RVal.float
      | .tensor => (C.toTensor v).map RVal.tensor
      | _ => .ok v

/-- An argument as the python function sees it: a value, or a mapping (`MergeNodeWrapperStateDict`, merging.py:617-646) with its
config (`none` if the node has no config, an error if computing it raises). -/
inductive Arg (F T : Type) where
  | val (v : RVal F T)
  | sd (get : Str → Res F T) (config : Except Err (Option ModelConfig))

/-- A merge method as evaluation sees it: its annotated types and its python function.  The function is given the key
(through `**kwargs`, merge_methods.py:216-236); its keyword-only parameters are bound by name. -/
structure Impl (F T : Type) where
  types : FunctionArgs PTy
  run : List (Arg F T) → (Str → Option (Arg F T)) → Str → Res F T

/-- Everything outside the recipe. -/
structure World (F T : Type) where
  env : Env F
  conv : Conv F T
  /-- in-memory tensors -/
  tensors : ℕ → T
  /-- `node.state_dict[key]` of a model node, by path; a missing key is a `KeyError` -/
  read : Str → Str → Except Err T
  /-- the config object of an identifier -/
  configs : Str → Option ModelConfig
  /-- the python function of a method -/
  impl : Str → Impl F T

/-- `except KeyError` -/
def Err.isKeyError : Err → Bool
  | .key | .stateDictKey => true
  | _ => false

/-- The loop of `__visit_sd` (merging.py:550-555): the keys in order; `KeyError`s are swallowed, except at the last key, where
it becomes a `StateDictKeyError`. -/
def visitKeys {α : Type} (get : Str → Except Err α) : List Str → Except Err α
  | [] => .error .stateDictKey
  | [k] =>
    match get k with
    | .ok v => .ok v
    | .error e => if Err.isKeyError e then .error .stateDictKey else .error e
  | k :: ks =>
    match get k with
    | .ok v => .ok v
    | .error e => if Err.isKeyError e then visitKeys get ks else .error e

/-- `__visit_sd` (merging.py:546-555).  A node without config has no `aliases` attribute. -/
def visitSd {α : Type} (W : World F T) (get : Str → Except Err α) (config : Option Str) (key : Str) : Except Err α :=
  match config with
  | none => .error .attribute
  | some c =>
    match W.configs c with
    | none => .error .attribute
    | some cfg => visitKeys get (key :: (cfg.aliases.get? key).getD [])

/-! ### Depth (recipe_nodes.py:218-230) -/

/-- `max` of the depths; `none` is the `ValueError` of an empty sequence or of a child. -/
def maxDepth : List (Option ℕ) → Option ℕ
  | [] => none
  | [d] => d
  | d :: ds =>
    match d, maxDepth ds with
    | some a, some b => some (max a b)
    | _, _ => none

mutual
/-- `ModelDepthRecipeVisitor` -/
def depth : Val F → Option ℕ
  | .lit .. => some 0
  | .model .. => some 1
  | .merge _ args kwargs => (· + 1) <$> maxDepth (depthL args ++ depthK kwargs)
  | _ => none
def depthL : List (Val F) → List (Option ℕ)
  | [] => []
  | v :: l => depth v :: depthL l
def depthK : List (Str × Val F) → List (Option ℕ)
  | [] => []
  | (_, v) :: l => depth v :: depthK l
end

/-! ### Arguments of a merge node -/

/-- One argument of a merge node: its index, how to evaluate it for a key, its depth and its config. -/
structure Child (F T : Type) where
  idx : Idx
  run : Str → Res F T
  depth : Option ℕ
  config : Except Err (Option ModelConfig)

/-- Insertion into a list sorted by decreasing depth, behind the elements of the same depth. -/
def insertDeep (c : Child F T) : List (Child F T) → List (Child F T)
  | [] => [c]
  | d :: l => if d.depth.getD 0 < c.depth.getD 0 then c :: d :: l else d :: insertDeep c l

/-- `sorted(indices, key=depth_of_value, reverse=True)` (merging.py:579), which is stable. -/
def deeperFirst (l : List (Child F T)) : List (Child F T) :=
  l.foldl (fun acc c => insertDeep c acc) []

/-- State of the loop in `__visit_deeper_first`: what `ErrorHolder` holds and the dict `merged`. -/
structure Merged (F T : Type) where
  holder : Option Err
  merged : Dict Idx (Arg F T)

/-- `MergeNodeWrapperStateDict.__getitem__` (merging.py:628-630) -/
def castRun (C : Conv F T) (t : Ty) (run : Str → Res F T) : Str → Res F T := fun k =>
  match run k with
  | .ok v => castTo C t v
  | .error e => .error e

/-- One round (merging.py:580-585).  A `StateDict` argument is wrapped and not evaluated.  A value is evaluated with
exceptions kept by the holder (the newest one replaces the previous), and cast outside of it. -/
def stepChild (C : Conv F T) (types : Dict Idx PTy) (key : Str) (s : Merged F T) (c : Child F T) : Except Err (Merged F T) :=
  match types.get? c.idx with
  | none => .error .key
  | some (.sd t) =>
    .ok { s with merged := s.merged.set c.idx (.sd (castRun C t c.run) c.config) }
  | some (.val t) =>
    match c.run key with
    | .error e => .ok ⟨some e, s.merged.set c.idx (.val .none)⟩
    | .ok v =>
      match castTo C t v with
      | .error e => .error e
      | .ok v' => .ok { s with merged := s.merged.set c.idx (.val v') }

/-- The loop (merging.py:579-585) -/
def stepAll (C : Conv F T) (types : Dict Idx PTy) (key : Str) : Merged F T → List (Child F T) → Except Err (Merged F T)
  | s, [] => .ok s
  | s, c :: l =>
    match stepChild C types key s c with
    | .error e => .error e
    | .ok s' => stepAll C types key s' l

/-- `merged_args` and `merged_kwargs` (merging.py:587-588) -/
def splitArgs (n : ℕ) (m : Dict Idx (Arg F T)) : List (Arg F T) × (Str → Option (Arg F T)) :=
  ((List.range n).map fun i => (m.get? (.pos i)).getD (.val .none), fun s => m.get? (.name s))

/-- After the loop: raise what the holder holds, else call the python function (merging.py:557-564, 587-590). -/
def finish (impl : Impl F T) (n : ℕ) (key : Str) (s : Merged F T) : Res F T :=
  match s.holder with
  | some e => .error e
  | none => impl.run (splitArgs n s.merged).1 (splitArgs n s.merged).2 key

/-- `visit_merge` (merging.py:557-590) given the arguments in the order they are evaluated in. -/
def applyOrdered (C : Conv F T) (impl : Impl F T) (n : ℕ) (order : List (Child F T)) (key : Str) : Res F T :=
  match stepAll C (impl.types.asDict (some n)) key ⟨none, []⟩ order with
  | .error e => .error e
  | .ok s => finish impl n key s

/-- `visit_merge` (merging.py:557-590).  `depth_of_value` raises for a child that is a merge without arguments. -/
def applyMerge (C : Conv F T) (impl : Impl F T) (n : ℕ) (children : List (Child F T)) (key : Str) : Res F T :=
  if children.any (fun c => c.depth.isNone) then .error .value
  else applyOrdered C impl n (deeperFirst children) key

/-! ### The visitor -/

/-- `self.merge_node.model_config` as a config object (merging.py:640-642) -/
def configOf (W : World F T) (v : Val F) : Except Err (Option ModelConfig) :=
  match v.config W.env with
  | .error e => .error e
  | .ok none => .ok none
  | .ok (some c) => .ok (W.configs c)

mutual
/-- `node.accept(KeyMergeVisitor(key))` (merging.py:530-564).  The value of a literal is itself, a dict literal is looked up and
the node found is merged for the same key; a dict in a dict is a `TypeError` (merging.py:534-541). -/
def eval (W : World F T) : Val F → Str → Res F T
  | .lit (.dict es) config _ => fun key =>
    match visitSd W (fun k => match Dict.get? (evalD W es) k with | some f => .ok f | none => .error .key) config key with
    | .ok f => f key
    | .error e => .error e
  | .lit v _ _ => eval W v
  | .model path config _ => fun key =>
    match visitSd W (W.read path) config key with
    | .ok t => .ok (.tensor t)
    | .error e => .error e
  | .merge m args kwargs => applyMerge W.conv (W.impl m) args.length (evalL W 0 args ++ evalK W kwargs)
  | .str s => fun _ => .ok (.str s)
  | .int i => fun _ => .ok (.int i)
  | .float f => fun _ => .ok (.float f)
  | .bool b => fun _ => .ok (.bool b)
  | .none => fun _ => .ok .none
  | .tensor i => fun _ => .ok (.tensor (W.tensors i))
  | .dict _ => fun _ => .error .type
/-- The values of a dict literal -/
def evalD (W : World F T) : List (Str × Val F) → Dict Str (Str → Res F T)
  | [] => []
  | (k, v) :: l => (k, eval W v) :: evalD W l
/-- The positional arguments from position `i` on -/
def evalL (W : World F T) (i : ℕ) : List (Val F) → List (Child F T)
  | [] => []
  | v :: l => ⟨.pos i, eval W v, depth v, configOf W v⟩ :: evalL W (i + 1) l
/-- The keyword arguments -/
def evalK (W : World F T) : List (Str × Val F) → List (Child F T)
  | [] => []
  | (k, v) :: l => ⟨.name k, eval W v, depth v, configOf W v⟩ :: evalK W l
end

end Verif.Eval
