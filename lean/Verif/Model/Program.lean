import Verif.Model.Eval

/-!
# Merging one key as a program that loads tensors (sd_mecha/merging.py: `KeyMergeVisitor`)

`Eval.eval` takes what a file answers as a function.  Here the evaluation of a recipe for a key is the sequence of loads it makes, each of
which may depend on the answers to the earlier ones: `program P r key` is `r.accept(KeyMergeVisitor(key))` with `node.state_dict[key]`
(merging.py:543-555) left to whoever runs the program.  Values between loads are computed as in `Eval`.
-/
namespace Verif.Program
open Method Recipe Config Eval

/-- A computation that loads tensors by path and key -/
inductive Prog (T α : Type) where
  | ret (a : α)
  | load (path key : Str) (next : Except Err T → Prog T α)

variable {F T α β : Type}

def Prog.bind : Prog T α → (α → Prog T β) → Prog T β
  | .ret a, f => f a
  | .load p k next, f => .load p k fun r => (next r).bind f

/-- The python function of a merge method, given what it was called with: it asks its `StateDict` arguments for keys
(`a[k]`; it may catch the exception) and ends. -/
inductive Fn (F T : Type) where
  | done (r : Res F T)
  | ask (arg : Idx) (key : Str) (next : Res F T → Fn F T)

/-- What the function sees of an argument without asking: a value, or the config of a mapping. -/
inductive Shape (F T : Type) where
  | val (v : RVal F T)
  | sd (config : Except Err (Option ModelConfig))

/-- A merge method: its annotated types and its python function (merge_methods.py:216-236) -/
structure Source (F T : Type) where
  types : FunctionArgs PTy
  body : List (Shape F T) → (Str → Option (Shape F T)) → Str → Fn F T

/-- Everything outside the recipe, except what the files answer. -/
structure PWorld (F T : Type) where
  env : Env F
  conv : Conv F T
  tensors : ℕ → T
  configs : Str → Option ModelConfig
  source : Str → Source F T

/-- An argument as the function gets it: see `Eval.Arg` (`MergeNodeWrapperStateDict`, merging.py:617-646). -/
inductive PArg (F T : Type) where
  | val (v : RVal F T)
  | sd (get : Str → Prog T (Res F T)) (config : Except Err (Option ModelConfig))

def PArg.shape : PArg F T → Shape F T
  | .val v => .val v
  | .sd _ c => .sd c

/-- `arg[k]`; a value that is no mapping is a `TypeError`. -/
def PArg.get : Option (PArg F T) → Str → Prog T (Res F T)
  | some (.sd get _), k => get k
  | _, _ => .ret (.error .type)

/-- Running a function whose questions are answered by `get` -/
def Fn.run (get : Idx → Str → Prog T (Res F T)) : Fn F T → Prog T (Res F T)
  | .done r => .ret r
  | .ask i k next => (get i k).bind fun r => (next r).run get

/-- The argument at an index -/
def argAt {A : Type} (args : List A) (kwargs : Str → Option A) : Idx → Option A
  | .pos i => args[i]?
  | .name s => kwargs s

/-- The loop of `__visit_sd` (merging.py:550-555), see `Eval.visitKeys`. -/
def loadFirst (path : Str) : List Str → Prog T (Except Err T)
  | [] => .ret (.error .stateDictKey)
  | [k] => .load path k fun
    | .ok v => .ret (.ok v)
    | .error e => if Err.isKeyError e then .ret (.error .stateDictKey) else .ret (.error e)
  | k :: k' :: ks => .load path k fun
    | .ok v => .ret (.ok v)
    | .error e => if Err.isKeyError e then loadFirst path (k' :: ks) else .ret (.error e)

/-- `__visit_sd` (merging.py:546-555) -/
def visitModel (P : PWorld F T) (path : Str) (config : Option Str) (key : Str) : Prog T (Except Err T) :=
  match config with
  | none => .ret (.error .attribute)
  | some c =>
    match P.configs c with
    | none => .ret (.error .attribute)
    | some cfg => loadFirst path (key :: (cfg.aliases.get? key).getD [])

/-- One argument of a merge node, see `Eval.Child`. -/
structure PChild (F T : Type) where
  idx : Idx
  run : Str → Prog T (Res F T)
  depth : Option ℕ
  config : Except Err (Option ModelConfig)

def insertDeepP (c : PChild F T) : List (PChild F T) → List (PChild F T)
  | [] => [c]
  | d :: l => if d.depth.getD 0 < c.depth.getD 0 then c :: d :: l else d :: insertDeepP c l

/-- `sorted(indices, key=depth_of_value, reverse=True)` (merging.py:579) -/
def deeperFirstP (l : List (PChild F T)) : List (PChild F T) :=
  l.foldl (fun acc c => insertDeepP c acc) []

/-- State of the loop in `__visit_deeper_first` (merging.py:576-585) -/
structure PMerged (F T : Type) where
  holder : Option Err
  merged : Dict Idx (PArg F T)

/-- `MergeNodeWrapperStateDict.__getitem__` (merging.py:628-630) -/
def castRunP (C : Conv F T) (t : Ty) (run : Str → Prog T (Res F T)) : Str → Prog T (Res F T) := fun k =>
  (run k).bind fun
    | .ok v => .ret (castTo C t v)
    | .error e => .ret (.error e)

/-- One round (merging.py:580-585), see `Eval.stepChild`. -/
def stepChildP (C : Conv F T) (types : Dict Idx PTy) (key : Str) (s : PMerged F T) (c : PChild F T) :
    Prog T (Except Err (PMerged F T)) :=
  match types.get? c.idx with
  | none => .ret (.error .key)
  | some (.sd t) => .ret (.ok { s with merged := s.merged.set c.idx (.sd (castRunP C t c.run) c.config) })
  | some (.val t) =>
    (c.run key).bind fun
      | .error e => .ret (.ok ⟨some e, s.merged.set c.idx (.val .none)⟩)
      | .ok v =>
        match castTo C t v with
        | .error e => .ret (.error e)
        | .ok v' => .ret (.ok { s with merged := s.merged.set c.idx (.val v') })

/-- The loop (merging.py:579-585) -/
def stepAllP (C : Conv F T) (types : Dict Idx PTy) (key : Str) : PMerged F T → List (PChild F T) → Prog T (Except Err (PMerged F T))
  | s, [] => .ret (.ok s)
  | s, c :: l =>
    (stepChildP C types key s c).bind fun
      | .error e => .ret (.error e)
      | .ok s' => stepAllP C types key s' l

/-- After the loop: raise what the holder holds, else call the python function (merging.py:557-564, 587-590). -/
def finishP (src : Source F T) (n : ℕ) (key : Str) (s : PMerged F T) : Prog T (Res F T) :=
  match s.holder with
  | some e => .ret (.error e)
  | none =>
    match (List.range n).map (fun i => (s.merged.get? (.pos i)).getD (.val .none)), fun k => s.merged.get? (.name k) with
    | args, kwargs => (src.body (args.map PArg.shape) (fun k => (kwargs k).map PArg.shape) key).run fun i => PArg.get (argAt args kwargs i)

/-- `visit_merge` (merging.py:557-590) -/
def applyMergeP (C : Conv F T) (src : Source F T) (n : ℕ) (children : List (PChild F T)) (key : Str) : Prog T (Res F T) :=
  if children.any (fun c => c.depth.isNone) then .ret (.error .value)
  else
    (stepAllP C (src.types.asDict (some n)) key ⟨none, []⟩ (deeperFirstP children)).bind fun
      | .error e => .ret (.error e)
      | .ok s => finishP src n key s

/-- `merge_node.model_config` as a config object (merging.py:640-642) -/
def configOfP (P : PWorld F T) (v : Val F) : Except Err (Option ModelConfig) :=
  match v.config P.env with
  | .error e => .error e
  | .ok none => .ok none
  | .ok (some c) => .ok (P.configs c)

/-- `__visit_sd` (merging.py:546-555) of a mapping in memory -/
def visitDict (P : PWorld F T) (es : Dict Str (Str → Prog T (Res F T))) (config : Option Str) (key : Str) :
    Except Err (Str → Prog T (Res F T)) :=
  match config with
  | none => .error .attribute
  | some c =>
    match P.configs c with
    | none => .error .attribute
    | some cfg =>
      visitKeys (fun k => match es.get? k with | some f => .ok f | none => .error .key) (key :: (cfg.aliases.get? key).getD [])

mutual
/-- `node.accept(KeyMergeVisitor(key))` (merging.py:530-564), see `Eval.eval`. -/
def program (P : PWorld F T) : Val F → Str → Prog T (Res F T)
  | .lit (.dict es) config _ => fun key =>
    match visitDict P (programD P es) config key with
    | .ok f => f key
    | .error e => .ret (.error e)
  | .lit v _ _ => program P v
  | .model path config _ => fun key =>
    (visitModel P path config key).bind fun
      | .ok t => .ret (.ok (.tensor t))
      | .error e => .ret (.error e)
  | .merge m args kwargs => applyMergeP P.conv (P.source m) args.length (programL P 0 args ++ programK P kwargs)
  | .str s => fun _ => .ret (.ok (.str s))
  | .int i => fun _ => .ret (.ok (.int i))
  | .float f => fun _ => .ret (.ok (.float f))
  | .bool b => fun _ => .ret (.ok (.bool b))
  | .none => fun _ => .ret (.ok .none)
  | .tensor i => fun _ => .ret (.ok (.tensor (P.tensors i)))
  | .dict _ => fun _ => .ret (.error .type)
def programD (P : PWorld F T) : List (Str × Val F) → Dict Str (Str → Prog T (Res F T))
  | [] => []
  | (k, v) :: l => (k, program P v) :: programD P l
def programL (P : PWorld F T) (i : ℕ) : List (Val F) → List (PChild F T)
  | [] => []
  | v :: l => ⟨.pos i, program P v, depth v, configOfP P v⟩ :: programL P (i + 1) l
def programK (P : PWorld F T) : List (Str × Val F) → List (PChild F T)
  | [] => []
  | (k, v) :: l => ⟨.name k, program P v, depth v, configOfP P v⟩ :: programK P l
end

end Verif.Program
