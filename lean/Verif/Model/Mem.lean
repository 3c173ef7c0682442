import Verif.Model.Cast
import Verif.Model.Program

/-!
# Merging one key with tensors that are objects (sd_mecha/merging.py: `KeyMergeVisitor`)

`Eval.eval` computes with values.  Here tensors are objects in memory, passed by reference: a merge method may write into the tensors it gets, and
may return one of them.  The memory is a list of values, a reference a position in it.  Simplified: a file answers each load of a key with the same
tensor (it does so as long as its buffer holds the bytes, `Verif/Model/StreamIn.lean`); two tensors share no part of their memory unless they are the
same; one thread.
-/
namespace Verif.Mem
open Method Recipe Config Eval Program
variable {F V : Type}

/-- A computation on the memory -/
abbrev M (V α : Type) := List V → List V × α

/-- The python function of a merge method, given what it was called with -/
inductive HFn (F V : Type) where
  | done (r : Res F ℕ)
  /-- `a[k]` of a `StateDict` -/
  | ask (arg : Idx) (key : Str) (next : Res F ℕ → HFn F V)
  /-- use a tensor -/
  | read (r : ℕ) (next : V → HFn F V)
  /-- overwrite a tensor in place -/
  | write (r : ℕ) (v : V) (next : HFn F V)
  /-- compute a new tensor -/
  | new (v : V) (next : ℕ → HFn F V)

/-- A merge method: its annotated types and its python function (merge_methods.py:216-236) -/
structure HSource (F V : Type) where
  types : FunctionArgs PTy
  body : List (Shape F ℕ) → (Str → Option (Shape F ℕ)) → Str → HFn F V

/-- Everything outside the recipe; tensors given by the user or by files are references. -/
structure HWorld (F V : Type) where
  env : Env F
  conv : Conv F V
  tensors : ℕ → ℕ
  read : Str → Str → Except Err ℕ
  configs : Str → Option ModelConfig
  source : Str → HSource F V

/-- An argument as the function gets it: see `Eval.Arg` -/
inductive HArg (F V : Type) where
  | val (v : RVal F ℕ)
  | sd (get : Str → M V (Res F ℕ)) (config : Except Err (Option ModelConfig))

def HArg.shape : HArg F V → Shape F ℕ
  | .val v => .val v
  | .sd _ c => .sd c

/-- `arg[k]`; a value that is no mapping is a `TypeError`. -/
def HArg.get : Option (HArg F V) → Str → M V (Res F ℕ)
  | some (.sd get _), k => get k
  | _, _ => fun h => (h, .error .type)

/-- Running a function.  There is no reference to nowhere in python. -/
def HFn.run (get : Idx → Str → M V (Res F ℕ)) : HFn F V → M V (Res F ℕ)
  | .done r => fun h => (h, r)
  | .ask i k next => fun h => (next (get i k h).2).run get (get i k h).1
  | .read r next => fun h =>
    match h[r]? with
    | some v => (next v).run get h
    | none => (h, .error .runtime)
  | .write r v next => fun h => next.run get (h.set r v)
  | .new v next => fun h => (next h.length).run get (h ++ [v])

/-- The value behind a reference -/
def deref (h : List V) : RVal F ℕ → Option (RVal F V)
  | .tensor r => (h[r]?).map RVal.tensor
  | .str s => some (.str s)
  | .int i => some (.int i)
  | .float f => some (.float f)
  | .bool b => some (.bool b)
  | .none => some .none

/-- `cast_node_value` (merging.py:649-669), see `Eval.castTo`: what passes is the same object, a tensor made of a number is a new one. -/
def castH (C : Conv F V) (ty : Ty) (v : RVal F ℕ) : M V (Res F ℕ) := fun h =>
  match v with
  | .none => (h, .ok .none)
  | _ =>
    if ty = .typeVar ∨ v.isInstance ty = true then (h, .ok v)
    else
      match deref h v with
      | none => (h, .error .runtime)
      | some x =>
        match ty with
        | .int | .bool => (h, (C.toInt x).map RVal.int)
        | .float => (h, (C.toFloat x).map RVal.float)
        | .tensor =>
          match C.toTensor x with
          | .ok t => (h ++ [t], .ok (.tensor h.length))
          | .error e => (h, .error e)
        | _ => (h, .ok v)

/-- One argument of a merge node, see `Eval.Child`. -/
structure HChild (F V : Type) where
  idx : Idx
  run : Str → M V (Res F ℕ)
  depth : Option ℕ
  config : Except Err (Option ModelConfig)

def insertDeepH (c : HChild F V) : List (HChild F V) → List (HChild F V)
  | [] => [c]
  | d :: l => if d.depth.getD 0 < c.depth.getD 0 then c :: d :: l else d :: insertDeepH c l

/-- `sorted(indices, key=depth_of_value, reverse=True)` (merging.py:579) -/
def deeperFirstH (l : List (HChild F V)) : List (HChild F V) := l.foldl (fun acc c => insertDeepH c acc) []

/-- State of the loop in `__visit_deeper_first` (merging.py:576-585) -/
structure HMerged (F V : Type) where
  holder : Option Err
  merged : Dict Idx (HArg F V)

/-- `MergeNodeWrapperStateDict.__getitem__` (merging.py:628-630) -/
def castRunH (C : Conv F V) (t : Ty) (run : Str → M V (Res F ℕ)) (k : Str) : M V (Res F ℕ) := fun h =>
  match run k h with
  | (h, .ok v) => castH C t v h
  | (h, .error e) => (h, .error e)

/-- One round (merging.py:580-585), see `Eval.stepChild`. -/
def stepChildH (C : Conv F V) (types : Dict Idx PTy) (key : Str) (s : HMerged F V) (c : HChild F V) : M V (Except Err (HMerged F V)) := fun h =>
  match types.get? c.idx with
  | none => (h, .error .key)
  | some (.sd t) => (h, .ok { s with merged := s.merged.set c.idx (.sd (castRunH C t c.run) c.config) })
  | some (.val t) =>
    match c.run key h with
    | (h, .error e) => (h, .ok ⟨some e, s.merged.set c.idx (.val .none)⟩)
    | (h, .ok v) =>
      match castH C t v h with
      | (h, .error e) => (h, .error e)
      | (h, .ok v') => (h, .ok { s with merged := s.merged.set c.idx (.val v') })

/-- The loop (merging.py:579-585) -/
def stepAllH (C : Conv F V) (types : Dict Idx PTy) (key : Str) : HMerged F V → List (HChild F V) → M V (Except Err (HMerged F V))
  | s, [] => fun h => (h, .ok s)
  | s, c :: l => fun h =>
    match stepChildH C types key s c h with
    | (h, .error e) => (h, .error e)
    | (h, .ok s') => stepAllH C types key s' l h

/-- After the loop: raise what the holder holds, else call the python function (merging.py:557-564, 587-590). -/
def finishH (src : HSource F V) (n : ℕ) (key : Str) (s : HMerged F V) : M V (Res F ℕ) :=
  match s.holder with
  | some e => fun h => (h, .error e)
  | none =>
    match (List.range n).map (fun i => (s.merged.get? (.pos i)).getD (.val .none)), fun k => s.merged.get? (.name k) with
    | args, kwargs => (src.body (args.map HArg.shape) (fun k => (kwargs k).map HArg.shape) key).run fun i => HArg.get (argAt args kwargs i)

/-- `visit_merge` (merging.py:557-590) -/
def applyMergeH (C : Conv F V) (src : HSource F V) (n : ℕ) (children : List (HChild F V)) (key : Str) : M V (Res F ℕ) := fun h =>
  if children.any (fun c => c.depth.isNone) then (h, .error .value)
  else
    match stepAllH C (src.types.asDict (some n)) key ⟨none, []⟩ (deeperFirstH children) h with
    | (h, .error e) => (h, .error e)
    | (h, .ok s) => finishH src n key s h

/-- `merge_node.model_config` as a config object (merging.py:640-642) -/
def configOfH (H : HWorld F V) (v : Val F) : Except Err (Option ModelConfig) :=
  match v.config H.env with
  | .error e => .error e
  | .ok none => .ok none
  | .ok (some c) => .ok (H.configs c)

/-- `__visit_sd` (merging.py:546-555) -/
def visitH {α : Type} (H : HWorld F V) (get : Str → Except Err α) (config : Option Str) (key : Str) : Except Err α :=
  match config with
  | none => .error .attribute
  | some c =>
    match H.configs c with
    | none => .error .attribute
    | some cfg => visitKeys get (key :: (cfg.aliases.get? key).getD [])

mutual
/-- `node.accept(KeyMergeVisitor(key))` (merging.py:530-564), see `Eval.eval`. -/
def evalH (H : HWorld F V) : Val F → Str → M V (Res F ℕ)
  | .lit (.dict es) config _ => fun key =>
    match visitH H (fun k => match Dict.get? (evalDH H es) k with | some f => .ok f | none => .error .key) config key with
    | .ok f => f key
    | .error e => fun h => (h, .error e)
  | .lit v _ _ => evalH H v
  | .model path config _ => fun key h => (h, (visitH H (H.read path) config key).map RVal.tensor)
  | .merge m args kwargs => applyMergeH H.conv (H.source m) args.length (evalLH H 0 args ++ evalKH H kwargs)
  | .str s => fun _ h => (h, .ok (.str s))
  | .int i => fun _ h => (h, .ok (.int i))
  | .float f => fun _ h => (h, .ok (.float f))
  | .bool b => fun _ h => (h, .ok (.bool b))
  | .none => fun _ h => (h, .ok .none)
  | .tensor i => fun _ h => (h, .ok (.tensor (H.tensors i)))
  | .dict _ => fun _ h => (h, .error .type)
def evalDH (H : HWorld F V) : List (Str × Val F) → Dict Str (Str → M V (Res F ℕ))
  | [] => []
  | (k, v) :: l => (k, evalH H v) :: evalDH H l
def evalLH (H : HWorld F V) (i : ℕ) : List (Val F) → List (HChild F V)
  | [] => []
  | v :: l => ⟨.pos i, evalH H v, depth v, configOfH H v⟩ :: evalLH H (i + 1) l
def evalKH (H : HWorld F V) : List (Str × Val F) → List (HChild F V)
  | [] => []
  | (k, v) :: l => ⟨.name k, evalH H v, depth v, configOfH H v⟩ :: evalKH H l
end

/-- The keys of a merge, one after the other in one thread (merging.py:174-200), with a dict as output: the results are the tensors as returned. -/
def mergeH (H : HWorld F V) (r : Val F) : List Str → M V (List (Res F ℕ))
  | [] => fun h => (h, [])
  | k :: ks => fun h =>
    match evalH H r k h with
    | (h, x) => match mergeH H r ks h with
      | (h', l) => (h', x :: l)

end Verif.Mem
