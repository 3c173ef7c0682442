import Verif.Model.Program

/-!
# What is held in memory while a key is merged (sd_mecha/merging.py: `KeyMergeVisitor.__visit_deeper_first`)

`Program.program` says which loads merging a key makes.  Here the same computation also says when it comes to hold one more result and when
it lets go of results: a tensor is held from the moment a file answered it, the arguments of a merge node stay in the dict `merged`
(merging.py:577-585) until the python function of the node has returned, and its result is held from then on.

Simplified: what a python function allocates while it runs is not counted, and neither are literals (the recipe itself holds them), the
numbers and 0-dimensional tensors they are cast to, the buffers of the reader and of the writer.  What a function asks of a `StateDict`
argument is counted as held until the function ends.  When an exception is raised nothing is counted as let go: `ErrorHolder`
(merging.py:595-614) keeps the traceback, whose frames hold their dicts `merged`.  What a dict literal of recipe nodes answers is never
counted as let go either.
-/
namespace Verif.Held
open Method Recipe Config Eval Program

/-- A computation that loads tensors, comes to hold a result and lets go of results -/
inductive Live (T α : Type) where
  | ret (a : α)
  | load (path key : Str) (next : Except Err T → Live T α)
  | hold (rest : Live T α)
  | free (n : ℕ) (rest : Live T α)

variable {F T α β : Type}

def Live.bind : Live T α → (α → Live T β) → Live T β
  | .ret a, f => f a
  | .load p k next, f => .load p k fun r => (next r).bind f
  | .hold q, f => .hold (q.bind f)
  | .free n q, f => .free n (q.bind f)

/-- Whether evaluating the node makes a new result: literals are there already. -/
def fresh : Val F → Bool
  | .model .. => true
  | .merge .. => true
  | _ => false

/-- How many results a node adds -/
def weight (w : Bool) : ℕ := if w then 1 else 0

/-- An argument as the function gets it (`Program.PArg`) -/
inductive LArg (F T : Type) where
  | val (v : RVal F T)
  | sd (get : Str → Live T (Res F T)) (config : Except Err (Option ModelConfig)) (fresh : Bool)

def LArg.shape : LArg F T → Shape F T
  | .val v => .val v
  | .sd _ c _ => .sd c

/-- `arg[k]` (`Program.PArg.get`) -/
def LArg.get : Option (LArg F T) → Str → Live T (Res F T)
  | some (.sd get _ _), k => get k
  | _, _ => .ret (.error .type)

def LArg.isFresh : Option (LArg F T) → Bool
  | some (.sd _ _ w) => w
  | _ => false

/-- Running a function (merge_methods.py:216-236) while its `held` arguments are held: its result is there before they are let go of. -/
def runL (get : Idx → Str → Live T (Res F T)) (isFresh : Idx → Bool) (held : ℕ) : Fn F T → Live T (Res F T)
  | .done (.ok v) => .hold (.free held (.ret (.ok v)))
  | .done (.error e) => .ret (.error e)
  | .ask i k next => (get i k).bind fun
    | .ok v => runL get isFresh (held + weight (isFresh i)) (next (.ok v))
    | .error e => runL get isFresh held (next (.error e))

/-- The loop of `__visit_sd` (merging.py:550-555, `Program.loadFirst`) -/
def loadFirstL (path : Str) : List Str → Live T (Except Err T)
  | [] => .ret (.error .stateDictKey)
  | [k] => .load path k fun
    | .ok v => .hold (.ret (.ok v))
    | .error e => if Err.isKeyError e then .ret (.error .stateDictKey) else .ret (.error e)
  | k :: k' :: ks => .load path k fun
    | .ok v => .hold (.ret (.ok v))
    | .error e => if Err.isKeyError e then loadFirstL path (k' :: ks) else .ret (.error e)

/-- `__visit_sd` (merging.py:546-555, `Program.visitModel`) -/
def visitModelL (P : PWorld F T) (path : Str) (config : Option Str) (key : Str) : Live T (Except Err T) :=
  match config with
  | none => .ret (.error .attribute)
  | some c =>
    match P.configs c with
    | none => .ret (.error .attribute)
    | some cfg => loadFirstL path (key :: (cfg.aliases.get? key).getD [])

/-- One argument of a merge node (`Program.PChild`) -/
structure LChild (F T : Type) where
  idx : Idx
  run : Str → Live T (Res F T)
  depth : Option ℕ
  config : Except Err (Option ModelConfig)
  isFresh : Bool

def insertDeepL (c : LChild F T) : List (LChild F T) → List (LChild F T)
  | [] => [c]
  | d :: l => if d.depth.getD 0 < c.depth.getD 0 then c :: d :: l else d :: insertDeepL c l

/-- `sorted(indices, key=depth_of_value, reverse=True)` (merging.py:579) -/
def deeperFirstL (l : List (LChild F T)) : List (LChild F T) :=
  l.foldl (fun acc c => insertDeepL c acc) []

/-- State of the loop in `__visit_deeper_first` (merging.py:576-585), with the number of results in `merged` -/
structure LMerged (F T : Type) where
  holder : Option Err
  merged : Dict Idx (LArg F T)
  held : ℕ

/-- `MergeNodeWrapperStateDict.__getitem__` (merging.py:628-630) -/
def castRunL (C : Conv F T) (t : Ty) (run : Str → Live T (Res F T)) : Str → Live T (Res F T) := fun k =>
  (run k).bind fun
    | .ok v => .ret (castTo C t v)
    | .error e => .ret (.error e)

/-- One round (merging.py:580-585, `Program.stepChildP`) -/
def stepChildL (C : Conv F T) (types : Dict Idx PTy) (key : Str) (s : LMerged F T) (c : LChild F T) :
    Live T (Except Err (LMerged F T)) :=
  match types.get? c.idx with
  | none => .ret (.error .key)
  | some (.sd t) => .ret (.ok { s with merged := s.merged.set c.idx (.sd (castRunL C t c.run) c.config c.isFresh) })
  | some (.val t) =>
    (c.run key).bind fun
      | .error e => .ret (.ok ⟨some e, s.merged.set c.idx (.val .none), s.held⟩)
      | .ok v =>
        match castTo C t v with
        | .error e => .ret (.error e)
        | .ok v' => .ret (.ok ⟨s.holder, s.merged.set c.idx (.val v'), s.held + weight c.isFresh⟩)

/-- The loop (merging.py:579-585) -/
def stepAllL (C : Conv F T) (types : Dict Idx PTy) (key : Str) : LMerged F T → List (LChild F T) → Live T (Except Err (LMerged F T))
  | s, [] => .ret (.ok s)
  | s, c :: l =>
    (stepChildL C types key s c).bind fun
      | .error e => .ret (.error e)
      | .ok s' => stepAllL C types key s' l

/-- After the loop (merging.py:557-564, 587-590, `Program.finishP`) -/
def finishL (src : Source F T) (n : ℕ) (key : Str) (s : LMerged F T) : Live T (Res F T) :=
  match s.holder with
  | some e => .ret (.error e)
  | none =>
    match (List.range n).map (fun i => (s.merged.get? (.pos i)).getD (.val .none)), fun k => s.merged.get? (.name k) with
    | args, kwargs =>
      runL (fun i => LArg.get (argAt args kwargs i)) (fun i => LArg.isFresh (argAt args kwargs i)) s.held
        (src.body (args.map LArg.shape) (fun k => (kwargs k).map LArg.shape) key)

/-- `visit_merge` (merging.py:557-590) -/
def applyMergeL (C : Conv F T) (src : Source F T) (n : ℕ) (children : List (LChild F T)) (key : Str) : Live T (Res F T) :=
  if children.any (fun c => c.depth.isNone) then .ret (.error .value)
  else
    (stepAllL C (src.types.asDict (some n)) key ⟨none, [], 0⟩ (deeperFirstL children)).bind fun
      | .error e => .ret (.error e)
      | .ok s => finishL src n key s

/-- `__visit_sd` (merging.py:546-555) of a mapping in memory (`Program.visitDict`) -/
def visitDictL (P : PWorld F T) (es : Dict Str (Str → Live T (Res F T))) (config : Option Str) (key : Str) :
    Except Err (Str → Live T (Res F T)) :=
  match config with
  | none => .error .attribute
  | some c =>
    match P.configs c with
    | none => .error .attribute
    | some cfg =>
      visitKeys (fun k => match es.get? k with | some f => .ok f | none => .error .key) (key :: (cfg.aliases.get? key).getD [])

mutual
/-- `node.accept(KeyMergeVisitor(key))` (merging.py:530-564), see `Program.program`. -/
def live (P : PWorld F T) : Val F → Str → Live T (Res F T)
  | .lit (.dict es) config _ => fun key =>
    match visitDictL P (liveD P es) config key with
    | .ok f => f key
    | .error e => .ret (.error e)
  | .lit v _ _ => live P v
  | .model path config _ => fun key =>
    (visitModelL P path config key).bind fun
      | .ok t => .ret (.ok (.tensor t))
      | .error e => .ret (.error e)
  | .merge m args kwargs => applyMergeL P.conv (P.source m) args.length (liveL P 0 args ++ liveK P kwargs)
  | .str s => fun _ => .ret (.ok (.str s))
  | .int i => fun _ => .ret (.ok (.int i))
  | .float f => fun _ => .ret (.ok (.float f))
  | .bool b => fun _ => .ret (.ok (.bool b))
  | .none => fun _ => .ret (.ok .none)
  | .tensor i => fun _ => .ret (.ok (.tensor (P.tensors i)))
  | .dict _ => fun _ => .ret (.error .type)
def liveD (P : PWorld F T) : List (Str × Val F) → Dict Str (Str → Live T (Res F T))
  | [] => []
  | (k, v) :: l => (k, live P v) :: liveD P l
def liveL (P : PWorld F T) (i : ℕ) : List (Val F) → List (LChild F T)
  | [] => []
  | v :: l => ⟨.pos i, live P v, depth v, configOfP P v, fresh v⟩ :: liveL P (i + 1) l
def liveK (P : PWorld F T) : List (Str × Val F) → List (LChild F T)
  | [] => []
  | (k, v) :: l => ⟨.name k, live P v, depth v, configOfP P v, fresh v⟩ :: liveK P l
end

end Verif.Held
