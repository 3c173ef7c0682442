import Verif.Model.Whole

/-!
# Merging with caches (sd_mecha/recipe_nodes.py:165-206, merging.py:557-564, 690-700, extensions/merge_methods.py:215-237)

`set_cache` attaches a dict to an instruction.  A merge hands the dict to the function of the instruction for every key, from every thread; the dict
lives as long as the user holds it, so it serves several merges.  `Eval.eval` has no caches.  Here the evaluation of a recipe for a key is the sequence
of accesses to caches it makes, each of which may depend on the answers to the earlier ones.

Simplified: caches are numbered; the same number is the same dict.  Entries are stored and looked up, never deleted or overwritten in place; an access is
atomic.  Inputs answer as in `Eval`.
-/
namespace Verif.Cached
open Method Recipe Config Eval Program

/-- A computation that uses caches with entries of type `V` -/
inductive CProg (V α : Type) where
  | ret (a : α)
  /-- `cache.get(name)` -/
  | get (cache : ℕ) (name : Str) (next : Option V → CProg V α)
  /-- `cache[name] = v` -/
  | put (cache : ℕ) (name : Str) (v : V) (next : CProg V α)

variable {F T V α β : Type}

def CProg.bind : CProg V α → (α → CProg V β) → CProg V β
  | .ret a, f => f a
  | .get c n next, f => .get c n fun r => (next r).bind f
  | .put c n v next, f => .put c n v (next.bind f)

/-- The python function of a merge method called with a cache: it asks its `StateDict` arguments for keys, uses its cache, and ends. -/
inductive CFn (F T : Type) where
  | done (r : Res F T)
  | ask (arg : Idx) (key : Str) (next : Res F T → CFn F T)
  | get (name : Str) (next : Option (RVal F T) → CFn F T)
  | put (name : Str) (v : RVal F T) (next : CFn F T)

/-- What a function is called with: positional arguments, keyword arguments and the key -/
abbrev Body (F T : Type) := List (Shape F T) → (Str → Option (Shape F T)) → Str → CFn F T

/-- Everything outside the recipe.  `source m` is the function of `m` called with `cache=None`, `cached m` the function called with a cache; a method
without `**kwargs` never sees one (merge_methods.py:232-236).  `base` evaluates what has no cache in it. -/
structure CWorld (F T : Type) where
  base : World F T
  source : Str → Source F T
  cached : Str → Option (Body F T)

/-- A recipe with caches: see `Recipe.Val`.  `leaf` is a recipe or a value without any; `dict` is a literal mapping. -/
inductive CVal (F : Type) where
  | leaf (v : Val F)
  | dict (entries : List (Str × CVal F)) (config : Option Str) (space : Str)
  /-- `cache` is `node.cache` (recipe_nodes.py:165, 170) -/
  | merge (method : Str) (args : List (CVal F)) (kwargs : List (Str × CVal F)) (cache : Option ℕ)

mutual
/-- The recipe without its caches -/
def CVal.plain : CVal F → Val F
  | .leaf v => v
  | .dict es c s => .lit (.dict (plainK es)) c s
  | .merge m args kwargs _ => .merge m (plainL args) (plainK kwargs)
def plainL : List (CVal F) → List (Val F)
  | [] => []
  | v :: l => v.plain :: plainL l
def plainK : List (Str × CVal F) → List (Str × Val F)
  | [] => []
  | (k, v) :: l => (k, v.plain) :: plainK l
end

/-- `node.set_cache(c)` (recipe_nodes.py:29-30, 201-206); only instructions have a cache. -/
def setCache (c : Option ℕ) : CVal F → CVal F
  | .merge m args kwargs _ => .merge m args kwargs c
  | .leaf (.merge m args kwargs) => .merge m (args.map .leaf) (kwargs.map fun p => (p.1, .leaf p.2)) c
  | v => v

/-! ### Merging one key -/

/-- An argument as the function gets it: see `Eval.Arg` -/
inductive CArg (F T : Type) where
  | val (v : RVal F T)
  | sd (get : Str → CProg (RVal F T) (Res F T)) (config : Except Err (Option ModelConfig))

def CArg.shape : CArg F T → Shape F T
  | .val v => .val v
  | .sd _ c => .sd c

/-- `arg[k]`; a value that is no mapping is a `TypeError`. -/
def CArg.get : Option (CArg F T) → Str → CProg (RVal F T) (Res F T)
  | some (.sd get _), k => get k
  | _, _ => .ret (.error .type)

/-- Running a function with cache `c` -/
def CFn.run (c : ℕ) (get : Idx → Str → CProg (RVal F T) (Res F T)) : CFn F T → CProg (RVal F T) (Res F T)
  | .done r => .ret r
  | .ask i k next => (get i k).bind fun r => (next r).run c get
  | .get n next => .get c n fun v => (next v).run c get
  | .put n v next => .put c n v (next.run c get)

/-- One argument of a merge node, see `Eval.Child`. -/
structure CChild (F T : Type) where
  idx : Idx
  run : Str → CProg (RVal F T) (Res F T)
  depth : Option ℕ
  config : Except Err (Option ModelConfig)

def insertDeepC (c : CChild F T) : List (CChild F T) → List (CChild F T)
  | [] => [c]
  | d :: l => if d.depth.getD 0 < c.depth.getD 0 then c :: d :: l else d :: insertDeepC c l

/-- `sorted(indices, key=depth_of_value, reverse=True)` (merging.py:579) -/
def deeperFirstC (l : List (CChild F T)) : List (CChild F T) := l.foldl (fun acc c => insertDeepC c acc) []

/-- State of the loop in `__visit_deeper_first` (merging.py:576-585) -/
structure CMerged (F T : Type) where
  holder : Option Err
  merged : Dict Idx (CArg F T)

/-- `MergeNodeWrapperStateDict.__getitem__` (merging.py:628-630) -/
def castRunC (C : Conv F T) (t : Ty) (run : Str → CProg (RVal F T) (Res F T)) : Str → CProg (RVal F T) (Res F T) := fun k =>
  (run k).bind fun
    | .ok v => .ret (castTo C t v)
    | .error e => .ret (.error e)

/-- One round (merging.py:580-585), see `Eval.stepChild`. -/
def stepChildC (C : Conv F T) (types : Dict Idx PTy) (key : Str) (s : CMerged F T) (c : CChild F T) :
    CProg (RVal F T) (Except Err (CMerged F T)) :=
  match types.get? c.idx with
  | none => .ret (.error .key)
  | some (.sd t) => .ret (.ok { s with merged := s.merged.set c.idx (.sd (castRunC C t c.run) c.config) })
  | some (.val t) =>
    (c.run key).bind fun
      | .error e => .ret (.ok ⟨some e, s.merged.set c.idx (.val .none)⟩)
      | .ok v =>
        match castTo C t v with
        | .error e => .ret (.error e)
        | .ok v' => .ret (.ok { s with merged := s.merged.set c.idx (.val v') })

/-- The loop (merging.py:579-585) -/
def stepAllC (C : Conv F T) (types : Dict Idx PTy) (key : Str) : CMerged F T → List (CChild F T) → CProg (RVal F T) (Except Err (CMerged F T))
  | s, [] => .ret (.ok s)
  | s, c :: l =>
    (stepChildC C types key s c).bind fun
      | .error e => .ret (.error e)
      | .ok s' => stepAllC C types key s' l

/-- Running a function without a cache; the mappings among its arguments may have some. -/
def runPlain (get : Idx → Str → CProg (RVal F T) (Res F T)) : Fn F T → CProg (RVal F T) (Res F T)
  | .done r => .ret r
  | .ask i k next => (get i k).bind fun r => runPlain get (next r)

/-- After the loop: raise what the holder holds, else call the python function (merging.py:557-564, 587-590; merge_methods.py:215-237): with the cache if
the instruction has one and the method takes `**kwargs`. -/
def finishC (src : Source F T) (body : Option (Body F T)) (cache : Option ℕ) (n : ℕ) (key : Str) (s : CMerged F T) : CProg (RVal F T) (Res F T) :=
  match s.holder with
  | some e => .ret (.error e)
  | none =>
    match (List.range n).map (fun i => (s.merged.get? (.pos i)).getD (.val .none)), fun k => s.merged.get? (.name k) with
    | args, kwargs =>
      match cache, body with
      | some c, some f => (f (args.map CArg.shape) (fun k => (kwargs k).map CArg.shape) key).run c fun i => CArg.get (argAt args kwargs i)
      | _, _ => runPlain (fun i => CArg.get (argAt args kwargs i)) (src.body (args.map CArg.shape) (fun k => (kwargs k).map CArg.shape) key)

/-- `visit_merge` (merging.py:557-590) -/
def applyC (W : CWorld F T) (m : Str) (cache : Option ℕ) (n : ℕ) (children : List (CChild F T)) (key : Str) : CProg (RVal F T) (Res F T) :=
  if children.any (fun c => c.depth.isNone) then .ret (.error .value)
  else
    (stepAllC W.base.conv ((W.source m).types.asDict (some n)) key ⟨none, []⟩ (deeperFirstC children)).bind fun
      | .error e => .ret (.error e)
      | .ok s => finishC (W.source m) (W.cached m) cache n key s

mutual
/-- `node.accept(KeyMergeVisitor(key))` (merging.py:530-564), see `Eval.eval`. -/
def evalC (W : CWorld F T) : CVal F → Str → CProg (RVal F T) (Res F T)
  | .leaf v => fun key => .ret (eval W.base v key)
  | .dict es config _ => fun key =>
    match visitSd W.base (fun k => match Dict.get? (evalDC W es) k with | some f => .ok f | none => .error .key) config key with
    | .ok f => f key
    | .error e => .ret (.error e)
  | .merge m args kwargs cache => applyC W m cache args.length (evalLC W 0 args ++ evalKC W kwargs)
def evalDC (W : CWorld F T) : List (Str × CVal F) → Dict Str (Str → CProg (RVal F T) (Res F T))
  | [] => []
  | (k, v) :: l => (k, evalC W v) :: evalDC W l
def evalLC (W : CWorld F T) (i : ℕ) : List (CVal F) → List (CChild F T)
  | [] => []
  | v :: l => ⟨.pos i, evalC W v, depth v.plain, configOf W.base v.plain⟩ :: evalLC W (i + 1) l
def evalKC (W : CWorld F T) : List (Str × CVal F) → List (CChild F T)
  | [] => []
  | (k, v) :: l => ⟨.name k, evalC W v, depth v.plain, configOf W.base v.plain⟩ :: evalKC W l
end

/-! ### The recipe that is merged -/

mutual
/-- `recipe.accept(CastInputDicts(device, dtype))` (merging.py:672-700), see `Eval.castInputs`: an instruction keeps its cache.  A mapping whose first value is no
recipe holds none (merge_methods.py:585-591). -/
def castC (E : Env F) (d t : Option Str) : CVal F → Except Err (CVal F)
  | .leaf v => (castInputs E d t v).map .leaf
  | .dict [] _ _ => .error .stopIteration
  | .dict ((k, v) :: es) c s =>
    if v.plain.isNode then
      match castKC E d t ((k, v) :: es) with
      | .error e => .error e
      | .ok es' =>
        match mkLit E (.dict (plainK es')) c (some s) with
        | .error e => .error e
        | .ok (.lit _ c' s') => .ok (.dict es' c' s')
        | .ok v => .ok (.leaf v)
    else (castInputs E d t (.lit (.dict ((k, v.plain) :: plainK es)) c s)).map .leaf
  | .merge m args kwargs cache =>
    match castLC E d t args, castKC E d t kwargs with
    | .error e, _ => .error e
    | _, .error e => .error e
    | .ok as, .ok ks =>
      match (Val.merge m (plainL as) (plainK ks)).space E with
      | .error e => .error e
      | .ok _ => .ok (.merge m as ks cache)
def castLC (E : Env F) (d t : Option Str) : List (CVal F) → Except Err (List (CVal F))
  | [] => .ok []
  | v :: l =>
    match castC E d t v, castLC E d t l with
    | .error e, _ => .error e
    | _, .error e => .error e
    | .ok v, .ok l => .ok (v :: l)
def castKC (E : Env F) (d t : Option Str) : List (Str × CVal F) → Except Err (List (Str × CVal F))
  | [] => .ok []
  | (k, v) :: l =>
    match castC E d t v, castKC E d t l with
    | .error e, _ => .error e
    | _, .error e => .error e
    | .ok v, .ok l => .ok ((k, v) :: l)
end

/-- The first argument of a new instruction is the node itself (merge_methods.py:590-618, `value_to_node` of a node), so it keeps its caches. -/
def wrapC (a : CVal F) : Val F → CVal F
  | .merge m (_ :: args) kwargs => .merge m (a :: args.map .leaf) (kwargs.map fun p => (p.1, .leaf p.2)) none
  | v => .leaf v

/-- `node.to(device=d, dtype=t)` (recipe_nodes.py:57-65) -/
def toC (E : Env F) (a : CVal F) (d t : Option Str) : Except Err (CVal F) := (toNode E a.plain d t).map (wrapC a)

/-- `recipe | fallback_model` for a fallback without caches (recipe_nodes.py:49-51) -/
def orC (E : Env F) (a : CVal F) (b : Val F) : Except Err (CVal F) := (orNode E a.plain b).map (wrapC a)

/-- `recipe | fallback_model` (merging.py:130-131) -/
def withFallbackC (E : Env F) (o : Whole.Options F) (r : CVal F) : Except Err (CVal F) :=
  match o.fallback with
  | none => .ok r
  | some fb => orC E r fb

/-- `recipe.accept(CastInputDicts(merge_device, merge_dtype))` (merging.py:133-134) -/
def withInputsC (E : Env F) (o : Whole.Options F) (r : CVal F) : Except Err (CVal F) :=
  if o.castsInputs then castC E o.mergeDevice o.mergeDtype r else .ok r

/-- `recipe.to(device=output_device, dtype=output_dtype)` (merging.py:136-137) -/
def withOutputC (E : Env F) (o : Whole.Options F) (r : CVal F) : Except Err (CVal F) :=
  if o.castsOutput then toC E r o.outputDevice o.outputDtype else .ok r

/-- What is merged of a recipe that is a node (merging.py:128-137), see `Whole.prepare`. -/
def prepareC (E : Env F) (o : Whole.Options F) (r : CVal F) : Except Err (CVal F) := do
  let r ← withFallbackC E o r
  let r ← withInputsC E o r
  withOutputC E o r

/-! ### All keys -/

/-- The caches: what is stored under a name -/
abbrev Store (V : Type) := ℕ → Str → Option V

def Store.put (σ : Store V) (c : ℕ) (n : Str) (v : V) : Store V := fun c' n' => if c' = c ∧ n' = n then some v else σ c' n'

/-- The next access of a computation -/
def CProg.step (σ : Store V) : CProg V α → Store V × CProg V α
  | .ret a => (σ, .ret a)
  | .get c n next => (σ, next (σ c n))
  | .put c n v next => (σ.put c n v, next)

/-- The keys of a merge, in threads (merging.py:188-195): `schedule` says whose access is next. -/
def runPool (schedule : List ℕ) (σ : Store V) (ps : List (CProg V α)) : Store V × List (CProg V α) :=
  match schedule with
  | [] => (σ, ps)
  | i :: is =>
    match ps[i]? with
    | none => runPool is σ ps
    | some p => runPool is (p.step σ).1 (ps.set i (p.step σ).2)

/-- One merge: the world it takes place in, the recipe, the keys and what the threads do -/
structure Session (F T : Type) where
  world : CWorld F T
  recipe : CVal F
  keys : List Str
  schedule : List ℕ

/-- The merge, with what the caches hold before and after -/
def Session.run (s : Session F T) (σ : Store (RVal F T)) : Store (RVal F T) × List (CProg (RVal F T) (Res F T)) :=
  runPool s.schedule σ (s.keys.map (evalC s.world s.recipe))

/-- Merges one after the other -/
def runAll : List (Session F T) → Store (RVal F T) → Store (RVal F T) × List (List (CProg (RVal F T) (Res F T)))
  | [], σ => (σ, [])
  | s :: l, σ => ((runAll l (s.run σ).1).1, (s.run σ).2 :: (runAll l (s.run σ).1).2)

end Verif.Cached
