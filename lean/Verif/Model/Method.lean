import Verif.Py.Dict
import Verif.Py.Err

/-!
# Merge method signatures (sd_mecha/extensions/merge_methods.py)

Binding of arguments, merge spaces and configs, generic in the type `α` of argument values.
Identifiers (parameter names, merge spaces, configs) are `List Char`.
-/
namespace Verif.Method

abbrev Str := List Char

/-- `MergeSpaceSymbol`s are compared by identity (merge_spaces.py:21-26).  `dflt` is the method's own
`default_merge_space` (merge_methods.py:178). -/
inductive Sym where
  | dflt
  | sym (id : ℕ)
  deriving DecidableEq, Repr

/-- `AnyMergeSpace`: a set of merge spaces or a symbol with its allowed spaces (merge_spaces.py:29). -/
inductive Space where
  | set (allowed : List Str)
  | symbol (id : Sym) (allowed : List Str)
  deriving DecidableEq, Repr

/-- `merge_space_param.merge_spaces if is_symbol else merge_space_param` (merge_methods.py:320) -/
def Space.allowed : Space → List Str
  | .set l => l
  | .symbol _ l => l

/-- `==` of `AnyMergeSpace`: sets by content, symbols by identity. -/
def Space.eqv : Space → Space → Bool
  | .set a, .set b => a.all (fun x => decide (x ∈ b)) && b.all (fun x => decide (x ∈ a))
  | .symbol i _, .symbol j _ => decide (i = j)
  | _, _ => false

/-- `ParameterData` (merge_methods.py:32-36).  `literalType` is `is_subclass(interface, PythonLiteralValue)`. -/
structure Param where
  space : Option Space
  config : Option Str
  literalType : Bool
  deriving DecidableEq, Repr

/-- The merge space of a return annotation (merge_methods.py:98-133). -/
inductive RetSpace where
  | none
  | space (s : Str)
  | symbol (id : Sym)
  deriving DecidableEq, Repr

/-- What `inspect.getfullargspec` and the annotations tell about a method. -/
structure Sig (α : Type) where
  args : List (Str × Param)
  vararg : Option (Str × Param)
  kwonly : Dict Str Param
  /-- defaults of the last positional parameters -/
  defaults : List α
  kwdefaults : Dict Str α
  retSpace : RetSpace
  retConfig : Option Str
  deriving DecidableEq, Repr

/-- What every python signature satisfies. -/
structure Sig.WF {α : Type} (s : Sig α) : Prop where
  argNames : (s.args.map (·.1)).Nodup
  kwNames : s.kwonly.keys.Nodup
  disjoint : ∀ k ∈ s.args.map (·.1), k ∉ s.kwonly.keys
  defaults : s.defaults.length ≤ s.args.length
  kwdefaults : ∀ k ∈ s.kwdefaults.keys, k ∈ s.kwonly.keys
  kwdefaultsNodup : s.kwdefaults.keys.Nodup

/-! ## `FunctionArgs` (merge_methods.py:136-168) -/

/-- Indexes of arguments: positions or names. -/
inductive Idx where
  | pos (i : ℕ)
  | name (s : Str)
  deriving DecidableEq, Repr

structure FunctionArgs (β : Type) where
  args : List β
  vararg : Option β
  kwargs : Dict Str β

namespace FunctionArgs
variable {β : Type}

/-- `_get_varargs_count` (merge_methods.py:157-162) -/
def varargsCount (f : FunctionArgs β) (argsCount : Option ℕ) : ℕ :=
  let n := argsCount.getD (f.args.length + 1)
  (n - f.args.length) * (if f.vararg.isSome then 1 else 0)

/-- `args_varargs` (merge_methods.py:152-155) -/
def argsVarargs (f : FunctionArgs β) (argsCount : Option ℕ) : List β :=
  f.args ++ match f.vararg with
    | some v => List.replicate (f.varargsCount argsCount) v
    | none => []

/-- `as_dict` (merge_methods.py:143-150).  Positions and names never clash, so `|` is concatenation. -/
def asDict (f : FunctionArgs β) (argsCount : Option ℕ) : Dict Idx β :=
  ((f.argsVarargs argsCount).mapIdx fun i v => (Idx.pos i, v)) ++ f.kwargs.map fun p => (.name p.1, p.2)

end FunctionArgs

variable {α : Type}

/-- `get_params` (merge_methods.py:427-434) -/
def Sig.params (s : Sig α) : FunctionArgs Param :=
  ⟨s.args.map (·.2), s.vararg.map (·.2), s.kwonly⟩

/-- `get_input_configs` (merge_methods.py:405-411) -/
def Sig.inputConfigs (s : Sig α) : FunctionArgs (Option Str) :=
  ⟨s.args.map (·.2.config), s.vararg.map (·.2.config), s.kwonly.map fun p => (p.1, p.2.config)⟩

/-- `merge_spaces.get_all()`: the spaces known when the method is created (merge_methods.py:178). -/
def allSpaces : List Str := ["weight".toList, "delta".toList, "param".toList]

def paramSpace : Str := "param".toList

/-- `get_merge_space_or_default` (merge_methods.py:355-362) -/
def spaceOrDefault (p : Param) (hasDefault : Bool) : Space :=
  match p.space with
  | some s => s
  | none => if hasDefault || p.literalType then .set [paramSpace] else .symbol .dflt allSpaces

/-- `get_input_merge_spaces` (merge_methods.py:350-382) -/
def Sig.inputSpaces (s : Sig α) : FunctionArgs Space :=
  ⟨s.args.mapIdx fun i p => spaceOrDefault p.2 (decide (s.args.length - s.defaults.length ≤ i)),
   s.vararg.map fun p => p.2.space.getD (.symbol .dflt allSpaces),
   s.kwonly.map fun p => (p.1, spaceOrDefault p.2 (s.kwdefaults.get? p.1).isSome)⟩

/-! ## `create_recipe`: binding (merge_methods.py:242-285) -/

/-- Bound arguments: all positional ones (varargs included) and the keyword-only ones. -/
structure Bound (α : Type) where
  args : List α
  kwargs : Dict Str α
  deriving DecidableEq, Repr

/-- `params.args.index(k)` minimised over the keywords (merge_methods.py:247-250); `none` is infinity. -/
def firstArgAsKwarg (names : List Str) (kwargs : Dict Str α) : Option ℕ :=
  names.findIdx? fun k => decide (k ∈ kwargs.keys)

/-- `i < min(first_arg_as_kwarg, len(args))` (merge_methods.py:264). -/
def byPosition (s : Sig α) (args : List α) (kwargs : Dict Str α) (i : ℕ) : Bool :=
  match firstArgAsKwarg (s.args.map (·.1)) kwargs with
  | some f => decide (i < min f args.length)
  | none => decide (i < args.length)

/-- The `i`-th entry of the list comprehension (merge_methods.py:263-267). -/
def bindArg (s : Sig α) (args : List α) (kwargs : Dict Str α) (i : ℕ) (name : Str) : Except Err α :=
  match (if byPosition s args kwargs i then args[i]? else none) with
  | some a => .ok a
  | none =>
    match kwargs.get? name with
    | some a => .ok a
    | none =>
      if i < s.args.length - s.defaults.length then .error .runtime
      else match s.defaults[i - (s.args.length - s.defaults.length)]? with
        | some d => .ok d
        | none => .error .index

/-- `create_recipe` up to the conversion of values to nodes.
`zip` with the name and type tables drops nothing (see C25). -/
def bind (s : Sig α) (args : List α) (kwargs : Dict Str α) : Except Err (Bound α) :=
  let names := s.args.map (·.1)
  let minArgs := names.length - s.defaults.length
  let nArgs := args.length + (names.filter fun k => decide (k ∈ kwargs.keys)).length
  if nArgs < minArgs ∨ (s.vararg = none ∧ names.length < nArgs) then .error .type
  else do
    let bound ← (names.mapIdx fun i k => (i, k)).mapM fun p => bindArg s args kwargs p.1 p.2
    -- every keyword that names a positional parameter has been popped: its index is ≥ `first_arg_as_kwarg`
    let rest : Dict Str α := kwargs.filter fun p => decide (p.1 ∉ names)
    if rest.any fun p => decide (p.1 ∉ s.kwonly.keys) then .error .type
    else if s.kwonly.any fun p => decide (p.1 ∉ rest.keys ∧ p.1 ∉ s.kwdefaults.keys) then .error .type
    else
      let types := (⟨s.args.map (·.2), s.vararg.map (·.2), s.kwonly⟩ : FunctionArgs Param).argsVarargs (some nArgs)
      .ok ⟨(bound ++ args.drop names.length).take types.length, s.kwdefaults.update rest⟩

/-! ## Merge space of a node (merge_methods.py:303-348) -/

/-- One round of the loop (merge_methods.py:316-332). -/
def spaceStep (input : Dict Idx Space) (resolved : Dict Sym Str) (idx : Idx) (sp : Str) : Except Err (Dict Sym Str) :=
  match input.get? idx with
  | none => .error .key
  | some param =>
    if sp ∉ param.allowed then .error .type
    else match param with
      | .set _ => .ok resolved
      | .symbol id _ =>
        match resolved.get? id with
        | some r => if sp ≠ r then .error .type else .ok resolved
        | none => .ok (resolved.set id sp)

def spaceLoop (input : Dict Idx Space) : Dict Sym Str → List (Idx × Str) → Except Err (Dict Sym Str)
  | r, [] => .ok r
  | r, (i, sp) :: l =>
    match spaceStep input r i sp with
    | .error e => .error e
    | .ok r' => spaceLoop input r' l

/-- Positions and names of the arguments of a call. -/
def argIdx {β : Type} (args : List β) (kwargs : Dict Str β) : List (Idx × β) :=
  (args.mapIdx fun i v => (Idx.pos i, v)) ++ kwargs.map fun p => (.name p.1, p.2)

/-- `get_return_merge_space` together with `MergeRecipeNode.__validate_args` (recipe_nodes.py:173-175),
which rejects a result that is still a symbol. -/
def Sig.returnSpace (s : Sig α) (args : List Str) (kwargs : Dict Str Str) : Except Err Str :=
  let input := s.inputSpaces.asDict (some args.length)
  match spaceLoop input [] (argIdx args kwargs) with
  | .error e => .error e
  | .ok resolved =>
    match s.retSpace with
    | .symbol id =>
      match resolved.get? id with
      | some r => .ok r
      | none => .error .key
    | .space r => .ok r
    | .none =>
      match resolved.get? .dflt with
      | some r => .ok r
      | none =>
        match input with
        | [] => .error .stopIteration
        | (_, first) :: _ =>
          if input.all fun p => p.2.eqv first then
            match first with
            | .set [r] => .ok r
            | .set _ => .error .runtime
            | .symbol _ _ => .error .runtime
          else .error .runtime

/-! ## Config of a node (merge_methods.py:384-403) -/

/-- The loop (merge_methods.py:390-401); the accumulator is `default_config`. -/
def configLoop (input : Dict Idx (Option Str)) : Option Str → List (Idx × Option Str) → Except Err (Option Str)
  | d, [] => .ok d
  | d, (_, none) :: l => configLoop input d l
  | d, (i, some c) :: l =>
    match input.get? i with
    | none => .error .key
    | some (some p) => if p ≠ c then .error .value else configLoop input d l
    | some none =>
      match d with
      | some p => if p ≠ c then .error .value else configLoop input d l
      | none => configLoop input (some c) l

/-- `get_return_config` -/
def Sig.returnConfig (s : Sig α) (args : List (Option Str)) (kwargs : Dict Str (Option Str)) :
    Except Err (Option Str) :=
  configLoop (s.inputConfigs.asDict (some args.length)) s.retConfig (argIdx args kwargs)

end Verif.Method
