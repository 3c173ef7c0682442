import Verif.Model.Method
import Mathlib.Tactic.Common

/-!
# Recipe graphs (sd_mecha/recipe_nodes.py, value_to_node and create_recipe of extensions/merge_methods.py)

A recipe is a tree: sharing of python objects is not observable here except through `is`.  Methods, merge
spaces and configs are represented by their identifiers; two configs are equal if their identifiers are
(recipe_nodes.py:92 compares objects, of which the registries hold one per identifier).
-/
namespace Verif.Recipe
open Method

/-- Values and nodes: everything that can be an argument (recipe_nodes.py:68-206).  `F` are the floats.
`lit`, `model`, `merge` are the three kinds of `RecipeNode`; `lit` is `LiteralRecipeNode` with its value,
config and merge space (the constructor always sets a space, line 97). -/
inductive Val (F : Type) where
  | str (s : Str)
  | int (i : Int)
  | float (f : F)
  | bool (b : Bool)
  | none
  | tensor (id : Nat)
  | dict (entries : List (Str × Val F))
  | lit (value : Val F) (config : Option Str) (space : Str)
  | model (path : Str) (config : Option Str) (space : Option Str)
  | merge (method : Str) (args : List (Val F)) (kwargs : List (Str × Val F))
  deriving Repr

variable {F : Type}

/-! ### Decidable equality -/

mutual
def Val.beq [DecidableEq F] : (a b : Val F) → Bool
  | .str a, .str b => decide (a = b)
  | .int a, .int b => decide (a = b)
  | .float a, .float b => decide (a = b)
  | .bool a, .bool b => decide (a = b)
  | .none, .none => true
  | .tensor a, .tensor b => decide (a = b)
  | .dict a, .dict b => beqK a b
  | .lit a c s, .lit b c' s' => Val.beq a b && decide (c = c') && decide (s = s')
  | .model a c s, .model b c' s' => decide (a = b) && decide (c = c') && decide (s = s')
  | .merge a c s, .merge b c' s' => decide (a = b) && beqL c c' && beqK s s'
  | _, _ => false
def beqL [DecidableEq F] : (a b : List (Val F)) → Bool
  | [], [] => true
  | a :: l, b :: l' => Val.beq a b && beqL l l'
  | _, _ => false
def beqK [DecidableEq F] : (a b : List (Str × Val F)) → Bool
  | [], [] => true
  | (k, a) :: l, (k', b) :: l' => decide (k = k') && Val.beq a b && beqK l l'
  | _, _ => false
end

mutual
theorem Val.beq_iff [DecidableEq F] : ∀ (a b : Val F), Val.beq a b = true ↔ a = b
  | .str a, b => by cases b <;> simp [Val.beq]
  | .int a, b => by cases b <;> simp [Val.beq]
  | .float a, b => by cases b <;> simp [Val.beq]
  | .bool a, b => by cases b <;> simp [Val.beq]
  | .none, b => by cases b <;> simp [Val.beq]
  | .tensor a, b => by cases b <;> simp [Val.beq]
  | .dict a, b => by
    cases b with
    | dict b => simp [Val.beq, beqK_iff a b]
    | _ => simp [Val.beq]
  | .lit a c s, b => by
    cases b with
    | lit b c' s' => simp [Val.beq, Val.beq_iff a b, and_assoc]
    | _ => simp [Val.beq]
  | .model a c s, b => by cases b <;> simp [Val.beq, and_assoc]
  | .merge a c s, b => by
    cases b with
    | merge b c' s' => simp [Val.beq, beqL_iff c c', beqK_iff s s', and_assoc]
    | _ => simp [Val.beq]
theorem beqL_iff [DecidableEq F] : ∀ (a b : List (Val F)), beqL a b = true ↔ a = b
  | [], b => by cases b <;> simp [beqL]
  | a :: l, b => by
    cases b with
    | nil => simp [beqL]
    | cons b l' => simp [beqL, Val.beq_iff a b, beqL_iff l l']
theorem beqK_iff [DecidableEq F] : ∀ (a b : List (Str × Val F)), beqK a b = true ↔ a = b
  | [], b => by cases b <;> simp [beqK]
  | (k, a) :: l, b => by
    cases b with
    | nil => simp [beqK]
    | cons b l' =>
      obtain ⟨k', b⟩ := b
      simp [beqK, Val.beq_iff a b, beqK_iff l l', and_assoc]
end

instance [DecidableEq F] : DecidableEq (Val F) := fun a b => decidable_of_iff _ (Val.beq_iff a b)

/-! ### Registries -/

/-- What the registries hold when recipes are built and read. -/
structure Env (F : Type) where
  /-- `merge_methods._merge_methods_registry` (merge_methods.py:528) -/
  methods : Dict Str (Sig (Val F))
  /-- identifiers for which `model_configs.resolve` succeeds (model_configs.py:381-405) -/
  configs : List Str
  /-- `_merge_space_registry` (merge_spaces.py:67) -/
  spaces : List Str
  /-- `str(pathlib.Path(s))` -/
  norm : Str → Str

/-- `merge_methods.resolve` (merge_methods.py:532-537) -/
def Env.resolve (E : Env F) (m : Str) : Except Err (Sig (Val F)) :=
  match E.methods.get? m with
  | some s => .ok s
  | none => .error .value

/-- `model_configs.resolve(c) if isinstance(c, str) else c` for `None` or a string -/
def Env.resolveConfig (E : Env F) : Option Str → Except Err (Option Str)
  | none => .ok none
  | some c => if c ∈ E.configs then .ok (some c) else .error .value

/-- `merge_spaces.resolve` (merge_spaces.py:39-44) -/
def Env.resolveSpace (E : Env F) : Option Str → Except Err (Option Str)
  | none => .ok none
  | some c => if c ∈ E.spaces then .ok (some c) else .error .value

/-! ### Merge space and config of a node (recipe_nodes.py:103-192) -/

def Val.isNode : Val F → Bool
  | .lit .. | .model .. | .merge .. => true
  | _ => false

/-- merge_methods.py:307-309: a merge space that is `None` is a `ValueError`. -/
def someSpaces : List (Option Str) → Except Err (List Str)
  | [] => .ok []
  | none :: _ => .error .value
  | some s :: l => (s :: ·) <$> someSpaces l

mutual
/-- `node.merge_space`; attribute error on what is not a node -/
def Val.space (E : Env F) : Val F → Except Err (Option Str)
  | .lit _ _ s => .ok (some s)
  | .model _ _ s => .ok s
  | .merge m args kwargs => do
    let sig ← E.resolve m
    let as ← someSpaces (← spaceL E args)
    let ks ← spaceK E kwargs
    let kvs ← someSpaces (ks.map (·.2))
    let r ← sig.returnSpace as ((ks.map (·.1)).zip kvs)
    .ok (some r)
  | _ => .error .attribute
def spaceL (E : Env F) : List (Val F) → Except Err (List (Option Str))
  | [] => .ok []
  | v :: l => do .ok ((← v.space E) :: (← spaceL E l))
def spaceK (E : Env F) : List (Str × Val F) → Except Err (List (Str × Option Str))
  | [] => .ok []
  | (k, v) :: l => do .ok ((k, ← v.space E) :: (← spaceK E l))
end

mutual
/-- `node.model_config` -/
def Val.config (E : Env F) : Val F → Except Err (Option Str)
  | .lit _ c _ => .ok c
  | .model _ c _ => .ok c
  | .merge m args kwargs => do
    let sig ← E.resolve m
    sig.returnConfig (← configL E args) (← configK E kwargs)
  | _ => .error .attribute
def configL (E : Env F) : List (Val F) → Except Err (List (Option Str))
  | [] => .ok []
  | v :: l => do .ok ((← v.config E) :: (← configL E l))
def configK (E : Env F) : List (Str × Val F) → Except Err (List (Str × Option Str))
  | [] => .ok []
  | (k, v) :: l => do .ok ((k, ← v.config E) :: (← configK E l))
end

/-! ### Constructors -/

/-- `all(v.model_config == c for v in values)` (recipe_nodes.py:92): stops at the first difference or exception. -/
def allConfig (E : Env F) (c : Option Str) : List (Str × Val F) → Except Err Bool
  | [] => .ok true
  | (_, v) :: l =>
    match v.config E with
    | .error e => .error e
    | .ok c' => if c' = c then allConfig E c l else .ok false

/-- `all(v.merge_space == s for v in values)` (recipe_nodes.py:94) -/
def allSpace (E : Env F) (s : Option Str) : List (Str × Val F) → Except Err Bool
  | [] => .ok true
  | (_, v) :: l =>
    match v.space E with
    | .error e => .error e
    | .ok s' => if s' = s then allSpace E s l else .ok false

/-- `LiteralRecipeNode(v, model_config=c, merge_space=s)` after resolution of `c` and `s` (recipe_nodes.py:82-97) -/
def mkLit (E : Env F) (v : Val F) (c s : Option Str) : Except Err (Val F) :=
  match v with
  | .dict ((k, first) :: es) =>
    if first.isNode then do
      let c' ← match c with | some x => .ok (some x) | none => first.config E
      let fs ← first.space E
      let s' := match s with | some x => some x | none => fs
      if !(← allConfig E c' ((k, first) :: es)) then .error .value
      else if !(← allSpace E fs ((k, first) :: es)) then .error .value
      else .ok (.lit v c' (s'.getD paramSpace))
    else .ok (.lit v c (s.getD paramSpace))
  | _ => .ok (.lit v c (s.getD paramSpace))

/-- `is_subclass(type(v), int | float)`; `bool` is a subclass of `int`. -/
def Val.isNumeric : Val F → Bool
  | .int _ | .float _ | .bool _ => true
  | _ => false

def Val.isStr : Val F → Bool
  | .str _ => true
  | _ => false

def Val.isTensor : Val F → Bool
  | .tensor _ => true
  | _ => false

def Val.isNone : Val F → Bool
  | .none => true
  | _ => false

/-- The type all values of a mapping must have, given the first one (merge_methods.py:582-588). -/
def kindOf (first : Val F) : Option (Val F → Bool) :=
  if first.isNumeric then some Val.isNumeric
  else if first.isNode then some Val.isNode
  else if first.isStr then some Val.isStr
  else if first.isTensor then some Val.isTensor
  else if first.isNone then some Val.isNone
  else none

/-- merge_methods.py:581-597 -/
def checkDict (E : Env F) : List (Str × Val F) → Except Err Unit
  | [] => .ok ()
  | (k, first) :: es =>
    match kindOf first with
    | none => .error .type
    | some p =>
      if !(((k, first) :: es).all fun q => p q.2) then .error .type
      else if first.isNode then do
        let c ← first.config E
        if !(← allConfig E c ((k, first) :: es)) then .error .runtime
        else
          let s ← first.space E
          if !(← allSpace E s ((k, first) :: es)) then .error .runtime
          else .ok ()
      else .ok ()

/-- `value_to_node(v, expected_type)` with a given `expected_type` and no path (merge_methods.py:548-606).
Paths are turned into `ModelRecipeNode(path)`, here `.model`, before. -/
def valueToNode (E : Env F) (v : Val F) : Except Err (Val F) :=
  match v with
  | .lit .. | .model .. | .merge .. => .ok v
  | .dict es => do
    checkDict E es
    mkLit E v none none
  | _ => mkLit E v none none

/-- `{k: value_to_node(v) for k, v in kwargs}` -/
def valuesToNodesK (E : Env F) : List (Str × Val F) → Except Err (List (Str × Val F))
  | [] => .ok []
  | (k, v) :: l => do .ok ((k, ← valueToNode E v) :: (← valuesToNodesK E l))

def valuesToNodes (E : Env F) : List (Val F) → Except Err (List (Val F))
  | [] => .ok []
  | v :: l => do .ok ((← valueToNode E v) :: (← valuesToNodes E l))

/-- `method(*args, **kwargs)`: `create_recipe` and the check of `MergeRecipeNode.__init__`
(merge_methods.py:242-288, recipe_nodes.py:171-175) -/
def createRecipe (E : Env F) (m : Str) (args : List (Val F)) (kwargs : List (Str × Val F)) : Except Err (Val F) := do
  let sig ← E.resolve m
  let b ← Method.bind sig args kwargs
  let as ← valuesToNodes E b.args
  let ks ← valuesToNodesK E b.kwargs
  let node := Val.merge m as ks
  let _ ← node.space E
  .ok node

end Verif.Recipe
