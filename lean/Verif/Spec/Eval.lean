import Verif.Model.Eval

/-!
# Vocabulary for the statements on merging one key
-/
namespace Verif.Eval.Spec
open Method Recipe Config Eval
variable {F T : Type}

mutual
/-- A recipe node in which every merge node has an argument (all nodes built from methods with parameters are such). -/
def Proper : Val F → Prop
  | .lit .. => True
  | .model .. => True
  | .merge _ args kwargs => (args ≠ [] ∨ kwargs ≠ []) ∧ ProperL args ∧ ProperK kwargs
  | _ => False
def ProperL : List (Val F) → Prop
  | [] => True
  | v :: l => Proper v ∧ ProperL l
def ProperK : List (Str × Val F) → Prop
  | [] => True
  | (_, v) :: l => Proper v ∧ ProperK l
end

/-- `a` where it has a value, `b` where `a` lacks the key; other errors of `a` stay. -/
def orElse (a b : Str → Res F T) : Str → Res F T := fun key =>
  match a key with
  | .error .stateDictKey => b key
  | r => r

/-- Two arguments look the same at `key`: equal values, or mappings of the same config with the same entry at `key`. -/
inductive AgreeAt (key : Str) : Arg F T → Arg F T → Prop
  | val (v : RVal F T) : AgreeAt key (.val v) (.val v)
  | sd {g g' : Str → Res F T} {c : Except Err (Option ModelConfig)} (h : g key = g' key) : AgreeAt key (.sd g c) (.sd g' c)

/-- A method that looks at its mappings at the current key only. -/
def Local (m : Impl F T) : Prop :=
  ∀ (args args' : List (Arg F T)) (kwargs kwargs' : Str → Option (Arg F T)) (key : Str),
    List.Forall₂ (AgreeAt key) args args' → (∀ s, Option.Rel (AgreeAt key) (kwargs s) (kwargs' s)) →
    m.run args kwargs key = m.run args' kwargs' key

mutual
/-- All methods of a recipe satisfy `p`. -/
def Methods (p : Str → Prop) : Val F → Prop
  | .lit v _ _ => Methods p v
  | .merge m args kwargs => p m ∧ MethodsL p args ∧ MethodsK p kwargs
  | .dict es => MethodsK p es
  | _ => True
def MethodsL (p : Str → Prop) : List (Val F) → Prop
  | [] => True
  | v :: l => Methods p v ∧ MethodsL p l
def MethodsK (p : Str → Prop) : List (Str × Val F) → Prop
  | [] => True
  | (_, v) :: l => Methods p v ∧ MethodsK p l
end

/-- The names under which an input of config `c` is asked for `key`. -/
def names (W : World F T) (c : Option Str) (key : Str) : List Str :=
  match c.bind W.configs with
  | none => []
  | some cfg => key :: (cfg.aliases.get? key).getD []

mutual
/-- The recipe with everything removed from its dict literals that is not stored under one of the names of `key`. -/
def restrict (W : World F T) (key : Str) : Val F → Val F
  | .lit (.dict es) c s => .lit (.dict (restrictD W key (names W c key) es)) c s
  | .lit v c s => .lit (restrict W key v) c s
  | .merge m args kwargs => .merge m (restrictL W key args) (restrictK W key kwargs)
  | v => v
def restrictD (W : World F T) (key : Str) (keep : List Str) : List (Str × Val F) → List (Str × Val F)
  | [] => []
  | (k, v) :: l => if k ∈ keep then (k, restrict W key v) :: restrictD W key keep l else restrictD W key keep l
def restrictL (W : World F T) (key : Str) : List (Val F) → List (Val F)
  | [] => []
  | v :: l => restrict W key v :: restrictL W key l
def restrictK (W : World F T) (key : Str) : List (Str × Val F) → List (Str × Val F)
  | [] => []
  | (k, v) :: l => (k, restrict W key v) :: restrictK W key l
end

mutual
/-- Model nodes of a recipe satisfy `p path config`. -/
def Models (p : Str → Option Str → Prop) : Val F → Prop
  | .lit v _ _ => Models p v
  | .model path c _ => p path c
  | .merge _ args kwargs => ModelsL p args ∧ ModelsK p kwargs
  | .dict es => ModelsK p es
  | _ => True
def ModelsL (p : Str → Option Str → Prop) : List (Val F) → Prop
  | [] => True
  | v :: l => Models p v ∧ ModelsL p l
def ModelsK (p : Str → Option Str → Prop) : List (Str × Val F) → Prop
  | [] => True
  | (_, v) :: l => Models p v ∧ ModelsK p l
end

end Verif.Eval.Spec

namespace Verif.Eval.Spec
open Method Recipe Config Eval
variable {F T : Type}

/-- The annotated type of an argument of method `m` called with `n` positional arguments. -/
def typeOf (W : World F T) (m : Str) (n : ℕ) (idx : Idx) : Option PTy := ((W.impl m).types.asDict (some n)).get? idx

/-- `v` is the argument at `idx`. -/
def ArgAt (args : List (Val F)) (kwargs : Dict Str (Val F)) : Idx → Val F → Prop
  | .pos i, v => args[i]? = some v
  | .name k, v => kwargs.get? k = some v

/-- Some argument passed by value cannot be computed at `key` (or not be converted to its type): `e` is the exception. -/
def Fails (W : World F T) (m : Str) (args : List (Val F)) (kwargs : Dict Str (Val F)) (key : Str) (e : Err) : Prop :=
  ∃ idx v t, ArgAt args kwargs idx v ∧ typeOf W m args.length idx = some (.val t) ∧ castRun W.conv t (eval W v) key = .error e

/-- What a parameter of type `p` receives for the node `v`. -/
def Receives (W : World F T) (key : Str) (p : PTy) (v : Val F) (a : Arg F T) : Prop :=
  match p with
  | .sd t => a = .sd (castRun W.conv t (eval W v)) (configOf W v)
  | .val t => ∃ x, castRun W.conv t (eval W v) key = .ok x ∧ a = .val x

/-- A merge node as `create_recipe` builds it: every argument has a declared type and is a proper node, names are distinct. -/
structure Call (W : World F T) (m : Str) (args : List (Val F)) (kwargs : Dict Str (Val F)) : Prop where
  names : kwargs.keys.Nodup
  proper : ∀ idx v, ArgAt args kwargs idx v → Proper v
  typed : ∀ idx v, ArgAt args kwargs idx v → (typeOf W m args.length idx).isSome

end Verif.Eval.Spec
