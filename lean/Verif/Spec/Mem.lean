import Verif.Model.MemMethods
import Verif.Spec.Eval
import Verif.Spec.Program

/-!
# Specification: methods that write into their tensors, and recipes that are safe for them
-/
namespace Verif.Mem.Spec
open Method Recipe Config Eval Eval.Spec Program Program.Spec
variable {F V : Type}

/-- What a function knows of the memory: the tensors it may use -/
abbrev Known (V : Type) := ℕ → Option V

def Known.put (σ : Known V) (r : ℕ) (v : V) : Known V := fun q => if q = r then some v else σ q

/-- A value by reference is a value -/
inductive Is (σ : Known V) : RVal F ℕ → RVal F V → Prop
  | tensor {r v} (h : σ r = some v) : Is σ (.tensor r) (.tensor v)
  | str s : Is σ (.str s) (.str s)
  | int i : Is σ (.int i) (.int i)
  | float f : Is σ (.float f) (.float f)
  | bool b : Is σ (.bool b) (.bool b)
  | none : Is σ .none .none

/-- The function computes what the function `p` on values does.  It uses only tensors that it was given or has made; it writes into these if `w`, in which
case no two of the tensors it is given are the same; if `fresh`, what it returns is no tensor that it was given (`mine` are those it has made). -/
def Computes (w : Bool) (fresh : Prop) : HFn F V → Known V → (ℕ → Prop) → Fn F V → Prop
  | .done r, σ, mine, p => ∃ y, p = .done y ∧
      match r with
      | .error e => y = .error e
      | .ok x => ∃ z, y = .ok z ∧ Is σ x z ∧ (fresh → ∀ q, x = .tensor q → mine q)
  | .read r next, σ, mine, p => ∃ v, σ r = some v ∧ Computes w fresh (next v) σ mine p
  | .write r v next, σ, mine, p => w = true ∧ (σ r).isSome ∧ Computes w fresh next (σ.put r v) mine p
  | .new v next, σ, mine, p => ∀ r, σ r = none → Computes w fresh (next r) (σ.put r v) (fun q => q = r ∨ mine q) p
  | .ask i k next, σ, mine, p => ∃ nextP, p = .ask i k nextP ∧
      (∀ e, Computes w fresh (next (.error e)) σ mine (nextP (.error e))) ∧
      (∀ r v, (σ r = none ∨ w = false ∧ σ r = some v) → Computes w fresh (next (.ok (.tensor r))) (σ.put r v) mine (nextP (.ok (.tensor v)))) ∧
      ∀ x y, (∀ r, x ≠ .tensor r) → Is σ x y → Computes w fresh (next (.ok x)) σ mine (nextP (.ok y))

/-- Arguments by reference are arguments -/
inductive IsShape (σ : Known V) : Shape F ℕ → Shape F V → Prop
  | val {x y} (h : Is σ x y) : IsShape σ (.val x) (.val y)
  | sd c : IsShape σ (.sd c) (.sd c)

/-- No tensor is passed twice. -/
def Distinct (args : List (Shape F ℕ)) (kwargs : Str → Option (Shape F ℕ)) : Prop :=
  ∀ i j r, argAt args kwargs i = some (.val (.tensor r)) → argAt args kwargs j = some (.val (.tensor r)) → i = j

/-- The method `hs` does to tensors in memory what `s` does to values.  It writes into its tensors only if `w`; it returns a new tensor if `fresh` of
its arguments. -/
structure Implements (hs : HSource F V) (s : Source F V) (w : Bool) (fresh : List (Shape F V) → (Str → Option (Shape F V)) → Prop) : Prop where
  types : hs.types = s.types
  body : ∀ (σ : Known V) args kwargs argsP kwargsP key, List.Forall₂ (IsShape σ) args argsP → (∀ k, Option.Rel (IsShape σ) (kwargs k) (kwargsP k)) →
    (w = true → Distinct args kwargs) → Computes w (fresh argsP kwargsP) (hs.body args kwargs key) σ (fun _ => False) (s.body argsP kwargsP key)

/-- What is known of the methods: which write into their arguments, and when they return new tensors -/
structure Traits (F V : Type) where
  source : Str → Source F V
  writes : Str → Bool
  fresh : Str → List (Shape F V) → (Str → Option (Shape F V)) → Prop

/-- The value of the reference `r` is `v` in the memory the user and the files hold -/
def Holds (B : List V) : Except Err ℕ → Except Err V → Prop
  | .ok r, .ok v => B[r]? = some v
  | .error e, .error e' => e = e'
  | _, _ => False

/-- `W` is the world of values for a memory `B` -/
structure Describes (H : HWorld F V) (X : Traits F V) (B : List V) (W : World F V) : Prop where
  env : W.env = H.env
  conv : W.conv = H.conv
  configs : W.configs = H.configs
  tensors : ∀ i, B[H.tensors i]? = some (W.tensors i)
  read : ∀ p k, Holds B (H.read p k) (W.read p k)
  impl : ∀ m, W.impl m = impl (X.source m)
  source : ∀ m, Implements (H.source m) (X.source m) (X.writes m) (X.fresh m)

/-- The arguments of the node are such that the method returns a new tensor, for any key. -/
def Copies (X : Traits F V) (W : World F V) (m : Str) (args : List (Val F)) (kwargs : Dict Str (Val F)) : Prop :=
  ∀ key (as : List (Arg F V)) (ks : Str → Option (Arg F V)), as.length = args.length →
    (∀ idx v, ArgAt args kwargs idx v → ∃ a p, argAt as ks idx = some a ∧ typeOf W m args.length idx = some p ∧ Receives W key p v a) →
    X.fresh m (as.map shape) fun k => (ks k).map shape

mutual
/-- The value of the recipe is a tensor that nobody else has: one that a method has made, or that it was given and nobody else had. -/
def Owned (X : Traits F V) (W : World F V) : Val F → Prop
  | .lit v _ _ => Owned X W v
  | .dict es => OwnedK X W es
  | .model .. => False
  | .tensor _ => False
  | .merge m args kwargs => (OwnedL X W args ∧ OwnedK X W kwargs) ∨ Copies X W m args kwargs
  | _ => True
def OwnedL (X : Traits F V) (W : World F V) : List (Val F) → Prop
  | [] => True
  | v :: l => Owned X W v ∧ OwnedL X W l
def OwnedK (X : Traits F V) (W : World F V) : List (Str × Val F) → Prop
  | [] => True
  | (_, v) :: l => Owned X W v ∧ OwnedK X W l
end

mutual
/-- Methods that write get nothing but tensors that nobody else has; keyword arguments have different names and all arguments a type. -/
def Safe (X : Traits F V) (W : World F V) : Val F → Prop
  | .lit v _ _ => Safe X W v
  | .dict es => SafeK X W es
  | .merge m args kwargs => (X.writes m = true → OwnedL X W args ∧ OwnedK X W kwargs) ∧ (Dict.keys kwargs).Nodup ∧ SafeL X W args ∧ SafeK X W kwargs
  | _ => True
def SafeL (X : Traits F V) (W : World F V) : List (Val F) → Prop
  | [] => True
  | v :: l => Safe X W v ∧ SafeL X W l
def SafeK (X : Traits F V) (W : World F V) : List (Str × Val F) → Prop
  | [] => True
  | (_, v) :: l => Safe X W v ∧ SafeK X W l
end

/-- The result of `cast` is a new tensor: the one it is given has another dtype or device. -/
def castFresh (same : Option Str → Option Str → V → Bool) (args : List (Shape F V)) (_ : Str → Option (Shape F V)) : Prop :=
  ∀ x device dtype d t, args = [.val (.tensor x), .val device, .val dtype] → deviceArg device = .ok d → dtypeArg dtype = .ok t → same d t x = false

/-- `cast` is registered -/
structure HasCast (X : Traits F V) (W : World F V) (same : Option Str → Option Str → V → Bool) (move : Option Str → Option Str → V → Except Err V) : Prop where
  sig : W.env.resolve nCast = .ok castSig
  impl : W.impl nCast = impl (Whole.castSource move)
  reads : X.writes nCast = false
  fresh : X.fresh nCast = castFresh same

def isNumber : Val F → Prop
  | .int _ | .float _ | .bool _ => True
  | _ => False

def isTensor : Val F → Prop
  | .tensor _ => True
  | _ => False

def isText : Val F → Prop
  | .str _ | .none => True
  | _ => False

mutual
/-- A recipe as the library builds it: a literal is a number, a tensor, a text or a mapping to things of one of these sorts or to recipes;
names of arguments are given once. -/
def Built : Val F → Prop
  | .lit (.dict es) _ _ =>
    (∀ p ∈ es, isNumber p.2) ∨ (∀ p ∈ es, isTensor p.2) ∨ (∀ p ∈ es, isText p.2) ∨ (∀ p ∈ es, p.2.isNode = true) ∧ BuiltK es
  | .lit v _ _ => isNumber v ∨ isTensor v ∨ isText v
  | .model .. => True
  | .merge _ args kwargs => (Dict.keys kwargs).Nodup ∧ BuiltL args ∧ BuiltK kwargs
  | _ => False
def BuiltL : List (Val F) → Prop
  | [] => True
  | v :: l => Built v ∧ BuiltL l
def BuiltK : List (Str × Val F) → Prop
  | [] => True
  | (_, v) :: l => Built v ∧ BuiltK l
end

mutual
/-- No method of the recipe writes into its arguments. -/
def Reads (X : Traits F V) : Val F → Prop
  | .lit v _ _ => Reads X v
  | .dict es => ReadsK X es
  | .merge m args kwargs => X.writes m = false ∧ (Dict.keys kwargs).Nodup ∧ ReadsL X args ∧ ReadsK X kwargs
  | _ => True
def ReadsL (X : Traits F V) : List (Val F) → Prop
  | [] => True
  | v :: l => Reads X v ∧ ReadsL X l
def ReadsK (X : Traits F V) : List (Str × Val F) → Prop
  | [] => True
  | (_, v) :: l => Reads X v ∧ ReadsK X l
end

/-- What the results of a merge hold when it is over -/
def held (m : List V × List (Res F ℕ)) : List (Except Err (Option (RVal F V))) := m.2.map fun x => x.map (deref m.1)

end Verif.Mem.Spec
