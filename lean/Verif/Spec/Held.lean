import Verif.Model.Held

/-!
# Specification: how many results are held at each moment
-/
namespace Verif.Held.Spec
open Method Recipe Config Eval Program Held
variable {F T α : Type}

/-- What happens to memory -/
inductive Event where
  | load (path key : Str)
  | hold
  | free (n : ℕ)

/-- What the computation gives if loading `key` from `path` answers `read path key` -/
def value (read : Str → Str → Except Err T) : Live T α → α
  | .ret a => a
  | .load p k next => value read (next (read p k))
  | .hold q => value read q
  | .free _ q => value read q

/-- What happens meanwhile, in order -/
def trace (read : Str → Str → Except Err T) : Live T α → List Event
  | .ret _ => []
  | .load p k next => .load p k :: trace read (next (read p k))
  | .hold q => .hold :: trace read q
  | .free n q => .free n :: trace read q

/-- The results held after some events, from `n` held before -/
def heldAfter (n : ℕ) : List Event → ℕ
  | [] => n
  | .load _ _ :: es => heldAfter n es
  | .hold :: es => heldAfter (n + 1) es
  | .free m :: es => heldAfter (n - m) es

/-- At no moment are more than `b` results held -/
def AtMost (b : ℕ) (es : List Event) : Prop := ∀ before, before <+: es → heldAfter 0 before ≤ b

/-- At some moment `b` results are held -/
def Reaches (b : ℕ) (es : List Event) : Prop := ∃ before, before <+: es ∧ heldAfter 0 before = b

/-- The loads among the events -/
def loads : List Event → List (Str × Str)
  | [] => []
  | .load p k :: es => (p, k) :: loads es
  | _ :: es => loads es

/-- The same computation without saying what is held -/
def forget : Live T α → Prog T α
  | .ret a => .ret a
  | .load p k next => .load p k fun r => forget (next r)
  | .hold q => forget q
  | .free _ q => forget q

/-- The loads a program makes -/
def loadsOf (read : Str → Str → Except Err T) : Prog T α → List (Str × Str)
  | .ret _ => []
  | .load p k next => (p, k) :: loadsOf read (next (read p k))

/-- What happens in a thread that merges the keys one after the other: a result is let go of once it has been stored. -/
def work (P : PWorld F T) (read : Str → Str → Except Err T) (r : Val F) (keys : List Str) : List Event :=
  keys.flatMap fun k => trace read (live P r k) ++ [.free 1]

/-- An interleaving of what happens in several threads -/
inductive Interleaving : List (List Event) → List Event → Prop where
  | done (ts) : (∀ t ∈ ts, t = []) → Interleaving ts []
  | step (before e t after es) : Interleaving (before ++ t :: after) es → Interleaving (before ++ (e :: t) :: after) (e :: es)

mutual
/-- The number of nodes of a recipe -/
def size : Val F → ℕ
  | .merge _ args kwargs => 1 + sizeL args + sizeK kwargs
  | _ => 1
def sizeL : List (Val F) → ℕ
  | [] => 0
  | v :: l => size v + sizeL l
def sizeK : List (Str × Val F) → ℕ
  | [] => 0
  | (_, v) :: l => size v + sizeK l
end

mutual
/-- The height of a recipe: literals count 0, models 1 -/
def height : Val F → ℕ
  | .model .. => 1
  | .merge _ args kwargs => 1 + max (heightL args) (heightK kwargs)
  | _ => 0
def heightL : List (Val F) → ℕ
  | [] => 0
  | v :: l => max (height v) (heightL l)
def heightK : List (Str × Val F) → ℕ
  | [] => 0
  | (_, v) :: l => max (height v) (heightK l)
end

/-- A model or a merge -/
def isNode : Val F → Bool
  | .model .. | .merge .. => true
  | _ => false

/-- The arguments of a merge that are models or merges -/
def inputs (args : List (Val F)) (kwargs : List (Str × Val F)) : List (Val F) := (args ++ kwargs.map (·.2)).filter isNode

/-- A literal with no recipe in it -/
def Flat : Val F → Prop
  | .lit (.dict es) _ _ => ∀ p ∈ es, isNode p.2 = false ∧ ∀ v c s, p.2 ≠ .lit v c s
  | .lit v _ _ => isNode v = false ∧ ∀ v' c s, v ≠ .lit v' c s
  | _ => True

mutual
/-- A recipe whose merges take values (no `StateDict` parameter), at most `k` of them models or merges, and whose literals have no
recipe in them -/
def Simple (P : PWorld F T) (k : ℕ) : Val F → Prop
  | .merge m args kwargs =>
    (∀ i t, ((P.source m).types.asDict (some args.length)).get? i ≠ some (.sd t)) ∧ (inputs args kwargs).length ≤ k ∧
      SimpleL P k args ∧ SimpleK P k kwargs
  | v => Flat v
def SimpleL (P : PWorld F T) (k : ℕ) : List (Val F) → Prop
  | [] => True
  | v :: l => Simple P k v ∧ SimpleL P k l
def SimpleK (P : PWorld F T) (k : ℕ) : List (Str × Val F) → Prop
  | [] => True
  | (_, v) :: l => Simple P k v ∧ SimpleK P k l
end

/-- A model, or one merge of a model and literals or of literals only (such as a cast) -/
inductive Side : Val F → Prop where
  | model (p c s) : Side (.model p c s)
  | number (m args kwargs) : inputs args kwargs = [] → Side (.merge m args kwargs)
  | cast (m args kwargs p c s) : inputs args kwargs = [.model p c s] → Side (.merge m args kwargs)

/-- A recipe that takes in one model after the other: every merge has at most one input that is not a model (or a cast of one). -/
inductive Chain : Val F → Prop where
  | side (v) : Side v → Chain v
  | step (m args kwargs before c after) : inputs args kwargs = before ++ c :: after → Chain c → (∀ s ∈ before ++ after, Side s) →
      Chain (.merge m args kwargs)

mutual
/-- A recipe whose merges take values (no `StateDict` parameter), at most `k` of them altogether, and whose literals have no recipe in them -/
def Narrow (P : PWorld F T) (k : ℕ) : Val F → Prop
  | .merge m args kwargs =>
    (∀ i t, ((P.source m).types.asDict (some args.length)).get? i ≠ some (.sd t)) ∧ args.length + kwargs.length ≤ k ∧
      NarrowL P k args ∧ NarrowK P k kwargs
  | v => Flat v
def NarrowL (P : PWorld F T) (k : ℕ) : List (Val F) → Prop
  | [] => True
  | v :: l => Narrow P k v ∧ NarrowL P k l
def NarrowK (P : PWorld F T) (k : ℕ) : List (Str × Val F) → Prop
  | [] => True
  | (_, v) :: l => Narrow P k v ∧ NarrowK P k l
end

mutual
/-- The paths of the models of a recipe, as often as they occur in it (a node used by two merges occurs twice) -/
def paths : Val F → List Str
  | .model p _ _ => [p]
  | .merge _ args kwargs => pathsL args ++ pathsK kwargs
  | _ => []
def pathsL : List (Val F) → List Str
  | [] => []
  | v :: l => paths v ++ pathsL l
def pathsK : List (Str × Val F) → List Str
  | [] => []
  | (_, v) :: l => paths v ++ pathsK l
end

/-- A literal or a model -/
def isLeaf : Val F → Prop
  | .lit .. | .model .. => True
  | _ => False

/-- A recipe as a user writes it that takes in one model after the other: at most one argument of a merge is itself a merge. -/
inductive Accumulates : Val F → Prop where
  | model (p c s) : Accumulates (.model p c s)
  | pos (m before c after kwargs) : Accumulates c → (∀ v ∈ before ++ after, isLeaf v) → (∀ p ∈ kwargs, isLeaf p.2) →
      Accumulates (.merge m (before ++ c :: after) kwargs)
  | name (m args before k c after) : Accumulates c → (∀ v ∈ args, isLeaf v) → (∀ p ∈ before ++ after, isLeaf p.2) →
      Accumulates (.merge m args (before ++ (k, c) :: after))

/-- Some order of evaluating the inputs of each merge holds at most `b` results at each moment. -/
inductive Can : Val F → ℕ → Prop where
  | model (p c s b) : 1 ≤ b → Can (.model p c s) b
  | merge (m args kwargs b) (order : List (Val F)) : order.Perm (inputs args kwargs) → order.length + 1 ≤ b →
      (∀ i (h : i < order.length), Can order[i] (b - i)) → Can (.merge m args kwargs) b

end Verif.Held.Spec
