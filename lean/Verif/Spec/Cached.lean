import Verif.Model.Cached
import Verif.Spec.Eval
import Verif.Spec.Program

/-!
# Specification: functions that use a cache to save work
-/
namespace Verif.Cached.Spec
open Method Recipe Config Eval Eval.Spec Program Program.Spec
variable {F T : Type}

/-- Called without a cache, a method is the function `source`. -/
def Agrees (W : CWorld F T) : Prop := ∀ m, W.base.impl m = impl (W.source m)

/-- `as` and `ks` are what the function of an instruction is called with at `key`. -/
structure Receiving (W : World F T) (m : Str) (args : List (Val F)) (kwargs : Dict Str (Val F)) (key : Str) (as : List (Arg F T))
    (ks : Str → Option (Arg F T)) : Prop where
  length : as.length = args.length
  args : ∀ idx v, ArgAt args kwargs idx v → ∃ a p, argAt as ks idx = some a ∧ typeOf W m args.length idx = some p ∧ Receives W key p v a
  none : ∀ k, kwargs.get? k = none → ks k = none

/-- Whatever is in the cache, as long as `I` holds of its entries, the function returns `r`, and `I` holds of what it stores. -/
def Harmless (I : Str → RVal F T → Prop) (get : Idx → Str → Res F T) : CFn F T → Res F T → Prop
  | .done x, r => x = r
  | .ask i k next, r => Harmless I get (next (get i k)) r
  | .get n next, r => Harmless I get (next none) r ∧ ∀ v, I n v → Harmless I get (next (some v)) r
  | .put n v next, r => I n v ∧ Harmless I get next r

mutual
/-- Every instruction with a cache uses it in such a way, the entries of cache `c` satisfying `I c`.  Names of arguments are given once. -/
def Fits (W : CWorld F T) (I : ℕ → Str → RVal F T → Prop) : CVal F → Prop
  | .leaf _ => True
  | .dict es _ _ => FitsK W I es
  | .merge m args kwargs cache => (Dict.keys (plainK kwargs)).Nodup ∧ FitsL W I args ∧ FitsK W I kwargs ∧
      ∀ c body, cache = some c → W.cached m = some body → ∀ key as ks, Receiving W.base m (plainL args) (plainK kwargs) key as ks →
        Harmless (I c) (fun i => look (argAt as ks i)) (body (as.map shape) (fun k => (ks k).map shape) key) ((W.base.impl m).run as ks key)
def FitsL (W : CWorld F T) (I : ℕ → Str → RVal F T → Prop) : List (CVal F) → Prop
  | [] => True
  | v :: l => Fits W I v ∧ FitsL W I l
def FitsK (W : CWorld F T) (I : ℕ → Str → RVal F T → Prop) : List (Str × CVal F) → Prop
  | [] => True
  | (_, v) :: l => Fits W I v ∧ FitsK W I l
end

/-- `I` holds of what is stored. -/
def Holds {V : Type} (I : ℕ → Str → V → Prop) (σ : Store V) : Prop := ∀ c n v, σ c n = some v → I c n v

/-- The result of each key that is done -/
def Right (s : Session F T) (ps : List (CProg (RVal F T) (Res F T))) : Prop :=
  ps.length = s.keys.length ∧ ∀ (i : ℕ) (key : Str) (x : Res F T), s.keys[i]? = some key → ps[i]? = some (CProg.ret x) → x = eval s.world.base s.recipe.plain key

/-! ### Functions that look an entry up by key and compute it if it is missing -/

/-- `f`, then `g` of its result -/
def andThen : Fn F T → (Res F T → Fn F T) → Fn F T
  | .done r, g => g r
  | .ask i k next, g => .ask i k fun r => andThen (next r) g

def andThenC : Fn F T → (Res F T → CFn F T) → CFn F T
  | .done r, g => g r
  | .ask i k next, g => .ask i k fun r => andThenC (next r) g

/-- The function computes an entry from its arguments, and its result from the entry and its arguments. -/
structure Memo (F T : Type) where
  entry : List (Shape F T) → (Str → Option (Shape F T)) → Str → Fn F T
  use : RVal F T → List (Shape F T) → (Str → Option (Shape F T)) → Str → Fn F T

/-- Without a cache -/
def Memo.plain (M : Memo F T) (as : List (Shape F T)) (ks : Str → Option (Shape F T)) (key : Str) : Fn F T :=
  andThen (M.entry as ks key) fun
    | .ok v => M.use v as ks key
    | .error e => .done (.error e)

/-- With a cache: `if key not in cache: cache[key] = entry(...)` -/
def Memo.cached (M : Memo F T) : Body F T := fun as ks key =>
  .get key fun
    | some v => andThenC (M.use v as ks key) .done
    | none => andThenC (M.entry as ks key) fun
      | .ok v => .put key v (andThenC (M.use v as ks key) .done)
      | .error e => .done (.error e)

/-- An instruction with a cache -/
structure Instr (F : Type) where
  method : Str
  args : List (Val F)
  kwargs : List (Str × Val F)
  cache : ℕ
  deriving DecidableEq

mutual
/-- The instructions with a cache, in the order in which a recipe is read -/
def cachedOf : CVal F → List (Instr F)
  | .leaf _ => []
  | .dict es _ _ => cachedK es
  | .merge m args kwargs cache => (cache.toList.map fun c => ⟨m, plainL args, plainK kwargs, c⟩) ++ (cachedL args ++ cachedK kwargs)
def cachedL : List (CVal F) → List (Instr F)
  | [] => []
  | v :: l => cachedOf v ++ cachedL l
def cachedK : List (Str × CVal F) → List (Instr F)
  | [] => []
  | (_, v) :: l => cachedOf v ++ cachedK l
end

mutual
/-- Names of arguments are given once. -/
def Named : CVal F → Prop
  | .leaf _ => True
  | .dict es _ _ => NamedK es
  | .merge _ args kwargs _ => (Dict.keys (plainK kwargs)).Nodup ∧ NamedL args ∧ NamedK kwargs
def NamedL : List (CVal F) → Prop
  | [] => True
  | v :: l => Named v ∧ NamedL l
def NamedK : List (Str × CVal F) → Prop
  | [] => True
  | (_, v) :: l => Named v ∧ NamedK l
end

/-- One merge as the user asks for it; `prepared` is the recipe that is merged. -/
structure Asked (F : Type) where
  options : Whole.Options F
  recipe : CVal F
  prepared : CVal F
  keys : List Str
  schedule : List ℕ

def Asked.session (W : CWorld F T) (m : Asked F) : Session F T := ⟨W, m.prepared, m.keys, m.schedule⟩

/-- The result of a computation that is done -/
def answer {V α : Type} : CProg V α → Option α
  | .ret a => some a
  | _ => none

/-- Caches in which nothing is stored yet -/
def empty {V : Type} : Store V := fun _ _ => none

mutual
/-- Mappings with recipes in them hold nothing else. -/
def Uniform : CVal F → Prop
  | .leaf _ => True
  | .dict es _ _ => (∀ p ∈ es, p.2.plain.isNode = true) ∧ UniformK es
  | .merge _ args kwargs _ => UniformL args ∧ UniformK kwargs
def UniformL : List (CVal F) → Prop
  | [] => True
  | v :: l => Uniform v ∧ UniformL l
def UniformK : List (Str × CVal F) → Prop
  | [] => True
  | (_, v) :: l => Uniform v ∧ UniformK l
end

end Verif.Cached.Spec
