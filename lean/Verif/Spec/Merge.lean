import Verif.Model.Merge

/-!
# Vocabulary for merges of all keys
-/
namespace Verif.Merge.Spec
open Merge Method
variable {V : Type}

/-- An execution: any sequence of steps. -/
inductive Steps (n : ℕ) (job : Str → Except Err V) : State V → State V → Prop
  | refl (s : State V) : Steps n job s s
  | step {s t u : State V} (h : Steps n job s t) (h' : Step n job t u) : Steps n job s u

/-- A complete merge with `n` threads (0: in the calling thread) of distinct `keys`, making the assignments `stores`. -/
def Runs (n : ℕ) (job : Str → Except Err V) (keys : List Str) (stores : List (Str × V)) (o : Outcome) : Prop :=
  match n with
  | 0 => sequential job keys = (stores, o)
  | n => ∃ s, Steps n job (init keys) s ∧ s.over = some o ∧ s.stores = stores

/-- A failure other than a missing key. -/
def Broken (job : Str → Except Err V) (k : Str) (e : Err) : Prop := job k = .error e ∧ e ≠ .stateDictKey

/-- What the output should hold for `k` afterwards. -/
def expected (job : Str → Except Err V) (keys : List Str) (out : Dict Str V) (k : Str) : Option V :=
  if k ∈ keys then
    match job k with
    | .ok v => some v
    | .error _ => out.get? k
  else out.get? k

end Verif.Merge.Spec
