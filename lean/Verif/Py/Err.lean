/-!
# Python exceptions as values
-/
namespace Verif

/-- The exception classes that sd_mecha raises or lets through. -/
inductive Err where
  /-- `StateDictKeyError(key)` (sd_mecha/streaming.py:170-176), a subclass of `KeyError` -/
  | stateDictKey
  /-- any other `KeyError` -/
  | key
  | value
  | type
  | runtime
  | index
  | attribute
  | stopIteration
  | os
  | struct
  /-- an exception raised inside a merge method or elsewhere, identified by a number -/
  | other (n : Nat)
  deriving DecidableEq, Repr

instance {ε α : Type _} [DecidableEq ε] [DecidableEq α] : DecidableEq (Except ε α)
  | .ok a, .ok b => if h : a = b then isTrue (by rw [h]) else isFalse (by simp [h])
  | .error a, .error b => if h : a = b then isTrue (by rw [h]) else isFalse (by simp [h])
  | .ok _, .error _ => isFalse (by simp)
  | .error _, .ok _ => isFalse (by simp)

end Verif
