import Verif.Model.Threads
import Verif.Spec.Program
import Verif.Spec.Merge
import Verif.Spec.Overwrite

/-!
# Specification: what files answer
-/
namespace Verif.Threads.Spec
open Method Recipe Config Eval Program
open StreamOut (Tensor)

/-- What a merge should read: the tensor that the file stores under the name; a name that is not there is a missing key. -/
def stored (opened : Str → Option StreamIn.State) (path key : Str) : Except Err Tensor :=
  match opened path with
  | none => .error .type
  | some s =>
    if key = metadataKey then .error .stateDictKey
    else match s.header.get? key with
      | some (.tensor e) => .ok (Overwrite.Spec.tensorAt s.file s.headerSize e)
      | _ => .error .stateDictKey

/-- The files are valid safetensors files just opened, and one transfer of the operating system suffices for a buffer. -/
def Opened (opened : Str → Option StreamIn.State) : Prop :=
  ∀ p s, opened p = some s → ∃ file bs cap, StreamIn.open_ file bs cap = .ok s ∧ StreamIn.Spec.ValidHeader file s.headerSize s.header ∧
    bs ≤ cap ∧ ∀ k e, s.header.get? k = some (.tensor e) → e.stop - e.start ≤ cap

/-- An execution: any sequence of steps. -/
inductive Steps {V : Type} (n : ℕ) (start : Str → Prog Tensor (Except Err V)) : TState V → TState V → Prop
  | refl (s : TState V) : Steps n start s s
  | step {s t u : TState V} (h : Steps n start s t) (h' : Step n start t u) : Steps n start s u

/-- A complete merge with `n` threads (0: in the calling thread) of `keys` from opened files, making the assignments `stores` -/
def Runs {V : Type} (n : ℕ) (start : Str → Prog Tensor (Except Err V)) (opened : Str → Option StreamIn.State) (keys : List Str)
    (stores : List (Str × V)) (o : Merge.Outcome) : Prop :=
  match n with
  | 0 => sequential start opened keys = (stores, o)
  | n => ∃ jobs s, Steps n start (init keys opened jobs) s ∧ s.base.over = some o ∧ s.base.stores = stores

/-- Number of loads a program makes when loading `key` from `path` answers `read path key` -/
def loads {α : Type} (read : Str → Str → Except Err Tensor) : Prog Tensor α → ℕ
  | .ret _ => 0
  | .load p k next => 1 + loads read (next (read p k))

end Verif.Threads.Spec
