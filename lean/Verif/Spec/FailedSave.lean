import Verif.Spec.StreamOut
import Verif.Model.StreamIn
import Verif.Model.FailedSave

/-!
# Specification: what a failing merge leaves behind
-/
namespace Verif.FailedSave.Spec
open StreamOut

/-- The tensors that are being stored by threads which wait for the lock. -/
def waiting (s : State) : List (Key × Tensor) :=
  s.threads.filterMap fun p => match p.2.pc with | .waitLock k t => some (k, t) | _ => none

/-- No thread has flushed its buffer without having listed it in the header. -/
def Listed (s : State) : Prop := ∀ p ∈ s.threads, ∀ off k t, p.2.pc ≠ .flushed off k t

/-- The file opens, lists exactly the names of `ts`, and each reads back as stored, after any history of reads. -/
def Holds (file : Bytes) (ts : List (Key × Tensor)) (bs rcap : ℕ) : Prop :=
  ∃ s0, StreamIn.open_ file bs rcap = .ok s0 ∧ (∀ k, k ∈ StreamIn.keys s0 ↔ k ∈ ts.map (·.1)) ∧
    ∀ p ∈ ts, ∀ history : List Key, ∃ s1 v,
      StreamIn.getItem (StreamIn.run s0 (history.map .load)).st p.1 = (s1, .ok v) ∧
      v.dtype = p.2.dtype ∧ v.shape = p.2.shape ∧ s1.read v = p.2.bytes

/-- The file opens and lists `k`, which reads without an exception, as bytes other than those of `t`. -/
def Corrupt (file : Bytes) (k : Key) (t : Tensor) : Prop :=
  ∃ s0 s1 v, StreamIn.open_ file 1000 1000 = .ok s0 ∧ StreamIn.getItem s0 k = (s1, .ok v) ∧ s1.read v ≠ t.bytes

end Verif.FailedSave.Spec
