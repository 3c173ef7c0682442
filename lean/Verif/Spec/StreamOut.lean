import Verif.Model.StreamOut
import Verif.Spec.Safetensors

/-!
# Specification of writing a safetensors file

The history of an execution is the list of `(key, tensor)` pairs stored; nothing else about buffers, threads
or flushes appears in the specification.
-/
namespace Verif.StreamOut.Spec
open StreamOut

/-- Everything stored by an execution, in the order the calls began. -/
def stored : List Action → List (Key × Tensor)
  | [] => []
  | .begin _ k t :: as => (k, t) :: stored as
  | _ :: as => stored as

/-- No thread is inside a call (all worker threads have been joined before `close`). -/
def Quiescent (s : State) : Prop := ∀ p ∈ s.threads, p.2.pc = .idle

/-- A tensor whose byte count fits its shape and dtype. -/
def Tensor.WF (t : Tensor) : Prop := t.bytes.length = numel t.shape * Safetensors.width t.dtype

instance (t : Tensor) : Decidable (Tensor.WF t) := inferInstanceAs (Decidable (_ = _))

/-- The entries lie one behind the other from `a` to `b`, without gap or overlap. -/
def Chain : ℕ → List Entry → ℕ → Prop
  | a, [], b => a = b
  | a, e :: l, b => e.start = a ∧ e.start ≤ e.stop ∧ Chain e.stop l b

/-- The entries, in some order, tile the data section `[0, n)`. -/
def Tiles (es : List Entry) (n : ℕ) : Prop := ∃ l, l.Perm es ∧ Chain 0 l n

end Verif.StreamOut.Spec

namespace Verif.StreamOut.Spec
open StreamOut

/-- The tensors one thread stored, in order. -/
def storedBy (tid : ℕ) : List Action → List (Key × Tensor)
  | [] => []
  | .begin i k t :: as => if i = tid then (k, t) :: storedBy tid as else storedBy tid as
  | _ :: as => storedBy tid as

/-- The tensor entries of a header. -/
def entries (h : Header) : List Entry := h.filterMap fun p => match p.2 with | .tensor e => some e | .metadata _ => none

/-- Every raw write of the execution transfers all of its bytes: buffers are no larger than `cap` bytes, nor
are the eight length bytes and the reserved header. -/
structure Complete (declared : Dict Key Meta) (recipe : Option (List Char)) (minBuf cap : ℕ)
    (ts : List (Key × Tensor)) : Prop where
  buffer : minBuf ≤ cap
  tensor : ∀ p ∈ ts, p.2.bytes.length ≤ cap
  eight : 8 ≤ cap
  header : reservedSize declared recipe ≤ cap

end Verif.StreamOut.Spec
