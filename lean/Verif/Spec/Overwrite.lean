import Verif.Spec.StreamIn
import Verif.Spec.FailedSave

/-!
# Specification: what saving a recipe over one model should leave in the output
-/
namespace Verif.Overwrite.Spec
open StreamOut

/-- The tensor a file stores for a name -/
def tensorAt (file : Bytes) (headerSize : ℕ) (e : Entry) : Tensor := ⟨e.dtype, e.shape, StreamIn.Spec.bytesOf file headerSize e⟩

/-- The tensor of the same dtype and shape whose bytes are all zero -/
def zeroAt (e : Entry) : Tensor := ⟨e.dtype, e.shape, List.replicate (e.stop - e.start) 0⟩

/-- What the recipe makes of those of the keys which the model has -/
def results (h : Header) (at_ : Entry → Tensor) (f : Key → Tensor → Tensor) (keys : List Key) : List (Key × Tensor) :=
  keys.filterMap fun k =>
    if k = metadataKey then none
    else match h.get? k with
      | some (.tensor e) => some (k, f k (at_ e))
      | _ => none

/-- Number of bytes of all tensors together -/
def total (ts : List (Key × Tensor)) : ℕ := (ts.map fun p => p.2.bytes.length).sum

end Verif.Overwrite.Spec
