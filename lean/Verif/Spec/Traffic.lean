import Verif.Model.Traffic
import Verif.Spec.StreamIn
import Verif.Spec.Held

/-!
# Specification: how much is transferred
-/
namespace Verif.StreamIn.Spec

/-- The size of the data section -/
def dataSize (file : Bytes) (headerSize : ℕ) : ℕ := file.length - (8 + headerSize)

/-- The bytes of some transfers -/
def total (ts : List Transfer) : ℕ := (ts.map Transfer.bytes).sum

/-- The tensors that have any bytes lie in the file in the order of the names; a name may come several times in a row. -/
def Ascending (h : Header) (ks : List Key) : Prop :=
  ks.Pairwise fun k k' => k = k' ∨ ∀ e e', h.get? k = some (.tensor e) → h.get? k' = some (.tensor e') → e.start < e.stop → e'.start < e'.stop →
    e.stop ≤ e'.start

/-- No two tensors share bytes. -/
def Disjoint (h : Header) : Prop :=
  ∀ k k' e e', k ≠ k' → h.get? k = some (.tensor e) → h.get? k' = some (.tensor e') → e.stop ≤ e'.start ∨ e'.stop ≤ e.start

/-- The names asked of the file `path` while the keys of a recipe are merged one after the other -/
def asked {F T : Type} (P : Program.PWorld F T) (read : Method.Str → Method.Str → Except Err T) (r : Recipe.Val F) (keys : List Method.Str)
    (path : Method.Str) : List Key :=
  ((keys.flatMap fun k => Held.Spec.loadsOf read (Program.program P r k)).filter fun q => decide (q.1 = path)).map (·.2)

end Verif.StreamIn.Spec
