import Verif.Spec.Safetensors

/-!
# Specification of reading a safetensors file

Written without reference to buffers or views: a file is a byte string, an entry names a range of its data
section, and the tensor's value is that range.
-/
namespace Verif.StreamIn.Spec

/-- First byte of the entry's data in the file. -/
def first (headerSize : ℕ) (e : Entry) : ℕ := 8 + headerSize + e.start

/-- One past the last byte of the entry's data in the file. -/
def last (headerSize : ℕ) (e : Entry) : ℕ := 8 + headerSize + e.stop

/-- The bytes the file stores for an entry. -/
def bytesOf (file : Bytes) (headerSize : ℕ) (e : Entry) : Bytes :=
  (file.drop (first headerSize e)).take (e.stop - e.start)

/-- A header entry that describes data inside the file and whose size matches shape and dtype
(what the safetensors format demands). -/
structure ValidEntry (file : Bytes) (headerSize : ℕ) (e : Entry) : Prop where
  ordered : e.start ≤ e.stop
  inside : last headerSize e ≤ file.length
  size : e.stop - e.start = numel e.shape * Safetensors.width e.dtype

/-- Every tensor of the header is described validly. -/
def ValidHeader (file : Bytes) (headerSize : ℕ) (h : Header) : Prop :=
  ∀ k e, h.get? k = some (.tensor e) → ValidEntry file headerSize e

/-- File position `p` belongs to the entry. -/
def Covers (headerSize : ℕ) (e : Entry) (p : ℕ) : Prop := first headerSize e ≤ p ∧ p < last headerSize e

end Verif.StreamIn.Spec
