import Verif.Model.StreamOut

/-!
# `tensor_to_bytes` (sd_mecha/streaming.py:337-366)

A CPU tensor is a strided view of a storage.  Memory behind the storage is part of the model because
`tensor_to_bytes` reads `len(storage)` bytes from `data_ptr()`, which need not be the storage's start.
Little-endian hosts only (the `byteswap` branch, streaming.py:346-365, is not modelled).
-/
namespace Verif.Strided

/-- A dense strided CPU tensor. -/
structure View where
  dtype : DType
  shape : List ℕ
  /-- in elements, one per dimension -/
  strides : List ℕ
  /-- `storage_offset()`, in elements -/
  offset : ℕ
  /-- process memory from the first byte of the storage on -/
  mem : Bytes
  /-- `len(untyped_storage())` -/
  storageLen : ℕ

/-- `tensor_to_bytes`: `data_ptr()` is null exactly for tensors without elements (streaming.py:342-343). -/
def tensorToBytes (t : View) : Bytes :=
  if numel t.shape = 0 then [] else slice t.mem (t.offset * t.dtype.size) t.storageLen

/-- What `__setitem__` sees of a tensor (streaming.py:218, 229-233). -/
def toOut (t : View) : StreamOut.Tensor := ⟨t.dtype, t.shape, tensorToBytes t⟩

end Verif.Strided
