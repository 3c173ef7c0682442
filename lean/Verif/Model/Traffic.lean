import Verif.Model.StreamIn

/-!
# What reading tensors transfers from a file (sd_mecha/streaming.py:93-96, 140-167)

The functions of `Verif.Model.StreamIn` once more, with the calls of `readinto` they make.  The header, which is read once when the file is
opened, is not counted.
-/
namespace Verif.StreamIn

/-- One call of `readinto` (streaming.py:149): where in the file, and how many bytes it got -/
structure Transfer where
  pos : ℕ
  bytes : ℕ
  deriving DecidableEq, Repr

/-- `_ensure_buffer` (streaming.py:140-150, `ensureBuffer`) -/
def ensureBufferT (s : State) (startPos length : ℕ) : State × List Transfer :=
  if startPos < s.bufStart ∨ startPos + length > s.bufStart + s.buffer.length then
    let necessary := max s.defaultBufferSize length
    let fresh : Bytes :=
      if s.buffer.length < necessary then List.replicate necessary 0
      else s.buffer.take necessary
    let got := slice s.file startPos (min fresh.length s.cap)
    let filled := got ++ fresh.drop got.length
    ({ s with heap := s.heap ++ [filled], buf := s.heap.length, bufStart := startPos }, [⟨startPos, got.length⟩])
  else (s, [])

/-- `_load_tensor` (streaming.py:152-167, `loadTensor`) up to the tensor it makes of the buffer -/
def loadTensorT (s : State) (e : Entry) : State × List Transfer :=
  let totalBytes := e.stop - e.start
  if e.stop < e.start then (s, [])
  else if totalBytes = 0 then
    if numel e.shape = 0 then ({ s with heap := s.heap ++ [[]] }, [])
    else (s, [])
  else ensureBufferT s (8 + s.headerSize + e.start) totalBytes

/-- `__getitem__` (streaming.py:93-96, `getItem`) -/
def getItemT (s : State) (key : Key) : State × List Transfer :=
  match s.header.get? key with
  | none => (s, [])
  | some (.metadata _) => (s, [])
  | some (.tensor e) => if key = metadataKey then (s, []) else loadTensorT s e

/-- Tensors asked for one after the other -/
def transfers (s : State) : List Key → List Transfer
  | [] => []
  | k :: ks => (getItemT s k).2 ++ transfers (getItemT s k).1 ks

end Verif.StreamIn
