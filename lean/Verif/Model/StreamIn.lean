import Verif.Model.Header

/-!
# `InSafetensorsDict` (sd_mecha/streaming.py:77-167)

An opened file.  Buffers are python `bytearray` objects; tensors handed out by `torch.frombuffer` are views
of them, so buffers live in a heap indexed by identity and a tensor is a view (buffer id, offset, length).
The lock in `_load_tensor` makes loads atomic, so a run is a sequence of operations.
-/
namespace Verif.StreamIn

/-- State of an opened file.  `cap` is the largest number of bytes one raw `readinto` transfers
(the file is opened with `buffering=0`, streaming.py:83; Linux transfers at most 0x7ffff000 bytes). -/
structure State where
  file : Bytes
  defaultBufferSize : ℕ
  cap : ℕ
  headerSize : ℕ
  header : Header
  /-- all bytearrays ever allocated -/
  heap : List Bytes
  /-- identity of `self.buffer` -/
  buf : ℕ
  bufStart : ℕ
  deriving Repr

/-- A tensor handed out: a view of a buffer, or an empty tensor with storage of its own
(streaming.py:159, 167). -/
structure View where
  dtype : DType
  shape : List ℕ
  buf : ℕ
  off : ℕ
  len : ℕ
  deriving DecidableEq, Repr

/-- `sorted(items, key=…)`: a stable insertion sort (python's sort is stable). -/
def insertBy {α : Type} (f : α → ℕ) (x : α) : List α → List α
  | [] => [x]
  | y :: l => if f x ≤ f y then x :: y :: l else y :: insertBy f x l

def sortBy {α : Type} (f : α → ℕ) : List α → List α
  | [] => []
  | x :: l => insertBy f x (sortBy f l)

/-- `item[1].get('data_offsets', [0])[0]` (streaming.py:137) -/
def sortKey (p : Key × HVal) : ℕ :=
  match p.2 with
  | .metadata _ => 0
  | .tensor e => e.start

/-- `_read_header` (streaming.py:130-138).  `struct.unpack` fails on fewer than eight bytes. -/
def readHeader (file : Bytes) : Except Err (ℕ × Header) :=
  let sizeBytes := file.take 8
  if sizeBytes.length < 8 then .error .struct
  else
    let headerSize := unle64 sizeBytes
    match decHeader (slice file 8 headerSize) with
    | none => .error .value
    | some h => .ok (headerSize, sortBy sortKey h)

/-- `__init__` (streaming.py:78-88), after the suffix check.  Heap cell 0 is the empty `bytearray()`. -/
def open_ (file : Bytes) (bufferSize cap : ℕ) : Except Err State := do
  let (headerSize, header) ← readHeader file
  return { file, defaultBufferSize := bufferSize, cap, headerSize, header,
           heap := [[]], buf := 0, bufStart := 8 + headerSize }

/-- The current buffer's content. -/
def State.buffer (s : State) : Bytes := s.heap.getD s.buf []

/-- `_ensure_buffer` (streaming.py:140-150).
`readinto` overwrites the first `min(len(buffer), cap, bytes left)` bytes of the fresh buffer. -/
def ensureBuffer (s : State) (startPos length : ℕ) : State :=
  if startPos < s.bufStart ∨ startPos + length > s.bufStart + s.buffer.length then
    let necessary := max s.defaultBufferSize length
    let fresh : Bytes :=
      if s.buffer.length < necessary then List.replicate necessary 0
      else s.buffer.take necessary
    let got := slice s.file startPos (min fresh.length s.cap)
    let filled := got ++ fresh.drop got.length
    { s with heap := s.heap ++ [filled], buf := s.heap.length, bufStart := startPos }
  else s

/-- `_load_tensor` (streaming.py:152-167).
`torch.frombuffer` needs `count > 0` and `offset + count*size <= len(buffer)`, `reshape` needs the element
count to match; both raise otherwise. -/
def loadTensor (s : State) (e : Entry) : State × Except Err View :=
  let totalBytes := e.stop - e.start
  if e.stop < e.start then (s, .error .value)   -- negative length: python fails in bytearray/frombuffer
  else if totalBytes = 0 then
    if numel e.shape = 0 then
      ({ s with heap := s.heap ++ [[]] }, .ok ⟨e.dtype, e.shape, s.heap.length, 0, 0⟩)
    else (s, .error .runtime)
  else
    let pos := 8 + s.headerSize + e.start
    let s := ensureBuffer s pos totalBytes
    let off := pos - s.bufStart
    let count := totalBytes / e.dtype.size
    if count = 0 ∨ off + count * e.dtype.size > s.buffer.length then (s, .error .value)
    else if count ≠ numel e.shape then (s, .error .runtime)
    else (s, .ok ⟨e.dtype, e.shape, s.buf, off, count * e.dtype.size⟩)

/-- `__getitem__` (streaming.py:93-96) -/
def getItem (s : State) (key : Key) : State × Except Err View :=
  match s.header.get? key with
  | none => (s, .error .stateDictKey)
  | some (.metadata _) => (s, .error .stateDictKey)
  | some (.tensor e) => if key = metadataKey then (s, .error .stateDictKey) else loadTensor s e

/-- `keys` (streaming.py:111-116) -/
def keys (s : State) : List Key := s.header.keys.filter (· ≠ metadataKey)

/-- `__len__` (streaming.py:101-102) -/
def len (s : State) : ℕ := s.header.length - (if metadataKey ∈ s.header.keys then 1 else 0)

/-- What a tensor currently holds. -/
def State.read (s : State) (v : View) : Bytes := slice (s.heap.getD v.buf []) v.off v.len

/-- Overwrite part of a byte string in place. -/
def overwrite (b : Bytes) (off : ℕ) (d : Bytes) : Bytes :=
  b.take off ++ d ++ b.drop (off + d.length)

/-- A merge method writing into a tensor it was given (e.g. `a[...] = b[...]` in `tensor_sum`,
builtin/merge_methods/__init__.py:154-160).  `d` must have the tensor's length. -/
def poke (s : State) (v : View) (d : Bytes) : State :=
  { s with heap := s.heap.modify v.buf fun b => overwrite b v.off d }

/-- Operations on an opened file: `sd[key]`, or writing `d` into the tensor that the `i`-th operation
returned (`i` counts from 0; ignored if that operation returned no tensor, or the size is wrong). -/
inductive Op where
  | load (key : Key)
  | write (i : ℕ) (d : Bytes)
  deriving DecidableEq, Repr

/-- A run: the current state and the output of every operation so far (in order). -/
structure Run where
  st : State
  outs : List (Option (Except Err View))

/-- One operation. -/
def step (r : Run) : Op → Run
  | .load k =>
    let (s, o) := getItem r.st k
    ⟨s, r.outs ++ [some o]⟩
  | .write i d =>
    match r.outs[i]? with
    | some (some (.ok v)) =>
      if d.length = v.len then ⟨poke r.st v d, r.outs ++ [none]⟩ else ⟨r.st, r.outs ++ [none]⟩
    | _ => ⟨r.st, r.outs ++ [none]⟩

/-- Run a history of operations. -/
def run (s : State) (ops : List Op) : Run := ops.foldl step ⟨s, []⟩

end Verif.StreamIn
