import Verif.Model.Header

/-!
# `OutSafetensorsDict` (sd_mecha/streaming.py:179-332)

Several threads store tensors through per-thread buffers into one file.  The model is a small-step machine:
an `Action` is one atomic step of one thread.  Everything between two accesses to shared state is one step
(`self.file`, `self.flushed_size` and `self.header` are shared; a thread's buffer and sub-header are not).
-/
namespace Verif.StreamOut

/-- A tensor as `__setitem__` sees it: dtype, shape and the bytes `tensor_to_bytes` returns. -/
structure Tensor where
  dtype : DType
  shape : List ℕ
  bytes : Bytes
  deriving DecidableEq, Repr

/-- Where a thread stands inside `__setitem__`. -/
inductive PC where
  /-- outside -/
  | idle
  /-- at `with lock:` of `_flush_buffer` (streaming.py:265), about to flush before storing -/
  | waitLock (k : Key) (t : Tensor)
  /-- after the locked part (streaming.py:269), holding `buffer_offset` -/
  | flushed (off : ℕ) (k : Key) (t : Tensor)
  deriving DecidableEq, Repr

/-- `OutSafetensorsDictThreadState` (streaming.py:179-183) plus the program counter. -/
structure TState where
  buffer : Bytes
  used : ℕ
  sub : Dict Key Entry
  pc : PC
  deriving DecidableEq, Repr

/-- A file opened for writing: content and position. -/
structure File where
  content : Bytes
  pos : ℕ
  deriving DecidableEq, Repr

/-- Overwrite `content` at `pos` (a gap is filled with zeros; writing nothing changes nothing). -/
def writeAt (content : Bytes) (pos : ℕ) (d : Bytes) : Bytes :=
  if d = [] then content
  else content.take pos ++ List.replicate (pos - content.length) 0 ++ d ++ content.drop (pos + d.length)

/-- Raw `file.write(d)` (`buffering=0`, streaming.py:200): one OS call transfers at most `cap` bytes; the
returned count is ignored by the code. -/
def rawWrite (cap : ℕ) (f : File) (d : Bytes) : File :=
  let d := d.take cap
  ⟨writeAt f.content f.pos d, f.pos + d.length⟩

/-- `file.seek(p)` -/
def seek (f : File) (p : ℕ) : File := { f with pos := p }

/-- `OutSafetensorsDict`'s attributes (streaming.py:194-205). -/
structure State where
  threads : Dict ℕ TState
  header : Header
  file : File
  flushedSize : ℕ
  minBuf : ℕ
  maxHeader : ℕ
  cap : ℕ
  deriving DecidableEq, Repr

/-- `TensorMetadata` (streaming.py:19-56) -/
structure Meta where
  shape : Option (List ℕ)
  dtype : Option DType
  deriving DecidableEq, Repr

/-- `sorted(items, key=…, reverse=True)`: stable, descending. -/
def insertDesc {α : Type} (f : α → ℕ) (x : α) : List α → List α
  | [] => [x]
  | y :: l => if f y ≤ f x then x :: y :: l else y :: insertDesc f x l

def sortDesc {α : Type} (f : α → ℕ) : List α → List α
  | [] => []
  | x :: l => insertDesc f x (sortDesc f l)

/-- Declared tensors with known shape and dtype: `trimmed_header` (streaming.py:239-241). -/
def trim (declared : Dict Key Meta) : List (Key × (DType × List ℕ)) :=
  declared.filterMap fun p =>
    match p.2.shape, p.2.dtype with
    | some sh, some dt => some (p.1, (dt, sh))
    | _, _ => none

/-- `get_byte_size` (streaming.py:43-44) -/
def byteSize (p : DType × List ℕ) : ℕ := numel p.2 * p.1.size

/-- The entries of the dummy header, laid out one after the other (streaming.py:248-252). -/
def layout (off : ℕ) : List (Key × (DType × List ℕ)) → List (Key × Entry)
  | [] => []
  | (k, m) :: l => (k, ⟨m.1, m.2, off, off + byteSize m⟩) :: layout (off + byteSize m) l

/-- `{"__metadata__": {"mecha_recipe": …}}` (streaming.py:197-199) -/
def initHeader (recipe : Option (List Char)) : Header :=
  [(metadataKey, .metadata (match recipe with | some r => [("mecha_recipe".toList, r)] | none => []))]

/-- `_init_buffer` (streaming.py:238-257): the reserved header size. -/
def reservedSize (declared : Dict Key Meta) (recipe : Option (List Char)) : ℕ :=
  let worst := sortDesc (fun p => byteSize p.2) (trim declared)
  let dummy : Dict Key Json :=
    (layout 0 worst).foldl (fun d p => d.set p.1 p.2.toJsonDummy)
      ((initHeader recipe).map fun p => (p.1, p.2.toJson))
  (asciiBytes (Json.obj dummy).enc).length

/-- `__init__` (streaming.py:187-205) -/
def init (declared : Dict Key Meta) (recipe : Option (List Char)) (minBuf cap : ℕ) : State :=
  let m := reservedSize declared recipe
  { threads := [], header := initHeader recipe, file := ⟨[], 8 + m⟩, flushedSize := 0,
    minBuf, maxHeader := m, cap }

/-- The tail of `__setitem__` (streaming.py:225-233): append to the thread's buffer and sub-header. -/
def store (ts : TState) (k : Key) (t : Tensor) : TState :=
  { ts with
    buffer := ts.buffer.take ts.used ++ t.bytes ++ ts.buffer.drop (ts.used + t.bytes.length)
    used := ts.used + t.bytes.length
    sub := ts.sub.set k ⟨t.dtype, t.shape, ts.used, ts.used + t.bytes.length⟩
    pc := .idle }

/-- `data_offsets` shifted by `buffer_offset` (streaming.py:278-286) -/
def shiftEntry (off : ℕ) (e : Entry) : Entry := { e with start := e.start + off, stop := e.stop + off }

/-- `global_sub_header` as header values -/
def globalSub (off : ℕ) (sub : Dict Key Entry) : Header := sub.map fun p => (p.1, .tensor (shiftEntry off p.2))

/-- Buffer after `_flush_buffer` with `next_tensor_size` (streaming.py:271-276) -/
def resized (minBuf : ℕ) (buffer : Bytes) (next : ℕ) : Bytes :=
  let required := max minBuf next
  if buffer.length < required then List.replicate required 0 else buffer.take required

inductive Action where
  /-- thread `tid` calls `out[k] = t` and runs up to the first shared access (streaming.py:212-223) -/
  | begin (tid : ℕ) (k : Key) (t : Tensor)
  /-- the locked part of `_flush_buffer` (streaming.py:265-269) -/
  | locked (tid : ℕ)
  /-- the rest of `_flush_buffer` (streaming.py:271-288) and of `__setitem__` (streaming.py:225-233) -/
  | finish (tid : ℕ)
  deriving DecidableEq, Repr

/-- One atomic step; `none` if the action is not enabled. -/
def step (s : State) : Action → Option State
  | .begin tid k t =>
    let ts := (s.threads.get? tid).getD ⟨List.replicate s.minBuf 0, 0, [], .idle⟩
    match ts.pc with
    | .idle =>
      let ts' := if t.bytes.length > ts.buffer.length - ts.used then { ts with pc := .waitLock k t } else store ts k t
      some { s with threads := s.threads.set tid ts' }
    | _ => none
  | .locked tid =>
    match s.threads.get? tid with
    | some ts =>
      match ts.pc with
      | .waitLock k t =>
        some { s with
          file := rawWrite s.cap s.file (ts.buffer.take ts.used)
          flushedSize := s.flushedSize + ts.used
          threads := s.threads.set tid { ts with used := 0, pc := .flushed s.flushedSize k t } }
      | _ => none
    | none => none
  | .finish tid =>
    match s.threads.get? tid with
    | some ts =>
      match ts.pc with
      | .flushed off k t =>
        some { s with
          header := s.header.update (globalSub off ts.sub)
          threads := s.threads.set tid
            (store { ts with buffer := resized s.minBuf ts.buffer t.bytes.length, sub := [] } k t) }
      | _ => none
    | none => none

/-- An execution: all actions enabled in turn. -/
def run (s : State) : List Action → Option State
  | [] => some s
  | a :: as => (step s a).bind fun s' => run s' as

/-- `_flush_buffer(state, close=True)` (streaming.py:259-290) -/
def flushClose (s : State) (ts : TState) : State :=
  { s with
    file := rawWrite s.cap s.file (ts.buffer.take ts.used)
    flushedSize := s.flushedSize + ts.used
    header := s.header.update (globalSub s.flushedSize ts.sub) }

/-- `file.truncate(n)` -/
def truncate (c : Bytes) (n : ℕ) : Bytes := c.take n ++ List.replicate (n - c.length) 0

/-- The relocation loop (streaming.py:314-323): chunks `[max(ce-m, ds), ce)` move up by `off`, from the end. -/
def moveLoop (m off ds : ℕ) (c : Bytes) (ce : ℕ) : Bytes :=
  if _h : ds < ce ∧ 0 < m then
    let cs := max (ce - m) ds
    moveLoop m off ds (writeAt c (cs + off) (slice c cs (ce - cs))) (ce - m)
  else c
termination_by ce
decreasing_by omega

/-- The rest of `close` (streaming.py:297-332): the finished file.
The relocation reopens the file with buffering, so its writes are complete. -/
def finishFile (s : State) : Except Err Bytes :=
  let headerJson := encHeader s.header
  let headerSize := headerJson.length
  if 2 ^ 64 ≤ max s.maxHeader headerSize then .error .struct
  else if s.maxHeader < headerSize then
    if s.minBuf = 0 then .error .value   -- range() with step 0
    else
      let off := headerSize - s.maxHeader
      let oldData := 8 + s.maxHeader
      let oldEnd := 8 + s.maxHeader + s.flushedSize
      let newEnd := 8 + headerSize + s.flushedSize
      let c := moveLoop s.minBuf off oldData (truncate s.file.content newEnd) oldEnd
      .ok (writeAt (writeAt c 0 (le64 (max s.maxHeader headerSize))) 8 headerJson)
  else
    let f := seek s.file 0
    let f := rawWrite s.cap f (le64 (max s.maxHeader headerSize))
    let f := rawWrite s.cap f headerJson
    let f := rawWrite s.cap f (List.replicate (s.maxHeader - headerSize) 32)
    .ok f.content

/-- `close` (streaming.py:292-332) -/
def close (s : State) : Except Err Bytes :=
  finishFile ((s.threads.map (·.2)).foldl flushClose s)

end Verif.StreamOut
