import Verif.Model.Program
import Verif.Model.Merge
import Verif.Model.StreamIn
import Verif.Model.StreamOut

/-!
# Threads that load from the same files (sd_mecha/merging.py:170-204, streaming.py:77-167)

`Merge.Step` takes the outcome of a key as a function of the key.  Here a worker computes it: it runs the program of its key, whose
loads go to opened files that all workers share.  A load is a sequence of single statements of `_load_tensor` and `_ensure_buffer`, and
those of different workers interleave in any way the lock of the file permits.

Python code between two loads touches nothing that is shared: methods do not write into tensors they were given (see C03 and C68 for
those that do).  A job is named by its key, of which there is one job each.
-/
namespace Verif.Threads
open Method Recipe Config Eval Program
open StreamOut (Tensor)

/-- Where a worker is in `__getitem__` of an opened file (streaming.py:93-96, 140-167); `e` is `tensor_info`. -/
inductive Pc where
  /-- not in it -/
  | idle
  /-- at `with self.lock` -/
  | wait (e : Entry)
  /-- at the `if` of `_ensure_buffer` -/
  | check (e : Entry)
  /-- at `self.file.seek(start_pos)` -/
  | seek (e : Entry)
  /-- at the assignment of a fresh `self.buffer` -/
  | alloc (e : Entry)
  /-- at `self.file.readinto(self.buffer)` -/
  | fill (e : Entry)
  /-- at `self.buffer_start_offset = start_pos` -/
  | offset (e : Entry)
  /-- at `torch.frombuffer` -/
  | view (e : Entry)
  /-- leaving the `with` -/
  | release (r : Except Err Tensor)

/-- An opened file: the fields of the object and their buffers, the position of the file, and the job that holds the lock -/
structure FState where
  st : StreamIn.State
  pos : ℕ
  lock : Option Str

/-- `absolute_start_pos` -/
def startOf (s : StreamIn.State) (e : Entry) : ℕ := 8 + s.headerSize + e.start

/-- The condition of `_ensure_buffer` (streaming.py:141) -/
def needs (s : StreamIn.State) (e : Entry) : Bool :=
  decide (startOf s e < s.bufStart ∨ startOf s e + (e.stop - e.start) > s.bufStart + s.buffer.length)

/-- The fresh buffer (streaming.py:143-147) -/
def fresh (s : StreamIn.State) (e : Entry) : Bytes :=
  if s.buffer.length < max s.defaultBufferSize (e.stop - e.start) then List.replicate (max s.defaultBufferSize (e.stop - e.start)) 0
  else s.buffer.take (max s.defaultBufferSize (e.stop - e.start))

/-- `torch.frombuffer(...).reshape(shape)` (streaming.py:166-167), see `StreamIn.loadTensor`. -/
def viewOf (s : StreamIn.State) (e : Entry) : Except Err StreamIn.View :=
  let off := startOf s e - s.bufStart
  let count := (e.stop - e.start) / e.dtype.size
  if count = 0 ∨ off + count * e.dtype.size > s.buffer.length then .error .value
  else if count ≠ numel e.shape then .error .runtime
  else .ok ⟨e.dtype, e.shape, s.buf, off, count * e.dtype.size⟩

/-- What a statement leads to: the next one, the end of the call, or a new view and the next statement -/
inductive Next where
  | go (pc : Pc)
  | made (v : StreamIn.View) (pc : Pc)
  | answer (r : Except Err Tensor)

/-- One statement of `__getitem__(key)` by job `me`; `none` if it has to wait for the lock.  An empty tensor has storage of its own
and is made without the lock (streaming.py:158-159). -/
def loadStep (me : Str) (key : Key) (fs : FState) : Pc → Option (FState × Next)
  | .idle =>
    match fs.st.header.get? key with
    | some (.tensor e) =>
      if key = metadataKey then some (fs, .answer (.error .stateDictKey))
      else if e.stop < e.start then some (fs, .answer (.error .value))
      else if e.stop - e.start = 0 then
        some (fs, .answer (if numel e.shape = 0 then .ok ⟨e.dtype, e.shape, []⟩ else .error .runtime))
      else some (fs, .go (.wait e))
    | _ => some (fs, .answer (.error .stateDictKey))
  | .wait e => if fs.lock.isSome then none else some ({ fs with lock := some me }, .go (.check e))
  | .check e => some (fs, .go (if needs fs.st e then .seek e else .view e))
  | .seek e => some ({ fs with pos := startOf fs.st e }, .go (.alloc e))
  | .alloc e => some ({ fs with st := { fs.st with heap := fs.st.heap ++ [fresh fs.st e], buf := fs.st.heap.length } }, .go (.fill e))
  | .fill e =>
    match slice fs.st.file fs.pos (min fs.st.buffer.length fs.st.cap) with
    | got => some ({ fs with
        st := { fs.st with heap := fs.st.heap.modify fs.st.buf fun b => got ++ b.drop got.length }
        pos := fs.pos + got.length }, .go (.offset e))
  | .offset e => some ({ fs with st := { fs.st with bufStart := startOf fs.st e } }, .go (.view e))
  | .view e =>
    match viewOf fs.st e with
    | .ok v => some (fs, .made v (.release (.ok ⟨v.dtype, v.shape, fs.st.read v⟩)))
    | .error err => some (fs, .go (.release (.error err)))
  | .release r => some ({ fs with lock := none }, .answer r)

variable {V : Type}

/-- A job: the rest of its program and where it is in the first load of that. -/
structure Job (V : Type) where
  prog : Prog Tensor (Except Err V)
  pc : Pc

/-- State of a merge whose workers load from files -/
structure TState (V : Type) where
  /-- the executor, its futures and the main thread -/
  base : Merge.State V
  /-- the jobs that are running, by key -/
  jobs : Str → Job V
  /-- the opened files, by path -/
  files : Str → Option FState
  /-- the views handed out so far -/
  handed : List (Str × Key × StreamIn.View)

/-- Before the loop; all files are open (merging.py:157) -/
def init (keys : List Str) (opened : Str → Option StreamIn.State) (jobs : Str → Job V) : TState V :=
  ⟨Merge.init keys, jobs, fun p => (opened p).map fun s => ⟨s, 8 + s.headerSize, none⟩, []⟩

def setJob (jobs : Str → Job V) (k : Str) (j : Job V) : Str → Job V := fun k' => if k' = k then j else jobs k'

def setFile (files : Str → Option FState) (p : Str) (fs : FState) : Str → Option FState :=
  fun p' => if p' = p then some fs else files p'

/-- One step of the main thread or of a worker; see `Merge.Step` for `submit`, `start`, `see`, `fail` and `cancel`.
* `goes`, `makes`, `answers`: a worker executes one statement of a load
* `closed`: a node without opened file; `None[key]` is a `TypeError`
* `finish`: a worker whose program has ended completes its future -/
inductive Step (n : ℕ) (start : Str → Prog Tensor (Except Err V)) : TState V → TState V → Prop
  | submit (s : TState V) (k : Str) (ks : List Str) (h : s.base.toSubmit = k :: ks) :
    Step n start s { s with base := { s.base with toSubmit := ks, queue := s.base.queue ++ [k] } }
  | start (s : TState V) (k : Str) (q : List Str) (h : s.base.queue = k :: q) (hn : s.base.running.length < n) :
    Step n start s { s with
      base := { s.base with queue := q, running := s.base.running ++ [k] }
      jobs := setJob s.jobs k ⟨start k, .idle⟩ }
  | goes (s : TState V) (k p : Str) (key : Key) (next : Except Err Tensor → Prog Tensor (Except Err V)) (fs fs' : FState) (pc : Pc)
      (hk : k ∈ s.base.running) (hp : (s.jobs k).prog = .load p key next) (hf : s.files p = some fs)
      (h : loadStep k key fs (s.jobs k).pc = some (fs', .go pc)) :
    Step n start s { s with jobs := setJob s.jobs k ⟨(s.jobs k).prog, pc⟩, files := setFile s.files p fs' }
  | makes (s : TState V) (k p : Str) (key : Key) (next : Except Err Tensor → Prog Tensor (Except Err V)) (fs fs' : FState)
      (v : StreamIn.View) (pc : Pc)
      (hk : k ∈ s.base.running) (hp : (s.jobs k).prog = .load p key next) (hf : s.files p = some fs)
      (h : loadStep k key fs (s.jobs k).pc = some (fs', .made v pc)) :
    Step n start s { s with
      jobs := setJob s.jobs k ⟨(s.jobs k).prog, pc⟩, files := setFile s.files p fs', handed := s.handed ++ [(p, key, v)] }
  | answers (s : TState V) (k p : Str) (key : Key) (next : Except Err Tensor → Prog Tensor (Except Err V)) (fs fs' : FState)
      (r : Except Err Tensor)
      (hk : k ∈ s.base.running) (hp : (s.jobs k).prog = .load p key next) (hf : s.files p = some fs)
      (h : loadStep k key fs (s.jobs k).pc = some (fs', .answer r)) :
    Step n start s { s with jobs := setJob s.jobs k ⟨next r, .idle⟩, files := setFile s.files p fs' }
  | closed (s : TState V) (k p : Str) (key : Key) (next : Except Err Tensor → Prog Tensor (Except Err V))
      (hk : k ∈ s.base.running) (hp : (s.jobs k).prog = .load p key next) (hf : s.files p = none) :
    Step n start s { s with jobs := setJob s.jobs k ⟨next (.error .type), .idle⟩ }
  | finish (s : TState V) (k : Str) (r : Except Err V) (hk : k ∈ s.base.running) (hp : (s.jobs k).prog = .ret r) :
    Step n start s { s with
      base := { s.base with
        running := s.base.running.erase k
        done := s.base.done ++ [(k, (Merge.track r).2)]
        stores := match (Merge.track r).1 with | some v => s.base.stores ++ [(k, v)] | none => s.base.stores } }
  | see (s : TState V) (k : Str) (h1 : s.base.toSubmit = []) (h2 : s.base.raising = none) (h : (k, none) ∈ s.base.done) :
    Step n start s { s with base := { s.base with done := s.base.done.erase (k, none) } }
  | fail (s : TState V) (k : Str) (e : Err) (h1 : s.base.toSubmit = []) (h2 : s.base.raising = none) (h : (k, some e) ∈ s.base.done) :
    Step n start s { s with base := { s.base with raising := some e } }
  | cancel (s : TState V) (k : Str) (h1 : s.base.raising.isSome) (h : k ∈ s.base.queue) :
    Step n start s { s with base := { s.base with queue := s.base.queue.erase k } }

/-! ### `threads=0` -/

/-- A program run at once by the calling thread, with the loads as a whole (`StreamIn.getItem`); the files are given as they are then. -/
def exec {α : Type} (files : Str → Option StreamIn.State) : Prog Tensor α → (Str → Option StreamIn.State) × α
  | .ret a => (files, a)
  | .load p key next =>
    match files p with
    | none => exec files (next (.error .type))
    | some s =>
      match StreamIn.getItem s key with
      | (s', .ok v) => exec (fun p' => if p' = p then some s' else files p') (next (.ok ⟨v.dtype, v.shape, s'.read v⟩))
      | (s', .error e) => exec (fun p' => if p' = p then some s' else files p') (next (.error e))

/-- `ThisThreadExecutor` (merging.py:340-345), see `Merge.sequential`. -/
def sequential (start : Str → Prog Tensor (Except Err V)) (files : Str → Option StreamIn.State) :
    List Str → List (Str × V) × Merge.Outcome
  | [] => ([], .returned)
  | k :: ks =>
    match exec files (start k) with
    | (files', r) =>
      match Merge.track r with
      | (_, some e) => ([], .raised e)
      | (some v, none) => ((k, v) :: (sequential start files' ks).1, (sequential start files' ks).2)
      | (none, none) => sequential start files' ks

end Verif.Threads
