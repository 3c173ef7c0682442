import Verif.Model.StreamOut

/-!
# Closing the output of a merge that fails (sd_mecha/merging.py:172-202, 288-293; sd_mecha/streaming.py:259-332)

When a key fails, the loop over `as_completed` raises.  The `with` statement of `merge` leaves its contexts in reverse order: the
output first, the executor last (merging.py:172-182), so that `close` runs while workers may still be storing tensors.  `close`
holds `self.lock`, which a worker takes only inside `_flush_buffer`; the rest of `__setitem__` runs freely.

`close` of Verif/Model/StreamOut.lean is one step; here it is cut where a worker can get in between.  Simplified: the three statements
behind `file.write` (streaming.py:267-269) are one step, as are the comprehension over `state.sub_header` and the two statements behind
it (streaming.py:278-290), and writing the header (streaming.py:297-332).
-/
namespace Verif.FailedSave
open StreamOut

/-- Where the main thread stands inside `close`.  `n` is the size of `thread_states` when its iteration began. -/
inductive Main where
  /-- at the head of the loop over `thread_states` (streaming.py:294) -/
  | next (n : ℕ) (rest : List ℕ)
  /-- behind `self.file.write` (streaming.py:266) -/
  | wrote (n : ℕ) (tid : ℕ) (rest : List ℕ)
  /-- behind `state.memory_used = 0` (streaming.py:269), holding `buffer_offset` -/
  | counted (n : ℕ) (off : ℕ) (tid : ℕ) (rest : List ℕ)
  /-- out of `close`, with the file left behind or the exception -/
  | closed (r : Except Err Bytes)
  deriving DecidableEq, Repr

/-- The output and the main thread -/
structure CState where
  out : State
  main : Main
  deriving DecidableEq, Repr

/-- `with self.lock: for state in self.thread_states.values()` (streaming.py:293-294) -/
def startClose (s : State) : CState := ⟨s, .next s.threads.length s.threads.keys⟩

/-- One step of the main thread.  Iterating over a dict whose size changed is a `RuntimeError`. -/
def mainStep (c : CState) : Option CState :=
  match c.main with
  | .next n rest =>
    if c.out.threads.length ≠ n then some { c with main := .closed (.error .runtime) }
    else
      match rest with
      | [] => some { c with main := .closed (finishFile c.out) }
      | tid :: rest =>
        match c.out.threads.get? tid with
        | none => none
        | some ts =>
          some ⟨{ c.out with file := rawWrite c.out.cap c.out.file (ts.buffer.take ts.used) }, .wrote n tid rest⟩
  | .wrote n tid rest =>
    match c.out.threads.get? tid with
    | none => none
    | some ts =>
      some ⟨{ c.out with
        flushedSize := c.out.flushedSize + ts.used
        threads := c.out.threads.set tid { ts with used := 0 } }, .counted n c.out.flushedSize tid rest⟩
  | .counted n off tid rest =>
    match c.out.threads.get? tid with
    | none => none
    | some ts =>
      some ⟨{ c.out with
        header := c.out.header.update (globalSub off ts.sub)
        threads := c.out.threads.set tid { ts with sub := [], buffer := [] } }, .next n rest⟩
  | .closed _ => none

/-- A step of the main thread or of a worker.  A worker does not get the lock before the file is closed, and nothing it does
afterwards reaches the file. -/
inductive CAction where
  | main
  | begin (tid : ℕ) (k : Key) (t : Tensor)
  | finish (tid : ℕ)
  deriving DecidableEq, Repr

def cstep (c : CState) : CAction → Option CState
  | .main => mainStep c
  | .begin tid k t => (step c.out (.begin tid k t)).map fun s => { c with out := s }
  | .finish tid => (step c.out (.finish tid)).map fun s => { c with out := s }

/-- An execution of `close` together with the workers -/
def crun (c : CState) : List CAction → Option CState
  | [] => some c
  | a :: as => (cstep c a).bind fun c' => crun c' as

end Verif.FailedSave
