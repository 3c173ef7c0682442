import Verif.Model.Builtin

/-!
# Merging all keys (sd_mecha/merging.py:170-204, 300-340)

The executor, its futures and the loop of the main thread as a transition system.  `job key` is the outcome of
`recipe.accept(KeyMergeVisitor(key))`.  Logging, progress bars, cuda streams and `check_finite` (a warning) are left out.
-/
namespace Verif.Merge
open Method Recipe Config Eval

variable {V : Type}

/-- What `track_output` does with the outcome of a key (merging.py:300-310): store a value, skip a `StateDictKeyError`, let
other exceptions through. -/
def track : Except Err V → Option V × Option Err
  | .ok v => (some v, none)
  | .error .stateDictKey => (none, none)
  | .error e => (none, some e)

/-- State of a merge with a thread pool. -/
structure State (V : Type) where
  /-- keys the main thread has not submitted yet -/
  toSubmit : List Str
  /-- futures not started -/
  queue : List Str
  /-- futures being run by a worker -/
  running : List Str
  /-- finished futures the main thread has not looked at, with their exceptions -/
  done : List (Str × Option Err)
  /-- assignments `output[key] = value` so far, oldest first -/
  stores : List (Str × V)
  /-- the exception the main thread is about to raise -/
  raising : Option Err

/-- Before the loop (merging.py:182-188) -/
def init (keys : List Str) : State V := ⟨keys, [], [], [], [], none⟩

/-- One step of the main thread or of a worker; `n` is `max_workers`.
* `submit` (merging.py:190-195)
* `start`: a free worker takes the oldest future
* `finish`: a worker completes its future; the assignment to the output is atomic
* `see`, `fail`: the loop over `as_completed` (merging.py:197-202) looks at a finished future.  Which one is left open.
* `cancel`: `future_to_cancel.cancel()` of a future not started yet (merging.py:199-200), in any order and between
  any other steps. -/
inductive Step (n : ℕ) (job : Str → Except Err V) : State V → State V → Prop
  | submit (s : State V) (k : Str) (ks : List Str) (h : s.toSubmit = k :: ks) :
    Step n job s { s with toSubmit := ks, queue := s.queue ++ [k] }
  | start (s : State V) (k : Str) (q : List Str) (h : s.queue = k :: q) (hn : s.running.length < n) :
    Step n job s { s with queue := q, running := s.running ++ [k] }
  | finish (s : State V) (k : Str) (h : k ∈ s.running) :
    Step n job s { s with
      running := s.running.erase k
      done := s.done ++ [(k, (track (job k)).2)]
      stores := match (track (job k)).1 with | some v => s.stores ++ [(k, v)] | none => s.stores }
  | see (s : State V) (k : Str) (h1 : s.toSubmit = []) (h2 : s.raising = none) (h : (k, none) ∈ s.done) :
    Step n job s { s with done := s.done.erase (k, none) }
  | fail (s : State V) (k : Str) (e : Err) (h1 : s.toSubmit = []) (h2 : s.raising = none) (h : (k, some e) ∈ s.done) :
    Step n job s { s with raising := some e }
  | cancel (s : State V) (k : Str) (h1 : s.raising.isSome) (h : k ∈ s.queue) :
    Step n job s { s with queue := s.queue.erase k }

/-- How a merge ends -/
inductive Outcome where
  | returned
  | raised (e : Err)
  deriving DecidableEq, Repr

/-- The call is over: all futures seen, or an exception raised and the pool shut down, which waits for its workers
(`with executor`, merging.py:175). -/
def State.over (s : State V) : Option Outcome :=
  if s.toSubmit = [] ∧ s.queue = [] ∧ s.running = [] then
    match s.raising with
    | some e => some (.raised e)
    | none => if s.done = [] then some .returned else none
  else none

/-- `threads=0`: `ThisThreadExecutor.submit` runs the key at once and lets exceptions through (merging.py:340-345).
Returns the assignments made and the outcome. -/
def sequential (job : Str → Except Err V) : List Str → List (Str × V) × Outcome
  | [] => ([], .returned)
  | k :: ks =>
    match track (job k) with
    | (_, some e) => ([], .raised e)
    | (some v, none) => ((k, v) :: (sequential job ks).1, (sequential job ks).2)
    | (none, none) => sequential job ks

/-- An in-memory `output` after the assignments -/
def finalOutput (out : Dict Str V) (stores : List (Str × V)) : Dict Str V := out.update stores

/-- The keys looped over (merging.py:157-168), with fresh metadata: those of the recipe's config, without the ema component if
`omit_ema`.  (See C38 for what happens when the config was used before.) -/
def targetKeys (cfg : ModelConfig) (omitEma : Bool) : List Str :=
  match omitEma, cfg.components.get? "ema".toList with
  | true, some ema => cfg.metadata.keys.filter (fun k => decide (k ∉ Dict.keys ema))
  | _, _ => cfg.metadata.keys

/-- `recipe.model_config.metadata()` and the deletions (merging.py:157-168); a recipe without config has no `metadata`. -/
def recipeKeys {F T : Type} (W : World F T) (r : Val F) (omitEma : Bool) : Except Err (List Str) :=
  match configOf W r with
  | .error e => .error e
  | .ok none => .error .attribute
  | .ok (some cfg) => .ok (targetKeys cfg omitEma)

end Verif.Merge
