import Verif.Model.StreamIn
import Verif.Model.StreamOut

/-!
# Saving a recipe over one model to a file (sd_mecha/merging.py:157-202, 264-293)

The input is opened first (merging.py:157), then the output is, for writing (merging.py:172-182, streaming.py:200): the file at that path
becomes empty.  Nothing compares the two paths.  If they name the same file, what the input reads afterwards comes from what the output
has written so far.

`threads=0`; `f key` is what the recipe makes of the model's tensor at `key` (casts included).
-/
namespace Verif.Overwrite
open StreamOut

/-- The steps of `output[key] = tensor` in the only thread (streaming.py:212-233) -/
def putActions (w : StreamOut.State) (k : Key) (t : Tensor) : List Action :=
  match (w.threads.get? 0).getD ⟨List.replicate w.minBuf 0, 0, [], .idle⟩ with
  | ts => if t.bytes.length > ts.buffer.length - ts.used then [.begin 0 k t, .locked 0, .finish 0] else [.begin 0 k t]

/-- `output[key] = tensor` -/
def put (w : StreamOut.State) (k : Key) (t : Tensor) : Option StreamOut.State := StreamOut.run w (putActions w k t)

/-- What the input sees of its file: `shared` says that the output is the same file. -/
def view (shared : Bool) (r : StreamIn.State) (w : StreamOut.State) : StreamIn.State :=
  if shared then { r with file := w.file.content } else r

/-- The loop over the keys (merging.py:188-202) with `_track_output` (merging.py:301-313) -/
def copy (shared : Bool) (f : Key → Tensor → Tensor) (r : StreamIn.State) (w : StreamOut.State) :
    List Key → Except Err StreamOut.State
  | [] => .ok w
  | k :: ks =>
    match StreamIn.getItem (view shared r w) k with
    | (r', .ok v) =>
      match put w k (f k ⟨v.dtype, v.shape, r'.read v⟩) with
      | some w' => copy shared f r' w' ks
      | none => .error .runtime
    | (r', .error .stateDictKey) => copy shared f r' w ks
    | (_, .error e) => .error e

/-- `merge(recipe, output=path, threads=0)`; the content of the file left at `path` -/
def save (shared : Bool) (f : Key → Tensor → Tensor) (input : Bytes) (bs rcap : ℕ) (declared : Dict Key Meta)
    (recipe : Option (List Char)) (minBuf cap : ℕ) (keys : List Key) : Except Err Bytes :=
  match StreamIn.open_ input bs rcap with
  | .error e => .error e
  | .ok r =>
    match copy shared f r (StreamOut.init declared recipe minBuf cap) keys with
    | .error e => .error e
    | .ok w => StreamOut.close w

end Verif.Overwrite
