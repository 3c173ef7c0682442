import Verif.Model.Inputs

/-!
# Buffer sizes and thread counts of a merge (sd_mecha/merging.py:140-157, 170; sd_mecha/recipe_nodes.py:233-250)

Sizes are natural numbers: a negative `total_buffer_size` is not considered.
-/
namespace Verif.Budget
open Method Inputs Infer

mutual
/-- `ModelsCountVisitor` (recipe_nodes.py:233-250) with the list of nodes seen; `node in seen` compares objects.  Literals are not looked
into. -/
def count : Tree → List ℕ → ℕ × List ℕ
  | .raw _, seen => (0, seen)
  | .lit, seen => (0, seen)
  | .dict _ _, seen => (0, seen)
  | .model id _, seen => (if id ∈ seen then 0 else 1, seen ++ [id])
  | .merge cs, seen => countC cs seen
def countC : List (Option RegCfg × Tree) → List ℕ → ℕ × List ℕ
  | [], seen => (0, seen)
  | (_, t) :: cs, seen =>
    match count t seen with
    | (n, seen) =>
      match countC cs seen with
      | (k, seen) => (n + k, seen)
end

/-- `total_files_open` (merging.py:142-145) -/
def filesOpen (t : Tree) (outputIsFile : Bool) : ℕ := (count t []).1 + if outputIsFile then 1 else 0

/-- `buffer_size_per_file` (merging.py:146) -/
def perFile (total files : ℕ) : ℕ := total / max 1 files

/-- `threads` (merging.py:139-140, 147-148); `none` is the default.  `cpus` is `os.cpu_count()`. -/
def threadCount (threads : Option Int) (files cpus : ℕ) : Except Err ℕ :=
  match threads with
  | some n => if n < 0 then .error .runtime else .ok n.toNat
  | none => .ok (min (min (max files 2) cpus) 8)

/-- `buffer_size_per_file_per_thread` (merging.py:170) -/
def perThread (total files threads : ℕ) : ℕ := perFile total files / max 1 threads

/-- The threads that call `recipe.accept`: the pool's (at most `threads`), or the calling one (merging.py:150-155) -/
def workers (threads : ℕ) : ℕ := if threads = 0 then 1 else threads

end Verif.Budget
