import Verif.Model.Program

/-!
# Specification: the value of a program and of a method when the files answer by a function
-/
namespace Verif.Program.Spec
open Method Recipe Config Eval Program
variable {F T α : Type}

/-- The value of a program if loading `key` from `path` always answers `read path key` -/
def value (read : Str → Str → Except Err T) : Prog T α → α
  | .ret a => a
  | .load p k next => value read (next (read p k))

/-- `arg[k]` for an argument given as a function -/
def look : Option (Arg F T) → Str → Res F T
  | some (.sd get _), k => get k
  | _, _ => .error .type

/-- What a function returns if its questions are answered by `get` -/
def result (get : Idx → Str → Res F T) : Fn F T → Res F T
  | .done r => r
  | .ask i k next => result get (next (get i k))

def shape : Arg F T → Shape F T
  | .val v => .val v
  | .sd _ c => .sd c

/-- A method as a function of its arguments -/
def impl (s : Source F T) : Impl F T where
  types := s.types
  run := fun as ks key => result (fun i => look (argAt as ks i)) (s.body (as.map shape) (fun k => (ks k).map shape) key)

/-- The world in which the files answer by `read` -/
def world (P : PWorld F T) (read : Str → Str → Except Err T) : World F T where
  env := P.env
  conv := P.conv
  tensors := P.tensors
  read := read
  configs := P.configs
  impl := fun m => impl (P.source m)

end Verif.Program.Spec
