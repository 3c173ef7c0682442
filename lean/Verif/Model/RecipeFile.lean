import Verif.Model.Serialize

/-!
# Recipes in files (sd_mecha/serialization.py:11-19, 139-168; examples/recipe_deserialize.py)

Files hold characters: that they are encoded, and that this can fail, is left out.
-/
namespace Verif.RecipeFile
open Method Recipe Serialize
variable {F : Type}

/-- Files by path, as far as they are there -/
abbrev Files := Str → Option Str

/-- What a file opened for writing text does with line ends: `os.linesep` is `\r\n` on Windows, `\n` elsewhere. -/
def encode (crlf : Bool) : Str → Str
  | [] => []
  | c :: l => if c = '\n' ∧ crlf = true then '\r' :: '\n' :: encode crlf l else c :: encode crlf l

/-- What a file opened for reading text does with them (universal newlines).  The flag says that the character before was `\r`. -/
def decode (cr : Bool) : Str → Str
  | [] => []
  | c :: l =>
    if c = '\r' then '\n' :: decode true l
    else if c = '\n' ∧ cr = true then decode false l
    else c :: decode false l

/-- `path.write_text(text)`; the directory may be missing. -/
def writeText (crlf : Bool) (writable : Str → Bool) (fs : Files) (path text : Str) : Files × Except Err Unit :=
  if writable path then (fun q => if q = path then some (encode crlf text) else fs q, .ok ()) else (fs, .error .os)

/-- `serialize(recipe, output=path)` (serialization.py:153-167) -/
def serializeTo (N : Num F) (crlf : Bool) (writable : Str → Bool) (fs : Files) (r : Val F) (path : Str) : Files × Except Err Str :=
  match serialize N r with
  | .error e => (fs, .error e)
  | .ok text =>
    match writeText crlf writable fs path text with
    | (fs, .error e) => (fs, .error e)
    | (fs, .ok ()) => (fs, .ok text)

/-- `path.name` of a path in normal form -/
def name (path : Str) : Str := (splitOn '/' path).getLast?.getD []

/-- `path.suffix`, of the name -/
def suffix (name : Str) : Str :=
  let ext := name.reverse.takeWhile (· ≠ '.')
  let rest := name.reverse.drop (ext.length + 1)
  if ext.isEmpty || rest.isEmpty then [] else '.' :: ext.reverse

def mecha : Str := ".mecha".toList

/-- `deserialize_path` (serialization.py:11-19) -/
def deserializePath (N : Num F) (E : Env F) (fs : Files) (path : Str) : Except Err (Val F) :=
  match fs path with
  | none => .error .value
  | some content => if suffix (name path) = mecha then deserialize N E (decode false content) else .error .value

/-- `f.readlines()` -/
def readlines : Str → List Str
  | [] => []
  | c :: l =>
    if c = '\n' then [c] :: readlines l
    else match readlines l with
      | [] => [[c]]
      | h :: t => (c :: h) :: t

/-- `with open(path) as f: deserialize(f.readlines())` (examples/recipe_deserialize.py:7-8) -/
def exampleDeserialize (N : Num F) (E : Env F) (fs : Files) (path : Str) : Except Err (Val F) :=
  match fs path with
  | none => .error .os
  | some content => deserializeLines N E (readlines (decode false content))

end Verif.RecipeFile
