import Verif.Model.Recipe
import Verif.Py.Decimal

/-!
# The `.mecha` text format (sd_mecha/serialization.py)

Text is `List Char`.  The only exceptions whose class matters are told apart as in `Err`; messages are left out.
-/
namespace Verif.Serialize
open Method Recipe
variable {F : Type}

/-- `str(i)` of an int -/
def reprInt : Int → Str
  | .ofNat n => digits n
  | .negSucc n => '-' :: digits (n + 1)

/-- What is assumed of numbers: `str(f)`/`float(s)` of floats and `int(s)`.
`repr(float)` of a finite float has a point or an exponent and is read back exactly; that of the others
(`inf`, `-inf`, `nan`) has neither, and is no integer. -/
structure Num (F : Type) where
  /-- `str(f)` -/
  repr : F → Str
  /-- `float(s)`, `none` for `ValueError` -/
  parseFloat : Str → Option F
  /-- `int(s)` -/
  parseInt : Str → Option Int
  finite : F → Prop
  parseInt_repr : ∀ i, parseInt (reprInt i) = some i
  parseFloat_repr : ∀ f, finite f → parseFloat (repr f) = some f
  repr_mark : ∀ f, finite f → '.' ∈ repr f ∨ 'e' ∈ repr f
  repr_chars : ∀ f, ∀ c ∈ repr f, finite f → isDigit c = true ∨ c = '.' ∨ c = 'e' ∨ c = '+' ∨ c = '-'
  repr_nonfinite : ∀ f, ¬ finite f → repr f = "inf".toList ∨ repr f = "-inf".toList ∨ repr f = "nan".toList
  parseInt_bad : parseInt "inf".toList = none ∧ parseInt "-inf".toList = none ∧ parseInt "nan".toList = none
  parseFloat_bool : parseFloat "True".toList = none ∧ parseFloat "False".toList = none

/-! ## Writing (serialization.py:139-227) -/

/-- `value.replace("\\", "\\\\")` -/
def escBackslash (s : Str) : Str := s.flatMap fun c => if c = '\\' then ['\\', '\\'] else [c]

/-- `value.replace('"', "\\\"")` -/
def escQuote (s : Str) : Str := s.flatMap fun c => if c = '"' then ['\\', '"'] else [c]

/-- serialization.py:207-209 -/
def quote (s : Str) : Str := '"' :: (escQuote (escBackslash s) ++ ['"'])

/-- `sep.join(parts)` -/
def join (sep : Char) : List Str → Str
  | [] => []
  | [a] => a
  | a :: l => a ++ sep :: join sep l

/-- `__add_instruction` (serialization.py:222-227) -/
def addInstr (line : Str) (st : List Str) : Str × List Str :=
  match st.findIdx? fun l => decide (l = line) with
  | some i => ('&' :: digits i, st)
  | none => ('&' :: digits st.length, st ++ [line])

def boolStr : Bool → Str
  | true => "True".toList
  | false => "False".toList

def nullStr : Str := "null".toList

/-- the config of a model, which may be unknown (serialization.py:189) -/
def optQuote : Option Str → Str
  | some c => quote c
  | none => nullStr

mutual
/-- `__serialize_value` (serialization.py:206-220) with the `visit_*` methods (177-204) inlined.
The state is `self.instructions`. -/
def serVal (N : Num F) : Val F → List Str → Except Err (Str × List Str)
  | .str s, st => .ok (quote s, st)
  | .dict es, st => do
    let (parts, st) ← serK N es st
    .ok (addInstr ("dict ".toList ++ join ' ' parts) st)
  | .int i, st => .ok (reprInt i, st)
  | .float f, st => .ok (N.repr f, st)
  | .bool b, st => .ok (boolStr b, st)
  | .none, st => .ok (nullStr, st)
  | .tensor _, _ => .error .type
  | .lit v c s, st => do
    let (value, st) ← serVal N v st
    match c with
    | none => .ok (value, st)
    | some c => .ok (addInstr ("literal ".toList ++ value ++ " model_config=".toList ++ quote c
        ++ " merge_space=".toList ++ quote s) st)
  | .model p c s, st =>
    match s with
    | none => .error .attribute
    | some s => .ok (addInstr ("model ".toList ++ quote p ++ " model_config=".toList
        ++ optQuote c ++ " merge_space=".toList ++ quote s) st)
  | .merge m args kwargs, st => do
    let (as, st) ← serL N args st
    let (ks, st) ← serK N kwargs st
    .ok (addInstr (join ' ' ("merge".toList :: quote m :: (as ++ ks))) st)
def serL (N : Num F) : List (Val F) → List Str → Except Err (List Str × List Str)
  | [], st => .ok ([], st)
  | v :: l, st => do
    let (a, st) ← serVal N v st
    let (as, st) ← serL N l st
    .ok (a :: as, st)
/-- `f"{k}={self.__serialize_value(v)}"` for each entry -/
def serK (N : Num F) : List (Str × Val F) → List Str → Except Err (List Str × List Str)
  | [], st => .ok ([], st)
  | (k, v) :: l, st => do
    let (a, st) ← serVal N v st
    let (as, st) ← serK N l st
    .ok ((k ++ '=' :: a) :: as, st)
end

/-- `get_version_header(MECHA_FORMAT_VERSION)` (serialization.py:8, 169-170) -/
def header : Str := "version 0.1.0".toList

/-- `serialize(recipe)` without output file (serialization.py:139-166) -/
def serialize (N : Num F) (r : Val F) : Except Err Str := do
  let (_, st) ← serVal N r []
  .ok (join '\n' (header :: st))

/-! ## Reading (serialization.py:22-136) -/

/-- State of `tokenize` (serialization.py:97-101). -/
structure Tok where
  tokens : List Str := []
  cur : Str := []
  pre : Str := []
  inside : Bool := false
  escape : Bool := false
  deriving DecidableEq, Repr

/-- One round of the loop (serialization.py:102-123). -/
def tokStep (t : Tok) (c : Char) : Tok :=
  if t.escape then { t with escape := false, cur := t.cur ++ [c] }
  else if c = '\\' then { t with escape := true }
  else if c = '"' then
    if t.inside then
      { t with inside := false, tokens := t.tokens ++ [t.pre ++ '"' :: (t.cur ++ ['"'])], cur := [], pre := [] }
    else { t with inside := true, pre := t.cur, cur := [] }
  else if c = ' ' ∧ t.inside = false then
    if t.cur ≠ [] then { t with tokens := t.tokens ++ [t.cur], cur := [] } else t
  else { t with cur := t.cur ++ [c] }

/-- serialization.py:124-128 -/
def tokEnd (t : Tok) : Except Err (List Str) :=
  if t.inside then .error .value
  else if t.cur ≠ [] then .ok (t.tokens ++ [t.cur]) else .ok t.tokens

def tokenize (line : Str) : Except Err (List Str) := tokEnd (line.foldl tokStep {})

/-- `get_arg_value` (serialization.py:78-94) -/
def getArg (N : Num F) (rs : List (Val F)) (arg : Str) : Except Err (Val F) :=
  if arg = nullStr then .ok .none
  else if arg = "true".toList then .ok (.bool true)
  else if arg = "false".toList then .ok (.bool false)
  else if arg.head? = some '&' then
    match N.parseInt arg.tail with
    | none => .error .value
    | some i =>
      if i < 0 ∨ (rs.length : Int) ≤ i then .error .value
      else match rs[i.toNat]? with
        | some v => .ok v
        | none => .error .index
  else if arg.head? = some '"' ∧ arg.getLast? = some '"' then .ok (.str arg.tail.dropLast)
  else if '.' ∈ arg ∨ 'e' ∈ arg ∨ 'E' ∈ arg then
    match N.parseFloat arg with
    | some f => .ok (.float f)
    | none => .error .value
  else
    match N.parseInt arg with
    | some i => .ok (.int i)
    | none => .error .value

/-- `arg.split('=', maxsplit=1)`: the parts before and after the first `=`, if there is one -/
def splitEq : Str → Option (Str × Str)
  | [] => none
  | c :: l => if c = '=' then some ([], l) else (splitEq l).map fun p => (c :: p.1, p.2)

/-- `preprocess_args` (serialization.py:67-76) -/
def preArgs (N : Num F) (rs : List (Val F)) : List Str → List (Val F) → Dict Str (Val F) →
    Except Err (List (Val F) × Dict Str (Val F))
  | [], pos, named => .ok (pos, named)
  | a :: l, pos, named =>
    match splitEq a with
    | some (k, v) =>
      match getArg N rs v with
      | .error e => .error e
      | .ok x => preArgs N rs l pos (named.set k x)
    | none =>
      match getArg N rs a with
      | .error e => .error e
      | .ok x => preArgs N rs l (pos ++ [x]) named

/-- A keyword that must be `None` or a string; anything else is accepted by the code and stored, but then no
config or merge space.  Simplification: it is an error here. -/
def optStr : Option (Val F) → Except Err (Option Str)
  | none => .ok none
  | some .none => .ok none
  | some (.str s) => .ok (some s)
  | some _ => .error .type

/-- `dict(*pos, **named)` (serialization.py:54): a positional argument is a mapping, or an iterable of pairs,
of which only the empty string occurs. -/
def cmdDict (pos : List (Val F)) (named : Dict Str (Val F)) : Except Err (Val F) :=
  match pos with
  | [] => .ok (.dict named)
  | [.dict d] => .ok (.dict (Dict.update d named))
  | [.str []] => .ok (.dict named)
  | [.str _] => .error .value
  | _ => .error .type

def kwValue : Str := "value".toList
def kwConfig : Str := "model_config".toList
def kwSpace : Str := "merge_space".toList
def kwPath : Str := "path".toList

/-- `LiteralRecipeNode(*pos, **named)` (serialization.py:56) -/
def cmdLiteral (E : Env F) (pos : List (Val F)) (named : Dict Str (Val F)) : Except Err (Val F) :=
  if named.any fun p => decide (p.1 ≠ kwValue ∧ p.1 ≠ kwConfig ∧ p.1 ≠ kwSpace) then .error .type
  else do
    let v ← match pos, named.get? kwValue with
      | [v], none => .ok v
      | [], some v => .ok v
      | _, _ => .error .type
    let c ← E.resolveConfig (← optStr (named.get? kwConfig))
    let s ← E.resolveSpace (← optStr (named.get? kwSpace))
    mkLit E v c s

/-- `ModelRecipeNode(pathlib.Path(pos[0]), *pos[1:], **named)` (serialization.py:58-59) -/
def cmdModel (E : Env F) (pos : List (Val F)) (named : Dict Str (Val F)) : Except Err (Val F) :=
  match pos with
  | [] => .error .index
  | .str p :: rest =>
    if rest ≠ [] ∨ named.any (fun q => decide (q.1 ≠ kwConfig ∧ q.1 ≠ kwSpace)) = true then .error .type
    else do
      let c ← E.resolveConfig (← optStr (named.get? kwConfig))
      let s ← match named.get? kwSpace with
        | none => .ok (some "weight".toList)
        | some v => E.resolveSpace (← optStr (some v))
      .ok (.model (E.norm p) c s)
  | _ :: _ => .error .type

/-- serialization.py:61-63 -/
def cmdMerge (E : Env F) (pos : List (Val F)) (named : Dict Str (Val F)) : Except Err (Val F) :=
  match pos with
  | [] => .error .value
  | .str m :: args => if "self".toList ∈ named.keys then .error .type else createRecipe E m args named
  | _ :: _ => .error .value

/-- serialization.py:53-65 -/
def command (E : Env F) (cmd : Str) (pos : List (Val F)) (named : Dict Str (Val F)) : Except Err (Val F) :=
  if cmd = "dict".toList then cmdDict pos named
  else if cmd = "literal".toList then cmdLiteral E pos named
  else if cmd = "model".toList then cmdModel E pos named
  else if cmd = "merge".toList then cmdMerge E pos named
  else .error .value

/-- `c.isspace()` -/
def isSpace (c : Char) : Bool :=
  let n := c.toNat
  (9 ≤ n && n ≤ 13) || (28 ≤ n && n ≤ 32) || n == 0x85 || n == 0xa0 || n == 0x1680 || (0x2000 ≤ n && n ≤ 0x200a)
    || n == 0x2028 || n == 0x2029 || n == 0x202f || n == 0x205f || n == 0x3000

/-- `line.strip()` -/
def strip (line : Str) : Str := ((line.dropWhile isSpace).reverse.dropWhile isSpace).reverse

/-- `parse` (serialization.py:46-65): the value appended to `results`, `none` for a comment -/
def parseLine (N : Num F) (E : Env F) (rs : List (Val F)) (line : Str) : Except Err (Option (Val F)) :=
  let line := strip line
  if line.head? = some '#' then .ok none
  else
    match tokenize line with
    | .error e => .error e
    | .ok [] => .error .value
    | .ok (cmd :: args) =>
      match preArgs N rs args [] [] with
      | .error e => .error e
      | .ok (pos, named) => some <$> command E cmd pos named

/-- The loop over lines (serialization.py:130-134). -/
def parseLines (N : Num F) (E : Env F) : List Str → List (Val F) → Except Err (List (Val F))
  | [], rs => .ok rs
  | l :: ls, rs =>
    match parseLine N E rs l with
    | .error e => .error e
    | .ok none => parseLines N E ls rs
    | .ok (some v) => parseLines N E ls (rs ++ [v])

/-- `deserialize` on a list of lines (serialization.py:36-136) -/
def deserializeLines (N : Num F) (E : Env F) (lines : List Str) : Except Err (Val F) :=
  match lines with
  | [] => .error .index
  | h :: ls =>
    if h ≠ header then .error .runtime
    else
      match parseLines N E ls [] with
      | .error e => .error e
      | .ok rs =>
        match rs.getLast? with
        | some v => .ok v
        | none => .error .index

/-- `s.split(sep)` -/
def splitOn (sep : Char) : Str → List Str
  | [] => [[]]
  | c :: l =>
    if c = sep then [] :: splitOn sep l
    else match splitOn sep l with
      | [] => [[c]]
      | h :: t => (c :: h) :: t

/-- `deserialize` on a string (serialization.py:33-34) -/
def deserialize (N : Num F) (E : Env F) (text : Str) : Except Err (Val F) :=
  deserializeLines N E (splitOn '\n' text)

end Verif.Serialize
