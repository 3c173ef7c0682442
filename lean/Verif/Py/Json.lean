import Verif.Py.Decimal
import Verif.Py.Dict

/-!
# The JSON subset of safetensors headers

`json.dumps(obj, separators=(',', ':'))` with python's default `ensure_ascii=True`, and `json.loads`
restricted to what such output contains: strings, non-negative integers, arrays and objects
(no floats, signs, booleans, null, nor white space between tokens).
Python strings with lone surrogates do not exist in this model.
-/
namespace Verif

inductive Json where
  | str (s : List Char)
  | num (n : ℕ)
  | arr (l : List Json)
  | obj (l : List (List Char × Json))

namespace Json

def hexDigit (d : ℕ) : Char := if d < 10 then Char.ofNat (48 + d) else Char.ofNat (87 + d)

def hexVal (c : Char) : Option ℕ :=
  let n := c.toNat
  if 48 ≤ n ∧ n ≤ 57 then some (n - 48)
  else if 97 ≤ n ∧ n ≤ 102 then some (n - 87)
  else if 65 ≤ n ∧ n ≤ 70 then some (n - 55)
  else none

/-- `'\\u{0:04x}'.format(n)` for `n < 0x10000` -/
def escU (n : ℕ) : List Char :=
  ['\\', 'u', hexDigit (n / 4096 % 16), hexDigit (n / 256 % 16), hexDigit (n / 16 % 16), hexDigit (n % 16)]

/-- Escape of one character, as `json.encoder.py_encode_basestring_ascii`. -/
def escChar (c : Char) : List Char :=
  let n := c.toNat
  if n = 34 then ['\\', '"']
  else if n = 92 then ['\\', '\\']
  else if n = 10 then ['\\', 'n']
  else if n = 13 then ['\\', 'r']
  else if n = 9 then ['\\', 't']
  else if n = 12 then ['\\', 'f']
  else if n = 8 then ['\\', 'b']
  else if 32 ≤ n ∧ n ≤ 126 then [c]
  else if n < 65536 then escU n
  else escU (55296 + (n - 65536) / 1024) ++ escU (56320 + (n - 65536) % 1024)

def encStr (s : List Char) : List Char := '"' :: (s.flatMap escChar ++ ['"'])

/-- `sep.join(items)` -/
def joinSep (sep : Char) : List (List Char) → List Char
  | [] => []
  | [x] => x
  | x :: y :: l => x ++ sep :: joinSep sep (y :: l)

mutual
/-- `json.dumps(·, separators=(',', ':'))` -/
def enc : Json → List Char
  | .str s => encStr s
  | .num n => digits n
  | .arr l => '[' :: (joinSep ',' (encList l) ++ [']'])
  | .obj l => '{' :: (joinSep ',' (encFields l) ++ ['}'])
def encList : List Json → List (List Char)
  | [] => []
  | j :: l => enc j :: encList l
def encFields : List (List Char × Json) → List (List Char)
  | [] => []
  | (k, j) :: l => (encStr k ++ ':' :: enc j) :: encFields l
end

def hex4 (a b c d : Char) : Option ℕ := do
  let a ← hexVal a
  let b ← hexVal b
  let c ← hexVal c
  let d ← hexVal d
  return ((a * 16 + b) * 16 + c) * 16 + d

/-- The body of a string literal, after the opening quote; returns the string and what follows it. -/
def parseStr : List Char → Option (List Char × List Char)
  | [] => none
  | '"' :: r => some ([], r)
  | '\\' :: 'u' :: a :: b :: c :: d :: r =>
    match hex4 a b c d with
    | none => none
    | some v =>
      if 55296 ≤ v ∧ v < 56320 then
        match r with
        | '\\' :: 'u' :: e :: f :: g :: h :: r' =>
          match hex4 e f g h with
          | none => none
          | some w =>
            if 56320 ≤ w ∧ w < 57344 then
              (parseStr r').map fun p => (Char.ofNat (65536 + (v - 55296) * 1024 + (w - 56320)) :: p.1, p.2)
            else none
        | _ => none
      else (parseStr r).map fun p => (Char.ofNat v :: p.1, p.2)
  | '\\' :: c :: r =>
    match (match c with
      | '"' => some '"' | '\\' => some '\\' | '/' => some '/' | 'n' => some '\n' | 'r' => some '\r'
      | 't' => some '\t' | 'f' => some (Char.ofNat 12) | 'b' => some (Char.ofNat 8) | _ => none : Option Char) with
    | none => none
    | some e => (parseStr r).map fun p => (e :: p.1, p.2)
  | c :: r => if c.toNat < 32 then none else (parseStr r).map fun p => (c :: p.1, p.2)

def parseNum (cs : List Char) : Option (ℕ × List Char) :=
  match cs.takeWhile isDigit with
  | [] => none
  | ds => some (digitsVal ds, cs.dropWhile isDigit)

mutual
/-- `json.loads` on the subset, with fuel. -/
def parseVal : ℕ → List Char → Option (Json × List Char)
  | 0, _ => none
  | _ + 1, '"' :: r => (parseStr r).map fun p => (.str p.1, p.2)
  | _ + 1, '[' :: ']' :: r => some (.arr [], r)
  | f + 1, '[' :: r => (parseItems f r).map fun p => (.arr p.1, p.2)
  | _ + 1, '{' :: '}' :: r => some (.obj [], r)
  | f + 1, '{' :: r => (parseFields f r).map fun p => (.obj p.1, p.2)
  | _ + 1, r => (parseNum r).map fun p => (.num p.1, p.2)
def parseItems : ℕ → List Char → Option (List Json × List Char)
  | 0, _ => none
  | f + 1, r =>
    match parseVal f r with
    | some (v, ',' :: r') => (parseItems f r').map fun p => (v :: p.1, p.2)
    | some (v, ']' :: r') => some ([v], r')
    | _ => none
def parseFields : ℕ → List Char → Option (List (List Char × Json) × List Char)
  | 0, _ => none
  | f + 1, '"' :: r =>
    match parseStr r with
    | some (k, ':' :: r') =>
      match parseVal f r' with
      | some (v, ',' :: r'') => (parseFields f r'').map fun p => ((k, v) :: p.1, p.2)
      | some (v, '}' :: r'') => some ([(k, v)], r'')
      | _ => none
    | _ => none
  | _ + 1, _ => none
end

/-- Parse a whole document. -/
def parse (cs : List Char) : Option Json :=
  match parseVal (cs.length + 1) cs with
  | some (v, []) => some v
  | _ => none

end Json
end Verif
