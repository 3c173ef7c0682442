import Lean.Elab.Term
import Mathlib.Data.Nat.Notation

/-!
# Strings of the key tables and Python's string methods on them

A string is the list of its code points.  `key% "abc"` is notation for `[97, 98, 99]`.
-/
namespace Verif

abbrev Text := List ℕ

open Lean Elab Term in
/-- `key% "abc"` is the list of the code points of the literal. -/
elab "key% " s:str : term => do
  let mut e := mkApp (mkConst ``List.nil [.zero]) (mkConst ``Nat)
  for c in s.getString.toList.reverse do
    e := mkApp3 (mkConst ``List.cons [.zero]) (mkConst ``Nat) (mkRawNatLit c.toNat) e
  return e

namespace Text

/-- `s.startswith(p)` -/
def startsWith (p : Text) (s : Text) : Bool := p.isPrefixOf s

/-- `p in s` -/
def occurs (p : Text) : Text → Bool
  | [] => p.isPrefixOf []
  | c :: s => p.isPrefixOf (c :: s) || occurs p s

/-- Replacement from left to right; the first argument is how many characters of an occurrence are still to be skipped. -/
def replaceFrom (p r : Text) : ℕ → Text → Text
  | _, [] => []
  | n + 1, _ :: s => replaceFrom p r n s
  | 0, c :: s => if p.isPrefixOf (c :: s) then r ++ replaceFrom p r (p.length - 1) s else c :: replaceFrom p r 0 s

/-- `s.replace(p, r)` for nonempty `p` -/
def replace (p r : Text) (s : Text) : Text := replaceFrom p r 0 s

/-- `s.endswith(p)` -/
def endsWith (p : Text) (s : Text) : Bool := p.reverse.isPrefixOf s.reverse

/-- `s.split(".")`: the part before the first dot and the parts after it -/
def splitDots : Text → Text × List Text
  | [] => ([], [])
  | c :: s => if c = 46 then ([], (splitDots s).1 :: (splitDots s).2) else (c :: (splitDots s).1, (splitDots s).2)

/-- `s.split(".")` -/
def split (s : Text) : List Text := (splitDots s).1 :: (splitDots s).2

/-- `sep.join(parts)` -/
def join (sep : Text) : List Text → Text
  | [] => []
  | [p] => p
  | p :: q :: ps => p ++ sep ++ join sep (q :: ps)

/-- Replacements one after another: `for p, r in d.items(): s = s.replace(p, r)` -/
def replaceAll (d : List (Text × Text)) (s : Text) : Text := d.foldl (fun s pr => replace pr.1 pr.2 s) s

def isDigit (c : ℕ) : Bool := 48 ≤ c && c ≤ 57

/-- The decimal number given by digits -/
def number (ds : Text) : ℕ := ds.foldl (fun n d => 10 * n + (d - 48)) 0

/-- `str(n)` -/
def digits (n : ℕ) : Text := (Nat.toDigits 10 n).map Char.toNat

/-- `f"{n:02}"` -/
def pad2 (n : ℕ) : Text := if n < 10 then 48 :: digits n else digits n

end Text
end Verif
