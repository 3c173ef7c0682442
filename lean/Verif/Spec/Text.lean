import Verif.Model.Serialize

/-!
# Specification of instruction lines

A line is a sequence of arguments separated by spaces.  An argument is a word, or a quoted string that may
follow a prefix (`key="..."`).
-/
namespace Verif.Serialize.Spec
open Method

/-- An argument as the author of a line means it. -/
inductive Piece where
  | word (w : Str)
  | quoted (pre s : Str)
  deriving DecidableEq, Repr

/-- A quoted string as it is written: backslashes and quotes are preceded by a backslash. -/
def escaped : Str → Str
  | [] => []
  | c :: s => if c = '\\' ∨ c = '"' then '\\' :: c :: escaped s else c :: escaped s

/-- The text of an argument. -/
def Piece.text : Piece → Str
  | .word w => w
  | .quoted pre s => pre ++ '"' :: (escaped s ++ ['"'])

/-- What the reader should get: the word, or the prefix followed by the string between quotes, unescaped. -/
def Piece.token : Piece → Str
  | .word w => w
  | .quoted pre s => pre ++ '"' :: (s ++ ['"'])

/-- No character of the word is special. -/
def Plain (w : Str) : Prop := ∀ c ∈ w, c ≠ ' ' ∧ c ≠ '"' ∧ c ≠ '\\'

instance (w : Str) : Decidable (Plain w) := by unfold Plain; infer_instance

/-- Words are plain and not empty, prefixes are plain; strings are arbitrary. -/
def Piece.WF : Piece → Prop
  | .word w => w ≠ [] ∧ Plain w
  | .quoted pre _ => Plain pre

instance (p : Piece) : Decidable p.WF := by cases p <;> unfold Piece.WF <;> infer_instance

/-- Arguments separated by one or more spaces, possibly with spaces around. -/
inductive Line : List Piece → Str → Prop where
  | nil (n : ℕ) : Line [] (List.replicate n ' ')
  | last (n m : ℕ) (p : Piece) : Line [p] (List.replicate n ' ' ++ p.text ++ List.replicate m ' ')
  | cons (n : ℕ) (p : Piece) (ps : List Piece) (s : Str) (h : Line ps s) :
      Line (p :: ps) (List.replicate n ' ' ++ p.text ++ ' ' :: s)

/-- Unescaped quotes of a line are balanced: an automaton with two bits. -/
def balanced : Bool → Str → Bool
  | inside, [] => !inside
  | inside, '\\' :: _ :: s => balanced inside s
  | inside, ['\\'] => !inside
  | inside, '"' :: s => balanced (!inside) s
  | inside, _ :: s => balanced inside s

end Verif.Serialize.Spec
