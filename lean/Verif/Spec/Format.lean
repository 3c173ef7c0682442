import Verif.Spec.RoundTrip

/-!
# What well-formed recipe texts look like
-/
namespace Verif.Serialize.Spec
open Method Recipe

/-- White space followed by `#`. -/
def Comment (line : Str) : Prop := ∃ a b, line = a ++ '#' :: b ∧ ∀ c ∈ a, isSpace c = true

/-- The part of an argument that holds its value: after the first `=` if there is one. -/
def valuePart (t : Str) : Str := if '=' ∈ t then (t.dropWhile (fun c => decide (c ≠ '='))).tail else t

def commands : List Str := ["dict".toList, "literal".toList, "model".toList, "merge".toList]

open Classical in
/-- How many lines are instructions. -/
noncomputable def instructions (ls : List Str) : ℕ := (ls.filter fun l => decide (¬ Comment l)).length

/-- A line is one of the four commands, its quotes are balanced, and its references point to one of the first
`n` instructions. -/
def GoodLine (parseInt : Str → Option Int) (n : ℕ) (line : Str) : Prop :=
  balanced false line = true ∧ ∃ cmd args, tokenize (strip line) = .ok (cmd :: args) ∧ cmd ∈ commands ∧
    ∀ t ∈ args, ∀ w, valuePart t = '&' :: w → ∃ i : ℕ, parseInt w = some (i : Int) ∧ i < n

/-- `ls'` is `ls` with white space around lines and comment lines added anywhere. -/
inductive Noise : List Str → List Str → Prop where
  | nil : Noise [] []
  | comment {ls ls' l} (hl : Comment l) (h : Noise ls ls') : Noise ls (l :: ls')
  | line {ls ls' a l b} (ha : ∀ c ∈ a, isSpace c = true) (hb : ∀ c ∈ b, isSpace c = true) (h : Noise ls ls') :
      Noise (l :: ls) ((a ++ l ++ b) :: ls')

end Verif.Serialize.Spec
