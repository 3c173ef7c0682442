import Verif.Spec.RoundTrip
import Verif.Proofs.Parse

/-!
# A concrete number format, for examples

"Floats" are integers printed with `.0`, and one that is not finite.
-/
namespace Verif.Serialize.Ex
open Method Recipe Spec

def parseNat (w : Str) : Option ℕ := if w ≠ [] ∧ w.all isDigit = true then some (digitsVal w) else none

def parseInt : Str → Option Int
  | '-' :: w => (parseNat w).map fun n => -(n : Int)
  | w => (parseNat w).map fun n => (n : Int)

def point : Str := ".0".toList

def parseFloat (w : Str) : Option (Option Int) :=
  if w.drop (w.length - 2) = point then (parseInt (w.take (w.length - 2))).map some else none

def repr : Option Int → Str
  | some i => reprInt i ++ point
  | none => "inf".toList

theorem parseNat_digits (n : ℕ) : parseNat (digits n) = some n := by
  unfold parseNat
  rw [if_pos ⟨digits_ne_nil n, List.all_eq_true.2 (digits_all n)⟩, digitsVal_digits]

theorem parseInt_repr (i : Int) : parseInt (reprInt i) = some i := by
  cases i with
  | ofNat n =>
    unfold reprInt parseInt
    split
    · rename_i w h
      have := digits_all n '-' (by simp [h])
      exact absurd this (by decide)
    · simp [parseNat_digits]
  | negSucc n =>
    simp only [reprInt, parseInt, parseNat_digits]
    rfl

/-- the format -/
def num : Num (Option Int) where
  repr := repr
  parseFloat := parseFloat
  parseInt := parseInt
  finite := fun f => f.isSome = true
  parseInt_repr := parseInt_repr
  parseFloat_repr := by
    intro f hf
    cases f with
    | none => cases hf
    | some i =>
      unfold repr parseFloat
      have h1 : (reprInt i ++ point).length - 2 = (reprInt i).length := by
        rw [List.length_append]; exact Nat.add_sub_cancel _ _
      simp only [h1, List.drop_left, List.take_left, if_true, parseInt_repr, Option.map_some]
  repr_mark := by
    intro f hf
    cases f with
    | none => cases hf
    | some i => left; simp [repr, point]
  repr_chars := by
    intro f c hc hf
    cases f with
    | none => cases hf
    | some i =>
      simp only [repr, point] at hc
      rcases List.mem_append.1 hc with h | h
      · rcases reprInt_chars i c h with h | h
        · exact Or.inl h
        · simp [h]
      · have : c = '.' ∨ c = '0' := by simpa using h
        rcases this with h | h
        · simp [h]
        · left; subst h; decide
  repr_nonfinite := by
    intro f hf
    cases f with
    | none => left; rfl
    | some i => exact absurd rfl hf
  parseInt_bad := by decide
  parseFloat_bool := by decide

/-- `f(a, b, *, k)`: `a` a model, `b` a number with default 1.0, `k` a string -/
def sigF : Sig (Val (Option Int)) where
  args := [("a".toList, ⟨none, none, false⟩), ("b".toList, ⟨none, none, false⟩)]
  vararg := none
  kwonly := [("k".toList, ⟨none, none, true⟩)]
  defaults := [.float (some 1)]
  kwdefaults := [("k".toList, .str "none".toList)]
  retSpace := .none
  retConfig := none

/-- `g(x)` with `x` in any merge space -/
def sigG : Sig (Val (Option Int)) where
  args := [("x".toList, ⟨none, none, false⟩)]
  vararg := none
  kwonly := []
  defaults := []
  kwdefaults := []
  retSpace := .none
  retConfig := none

def env : Env (Option Int) where
  methods := [("f".toList, sigF), ("g".toList, sigG)]
  configs := ["sd1".toList]
  spaces := ["weight".toList, "delta".toList, "param".toList]
  norm := id

end Verif.Serialize.Ex
