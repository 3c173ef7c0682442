import Mathlib.Tactic.Common
import Mathlib.Data.List.Basic
import Mathlib.Data.Nat.Notation
import Mathlib.Tactic.IntervalCases
import Mathlib.Tactic.Linarith

/-!
# Decimal notation of natural numbers

`str(n)` for a non-negative python `int`, and reading it back (`int(s)` on digit strings).
-/
namespace Verif

/-- The decimal digit `d < 10` as a character. -/
def digitChar (d : ℕ) : Char := Char.ofNat (48 + d)

/-- `str(n)` for a non-negative int. -/
def digits (n : ℕ) : List Char :=
  if n < 10 then [digitChar n] else digits (n / 10) ++ [digitChar (n % 10)]
termination_by n
decreasing_by omega

def isDigit (c : Char) : Bool := 48 ≤ c.toNat && c.toNat ≤ 57

def digitVal (c : Char) : ℕ := c.toNat - 48

/-- Value of a string of digits (`int(s)`). -/
def digitsVal (cs : List Char) : ℕ := cs.foldl (fun a c => a * 10 + digitVal c) 0

theorem digitChar_toNat {d : ℕ} (h : d < 10) : (digitChar d).toNat = 48 + d := by
  interval_cases d <;> rfl

theorem isDigit_digitChar {d : ℕ} (h : d < 10) : isDigit (digitChar d) = true := by
  simp [isDigit, digitChar_toNat h]; omega

theorem digitVal_digitChar {d : ℕ} (h : d < 10) : digitVal (digitChar d) = d := by
  simp [digitVal, digitChar_toNat h]

theorem digits_lt {n : ℕ} (h : n < 10) : digits n = [digitChar n] := by
  rw [digits]; simp [h]

theorem digits_ge {n : ℕ} (h : 10 ≤ n) : digits n = digits (n / 10) ++ [digitChar (n % 10)] := by
  conv => lhs; rw [digits]
  simp [Nat.not_lt.2 h]

theorem digits_all (n : ℕ) : ∀ c ∈ digits n, isDigit c = true := by
  induction n using Nat.strong_induction_on with
  | _ n ih =>
    rcases Nat.lt_or_ge n 10 with h | h
    · rw [digits_lt h]; simp [isDigit_digitChar h]
    · rw [digits_ge h]
      intro c hc
      rcases List.mem_append.1 hc with hc | hc
      · exact ih _ (by omega) c hc
      · simp at hc; subst hc; exact isDigit_digitChar (by omega)

theorem digits_ne_nil (n : ℕ) : digits n ≠ [] := by
  rcases Nat.lt_or_ge n 10 with h | h
  · rw [digits_lt h]; simp
  · rw [digits_ge h]; simp

@[simp] theorem digitsVal_digits (n : ℕ) : digitsVal (digits n) = n := by
  induction n using Nat.strong_induction_on with
  | _ n ih =>
    rcases Nat.lt_or_ge n 10 with h | h
    · rw [digits_lt h]; simp [digitsVal, digitVal_digitChar h]
    · rw [digits_ge h]
      have := ih (n / 10) (by omega)
      simp only [digitsVal] at this ⊢
      rw [List.foldl_append, this]
      simp only [List.foldl_cons, List.foldl_nil]
      rw [digitVal_digitChar (Nat.mod_lt _ (by omega))]
      omega

theorem digits_injective {m n : ℕ} (h : digits m = digits n) : m = n := by
  rw [← digitsVal_digits m, h, digitsVal_digits]

theorem digits_length_pos (n : ℕ) : 0 < (digits n).length :=
  List.length_pos_iff.2 (digits_ne_nil n)

/-- The decimal length is monotone. -/
theorem digits_length_mono {m n : ℕ} (h : m ≤ n) : (digits m).length ≤ (digits n).length := by
  induction n using Nat.strong_induction_on generalizing m with
  | _ n ih =>
    rcases Nat.lt_or_ge m 10 with hm | hm
    · rw [digits_lt hm]; exact digits_length_pos n
    · rw [digits_ge hm, digits_ge (le_trans hm h)]
      simp only [List.length_append, List.length_cons, List.length_nil]
      have h1 : n / 10 < n := by omega
      have h2 : m / 10 ≤ n / 10 := by omega
      have := @ih (n / 10) h1 (m / 10) h2
      omega

end Verif
