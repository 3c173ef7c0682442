import Verif.Proofs.Text
import Verif.Model.Convert
import Mathlib.Tactic.Linarith

/-! # Facts about decimal numbers in keys and about searching for them -/
namespace Verif.Text
open Convert

theorem digits_isDigit (n : ℕ) : ∀ c ∈ digits n, isDigit c = true := by
  intro c hc
  obtain ⟨d, hd, rfl⟩ := List.mem_map.1 hc
  have := Nat.isDigit_of_mem_toDigits (b := 10) (n := n) (by omega) (by omega) hd
  unfold Char.isDigit at this
  unfold isDigit
  simp only [Bool.and_eq_true, decide_eq_true_eq] at this ⊢
  exact ⟨UInt32.le_iff_toNat_le.1 this.1, UInt32.le_iff_toNat_le.1 this.2⟩

theorem digits_ne_nil (n : ℕ) : digits n ≠ [] := by
  unfold digits
  rw [Ne, List.map_eq_nil_iff]
  exact Nat.toDigits_ne_nil

theorem number_digits (n : ℕ) : number (digits n) = n := by
  have h := Nat.ofDigitChars_ten_toDigits (n := n)
  unfold Nat.ofDigitChars at h
  unfold number digits
  rw [List.foldl_map]
  exact h

theorem spanDigits_append (ds s : Text) (h : ∀ c ∈ ds, isDigit c = true) (hs : ∀ c ∈ s.head?, isDigit c = false) : spanDigits (ds ++ s) = (ds, s) := by
  induction ds with
  | nil =>
    cases s with
    | nil => rfl
    | cons c s =>
      have := hs c rfl
      show spanDigits (c :: s) = _
      rw [spanDigits, this]
      rfl
  | cons d ds ih =>
    rw [List.cons_append, spanDigits, h d List.mem_cons_self, ih fun c hc => h c (List.mem_cons_of_mem _ hc)]
    rfl

theorem matchNumber_digits (n : ℕ) (s : Text) : matchNumber (digits n ++ key% "." ++ s) = some (digits n) := by
  unfold matchNumber
  rw [List.append_assoc, spanDigits_append _ _ (digits_isDigit n) (by simp [isDigit])]
  have : (digits n).isEmpty = false := by
    cases h : digits n with
    | nil => exact absurd h (digits_ne_nil n)
    | cons => rfl
  simp [this, startsWith]

theorem search_none (p s : Text) (h : ¬ p <:+: s) : search p s = none := by
  induction s with
  | nil => rfl
  | cons c s ih =>
    rw [List.infix_cons_iff, not_or] at h
    have h1 : startsWith p (c :: s) = false := by
      rw [← Bool.not_eq_true, startsWith_iff]
      exact h.1
    rw [search, h1, ih h.2]
    rfl

/-- A pattern that starts with a dot and a letter does not start before or in a number. -/
theorem occurs_digits (c : ℕ) (p : Text) (hc : isDigit c = false) (n : ℕ) (s : Text) :
    occurs (46 :: c :: p) (46 :: (digits n ++ 46 :: s)) = occurs (46 :: c :: p) (46 :: s) := by
  have hd := digits_isDigit n
  cases h : digits n with
  | nil => exact absurd h (digits_ne_nil n)
  | cons d ds =>
    rw [h] at hd
    have hne : c ≠ d := by rintro rfl; rw [hd _ List.mem_cons_self] at hc; cases hc
    have inner : ∀ ds : Text, (∀ c ∈ ds, isDigit c = true) → occurs (46 :: c :: p) (ds ++ 46 :: s) = occurs (46 :: c :: p) (46 :: s) := by
      intro ds hds
      induction ds with
      | nil => rfl
      | cons d ds ih =>
        have : (46 : ℕ) ≠ d := by rintro rfl; have := hds _ List.mem_cons_self; cases this
        rw [List.cons_append, occurs, ih fun c hc => hds c (List.mem_cons_of_mem _ hc)]
        simp [List.isPrefixOf, this]
    rw [occurs, inner _ hd]
    simp [List.isPrefixOf, hne]

theorem search_digits_none (c : ℕ) (p : Text) (hc : isDigit c = false) (n : ℕ) (s : Text) (h : ¬ 46 :: c :: p <:+: 46 :: s) :
    search (46 :: c :: p) (46 :: (digits n ++ 46 :: s)) = none := by
  apply search_none
  rw [← occurs_iff, occurs_digits c p hc, occurs_iff]
  exact h

end Verif.Text
