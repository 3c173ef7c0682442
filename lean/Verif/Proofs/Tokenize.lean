import Verif.Spec.Text
import Mathlib.Data.List.Basic

namespace Verif.Serialize
open Method Spec

theorem quote_eq (s : Str) : quote s = '"' :: (escaped s ++ ['"']) := by
  unfold quote
  congr 2
  induction s with
  | nil => rfl
  | cons c s ih =>
    unfold escaped
    unfold escBackslash escQuote at ih ⊢
    rw [List.flatMap_cons, List.flatMap_append, ih]
    by_cases h1 : c = '\\'
    · subst h1; simp
    · by_cases h2 : c = '"'
      · subst h2; simp
      · simp [h1, h2]

/-- The neutral state. -/
abbrev S (T : List Str) : Tok := { tokens := T }

theorem fold_plain (w : Str) (hw : Plain w) (T : List Str) (cur pre : Str) :
    w.foldl tokStep ⟨T, cur, pre, false, false⟩ = ⟨T, cur ++ w, pre, false, false⟩ := by
  induction w generalizing cur with
  | nil => simp
  | cons c w ih =>
    obtain ⟨h1, h2, h3⟩ := hw c (by simp)
    rw [List.foldl_cons]
    have : tokStep ⟨T, cur, pre, false, false⟩ c = ⟨T, cur ++ [c], pre, false, false⟩ := by
      simp [tokStep, h1, h2, h3]
    rw [this, ih (fun c hc => hw c (by simp [hc]))]
    simp

theorem fold_escaped (s : Str) (T : List Str) (cur pre : Str) :
    (escaped s).foldl tokStep ⟨T, cur, pre, true, false⟩ = ⟨T, cur ++ s, pre, true, false⟩ := by
  induction s generalizing cur with
  | nil => simp [escaped]
  | cons c s ih =>
    unfold escaped
    split
    · rename_i h
      rw [List.foldl_cons, List.foldl_cons]
      have : tokStep (tokStep ⟨T, cur, pre, true, false⟩ '\\') c = ⟨T, cur ++ [c], pre, true, false⟩ := by
        simp [tokStep]
      rw [this, ih]; simp
    · rename_i h
      push Not at h
      rw [List.foldl_cons]
      have : tokStep ⟨T, cur, pre, true, false⟩ c = ⟨T, cur ++ [c], pre, true, false⟩ := by
        simp [tokStep, h.1, h.2]
      rw [this, ih]; simp

theorem fold_quoted (pre s : Str) (hp : Plain pre) (T : List Str) :
    (Piece.quoted pre s).text.foldl tokStep (S T) = S (T ++ [(Piece.quoted pre s).token]) := by
  unfold Piece.text
  rw [List.foldl_append, fold_plain pre hp, List.foldl_cons]
  have : tokStep ⟨T, [] ++ pre, [], false, false⟩ '"' = ⟨T, [], pre, true, false⟩ := by simp [tokStep]
  rw [this, List.foldl_append, fold_escaped]
  simp [tokStep, Piece.token]

theorem fold_spaces (n : ℕ) (T : List Str) : (List.replicate n ' ').foldl tokStep (S T) = S T := by
  induction n with
  | zero => rfl
  | succ n ih =>
    rw [List.replicate_succ, List.foldl_cons]
    have : tokStep (S T) ' ' = S T := by simp [tokStep]
    rw [this, ih]

theorem fold_piece_space (p : Piece) (hp : p.WF) (T : List Str) :
    (p.text ++ [' ']).foldl tokStep (S T) = S (T ++ [p.token]) := by
  rw [List.foldl_append]
  cases p with
  | quoted pre s => rw [fold_quoted pre s hp]; simp [tokStep]
  | word w =>
    obtain ⟨h1, h2⟩ := hp
    simp only [Piece.text, Piece.token]
    rw [fold_plain w h2]
    simp [tokStep, h1]

theorem end_piece (p : Piece) (hp : p.WF) (T : List Str) :
    tokEnd (p.text.foldl tokStep (S T)) = .ok (T ++ [p.token]) := by
  cases p with
  | quoted pre s => rw [fold_quoted pre s hp]; simp [tokEnd]
  | word w =>
    obtain ⟨h1, h2⟩ := hp
    simp only [Piece.text, Piece.token]
    rw [fold_plain w h2]
    simp [tokEnd, h1]

theorem tokenize_line_aux (ps : List Piece) (s : Str) (h : Line ps s) (hps : ∀ p ∈ ps, p.WF) (T : List Str) :
    tokEnd (s.foldl tokStep (S T)) = .ok (T ++ ps.map Piece.token) := by
  induction h generalizing T with
  | nil n => rw [fold_spaces]; simp [tokEnd]
  | last n m p =>
    rw [List.foldl_append, List.foldl_append, fold_spaces]
    cases m with
    | zero => simpa using end_piece p (hps p (by simp)) T
    | succ m =>
      have h := fold_piece_space p (hps p (by simp)) T
      rw [List.foldl_append, List.foldl_cons, List.foldl_nil] at h
      rw [List.replicate_succ, List.foldl_cons, h, fold_spaces]
      simp [tokEnd]
  | cons n p ps s h ih =>
    have : List.replicate n ' ' ++ p.text ++ ' ' :: s = List.replicate n ' ' ++ ((p.text ++ [' ']) ++ s) := by simp
    rw [this, List.foldl_append, List.foldl_append, fold_spaces, fold_piece_space p (hps p (by simp)),
      ih (fun p hp => hps p (by simp [hp]))]
    simp

/-- A line of arguments is tokenized as meant. -/
theorem tokenize_line (ps : List Piece) (s : Str) (h : Line ps s) (hps : ∀ p ∈ ps, p.WF) :
    tokenize s = .ok (ps.map Piece.token) := by
  have := tokenize_line_aux ps s h hps []
  simpa [tokenize] using this

theorem join_line (ps : List Piece) : Line ps (join ' ' (ps.map Piece.text)) := by
  induction ps with
  | nil => exact Line.nil 0
  | cons p ps ih =>
    cases ps with
    | nil => simpa [join] using Line.last 0 0 p
    | cons q ps =>
      have := Line.cons 0 p (q :: ps) _ ih
      simpa [join] using this

theorem tokenize_join (ps : List Piece) (hps : ∀ p ∈ ps, p.WF) :
    tokenize (join ' ' (ps.map Piece.text)) = .ok (ps.map Piece.token) :=
  tokenize_line ps _ (join_line ps) hps

/-! ## Balanced quotes -/

theorem balanced_iff (s : Str) (t : Tok) :
    (t.escape = false → (balanced t.inside s = true ↔ (s.foldl tokStep t).inside = false)) ∧
    (t.escape = true → (balanced t.inside ('\\' :: s) = true ↔ (s.foldl tokStep t).inside = false)) := by
  induction s generalizing t with
  | nil =>
    constructor
    · intro _; cases h : t.inside <;> simp [balanced, h]
    · intro _; cases h : t.inside <;> simp [balanced, h]
  | cons c s ih =>
    constructor
    · intro he
      rw [List.foldl_cons]
      by_cases h1 : c = '\\'
      · subst h1
        have h2 : tokStep t '\\' = { t with escape := true } := by simp [tokStep, he]
        rw [h2]
        exact (ih { t with escape := true }).2 rfl
      · by_cases h2 : c = '"'
        · subst h2
          have h3 : (tokStep t '"').inside = !t.inside ∧ (tokStep t '"').escape = false := by
            cases hi : t.inside <;> simp [tokStep, he, hi]
          rw [← (ih (tokStep t '"')).1 h3.2, h3.1]
          simp [balanced]
        · have h3 : (tokStep t c).inside = t.inside ∧ (tokStep t c).escape = false := by
            unfold tokStep
            simp only [he, h1, h2, Bool.false_eq_true, if_false]
            split
            · split <;> simp_all
            · simp_all
          rw [← (ih (tokStep t c)).1 h3.2, h3.1]
          have : balanced t.inside (c :: s) = balanced t.inside s := by
            cases s <;> simp [balanced, h1]
          rw [this]
    · intro he
      rw [List.foldl_cons]
      have h3 : (tokStep t c).inside = t.inside ∧ (tokStep t c).escape = false := by
        simp [tokStep, he]
      rw [← (ih (tokStep t c)).1 h3.2, h3.1]
      simp [balanced]

/-- Tokenizing fails exactly on lines with an odd number of unescaped quotes. -/
theorem tokenize_ok_iff (s : Str) : (∃ ts, tokenize s = .ok ts) ↔ balanced false s = true := by
  rw [(balanced_iff s {}).1 rfl]
  unfold tokenize tokEnd
  cases h : (s.foldl tokStep {}).inside with
  | true => simp
  | false =>
    simp only [Bool.false_eq_true, if_false]
    split <;> simp

end Verif.Serialize
