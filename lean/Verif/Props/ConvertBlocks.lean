import Verif.Proofs.Digits

/-! # Blocks of any number -/
namespace Verif.Convert
open Text

theorem unetBlock_in (base : Text) (out k ds : Text) (h1 : occurs base k = false) (h2 : occurs (key% ".out.") k = false)
    (h3 : search (key% ".input_blocks.") k = some ds) : unetBlock [base] out k = key% "IN" ++ pad2 (number ds) := by
  unfold unetBlock
  rw [List.any_cons, h1, h2, h3]
  rfl

theorem unetBlock_mid (base : Text) (out k ds : Text) (h1 : occurs base k = false) (h2 : occurs (key% ".out.") k = false)
    (h3 : search (key% ".input_blocks.") k = none) (h4 : search (key% ".middle_block.") k = some ds) : unetBlock [base] out k = key% "M00" := by
  unfold unetBlock
  rw [List.any_cons, h1, h2, h3, h4]
  rfl

theorem unetBlock_out (base : Text) (out k ds : Text) (h1 : occurs base k = false) (h2 : occurs (key% ".out.") k = false)
    (h3 : search (key% ".input_blocks.") k = none) (h4 : search (key% ".middle_block.") k = none) (h5 : search (key% ".output_blocks.") k = some ds) :
    unetBlock [base] out k = key% "OUT" ++ pad2 (number ds) := by
  unfold unetBlock
  rw [List.any_cons, h1, h2, h3, h4, h5]
  rfl

/-- For any number and any layer below it, not only those of the tables: `input_blocks.<n>` is `IN<n>`, `output_blocks.<n>` is `OUT<n>` with
at least two digits and everything below `middle_block.<n>` is `M00`, provided that the layer is not called `out` or `time_embed…`. -/
theorem C60_number (n : ℕ) (rest : Text) (h1 : ¬ key% ".time_embed" <:+: key% "." ++ rest) (h2 : ¬ key% ".out." <:+: key% "." ++ rest)
    (h3 : ¬ key% ".input_blocks." <:+: key% "." ++ rest) (h4 : ¬ key% ".middle_block." <:+: key% "." ++ rest) :
    sd1Blocks (key% "model.diffusion_model.input_blocks." ++ digits n ++ key% "." ++ rest) = some (.read (key% "IN" ++ pad2 n)) ∧
    sd1Blocks (key% "model.diffusion_model.middle_block." ++ digits n ++ key% "." ++ rest) = some (.read (key% "M00")) ∧
    sd1Blocks (key% "model.diffusion_model.output_blocks." ++ digits n ++ key% "." ++ rest) = some (.read (key% "OUT" ++ pad2 n)) := by
  have h1' : occurs (key% ".time_embed") (46 :: rest) = false := by rw [← Bool.not_eq_true, occurs_iff]; exact h1
  have h2' : occurs (key% ".out.") (46 :: rest) = false := by rw [← Bool.not_eq_true, occurs_iff]; exact h2
  have e1 := (occurs_digits 116 (key% "ime_embed") rfl n rest).trans h1'
  have e2 := (occurs_digits 111 (key% "ut.") rfl n rest).trans h2'
  have e3 := search_digits_none 105 (key% "nput_blocks.") rfl n rest h3
  have e4 := search_digits_none 109 (key% "iddle_block.") rfl n rest h4
  have e5 := matchNumber_digits n rest
  have blocks : ∀ k, startsWith (key% "model.diffusion_model.") k = true → sd1Blocks k = some (.read (unetBlock [key% ".time_embed"] (key% "OUT11") k)) := by
    intro k hk
    unfold sd1Blocks
    rw [hk]
    rfl
  simp only [List.append_assoc]
  refine ⟨?_, ?_, ?_⟩
  · rw [blocks _ rfl, unetBlock_in _ _ _ (digits n) ?_ ?_ ?_, number_digits]
    · exact e1
    · exact e2
    · rw [List.append_assoc] at e5
      show (match matchNumber (digits n ++ (key% "." ++ rest)) with | some ds => some ds | none => search _ _) = _
      rw [e5]
  · rw [blocks _ rfl, unetBlock_mid _ _ _ (digits n) ?_ ?_ ?_ ?_]
    · exact e1
    · exact e2
    · exact e3
    · rw [List.append_assoc] at e5
      show (match matchNumber (digits n ++ (key% "." ++ rest)) with | some ds => some ds | none => search _ _) = _
      rw [e5]
  · rw [blocks _ rfl, unetBlock_out _ _ _ (digits n) ?_ ?_ ?_ ?_ ?_, number_digits]
    · exact e1
    · exact e2
    · exact e3
    · exact e4
    · rw [List.append_assoc] at e5
      show (match matchNumber (digits n ++ (key% "." ++ rest)) with | some ds => some ds | none => search _ _) = _
      rw [e5]

/-- `input_blocks.1.1.transformer_blocks.0.attn1.to_out.0.weight`: `to_out` is not `out`. -/
example : ¬ key% ".time_embed" <:+: key% "." ++ key% "1.transformer_blocks.0.attn1.to_out.0.weight" ∧
    ¬ key% ".out." <:+: key% "." ++ key% "1.transformer_blocks.0.attn1.to_out.0.weight" ∧
    ¬ key% ".input_blocks." <:+: key% "." ++ key% "1.transformer_blocks.0.attn1.to_out.0.weight" ∧
    ¬ key% ".middle_block." <:+: key% "." ++ key% "1.transformer_blocks.0.attn1.to_out.0.weight" := by
  simp only [← occurs_iff]
  decide

/-- The provisos are needed: a layer called `out` below an input block would be taken for the last output block. -/
example : sd1Blocks (key% "model.diffusion_model.input_blocks.3.out.weight") = some (.read (key% "OUT11")) := by decide

end Verif.Convert
