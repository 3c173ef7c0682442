import Verif.Model.Rank
import Verif.Props.Region
import Mathlib.Tactic.NormNum
import Mathlib.Tactic.Linarith
import Mathlib.Tactic.NoncommRing
import Mathlib.Data.Matrix.Mul
import Mathlib.LinearAlgebra.Matrix.Trace
import Mathlib.Analysis.InnerProductSpace.GramSchmidtOrtho
import Mathlib.Analysis.InnerProductSpace.PiL2
import Mathlib.LinearAlgebra.Matrix.Notation

/-!
# C85: cutting the rank of a delta
-/
namespace Verif.Rank

open Matrix

/-- What is assumed of the routines: an orthonormal basis that spans the columns, and a product that gives the matrix back, for matrices with
at least as many rows as columns. -/
structure Routines.Ok (R : Routines) : Prop where
  qr_orthonormal {m q : ℕ} (h : q ≤ m) (B : Matrix (Fin m) (Fin q) ℝ) : (R.qr B)ᵀ * R.qr B = 1
  qr_span {m q : ℕ} (h : q ≤ m) (B : Matrix (Fin m) (Fin q) ℝ) : ∃ T : Matrix (Fin q) (Fin q) ℝ, B = R.qr B * T
  svd {m q : ℕ} (h : q ≤ m) (B : Matrix (Fin m) (Fin q) ℝ) : R.u B * diagonal (R.s B) * R.vh B = B

variable {R : Routines} {m n : ℕ}

theorem targetRank_le (m n : ℕ) (ratio : ℚ) : targetRank m n ratio ≤ m ∧ targetRank m n ratio ≤ n := by
  unfold targetRank
  omega

theorem truncate_eq (hR : R.Ok) {A r : Matrix (Fin m) (Fin n) ℝ} {ratio : ℚ} (h : truncateRank R A ratio = some r) :
    r = A * basis R A (targetRank m n ratio) * (basis R A (targetRank m n ratio))ᵀ := by
  unfold truncateRank svdLowrank at h
  split at h
  · simp only [Option.map_some, Option.some.injEq] at h
    rw [← h, transpose_mul, transpose_transpose, ← Matrix.mul_assoc, hR.svd (targetRank_le _ _ _).1]
  · cases h

theorem refine_orthonormal (hR : R.Ok) (A : Matrix (Fin m) (Fin n) ℝ) {q : ℕ} (hn : q ≤ n) (k : ℕ) (Q : Matrix (Fin n) (Fin q) ℝ) (hQ : Qᵀ * Q = 1) :
    (refine R A k Q)ᵀ * refine R A k Q = 1 := by
  induction k generalizing Q with
  | zero => exact hQ
  | succ k ih => exact ih _ (hR.qr_orthonormal hn _)

theorem basis_orthonormal (hR : R.Ok) (A : Matrix (Fin m) (Fin n) ℝ) {q : ℕ} (hn : q ≤ n) : (basis R A q)ᵀ * basis R A q = 1 :=
  refine_orthonormal hR A hn _ _ (hR.qr_orthonormal hn _)

/-- **C85.**  The result has at most the target rank. -/
theorem C85_rank (hR : R.Ok) (A r : Matrix (Fin m) (Fin n) ℝ) (ratio : ℚ) (h : truncateRank R A ratio = some r) : r.rank ≤ targetRank m n ratio := by
  rw [truncate_eq hR h]
  refine (rank_mul_le_right _ _).trans ?_
  simpa using rank_le_card_height (basis R A (targetRank m n ratio))ᵀ

/-- The sum of the squares of the entries -/
def energy (A : Matrix (Fin m) (Fin n) ℝ) : ℝ := ∑ i, ∑ j, A i j ^ 2

theorem energy_trace (A : Matrix (Fin m) (Fin n) ℝ) : energy A = (A * Aᵀ).trace := by
  simp [energy, trace, Matrix.mul_apply, sq]

/-- **C85.**  What is cut off is orthogonal to what is kept: the squares add up.  So the result is never larger than the delta. -/
theorem C85_energy (hR : R.Ok) (A r : Matrix (Fin m) (Fin n) ℝ) (ratio : ℚ) (h : truncateRank R A ratio = some r) :
    energy A = energy r + energy (A - r) ∧ energy r ≤ energy A := by
  have hr := truncate_eq hR h
  have hq := basis_orthonormal hR A (targetRank_le m n ratio).2
  generalize basis R A (targetRank m n ratio) = Q at hr hq
  have h1 : r * rᵀ = A * rᵀ := by
    rw [hr, transpose_mul, transpose_mul, transpose_transpose]
    calc A * Q * Qᵀ * (Q * (Qᵀ * Aᵀ)) = A * Q * (Qᵀ * Q) * (Qᵀ * Aᵀ) := by simp only [Matrix.mul_assoc]
      _ = A * (Q * (Qᵀ * Aᵀ)) := by rw [hq, Matrix.mul_one, Matrix.mul_assoc]
  have h2 : r * rᵀ = r * Aᵀ := by
    have := congrArg transpose h1
    simpa only [transpose_mul, transpose_transpose] using this
  have h3 : A * Aᵀ = r * rᵀ + (A - r) * (A - r)ᵀ := by
    rw [transpose_sub, Matrix.sub_mul, Matrix.mul_sub, Matrix.mul_sub, ← h1, ← h2]
    abel
  have h4 : energy A = energy r + energy (A - r) := by
    rw [energy_trace, energy_trace, energy_trace, h3, trace_add]
  refine ⟨h4, ?_⟩
  have : 0 ≤ energy (A - r) := Finset.sum_nonneg fun i _ => Finset.sum_nonneg fun j _ => sq_nonneg _
  linarith

/-- Spanning the rows of a matrix -/
theorem span_step (hR : R.Ok) (A : Matrix (Fin m) (Fin n) ℝ) {q : ℕ} (hm : q ≤ m) (hn : q ≤ n) (Q : Matrix (Fin n) (Fin q) ℝ) (h : A = A * Q * Qᵀ) :
    A = A * R.qr (Aᵀ * R.qr (A * Q)) * (R.qr (Aᵀ * R.qr (A * Q)))ᵀ := by
  obtain ⟨T, hT⟩ := hR.qr_span hm (A * Q)
  have ho := hR.qr_orthonormal hm (A * Q)
  generalize R.qr (A * Q) = P at hT ho
  obtain ⟨U, hU⟩ := hR.qr_span hn (Aᵀ * P)
  have ho' := hR.qr_orthonormal hn (Aᵀ * P)
  generalize R.qr (Aᵀ * P) = S at hU ho'
  have h1 : A = P * (Pᵀ * A) := by
    have h2 : A = P * (T * Qᵀ) := by rw [← Matrix.mul_assoc, ← hT]; exact h
    calc A = P * (T * Qᵀ) := h2
      _ = P * ((Pᵀ * P) * (T * Qᵀ)) := by rw [ho, Matrix.one_mul]
      _ = P * (Pᵀ * (P * (T * Qᵀ))) := by simp only [Matrix.mul_assoc]
      _ = P * (Pᵀ * A) := by rw [← h2]
  have h3 : Pᵀ * A = Uᵀ * Sᵀ := by
    have := congrArg transpose hU
    simpa only [transpose_mul, transpose_transpose] using this
  have h4 : A = P * Uᵀ * Sᵀ := by rw [Matrix.mul_assoc, ← h3]; exact h1
  calc A = P * Uᵀ * Sᵀ := h4
    _ = P * Uᵀ * ((Sᵀ * S) * Sᵀ) := by rw [ho', Matrix.one_mul]
    _ = P * Uᵀ * Sᵀ * S * Sᵀ := by simp only [Matrix.mul_assoc]
    _ = A * S * Sᵀ := by rw [← h4]

theorem refine_span (hR : R.Ok) (A : Matrix (Fin m) (Fin n) ℝ) {q : ℕ} (hm : q ≤ m) (hn : q ≤ n) (k : ℕ) (Q : Matrix (Fin n) (Fin q) ℝ)
    (h : A = A * Q * Qᵀ) : A = A * refine R A k Q * (refine R A k Q)ᵀ := by
  induction k generalizing Q with
  | zero => exact h
  | succ k ih => exact ih _ (span_step hR A hm hn Q h)

/-- **C85.**  If the random combinations of the rows, as many as the target rank, span the rows of the delta, the delta is returned as it is. -/
theorem C85_exact (hR : R.Ok) (A r : Matrix (Fin m) (Fin n) ℝ) (ratio : ℚ) (h : truncateRank R A ratio = some r)
    (hs : ∃ W : Matrix (Fin m) (Fin (targetRank m n ratio)) ℝ, A = W * ((R.randn m (targetRank m n ratio))ᵀ * A)) : r = A := by
  rw [truncate_eq hR h]
  refine (refine_span hR A (targetRank_le _ _ _).1 (targetRank_le _ _ _).2 2 _ ?_).symm
  obtain ⟨W, hW⟩ := hs
  obtain ⟨T, hT⟩ := hR.qr_span (targetRank_le m n ratio).2 (Aᵀ * R.randn m (targetRank m n ratio))
  have ho := hR.qr_orthonormal (targetRank_le m n ratio).2 (Aᵀ * R.randn m (targetRank m n ratio))
  generalize R.qr (Aᵀ * R.randn m (targetRank m n ratio)) = Q at hT ho
  have h1 : (R.randn m (targetRank m n ratio))ᵀ * A = Tᵀ * Qᵀ := by
    have := congrArg transpose hT
    simpa only [transpose_mul, transpose_transpose] using this
  rw [h1] at hW
  calc A = W * (Tᵀ * Qᵀ) := hW
    _ = W * (Tᵀ * ((Qᵀ * Q) * Qᵀ)) := by rw [ho, Matrix.one_mul]
    _ = W * (Tᵀ * Qᵀ) * Q * Qᵀ := by simp only [Matrix.mul_assoc]
    _ = A * Q * Qᵀ := by rw [← hW]

/-- **C85.**  The method returns, unless the matrix has no more columns than rows and the target rank is the number of columns. -/
theorem C85_returns_partial (A : Matrix (Fin m) (Fin n) ℝ) (ratio : ℚ) : (truncateRank R A ratio).isSome ↔ ¬ (n ≤ m ∧ targetRank m n ratio = n) := by
  have := targetRank_le m n ratio
  unfold truncateRank svdLowrank
  split
  · simp only [Option.map_some, Option.isSome_some, true_iff]
    omega
  · simp only [Option.map_none, Option.isSome_none, Bool.false_eq_true, false_iff, not_not]
    omega

theorem targetRank_full (m n : ℕ) (ratio : ℚ) (h : 1 ≤ ratio) (hmn : 0 < min m n) : targetRank m n ratio = min m n := by
  have h1 : ((min m n : ℕ) : Int) ≤ Region.pyRound ((min m n : ℕ) * ratio) := by
    rw [← Region.pyRound_nat (min m n)]
    apply Region.pyRound_mono
    exact le_mul_of_one_le_right (by positivity) h
  unfold targetRank
  omega

/-- **C85** is false of matrices with no more columns than rows: keeping the full rank raises, where it should change nothing. -/
theorem C85_full_false (A : Matrix (Fin m) (Fin n) ℝ) (ratio : ℚ) (h : 1 ≤ ratio) (hn : 0 < n) (hnm : n ≤ m) : truncateRank R A ratio = none := by
  have := (C85_returns_partial (R := R) A ratio).not.2 (not_not.2 ⟨hnm, by rw [targetRank_full _ _ _ h (by omega)]; omega⟩)
  simpa using this

/-- **C85** is false of matrices with a single column: whatever the ratio, the method raises. -/
theorem C85_column_false (A : Matrix (Fin m) (Fin 1) ℝ) (ratio : ℚ) (hm : 0 < m) : truncateRank R A ratio = none := by
  have := (C85_returns_partial (R := R) A ratio).not.2 (not_not.2 ⟨hm, by unfold targetRank; omega⟩)
  simpa using this

/-- Half the rank of a 4 by 6 matrix is kept, a fifth of 2 is rounded to 0 and then raised to 1, and a half of 5 is rounded to the even 2. -/
example : targetRank 4 6 (1 / 2) = 2 ∧ targetRank 2 9 (1 / 5) = 1 ∧ targetRank 5 7 (1 / 2) = 2 := by decide +kernel

/-- Every matrix with at least as many rows as columns has a QR decomposition. -/
theorem exists_qr {m q : ℕ} (h : q ≤ m) (B : Matrix (Fin m) (Fin q) ℝ) :
    ∃ Q : Matrix (Fin m) (Fin q) ℝ, Qᵀ * Q = 1 ∧ ∃ T : Matrix (Fin q) (Fin q) ℝ, B = Q * T := by
  obtain ⟨d, rfl⟩ := Nat.exists_eq_add_of_le h
  let f : Fin (q + d) → EuclideanSpace ℝ (Fin (q + d)) := Fin.append (fun j => WithLp.toLp 2 fun i => B i j) (fun _ => 0)
  have hc : Module.finrank ℝ (EuclideanSpace ℝ (Fin (q + d))) = Fintype.card (Fin (q + d)) := by simp
  let b := InnerProductSpace.gramSchmidtOrthonormalBasis hc f
  refine ⟨Matrix.of fun i j => b (Fin.castAdd d j) i, ?_, Matrix.of fun j k => inner ℝ (b (Fin.castAdd d j)) (f (Fin.castAdd d k)), ?_⟩
  · ext j k
    have := b.inner_eq_ite (Fin.castAdd d j) (Fin.castAdd d k)
    simp only [PiLp.inner_apply] at this
    simp only [Matrix.mul_apply, transpose_apply, Matrix.of_apply, Matrix.one_apply]
    rw [show (if j = k then (1 : ℝ) else 0) = if Fin.castAdd d j = Fin.castAdd d k then (1 : ℝ) else 0 by simp [Fin.ext_iff], ← this]
    apply Finset.sum_congr rfl
    intro i _
    simp [mul_comm]
  · ext i k
    have h1 := congrArg (fun v : EuclideanSpace ℝ (Fin (q + d)) => v i) (b.sum_repr' (f (Fin.castAdd d k)))
    simp only [Matrix.mul_apply, Matrix.of_apply]
    have h2 : f (Fin.castAdd d k) i = B i k := by simp [f]
    rw [← h2, ← h1]
    simp only [WithLp.ofLp_sum, Finset.sum_apply, PiLp.smul_apply, smul_eq_mul]
    rw [Fin.sum_univ_add]
    rw [add_eq_left.2]
    · exact Finset.sum_congr rfl fun j _ => mul_comm _ _
    · apply Finset.sum_eq_zero
      intro j _
      rw [InnerProductSpace.gramSchmidtOrthonormalBasis_inv_triangular hc f, zero_mul]
      rw [Fin.lt_def]
      simp only [Fin.val_castAdd, Fin.val_natAdd]
      omega

open Classical in
/-- The assumptions on the routines can be met. -/
theorem routines_exist : ∃ R : Routines, R.Ok := by
  refine ⟨{ randn := fun _ _ => 0, qr := fun {m q} B => if h : q ≤ m then (exists_qr h B).choose else 0, u := fun B => B, s := fun _ => 1, vh := fun _ => 1 }, ?_, ?_, ?_⟩
  · intro m q h B
    simp only [dif_pos h]
    exact (exists_qr h B).choose_spec.1
  · intro m q h B
    simp only [dif_pos h]
    exact (exists_qr h B).choose_spec.2
  · intro m q h B
    simp

/-- A 2 by 3 matrix at half the rank: the result exists and has rank at most one. -/
example : ∃ R : Routines, R.Ok ∧ ∃ r, truncateRank R !![1, 2, 3; 4, 5, 6] (1 / 2) = some r ∧ r.rank ≤ 1 := by
  obtain ⟨R, hR⟩ := routines_exist
  have ht : targetRank 2 3 (1 / 2) = 1 := by decide +kernel
  obtain ⟨r, hr⟩ := Option.isSome_iff_exists.1 ((C85_returns_partial (R := R) !![1, 2, 3; 4, 5, 6] (1 / 2)).2 (by omega))
  exact ⟨R, hR, r, hr, ht ▸ C85_rank hR _ r (1 / 2) hr⟩

end Verif.Rank
