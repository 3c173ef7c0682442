import Mathlib.Analysis.InnerProductSpace.SingularValues
import Mathlib.Analysis.InnerProductSpace.JointEigenspace
import Mathlib.Analysis.Matrix.Hermitian
import Mathlib.LinearAlgebra.Basis.VectorSpace
import Mathlib.LinearAlgebra.Matrix.Basis

/-!
# Decompositions of square matrices exist

The singular value decomposition of a real matrix, and the eigenvectors of a rotation: what the numerical routines are assumed to compute.
-/
namespace Verif.Decompose

open Matrix Module

variable {n : ℕ}

theorem exists_svd (B : Matrix (Fin n) (Fin n) ℝ) : ∃ (U : Matrix (Fin n) (Fin n) ℝ) (s : Fin n → ℝ) (Vt : Matrix (Fin n) (Fin n) ℝ),
    Uᵀ * U = 1 ∧ Vt * Vtᵀ = 1 ∧ (∀ i, 0 ≤ s i) ∧ Antitone s ∧ U * diagonal s * Vt = B := by
  have hE : finrank ℝ (EuclideanSpace ℝ (Fin n)) = n := by simp
  obtain ⟨T, hT⟩ : ∃ T : EuclideanSpace ℝ (Fin n) →ₗ[ℝ] EuclideanSpace ℝ (Fin n), T = toEuclideanLin B := ⟨_, rfl⟩
  have hsym := T.isSymmetric_adjoint_comp_self
  obtain ⟨v, hv⟩ : ∃ v : OrthonormalBasis (Fin n) ℝ (EuclideanSpace ℝ (Fin n)), v = hsym.eigenvectorBasis hE := ⟨_, rfl⟩
  obtain ⟨l, hl⟩ : ∃ l : Fin n → ℝ, l = hsym.eigenvalues hE := ⟨_, rfl⟩
  have hin : ∀ i j, inner ℝ (T (v i)) (T (v j)) = if i = j then l j else 0 := by
    intro i j
    have h1 : (LinearMap.adjoint T ∘ₗ T) (v j) = l j • v j := by
      rw [hv, hl]
      exact hsym.apply_eigenvectorBasis hE j
    rw [← LinearMap.adjoint_inner_right, ← LinearMap.comp_apply, h1, inner_smul_right, orthonormal_iff_ite.1 v.orthonormal]
    split <;> simp
  have hl0 : ∀ i, 0 ≤ l i := by
    intro i
    have := hin i i
    rw [if_pos rfl] at this
    rw [← this]
    exact real_inner_self_nonneg
  -- the directions with nonzero stretch
  have hon : Orthonormal ℝ (Set.restrict {i | l i ≠ 0} fun i => (Real.sqrt (l i))⁻¹ • T (v i)) := by
    rw [orthonormal_iff_ite]
    rintro ⟨i, hi⟩ ⟨j, hj⟩
    show inner ℝ ((Real.sqrt (l i))⁻¹ • T (v i)) ((Real.sqrt (l j))⁻¹ • T (v j)) = _
    simp only [inner_smul_left, inner_smul_right, hin, Subtype.mk.injEq]
    by_cases h : i = j
    · subst h
      simp only [if_true, RCLike.conj_to_real]
      have h1 : Real.sqrt (l i) * Real.sqrt (l i) = l i := Real.mul_self_sqrt (hl0 i)
      have h2 : Real.sqrt (l i) ≠ 0 := fun h0 => hi (by rw [← h1, h0, mul_zero])
      rw [← h1]
      field_simp
      rw [Real.sqrt_sq (Real.sqrt_nonneg _)]
    · simp [h]
  obtain ⟨u, hu⟩ := hon.exists_orthonormalBasis_extension_of_card_eq (by simp)
  have hTv : ∀ i, T (v i) = Real.sqrt (l i) • u i := by
    intro i
    by_cases h : l i = 0
    · rw [h, Real.sqrt_zero, zero_smul, ← inner_self_eq_zero (𝕜 := ℝ), hin, if_pos rfl, h]
    · rw [hu i h, smul_smul, mul_inv_cancel₀, one_smul]
      exact (Real.sqrt_pos.2 (lt_of_le_of_ne (hl0 i) (Ne.symm h))).ne'
  have hcols : ∀ w : OrthonormalBasis (Fin n) ℝ (EuclideanSpace ℝ (Fin n)), (Matrix.of fun k i => w i k)ᵀ * (Matrix.of fun k i => w i k) = (1 : Matrix (Fin n) (Fin n) ℝ) := by
    intro w
    ext i j
    have h1 := orthonormal_iff_ite.1 w.orthonormal i j
    rw [Matrix.mul_apply, Matrix.one_apply, ← h1, PiLp.inner_apply]
    exact Finset.sum_congr rfl fun k _ => by simp [mul_comm]
  refine ⟨Matrix.of fun k i => u i k, fun i => Real.sqrt (l i), (Matrix.of fun k i => v i k)ᵀ, hcols u, ?_, fun i => Real.sqrt_nonneg _, ?_, ?_⟩
  · rw [transpose_transpose]
    exact hcols v
  · intro i j hij
    refine Real.sqrt_le_sqrt ?_
    rw [hl]
    exact hsym.eigenvalues_antitone hE hij
  · have h1 : B * (Matrix.of fun k i => v i k) = (Matrix.of fun k i => u i k) * diagonal fun i => Real.sqrt (l i) := by
      ext k i
      rw [Matrix.mul_diagonal]
      have h2 := congrArg (fun x : EuclideanSpace ℝ (Fin n) => x k) (hTv i)
      rw [hT] at h2
      simp only [PiLp.smul_apply, smul_eq_mul] at h2
      rw [Matrix.of_apply, mul_comm, ← h2]
      rfl
    rw [← h1, Matrix.mul_assoc, mul_eq_one_comm.1 (hcols v), Matrix.mul_one]

/-- A complex matrix that commutes with its adjoint has a basis of eigenvectors. -/
theorem exists_eig (M : Matrix (Fin n) (Fin n) ℂ) (hM : Commute M Mᴴ) : ∃ (d : Fin n → ℂ) (V : Matrix (Fin n) (Fin n) ℂ),
    IsUnit V.det ∧ M * V = V * diagonal d := by
  have hA : (M + Mᴴ).IsHermitian := by
    unfold IsHermitian
    rw [conjTranspose_add, conjTranspose_conjTranspose, add_comm]
  have hB : (Complex.I • (M - Mᴴ)).IsHermitian := by
    unfold IsHermitian
    rw [conjTranspose_smul, conjTranspose_sub, conjTranspose_conjTranspose]
    simp only [RCLike.star_def, Complex.conj_I]
    rw [neg_smul, ← smul_neg, neg_sub]
  have hAB : Commute (M + Mᴴ) (Complex.I • (M - Mᴴ)) :=
    ((Commute.refl M).sub_right hM).add_left (hM.symm.sub_right (Commute.refl _)) |>.smul_right _
  have hAB' : Commute (toEuclideanLin (M + Mᴴ)) (toEuclideanLin (Complex.I • (M - Mᴴ))) := by
    show _ ∘ₗ _ = _ ∘ₗ _
    rw [← toLpLin_mul_same, ← toLpLin_mul_same, hAB.eq]
  have htop := LinearMap.IsSymmetric.iSup_iSup_eigenspace_inf_eigenspace_eq_top_of_commute (isSymmetric_toEuclideanLin_iff.2 hA)
    (isSymmetric_toEuclideanLin_iff.2 hB) hAB'
  have hspan : ⊤ ≤ Submodule.span ℂ {x : EuclideanSpace ℂ (Fin n) | ∃ μ : ℂ, toEuclideanLin M x = μ • x} := by
    rw [← htop]
    refine iSup_le fun α => iSup_le fun γ => fun x hx => Submodule.subset_span ?_
    obtain ⟨h1, h2⟩ := hx
    replace h1 := Module.End.mem_eigenspace_iff.1 h1
    replace h2 := Module.End.mem_eigenspace_iff.1 h2
    refine ⟨(α - Complex.I * γ) / 2, ?_⟩
    have h3 : M = (1 / 2 : ℂ) • ((M + Mᴴ) - Complex.I • (Complex.I • (M - Mᴴ))) := by
      rw [smul_smul, Complex.I_mul_I, neg_one_smul, sub_neg_eq_add, show M + Mᴴ + (M - Mᴴ) = (2 : ℂ) • M by rw [two_smul]; abel, smul_smul]
      norm_num
    rw [h3, map_smul, map_sub, map_smul, LinearMap.smul_apply, LinearMap.sub_apply, LinearMap.smul_apply]
    have h1' : toEuclideanLin (M + Mᴴ) x = α • x := h1
    have h2' : toEuclideanLin (Complex.I • (M - Mᴴ)) x = γ • x := h2
    rw [h1', h2', smul_smul, ← sub_smul, smul_smul]
    congr 1
    ring
  obtain ⟨b, hb⟩ : ∃ b : Basis (Fin n) ℂ (EuclideanSpace ℂ (Fin n)), ∀ i, ∃ μ : ℂ, toEuclideanLin M (b i) = μ • b i := by
    refine ⟨(Basis.ofSpan hspan).reindex ((Basis.ofSpan hspan).indexEquiv (EuclideanSpace.basisFun (Fin n) ℂ).toBasis), fun i => ?_⟩
    rw [Basis.reindex_apply]
    exact Basis.ofSpan_subset hspan ⟨_, rfl⟩
  choose d hd using hb
  refine ⟨d, (EuclideanSpace.basisFun (Fin n) ℂ).toBasis.toMatrix b, ?_, ?_⟩
  · rw [← Basis.det_apply]
    exact ((EuclideanSpace.basisFun (Fin n) ℂ).toBasis.is_basis_iff_det.1 ⟨b.linearIndependent, b.span_eq⟩)
  · ext k i
    rw [Matrix.mul_diagonal]
    have h2 := congrArg (fun x : EuclideanSpace ℂ (Fin n) => x k) (hd i)
    simp only [PiLp.smul_apply, smul_eq_mul] at h2
    rw [mul_comm]
    refine Eq.trans ?_ h2
    rfl

end Verif.Decompose
