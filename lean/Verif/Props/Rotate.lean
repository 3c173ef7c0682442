import Verif.Model.Rotate
import Verif.Props.Rank
import Mathlib.Analysis.Matrix.Spectrum
import Mathlib.LinearAlgebra.Matrix.ToLinearEquiv
import Verif.Proofs.Decompose

/-!
# C93: rotating the neurons of a model
-/
namespace Verif.Rotate

open Matrix Rank

variable {m n : ℕ}

/-- What is assumed of the singular value decomposition -/
structure Routines.SvdOk (R : Routines) : Prop where
  u {n : ℕ} (B : Matrix (Fin n) (Fin n) ℝ) : (R.fullU B)ᵀ * R.fullU B = 1
  vt {n : ℕ} (B : Matrix (Fin n) (Fin n) ℝ) : R.fullVt B * (R.fullVt B)ᵀ = 1
  nonneg {n : ℕ} (B : Matrix (Fin n) (Fin n) ℝ) (i : Fin n) : 0 ≤ R.fullS B i
  sorted {n : ℕ} (B : Matrix (Fin n) (Fin n) ℝ) : Antitone (R.fullS B)
  product {n : ℕ} (B : Matrix (Fin n) (Fin n) ℝ) : R.fullU B * diagonal (R.fullS B) * R.fullVt B = B

/-- A rotation or a reflection -/
def Orthogonal (Q : Matrix (Fin n) (Fin n) ℝ) : Prop := Qᵀ * Q = 1

theorem Orthogonal.comm {Q : Matrix (Fin n) (Fin n) ℝ} (h : Orthogonal Q) : Q * Qᵀ = 1 := mul_eq_one_comm.1 h

theorem Orthogonal.transpose {Q : Matrix (Fin n) (Fin n) ℝ} (h : Orthogonal Q) : Orthogonal Qᵀ := by
  unfold Orthogonal
  rw [transpose_transpose]
  exact h.comm

theorem Orthogonal.mul {P Q : Matrix (Fin n) (Fin n) ℝ} (hp : Orthogonal P) (hq : Orthogonal Q) : Orthogonal (P * Q) := by
  unfold Orthogonal
  rw [transpose_mul, Matrix.mul_assoc, ← Matrix.mul_assoc Pᵀ, hp, Matrix.one_mul, hq]

theorem Orthogonal.entry {Q : Matrix (Fin n) (Fin n) ℝ} (h : Orthogonal Q) (i j : Fin n) : Q i j ≤ 1 := by
  have h1 : ∑ k, Q k j * Q k j = 1 := by
    have := congrFun (congrFun h j) j
    simpa [Matrix.mul_apply] using this
  have h2 : Q i j * Q i j ≤ 1 := by
    rw [← h1]
    exact Finset.single_le_sum (f := fun k => Q k j * Q k j) (fun k _ => mul_self_nonneg _) (Finset.mem_univ i)
  nlinarith

theorem Orthogonal.trace_le {Q : Matrix (Fin n) (Fin n) ℝ} (h : Orthogonal Q) : Q.trace ≤ n := by
  calc Q.trace ≤ ∑ _i : Fin n, (1 : ℝ) := Finset.sum_le_sum fun i _ => h.entry i i
    _ = n := by simp

theorem Orthogonal.det {Q : Matrix (Fin n) (Fin n) ℝ} (h : Orthogonal Q) : Q.det = 1 ∨ Q.det = -1 := by
  have h1 := congrArg Matrix.det h
  rw [det_mul, det_transpose, det_one] at h1
  exact mul_self_eq_one_iff.1 h1

/-- A reflection turns some direction around, so its trace is small. -/
theorem Orthogonal.trace_reflection {Q : Matrix (Fin n) (Fin n) ℝ} (h : Orthogonal Q) (hd : Q.det = -1) : Q.trace ≤ n - 2 := by
  have h1 : (Q + 1).det = 0 := by
    have h2 : Q + 1 = Q * (1 + Q)ᵀ := by rw [transpose_add, transpose_one, Matrix.mul_add, Matrix.mul_one, h.comm]
    have h3 := congrArg Matrix.det h2
    rw [det_mul, det_transpose, hd, add_comm 1 Q] at h3
    linarith
  obtain ⟨v, hv, hv0⟩ := Matrix.exists_mulVec_eq_zero_iff.2 h1
  have hs : 0 < v ⬝ᵥ v := by
    obtain ⟨i, hi⟩ := Function.ne_iff.1 hv
    refine Finset.sum_pos' (fun j _ => mul_self_nonneg _) ⟨i, Finset.mem_univ i, ?_⟩
    exact mul_self_pos.2 hi
  have hQv : Q *ᵥ v = -v := by
    rw [add_mulVec, one_mulVec] at hv0
    exact eq_neg_of_add_eq_zero_left hv0
  -- the reflection along v
  have hH : Orthogonal (1 - (2 / (v ⬝ᵥ v)) • vecMulVec v v) := by
    unfold Orthogonal
    rw [transpose_sub, transpose_one, transpose_smul, transpose_vecMulVec]
    rw [Matrix.sub_mul, Matrix.one_mul, Matrix.mul_sub, Matrix.mul_one, smul_mul_smul_comm, vecMulVec_mul_vecMulVec]
    have h6 : (2 / (v ⬝ᵥ v) * (2 / (v ⬝ᵥ v))) • (v ⬝ᵥ v) • vecMulVec v v = (2 / (v ⬝ᵥ v)) • vecMulVec v v + (2 / (v ⬝ᵥ v)) • vecMulVec v v := by
      rw [smul_smul, ← add_smul]
      congr 1
      field_simp
      ring
    first
      | rw [h6]
      | rw [Matrix.vecMulVec_smul, h6]
      | rw [Matrix.smul_vecMulVec, h6]
    abel
  have h5 := (h.mul hH).trace_le
  rw [Matrix.mul_sub, Matrix.mul_one, mul_smul_comm, mul_vecMulVec, hQv, trace_sub, trace_smul, trace_vecMulVec, neg_dotProduct] at h5
  have : (2 / (v ⬝ᵥ v)) • -(v ⬝ᵥ v) = -2 := by
    rw [smul_eq_mul]
    field_simp
  rw [this] at h5
  linarith

/-! ## The best rotation -/

theorem energy_rotated {Q : Matrix (Fin n) (Fin n) ℝ} (hQ : Orthogonal Q) (a b : Matrix (Fin m) (Fin n) ℝ) :
    energy (a * Q - b) = energy a + energy b - 2 * (Qᵀ * (aᵀ * b)).trace := by
  have h1 : (a * Q - b) * (a * Q - b)ᵀ = a * aᵀ - a * Q * bᵀ - b * Qᵀ * aᵀ + b * bᵀ := by
    have h2 : a * Q * (Qᵀ * aᵀ) = a * aᵀ := by rw [Matrix.mul_assoc, ← Matrix.mul_assoc Q, hQ.comm, Matrix.one_mul]
    rw [transpose_sub, transpose_mul, Matrix.sub_mul, Matrix.mul_sub, Matrix.mul_sub, h2, ← Matrix.mul_assoc b]
    abel
  have h3 : (a * Q * bᵀ).trace = (Qᵀ * (aᵀ * b)).trace := by
    rw [← trace_transpose, transpose_mul, transpose_mul, transpose_transpose, trace_mul_comm, Matrix.mul_assoc]
  have h4 : (b * Qᵀ * aᵀ).trace = (Qᵀ * (aᵀ * b)).trace := by
    rw [Matrix.mul_assoc, trace_mul_comm, Matrix.mul_assoc]
  rw [energy_trace, energy_trace, energy_trace, h1, trace_add, trace_sub, trace_sub, h3, h4]
  ring

theorem trace_weighted (s : Fin n → ℝ) (W : Matrix (Fin n) (Fin n) ℝ) : (W * diagonal s).trace = ∑ i, s i * W i i := by
  simp [trace, Matrix.mul_diagonal, mul_comm]

theorem weighted_le {s : Fin n → ℝ} (hs : ∀ i, 0 ≤ s i) {W : Matrix (Fin n) (Fin n) ℝ} (hW : Orthogonal W) : ∑ i, s i * W i i ≤ ∑ i, s i :=
  Finset.sum_le_sum fun i _ => by nlinarith [hs i, hW.entry i i]

theorem weighted_reflection {s : Fin (n + 1) → ℝ} (hs : ∀ i, 0 ≤ s i) (ha : Antitone s) {W : Matrix (Fin (n + 1)) (Fin (n + 1)) ℝ} (hW : Orthogonal W)
    (hd : W.det = -1) : ∑ i, s i * W i i ≤ ∑ i, s i - 2 * s (Fin.last n) := by
  have h1 := hW.trace_reflection hd
  have h2 : ∑ i, s i * W i i = ∑ i, (s i - s (Fin.last n)) * W i i + s (Fin.last n) * W.trace := by
    rw [trace, Finset.mul_sum, ← Finset.sum_add_distrib]
    exact Finset.sum_congr rfl fun i _ => by rw [diag_apply]; ring
  have h3 : ∑ i, (s i - s (Fin.last n)) * W i i ≤ ∑ i, (s i - s (Fin.last n)) :=
    Finset.sum_le_sum fun i _ => by nlinarith [ha (Fin.le_last i), hW.entry i i]
  have h4 : ∑ i, (s i - s (Fin.last n)) = ∑ i, s i - (n + 1) * s (Fin.last n) := by
    rw [Finset.sum_sub_distrib]
    simp
  push_cast at h1
  nlinarith [hs (Fin.last n)]

/-- The trace that is to be maximized, in the coordinates of the decomposition -/
theorem trace_svd {U Vt Q B : Matrix (Fin n) (Fin n) ℝ} {s : Fin n → ℝ} (h : U * diagonal s * Vt = B) :
    (Qᵀ * B).trace = ∑ i, s i * (Vt * Qᵀ * U) i i := by
  rw [← trace_weighted, ← h, trace_mul_comm, Matrix.mul_assoc, Matrix.mul_assoc, trace_mul_comm]
  simp only [Matrix.mul_assoc]
  rw [trace_mul_comm]
  simp only [Matrix.mul_assoc]

/-- **C93, the best rotation or reflection.**  Without `cancel_reflection`, for matrices that are not much wider than high. -/
theorem C93_orthogonal {R : Routines} (hR : R.SvdOk) (a b : Matrix (Fin m) (Fin (n + 1)) ℝ) (hm : n + 1 ≤ m + 10) :
    ∃ Q, procrustes R a b false = some Q ∧ Orthogonal Q ∧ ∀ P, Orthogonal P → energy (a * Q - b) ≤ energy (a * P - b) := by
  have hU : Orthogonal (R.fullU (aᵀ * b)) := hR.u _
  have hV : Orthogonal (R.fullVt (aᵀ * b)) := mul_eq_one_comm.1 (hR.vt _)
  refine ⟨R.fullU (aᵀ * b) * R.fullVt (aᵀ * b), ?_, hU.mul hV, fun P hP => ?_⟩
  · unfold procrustes
    rw [if_neg (by omega)]
    rfl
  · rw [energy_rotated (hU.mul hV), energy_rotated hP, trace_svd (hR.product _), trace_svd (hR.product _)]
    have h1 : R.fullVt (aᵀ * b) * (R.fullU (aᵀ * b) * R.fullVt (aᵀ * b))ᵀ * R.fullU (aᵀ * b) = 1 := by
      rw [transpose_mul, ← Matrix.mul_assoc, hR.vt, Matrix.one_mul, hR.u]
    have h2 := weighted_le (hR.nonneg (aᵀ * b)) ((hV.mul hP.transpose).mul hU)
    rw [h1]
    simp only [one_apply_eq, mul_one]
    linarith

theorem slogdet_eq {U : Matrix (Fin n) (Fin n) ℝ} (h : Orthogonal U) : slogdet U = U.det := by
  unfold slogdet
  rcases h.det with h | h <;> rw [h] <;> simp

/-- The factors of the columns -/
def flip (n : ℕ) (σ : ℝ) : Fin (n + 1) → ℝ := Function.update (fun _ => 1) (Fin.last n) σ

theorem updateCol_flip (U : Matrix (Fin (n + 1)) (Fin (n + 1)) ℝ) {σ : ℝ} (hσ : σ * σ = 1) :
    U.updateCol (Fin.last n) (fun i => U i (Fin.last n) / σ) = U * diagonal (flip n σ) := by
  ext i j
  rw [Matrix.mul_diagonal, flip]
  by_cases h : j = Fin.last n
  · subst h
    rw [updateCol_self, Function.update_self, div_eq_iff (by rintro rfl; simp at hσ), mul_assoc, hσ, mul_one]
  · rw [updateCol_ne h, Function.update_of_ne h, mul_one]

theorem det_flip (n : ℕ) (σ : ℝ) : (diagonal (flip n σ)).det = σ := by
  rw [det_diagonal, flip, Finset.prod_update_of_mem (Finset.mem_univ _)]
  simp

theorem flip_orthogonal (n : ℕ) {σ : ℝ} (hσ : σ * σ = 1) : Orthogonal (diagonal (flip n σ)) := by
  unfold Orthogonal
  rw [diagonal_transpose, diagonal_mul_diagonal, ← diagonal_one]
  congr 1
  ext i
  unfold flip
  by_cases h : i = Fin.last n
  · subst h; rw [Function.update_self, hσ]
  · rw [Function.update_of_ne h, mul_one]

theorem weighted_flip (s : Fin (n + 1) → ℝ) (σ : ℝ) : ∑ i, s i * flip n σ i = ∑ i, s i + s (Fin.last n) * (σ - 1) := by
  have h1 : ∀ i, s i * flip n σ i = s i + if i = Fin.last n then s (Fin.last n) * (σ - 1) else 0 := by
    intro i
    unfold flip
    by_cases h : i = Fin.last n
    · subst h; rw [Function.update_self, if_pos rfl]; ring
    · rw [Function.update_of_ne h, if_neg h]; ring
  simp only [h1, Finset.sum_add_distrib, Finset.sum_ite_eq', Finset.mem_univ, if_true]

/-- **C93, the best rotation.**  With `cancel_reflection` the result is a rotation, and none brings the rows of `a` closer to those of `b`. -/
theorem C93_rotation {R : Routines} (hR : R.SvdOk) (a b : Matrix (Fin m) (Fin (n + 1)) ℝ) :
    ∃ Q, procrustes R a b true = some Q ∧ Orthogonal Q ∧ Q.det = 1 ∧ ∀ P, Orthogonal P → P.det = 1 → energy (a * Q - b) ≤ energy (a * P - b) := by
  have hU : Orthogonal (R.fullU (aᵀ * b)) := hR.u _
  have hV : Orthogonal (R.fullVt (aᵀ * b)) := mul_eq_one_comm.1 (hR.vt _)
  obtain ⟨σ, hσ⟩ : ∃ σ, σ = (R.fullU (aᵀ * b)).det * (R.fullVt (aᵀ * b)).det := ⟨_, rfl⟩
  have hσ2 : σ = 1 ∨ σ = -1 := by
    rw [hσ]
    rcases hU.det with h1 | h1 <;> rcases hV.det with h2 | h2 <;> rw [h1, h2] <;> norm_num
  have hσσ : σ * σ = 1 := by rcases hσ2 with h | h <;> rw [h] <;> norm_num
  have hF := flip_orthogonal n hσσ
  refine ⟨R.fullU (aᵀ * b) * diagonal (flip n σ) * R.fullVt (aᵀ * b), ?_, (hU.mul hF).mul hV, ?_, fun P hP hPd => ?_⟩
  · unfold procrustes
    rw [if_neg (by simp)]
    simp only [if_true]
    rw [slogdet_eq hU, slogdet_eq hV, ← hσ, updateCol_flip _ hσσ]
  · rw [det_mul, det_mul, det_flip]
    linear_combination hσσ - σ * hσ
  · rw [energy_rotated ((hU.mul hF).mul hV), energy_rotated hP, trace_svd (hR.product _), trace_svd (hR.product _)]
    have h1 : R.fullVt (aᵀ * b) * (R.fullU (aᵀ * b) * diagonal (flip n σ) * R.fullVt (aᵀ * b))ᵀ * R.fullU (aᵀ * b) = diagonal (flip n σ) := by
      rw [transpose_mul, transpose_mul, ← Matrix.mul_assoc, hR.vt, Matrix.one_mul, Matrix.mul_assoc, hR.u, Matrix.mul_one, diagonal_transpose]
    rw [h1]
    simp only [diagonal_apply_eq]
    rw [weighted_flip]
    have hW := (hV.mul hP.transpose).mul hU
    have hd : (R.fullVt (aᵀ * b) * Pᵀ * R.fullU (aᵀ * b)).det = σ := by
      rw [det_mul, det_mul, det_transpose, hPd, hσ]; ring
    rcases hσ2 with h | h
    · have h2 := weighted_le (hR.nonneg (aᵀ * b)) hW
      rw [h]
      linarith
    · have h2 := weighted_reflection (hR.nonneg (aᵀ * b)) (hR.sorted _) hW (hd.trans h)
      rw [h]
      linarith

/-! ## Powers -/

/-- What is assumed of the eigenvectors of a matrix: that there are enough of them -/
def Routines.EigOk (R : Routines) (M : Matrix (Fin n) (Fin n) ℝ) : Prop :=
  IsUnit (R.eigenvectors M).det ∧ M.map Complex.ofReal * R.eigenvectors M = R.eigenvectors M * diagonal (R.eigenvalues M)

theorem map_zpow {M : Matrix (Fin n) (Fin n) ℝ} (hM : IsUnit M.det) (k : ℤ) : (M ^ k).map Complex.ofReal = (M.map Complex.ofReal) ^ k := by
  have h0 : ∀ A : Matrix (Fin n) (Fin n) ℝ, A.map Complex.ofReal = Complex.ofRealHom.mapMatrix A := fun A => rfl
  cases k with
  | ofNat k => rw [Int.ofNat_eq_natCast, zpow_natCast, zpow_natCast, h0, h0, map_pow]
  | negSucc k =>
    rw [zpow_negSucc, zpow_negSucc]
    symm
    apply inv_eq_left_inv
    rw [h0, h0, ← map_pow, ← map_mul, nonsing_inv_mul, map_one]
    rw [det_pow]
    exact hM.pow _

theorem diagonal_zpow {d : Fin n → ℂ} (hd : ∀ i, d i ≠ 0) (k : ℤ) : diagonal d ^ k = diagonal fun i => d i ^ k := by
  cases k with
  | ofNat k =>
    rw [Int.ofNat_eq_natCast, zpow_natCast, diagonal_pow]
    congr 1
  | negSucc k =>
    rw [zpow_negSucc]
    apply inv_eq_left_inv
    rw [diagonal_pow, diagonal_mul_diagonal, ← diagonal_one]
    congr 1
    ext i
    rw [Pi.pow_apply, _root_.zpow_negSucc, inv_mul_cancel₀ (pow_ne_zero _ (hd i))]

/-- Whole powers are what they should be. -/
theorem fractionalPower_whole {R : Routines} {M : Matrix (Fin n) (Fin n) ℝ} (hM : IsUnit M.det) (hR : R.EigOk M) (k : ℤ) : fractionalPower R M k = M ^ k := by
  obtain ⟨hv, he⟩ := hR
  have hMc : IsUnit (M.map Complex.ofReal).det := by
    have h1 : (M.map Complex.ofReal).det = Complex.ofRealHom M.det := (RingHom.map_det Complex.ofRealHom M).symm
    rw [h1]
    exact hM.map _
  have hD : IsUnit (diagonal (R.eigenvalues M)).det := by
    have h1 := congrArg Matrix.det he
    rw [det_mul, det_mul, mul_comm] at h1
    rwa [← hv.mul_left_cancel h1]
  have hd : ∀ i, R.eigenvalues M i ≠ 0 := by
    intro i h0
    rw [det_diagonal, Finset.prod_eq_zero (Finset.mem_univ i) h0] at hD
    exact absurd hD (by simp)
  have h1 : SemiconjBy (R.eigenvectors M) (diagonal (R.eigenvalues M)) (M.map Complex.ofReal) := he.symm
  have h2 := Matrix.SemiconjBy.zpow_right hD hMc h1 k
  have h3 : (fun i => R.eigenvalues M i ^ (((k : ℚ)) : ℂ)) = fun i => R.eigenvalues M i ^ k := by
    ext i
    rw [Rat.cast_intCast, Complex.cpow_intCast]
  unfold fractionalPower
  rw [h3, ← diagonal_zpow hd, show R.eigenvectors M * diagonal (R.eigenvalues M) ^ k = M.map Complex.ofReal ^ k * R.eigenvectors M from h2,
    Matrix.mul_assoc, mul_nonsing_inv _ hv, Matrix.mul_one, ← map_zpow hM]
  ext i j
  simp

/-! ## The method -/

theorem isclose_zero {x : ℚ} : isclose x 0 ↔ x = 0 := by
  unfold isclose
  constructor
  · intro h
    by_contra hx
    have h1 : 0 < |x| := abs_pos.2 hx
    rw [sub_zero, abs_zero, max_eq_left h1.le] at h
    nlinarith
  · rintro rfl
    simp

theorem isclose_refl (x : ℚ) : isclose x x := by
  unfold isclose
  rw [sub_self, abs_zero]
  positivity

theorem pyRound_whole (k : ℤ) : Region.pyRound k = k := by
  unfold Region.pyRound
  rw [if_pos (by simp), Int.floor_intCast]

/-- The mean of the rows -/
noncomputable def centroid (a : Matrix (Fin m) (Fin n) ℝ) (j : Fin n) : ℝ := (∑ i, a i j) / m

/-- The rows relative to their mean -/
noncomputable def relative (a : Matrix (Fin m) (Fin n) ℝ) : Matrix (Fin m) (Fin n) ℝ := Matrix.of fun i j => a i j - centroid a j

/-- The rows shifted by `t` -/
def shift (a : Matrix (Fin m) (Fin n) ℝ) (t : Fin n → ℝ) : Matrix (Fin m) (Fin n) ℝ := Matrix.of fun i j => a i j + t j

/-- `Q` is a rotation, and of all rotations the one that brings `a` closest to `b`. -/
def Best (a b : Matrix (Fin m) (Fin n) ℝ) (Q : Matrix (Fin n) (Fin n) ℝ) : Prop :=
  Orthogonal Q ∧ Q.det = 1 ∧ ∀ P, Orthogonal P → P.det = 1 → energy (a * Q - b) ≤ energy (a * P - b)

/-- Neither of the two ends of the method, and the tensors differ -/
def Between (half : ℝ → ℝ) (a b : Matrix (Fin m) (Fin n) ℝ) (alignment : ℚ) (alpha : ℝ) : Prop :=
  ¬ (alignment = 0 ∧ allclose alpha 0) ∧ ¬ (isclose alignment 1 ∧ allclose alpha 1) ∧ ¬ ∀ i j, allclose (half (a i j)) (half (b i j))

theorem rotate_between {R : Routines} {half : ℝ → ℝ} {A B : List ℕ → Option (Matrix (Fin m) (Fin (n + 1)) ℝ)} {key : List ℕ} {a b : Matrix (Fin m) (Fin (n + 1)) ℝ}
    (ha : A key = some a) (hb : B key = some b) {alignment : ℚ} {alpha : ℝ} (h : Between half a b alignment alpha) {r : Matrix (Fin m) (Fin (n + 1)) ℝ}
    (hr : rotateMatrix R half a b alignment alpha = some r) : rotate R half (.dict A) (.dict B) alignment alpha key = .ok r := by
  obtain ⟨h1, h2, _⟩ := h
  unfold rotate
  rw [if_neg (by rwa [isclose_zero]), if_neg h2]
  simp only [Arg.get, ha, hb, hr]

/-- **C93, whole alignments.**  For a whole alignment `k`: both models relative to their centroids, blended in the frame of `a`, turned `k` times by the best
rotation of `a` to `b`, and moved to the centroid. -/
theorem C93_whole {R : Routines} (hR : R.SvdOk) (hE : ∀ Q : Matrix (Fin (n + 1)) (Fin (n + 1)) ℝ, Orthogonal Q → R.EigOk Q) (half : ℝ → ℝ)
    (A B : List ℕ → Option (Matrix (Fin m) (Fin (n + 1)) ℝ)) (key : List ℕ) (a b : Matrix (Fin m) (Fin (n + 1)) ℝ) (ha : A key = some a) (hb : B key = some b)
    (k : ℤ) (alpha : ℝ) (h : Between half a b k alpha) :
    ∃ Q r, Best (relative a) (relative b) Q ∧ rotate R half (.dict A) (.dict B) k alpha key = .ok r ∧
      (allclose alpha 0 → r = shift (relative a * Q ^ k) ((1 - k : ℝ) • centroid a + (k : ℝ) • centroid b)) ∧
      (¬ allclose alpha 0 → r = shift (((1 - alpha) • relative a + alpha • (relative b * Qᵀ)) * Q ^ k) ((1 - k : ℝ) • centroid a + (k : ℝ) • centroid b)) := by
  classical
  obtain ⟨Q, h1, h2, h3, h4⟩ := C93_rotation hR (relative a) (relative b)
  have hu : IsUnit Q.det := by rw [h3]; exact isUnit_one
  have hp : fractionalPower R Q k = Q ^ k := fractionalPower_whole hu (hE Q h2) k
  have hm : rotateMatrix R half a b k alpha =
      some (shift ((if ¬ allclose alpha 0 then (1 - alpha) • relative a + alpha • (relative b * Qᵀ) else relative a) * Q ^ k)
        ((1 - k : ℝ) • centroid a + (k : ℝ) • centroid b)) := by
    unfold rotateMatrix
    rw [if_neg h.2.2]
    have hd : decide (isclose (k : ℚ) (Region.pyRound k)) = true := by
      rw [pyRound_whole]
      exact decide_eq_true (isclose_refl _)
    simp only [hd, if_true]
    rw [show procrustes R (centred a) (centred b) true = some Q from h1]
    simp only [Option.map_some, Option.some.injEq]
    rw [hp]
    ext i j
    simp only [Matrix.of_apply, shift, Pi.add_apply, Pi.smul_apply, smul_eq_mul, Rat.cast_intCast]
    rfl
  refine ⟨Q, _, ⟨h2, h3, h4⟩, rotate_between ha hb h hm, fun h5 => ?_, fun h5 => ?_⟩
  · rw [if_neg (not_not.2 h5)]
  · rw [if_pos h5]

theorem sum_relative (a : Matrix (Fin m) (Fin n) ℝ) (j : Fin n) : ∑ i, relative a i j = 0 := by
  simp only [relative, centroid, Matrix.of_apply, Finset.sum_sub_distrib, Finset.sum_const, Finset.card_univ, Fintype.card_fin, nsmul_eq_mul]
  rcases Nat.eq_zero_or_pos m with rfl | hm
  · simp
  · field_simp
    ring

/-- A shift of rows with mean zero can only add to the energy. -/
theorem energy_shift {d : Matrix (Fin m) (Fin n) ℝ} (hd : ∀ j, ∑ i, d i j = 0) (t : Fin n → ℝ) : energy d ≤ energy (shift d t) := by
  have h1 : ∑ i, ∑ j, 2 * (d i j * t j) = 0 := by
    rw [Finset.sum_comm]
    refine Finset.sum_eq_zero fun j _ => ?_
    rw [← Finset.mul_sum, ← Finset.sum_mul, hd, zero_mul, mul_zero]
  have h2 : energy (shift d t) = energy d + ∑ i, ∑ j, 2 * (d i j * t j) + ∑ _i : Fin m, ∑ j, t j ^ 2 := by
    simp only [energy, shift, Matrix.of_apply, ← Finset.sum_add_distrib]
    exact Finset.sum_congr rfl fun i _ => Finset.sum_congr rfl fun j _ => by ring
  have h3 : 0 ≤ ∑ _i : Fin m, ∑ j, t j ^ 2 := Finset.sum_nonneg fun i _ => Finset.sum_nonneg fun j _ => sq_nonneg _
  linarith

theorem shift_relative (a : Matrix (Fin m) (Fin n) ℝ) : shift (relative a) (centroid a) = a := by
  ext i j
  simp [shift, relative]

theorem relative_mul (a : Matrix (Fin m) (Fin n) ℝ) (P : Matrix (Fin n) (Fin n) ℝ) : relative a * P = shift (a * P) (-(centroid a ᵥ* P)) := by
  ext i j
  simp only [shift, relative, Matrix.mul_apply, Matrix.of_apply, Pi.neg_apply, vecMul, dotProduct, sub_mul, Finset.sum_sub_distrib]
  ring

theorem sum_mul_zero {d : Matrix (Fin m) (Fin n) ℝ} (hd : ∀ j, ∑ i, d i j = 0) (P : Matrix (Fin n) (Fin n) ℝ) (j : Fin n) : ∑ i, (d * P) i j = 0 := by
  simp only [Matrix.mul_apply]
  rw [Finset.sum_comm]
  exact Finset.sum_eq_zero fun k _ => by rw [← Finset.sum_mul, hd, zero_mul]

/-- No rotation and shift does better than the best rotation about the centroids. -/
theorem best_shift {a b : Matrix (Fin m) (Fin n) ℝ} {Q : Matrix (Fin n) (Fin n) ℝ} (h : Best (relative a) (relative b) Q) (P : Matrix (Fin n) (Fin n) ℝ)
    (hP : Orthogonal P) (hd : P.det = 1) (t : Fin n → ℝ) : energy (shift (relative a * Q) (centroid b) - b) ≤ energy (shift (a * P) t - b) := by
  have h1 : shift (relative a * Q) (centroid b) - b = relative a * Q - relative b := by
    ext i j
    simp only [shift, relative, Matrix.sub_apply, Matrix.of_apply]
    ring
  have h2 : shift (a * P) t - b = shift (relative a * P - relative b) (centroid a ᵥ* P + t - centroid b) := by
    rw [relative_mul]
    ext i j
    simp only [shift, relative, Matrix.sub_apply, Matrix.of_apply, Pi.neg_apply, Pi.add_apply, Pi.sub_apply]
    ring
  rw [h1, h2]
  refine (h.2.2 P hP hd).trans (energy_shift (fun j => ?_) _)
  simp only [Matrix.sub_apply, Finset.sum_sub_distrib]
  rw [sum_mul_zero (sum_relative a), sum_relative, sub_zero]

/-- **C93, alignment 1.**  For `alpha` 0, `a` is rotated and shifted, and of all ways to rotate and shift it this brings it closest to `b`. -/
theorem C93_align {R : Routines} (hR : R.SvdOk) (hE : ∀ Q : Matrix (Fin (n + 1)) (Fin (n + 1)) ℝ, Orthogonal Q → R.EigOk Q) (half : ℝ → ℝ)
    (A B : List ℕ → Option (Matrix (Fin m) (Fin (n + 1)) ℝ)) (key : List ℕ) (a b : Matrix (Fin m) (Fin (n + 1)) ℝ) (ha : A key = some a) (hb : B key = some b)
    (h : ¬ ∀ i j, allclose (half (a i j)) (half (b i j))) :
    ∃ Q t, Orthogonal Q ∧ Q.det = 1 ∧ rotate R half (.dict A) (.dict B) 1 0 key = .ok (shift (a * Q) t) ∧
      ∀ P u, Orthogonal P → P.det = 1 → energy (shift (a * Q) t - b) ≤ energy (shift (a * P) u - b) := by
  have h0 : allclose 0 0 := by unfold allclose; norm_num
  have hbt : Between half a b ((1 : ℤ) : ℚ) 0 := by
    refine ⟨by simp, fun h1 => ?_, h⟩
    have h2 := h1.2
    unfold allclose at h2
    norm_num at h2
  obtain ⟨Q, r, hQ, hr, h1, _⟩ := C93_whole hR hE half A B key a b ha hb 1 0 hbt
  have h2 : r = shift (a * Q) (centroid b - centroid a ᵥ* Q) := by
    rw [h1 h0, zpow_one, relative_mul]
    ext i j
    simp only [shift, Matrix.of_apply, Pi.neg_apply, Pi.add_apply, Pi.sub_apply, Pi.smul_apply, smul_eq_mul]
    push_cast
    ring
  have h3 : r = shift (relative a * Q) (centroid b) := by
    rw [h1 h0, zpow_one]
    congr 1
    simp
  refine ⟨Q, centroid b - centroid a ᵥ* Q, hQ.1, hQ.2.1, ?_, fun P u hP hd => ?_⟩
  · rw [← h2, ← hr]
    simp
  · rw [← h2, h3]
    exact best_shift hQ P hP hd u

/-- **C93, alignment 1 and `alpha`.**  The models are blended after `a` is aligned. -/
theorem C93_blend {R : Routines} (hR : R.SvdOk) (hE : ∀ Q : Matrix (Fin (n + 1)) (Fin (n + 1)) ℝ, Orthogonal Q → R.EigOk Q) (half : ℝ → ℝ)
    (A B : List ℕ → Option (Matrix (Fin m) (Fin (n + 1)) ℝ)) (key : List ℕ) (a b : Matrix (Fin m) (Fin (n + 1)) ℝ) (ha : A key = some a) (hb : B key = some b)
    (alpha : ℝ) (h : Between half a b 1 alpha) (h0 : ¬ allclose alpha 0) :
    ∃ Q t, Orthogonal Q ∧ Q.det = 1 ∧ rotate R half (.dict A) (.dict B) 1 alpha key = .ok ((1 - alpha) • shift (a * Q) t + alpha • b) ∧
      ∀ P u, Orthogonal P → P.det = 1 → energy (shift (a * Q) t - b) ≤ energy (shift (a * P) u - b) := by
  obtain ⟨Q, r, hQ, hr, _, h1⟩ := C93_whole hR hE half A B key a b ha hb 1 alpha (by simpa using h)
  have h3 : shift (a * Q) (centroid b - centroid a ᵥ* Q) = shift (relative a * Q) (centroid b) := by
    rw [relative_mul]
    ext i j
    simp only [shift, Matrix.of_apply, Pi.neg_apply, Pi.sub_apply]
    ring
  refine ⟨Q, centroid b - centroid a ᵥ* Q, hQ.1, hQ.2.1, ?_, fun P u hP hd => ?_⟩
  · have h4 : r = (1 - alpha) • shift (relative a * Q) (centroid b) + alpha • shift (relative b) (centroid b) := by
      rw [h1 h0, zpow_one, Matrix.add_mul, Matrix.smul_mul, Matrix.smul_mul, Matrix.mul_assoc, hQ.1, Matrix.mul_one]
      ext i j
      simp only [shift, Matrix.of_apply, Pi.add_apply, Pi.smul_apply, Matrix.add_apply, Matrix.smul_apply, smul_eq_mul]
      push_cast
      ring
    rw [shift_relative] at h4
    rw [h3, ← h4, ← hr]
    simp
  · rw [h3]
    exact best_shift hQ P hP hd u

/-- **C93, the ends.**  Alignment 0 and `alpha` 0 give `a`, alignment 1 and `alpha` 1 give `b`. -/
theorem C93_ends (R : Routines) (half : ℝ → ℝ) (A B : List ℕ → Option (Matrix (Fin m) (Fin (n + 1)) ℝ)) (key : List ℕ) (a b : Matrix (Fin m) (Fin (n + 1)) ℝ)
    (ha : A key = some a) (hb : B key = some b) :
    rotate R half (.dict A) (.dict B) 0 0 key = .ok a ∧ rotate R half (.dict A) (.dict B) 1 1 key = .ok b := by
  constructor
  · unfold rotate
    rw [if_pos ⟨isclose_zero.2 rfl, by unfold allclose; norm_num⟩]
    simp [Arg.get, ha]
  · unfold rotate
    rw [if_neg (by rw [isclose_zero]; simp), if_pos ⟨isclose_refl 1, by unfold allclose; norm_num⟩]
    simp [Arg.get, hb]

/-- **C93, nearly equal tensors** are blended without a rotation. -/
theorem C93_close (R : Routines) (half : ℝ → ℝ) (A B : List ℕ → Option (Matrix (Fin m) (Fin (n + 1)) ℝ)) (key : List ℕ) (a b : Matrix (Fin m) (Fin (n + 1)) ℝ)
    (ha : A key = some a) (hb : B key = some b) (alignment : ℚ) (alpha : ℝ) (h0 : ¬ (alignment = 0 ∧ allclose alpha 0))
    (h1 : ¬ (isclose alignment 1 ∧ allclose alpha 1)) (h : ∀ i j, allclose (half (a i j)) (half (b i j))) :
    rotate R half (.dict A) (.dict B) alignment alpha key = .ok ((1 - alpha) • a + alpha • b) := by
  unfold rotate
  rw [if_neg (by rwa [isclose_zero]), if_neg h1]
  simp only [Arg.get, ha, hb]
  unfold rotateMatrix
  rw [if_pos h]

/-! ## What does not hold -/

/-- **C93, negation: no recipe with `rotate` can be evaluated.**  The parameters are declared as tensors, so tensors is what the function is called with, and
tensors cannot be indexed by a key. -/
theorem C93_tensor_false (R : Routines) (half : ℝ → ℝ) (a b : Matrix (Fin m) (Fin (n + 1)) ℝ) (alignment : ℚ) (alpha : ℝ) (key : List ℕ) :
    rotate R half (.tensor a) (.tensor b) alignment alpha key = .error .index := by
  unfold rotate
  split
  · rfl
  · split <;> rfl

theorem procrustes_some (R : Routines) (a b : Matrix (Fin m) (Fin (n + 1)) ℝ) (c : Bool) : ∃ Q, procrustes R a b c = some Q := by
  unfold procrustes
  split
  · rename_i h
    unfold svdLowrank
    rw [if_pos (Or.inr h.2)]
    exact ⟨_, rfl⟩
  · exact ⟨_, rfl⟩

/-- **C93, negation: part of a rotation.**  The test for a whole alignment is the wrong way around, so an alignment of at most one half does not rotate at all:
`a` is merely shifted, whatever `b` and the routines are. -/
theorem C93_fraction_false (R : Routines) (half : ℝ → ℝ) (A B : List ℕ → Option (Matrix (Fin m) (Fin (n + 1)) ℝ)) (key : List ℕ)
    (a b : Matrix (Fin m) (Fin (n + 1)) ℝ) (ha : A key = some a) (hb : B key = some b) (alignment : ℚ) (h0 : 0 < alignment) (h1 : alignment ≤ 1 / 2)
    (h : ¬ ∀ i j, allclose (half (a i j)) (half (b i j))) :
    rotate R half (.dict A) (.dict B) alignment 0 key = .ok (shift a ((alignment : ℝ) • (centroid b - centroid a))) := by
  have hz : allclose 0 0 := by unfold allclose; norm_num
  have hone : ¬ isclose alignment 1 := by
    unfold isclose
    rw [abs_one, abs_of_pos h0, max_eq_right (by linarith), abs_of_neg (by linarith)]
    norm_num
    linarith
  have hround : Region.pyRound alignment = 0 := by
    have hf : ⌊alignment⌋ = 0 := Int.floor_eq_zero_iff.2 ⟨h0.le, by linarith⟩
    unfold Region.pyRound
    rw [hf]
    rcases h1.lt_or_eq with h2 | h2
    · rw [if_pos (by simpa using h2)]
    · rw [h2]
      norm_num
  refine rotate_between ha hb ⟨by simp [h0.ne'], fun h2 => hone h2.1, h⟩ ?_
  unfold rotateMatrix
  rw [if_neg h]
  have hd : decide (isclose alignment (Region.pyRound alignment)) = false := by
    rw [hround]
    refine decide_eq_false ?_
    rw [Int.cast_zero, isclose_zero]
    exact h0.ne'
  obtain ⟨Q, hQ⟩ := procrustes_some R (centred a) (centred b) false
  simp only [hd]
  simp only [hQ, Option.map_some, Bool.false_eq_true, if_false, isclose_zero, h0.ne', hone, not_false_eq_true, if_true, hround, zpow_zero, hz, not_true,
    Matrix.mul_one]
  congr 1
  ext i j
  simp only [shift, centred, centroid, mean, Matrix.of_apply, Pi.smul_apply, Pi.sub_apply, smul_eq_mul]
  ring

/-- **C93, negation: other alignments.**  For alignments that are not whole, the map of a matrix much wider than high is not a rotation: its rank is too small. -/
theorem C93_rank_false (R : Routines) (a b : Matrix (Fin m) (Fin (n + 1)) ℝ) (hm : m + 10 < n + 1) :
    ∃ Q, procrustes R a b false = some Q ∧ Q.rank ≤ m + 10 ∧ ¬ Orthogonal Q := by
  obtain ⟨Q, hQ⟩ := procrustes_some R a b false
  have h1 : Q.rank ≤ m + 10 := by
    unfold procrustes at hQ
    rw [if_pos ⟨rfl, hm⟩] at hQ
    unfold svdLowrank at hQ
    rw [if_pos (Or.inr hm)] at hQ
    simp only [Option.map_some, Option.some.injEq] at hQ
    rw [← hQ]
    refine (rank_mul_le_left _ _).trans ?_
    simpa using rank_le_card_width (R.u (aᵀ * b * basis R.toRoutines (aᵀ * b) (m + 10)))
  refine ⟨Q, hQ, h1, fun h2 => ?_⟩
  have h3 : (1 : Matrix (Fin (n + 1)) (Fin (n + 1)) ℝ).rank ≤ Q.rank := by
    rw [← show Qᵀ * Q = 1 from h2]
    exact rank_mul_le_right _ _
  rw [rank_one, Fintype.card_fin] at h3
  omega

/-! ## Examples -/

/-- There are routines as assumed. -/
theorem routines_exist : ∃ R : Routines, R.SvdOk ∧ ∀ {n : ℕ} (Q : Matrix (Fin n) (Fin n) ℝ), Orthogonal Q → R.EigOk Q := by
  classical
  obtain ⟨R0, _⟩ := Rank.routines_exist
  have he : ∀ {n : ℕ} (Q : Matrix (Fin n) (Fin n) ℝ), ∃ p : (Fin n → ℂ) × Matrix (Fin n) (Fin n) ℂ, Orthogonal Q →
      IsUnit p.2.det ∧ Q.map Complex.ofReal * p.2 = p.2 * diagonal p.1 := by
    intro n Q
    by_cases hQ : Orthogonal Q
    · have h0 : (Q.map Complex.ofReal)ᴴ = Qᵀ.map Complex.ofReal := by
        ext i j
        simp [conjTranspose_apply]
      have h1 : Commute (Q.map Complex.ofReal) (Q.map Complex.ofReal)ᴴ := by
        have h2 : ∀ A B : Matrix (Fin n) (Fin n) ℝ, A.map Complex.ofReal * B.map Complex.ofReal = (A * B).map Complex.ofReal :=
          fun A B => (map_mul Complex.ofRealHom.mapMatrix A B).symm
        show _ * _ = _ * _
        rw [h0, h2, h2, hQ.comm, hQ]
      obtain ⟨d, V, hV⟩ := Decompose.exists_eig _ h1
      exact ⟨(d, V), fun _ => hV⟩
    · exact ⟨(0, 0), fun h => absurd h hQ⟩
  refine ⟨{ R0 with
    fullU := fun B => (Decompose.exists_svd B).choose
    fullS := fun B => (Decompose.exists_svd B).choose_spec.choose
    fullVt := fun B => (Decompose.exists_svd B).choose_spec.choose_spec.choose
    eigenvalues := fun Q => (he Q).choose.1
    eigenvectors := fun Q => (he Q).choose.2 }, ⟨?_, ?_, ?_, ?_, ?_⟩, fun Q hQ => (he Q).choose_spec hQ⟩
  · exact fun B => (Decompose.exists_svd B).choose_spec.choose_spec.choose_spec.1
  · exact fun B => (Decompose.exists_svd B).choose_spec.choose_spec.choose_spec.2.1
  · exact fun B => (Decompose.exists_svd B).choose_spec.choose_spec.choose_spec.2.2.1
  · exact fun B => (Decompose.exists_svd B).choose_spec.choose_spec.choose_spec.2.2.2.1
  · exact fun B => (Decompose.exists_svd B).choose_spec.choose_spec.choose_spec.2.2.2.2

/-- Two models of two neurons: `b` is `a` turned by a right angle and shifted -/
def exA : Matrix (Fin 2) (Fin 2) ℝ := !![1, 0; -1, 0]
def exB : Matrix (Fin 2) (Fin 2) ℝ := !![5, 1; 5, -1]

theorem ex_differ : ¬ ∀ i j, allclose (id (exA i j)) (id (exB i j)) := by
  intro h
  have h1 := h 0 0
  norm_num [allclose, exA, exB] at h1

example : Between id exA exB ((2 : ℤ) : ℚ) 0 := ⟨by simp, by unfold isclose; norm_num, ex_differ⟩
example : Between id exA exB 1 (1 / 2) := ⟨by simp, fun h => by have := h.2; unfold allclose at this; norm_num at this, ex_differ⟩

/-- Aligned, `a` becomes `b`. -/
example (R : Routines) (hR : R.SvdOk) (hE : ∀ Q : Matrix (Fin 2) (Fin 2) ℝ, Orthogonal Q → R.EigOk Q) :
    rotate R id (.dict fun _ => some exA) (.dict fun _ => some exB) 1 0 [] = .ok exB := by
  obtain ⟨Q, t, _, _, h, hbest⟩ := C93_align hR hE id (fun _ => some exA) (fun _ => some exB) [] exA exB rfl rfl ex_differ
  have h1 := hbest !![0, 1; -1, 0] ![5, 0] (by unfold Orthogonal; ext i j; fin_cases i <;> fin_cases j <;> norm_num [Matrix.mul_apply, Fin.sum_univ_succ])
    (by simp [det_fin_two])
  have h2 : shift (exA * !![0, 1; -1, 0]) ![5, 0] - exB = 0 := by
    ext i j
    fin_cases i <;> fin_cases j <;> norm_num [shift, exA, exB, Matrix.mul_apply, Fin.sum_univ_succ]
  rw [h2] at h1
  have h3 : shift (exA * Q) t - exB = 0 := by
    have h4 : energy (shift (exA * Q) t - exB) = 0 := le_antisymm (h1.trans (by simp [energy])) (Finset.sum_nonneg fun i _ => Finset.sum_nonneg fun j _ => sq_nonneg _)
    unfold energy at h4
    ext i j
    have h5 := (Finset.sum_eq_zero_iff_of_nonneg fun i _ => Finset.sum_nonneg fun j _ => sq_nonneg _).1 h4 i (Finset.mem_univ i)
    have h6 := (Finset.sum_eq_zero_iff_of_nonneg fun j _ => sq_nonneg _).1 h5 j (Finset.mem_univ j)
    simpa using h6
  rw [h, sub_eq_zero.1 h3]

end Verif.Rotate
