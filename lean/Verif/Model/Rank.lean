import Verif.Model.Region
import Mathlib.LinearAlgebra.Matrix.Rank
import Mathlib.Data.Real.Basic

/-!
# Cutting the rank of a delta

`sd_mecha/extensions/builtin/merge_methods/__init__.py` lines 789-804 and `svd.py` lines 50-95.  Simplified: the tensor is a matrix already
(line 798 flattens all but the first dimension, line 804 undoes it); arithmetic over the reals is exact.
-/
namespace Verif.Rank

/-- `target_rank` (lines 799-800) -/
def targetRank (m n : ℕ) (ratio : ℚ) : ℕ := min (max (Region.pyRound ((min m n : ℕ) * ratio)) 1).toNat (min m n)

/-- What the numerical routines return: `torch.randn(m, q)`; the first factor of `torch.linalg.qr`, and `torch.linalg.svd` with
`full_matrices=False`, both of a matrix with at least as many rows as columns -/
structure Routines where
  randn (m q : ℕ) : Matrix (Fin m) (Fin q) ℝ
  qr {m q : ℕ} (B : Matrix (Fin m) (Fin q) ℝ) : Matrix (Fin m) (Fin q) ℝ
  u {m q : ℕ} (B : Matrix (Fin m) (Fin q) ℝ) : Matrix (Fin m) (Fin q) ℝ
  s {m q : ℕ} (B : Matrix (Fin m) (Fin q) ℝ) : Fin q → ℝ
  vh {m q : ℕ} (B : Matrix (Fin m) (Fin q) ℝ) : Matrix (Fin q) (Fin q) ℝ

variable (R : Routines) {m n : ℕ}

/-- The loop of `get_approximate_basis` (`svd.py` lines 91-93), called with the transpose of `A` -/
def refine (A : Matrix (Fin m) (Fin n) ℝ) {q : ℕ} : ℕ → Matrix (Fin n) (Fin q) ℝ → Matrix (Fin n) (Fin q) ℝ
  | 0, Q => Q
  | k + 1, Q => refine A k (R.qr (A.transpose * R.qr (A * Q)))

/-- `get_approximate_basis(A.T, q, niter=2)` (`svd.py` lines 82-95) -/
def basis (A : Matrix (Fin m) (Fin n) ℝ) (q : ℕ) : Matrix (Fin n) (Fin q) ℝ := refine R A 2 (R.qr (A.transpose * R.randn m q))

/-- `torch_svd_lowrank(A, q, full_matrices=False)` (`svd.py` lines 50-79); `none` is the AssertionError of line 64.  The other assertions hold
since `q` is at most the smaller dimension. -/
def svdLowrank (A : Matrix (Fin m) (Fin n) ℝ) (q : ℕ) :
    Option (Matrix (Fin m) (Fin q) ℝ × (Fin q → ℝ) × Matrix (Fin q) (Fin n) ℝ) :=
  if m < n ∨ n > q then
    some (R.u (A * basis R A q), R.s (A * basis R A q), (basis R A q * (R.vh (A * basis R A q)).transpose).transpose)
  else none

/-- `truncate_rank(a, rank_ratio)` (lines 789-804) of a matrix -/
def truncateRank (A : Matrix (Fin m) (Fin n) ℝ) (ratio : ℚ) : Option (Matrix (Fin m) (Fin n) ℝ) :=
  (svdLowrank R A (targetRank m n ratio)).map fun x => x.1 * Matrix.diagonal x.2.1 * x.2.2

end Verif.Rank
