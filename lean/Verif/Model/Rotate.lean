import Verif.Model.Rank
import Mathlib.LinearAlgebra.Matrix.NonsingularInverse
import Mathlib.LinearAlgebra.Matrix.ZPow
import Mathlib.Analysis.SpecialFunctions.Pow.Complex

/-!
# Rotating the neurons of one model towards those of another

`sd_mecha/extensions/builtin/merge_methods/__init__.py` lines 382-448 and `svd.py` lines 6-40.  Simplified: tensors are matrices (lines 402-409
flatten the others, line 448 undoes it); arithmetic over the reals is exact; `alpha` is a single number; no cache is given.
-/
namespace Verif.Rotate

open Matrix

/-- What further routines return: `torch.linalg.svd` of a square matrix, and `torch.linalg.eig` -/
structure Routines extends Rank.Routines where
  fullU {n : ℕ} (B : Matrix (Fin n) (Fin n) ℝ) : Matrix (Fin n) (Fin n) ℝ
  fullS {n : ℕ} (B : Matrix (Fin n) (Fin n) ℝ) : Fin n → ℝ
  fullVt {n : ℕ} (B : Matrix (Fin n) (Fin n) ℝ) : Matrix (Fin n) (Fin n) ℝ
  eigenvalues {n : ℕ} (B : Matrix (Fin n) (Fin n) ℝ) : Fin n → ℂ
  eigenvectors {n : ℕ} (B : Matrix (Fin n) (Fin n) ℝ) : Matrix (Fin n) (Fin n) ℂ

variable {m n : ℕ}

/-- `torch.slogdet(u)[0]` -/
noncomputable def slogdet (U : Matrix (Fin n) (Fin n) ℝ) : ℝ := SignType.sign U.det

/-- `orthogonal_procrustes(a, b, cancel_reflection)` (`svd.py` lines 6-21) of matrices of the same shape; `none` is an AssertionError of
`torch_svd_lowrank`.  Line 17 changes the last column of `u`. -/
noncomputable def procrustes (R : Routines) (a b : Matrix (Fin m) (Fin (n + 1)) ℝ) (cancelReflection : Bool) : Option (Matrix (Fin (n + 1)) (Fin (n + 1)) ℝ) :=
  if cancelReflection = false ∧ m + 10 < n + 1 then
    (Rank.svdLowrank R.toRoutines (aᵀ * b) (m + 10)).map fun x => x.1 * x.2.2
  else
    let u := R.fullU (aᵀ * b)
    let vt := R.fullVt (aᵀ * b)
    let u := if cancelReflection then u.updateCol (Fin.last n) fun i => u i (Fin.last n) / (slogdet u * slogdet vt) else u
    some (u * vt)

/-- `fractional_matrix_power(matrix, power)` (`svd.py` lines 24-40) -/
noncomputable def fractionalPower (R : Routines) (M : Matrix (Fin n) (Fin n) ℝ) (power : ℚ) : Matrix (Fin n) (Fin n) ℝ :=
  (R.eigenvectors M * diagonal (fun i => R.eigenvalues M i ^ (power : ℂ)) * (R.eigenvectors M)⁻¹).map Complex.re

/-- `math.isclose(x, y)` -/
def isclose (x y : ℚ) : Prop := |x - y| ≤ 1 / 10 ^ 9 * max |x| |y|

instance (x y : ℚ) : Decidable (isclose x y) := inferInstanceAs (Decidable (_ ≤ _))

/-- `torch.allclose(x, y)` for single numbers -/
def allclose (x y : ℝ) : Prop := |x - y| ≤ 1 / 10 ^ 8 + 1 / 10 ^ 5 * |y|

/-- `a.mean(0)` -/
noncomputable def mean (a : Matrix (Fin m) (Fin n) ℝ) (j : Fin n) : ℝ := (∑ i, a i j) / m

/-- `a -= a.mean(0)` (lines 410-413) -/
noncomputable def centred (a : Matrix (Fin m) (Fin n) ℝ) : Matrix (Fin m) (Fin n) ℝ := Matrix.of fun i j => a i j - mean a j

open Classical in
/-- Lines 399-448 of `rotate`.  `half` is the rounding of `a.half()`.  The variable of line 422 is true of whole numbers. -/
noncomputable def rotateMatrix (R : Routines) (half : ℝ → ℝ) (a b : Matrix (Fin m) (Fin (n + 1)) ℝ) (alignment : ℚ) (alpha : ℝ) : Option (Matrix (Fin m) (Fin (n + 1)) ℝ) :=
  if ∀ i j, allclose (half (a i j)) (half (b i j)) then some ((1 - alpha) • a + alpha • b)
  else
    let alignmentIsFloat := decide (isclose alignment (Region.pyRound alignment))
    (procrustes R (centred a) (centred b) alignmentIsFloat).map fun rotation =>
      let transform :=
        if alignmentIsFloat then fractionalPower R rotation alignment
        else if isclose alignment 0 then 1
        else if ¬ isclose alignment 1 then rotation ^ Region.pyRound alignment
        else rotation
      let neurons := if ¬ allclose alpha 0 then (1 - alpha) • centred a + alpha • (centred b * rotationᵀ) else centred a
      Matrix.of fun i j => (neurons * transform) i j + ((1 - alignment : ℝ) * mean a j + alignment * mean b j)

/-- An argument of a merge method: a tensor, or a state dict -/
inductive Arg (α : Type)
  | tensor (t : α)
  | dict (d : List ℕ → Option α)

inductive Err
  /-- `only integers, slices (…) are valid indices` -/
  | index
  /-- a missing key -/
  | key
  | assertion
  deriving DecidableEq

/-- `arg[key]` for a string -/
def Arg.get {α : Type} (x : Arg α) (key : List ℕ) : Except Err α :=
  match x with
  | .tensor _ => .error .index
  | .dict d => match d key with
    | none => .error .key
    | some t => .ok t

open Classical in
/-- `rotate(a_dict, b_dict, alignment, alpha, key=key)` (lines 383-448) -/
noncomputable def rotate (R : Routines) (half : ℝ → ℝ) (aDict bDict : Arg (Matrix (Fin m) (Fin (n + 1)) ℝ)) (alignment : ℚ) (alpha : ℝ) (key : List ℕ) :
    Except Err (Matrix (Fin m) (Fin (n + 1)) ℝ) :=
  if isclose alignment 0 ∧ allclose alpha 0 then aDict.get key
  else if isclose alignment 1 ∧ allclose alpha 1 then bDict.get key
  else
    match aDict.get key with
    | .error e => .error e
    | .ok a =>
      match bDict.get key with
      | .error e => .error e
      | .ok b =>
        match rotateMatrix R half a b alignment alpha with
        | none => .error .assertion
        | some r => .ok r

end Verif.Rotate
