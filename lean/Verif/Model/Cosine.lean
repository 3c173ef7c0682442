import Verif.Model.Geometry

/-!
# Merge methods that use the cosine similarity

`sd_mecha/extensions/builtin/merge_methods/__init__.py` lines 113-138 and 720-749.  A tensor is a function of its first (or last) axis
and of all its other axes.  Simplified: arithmetic is exact; NaN and infinities appear only where a division by zero makes them.
-/
namespace Verif.Geometry.Cosine

variable {ρ κ : Type} [Fintype ρ] [Fintype κ]

/-- `torch.nn.functional.cosine_similarity(x, y, eps=eps)` of two vectors -/
noncomputable def cosine (eps : ℝ) (x y : ρ → ℝ) : ℝ := dot x y / (max (norm x) eps * max (norm y) eps)

/-- `torch.nn.functional.normalize(x)` of a vector -/
noncomputable def normalize (x : ρ → ℝ) : ρ → ℝ := fun r => x r / max (norm x) (1 / 10 ^ 12)

/-- The default `eps` of `cosine_similarity` -/
noncomputable def eps8 : ℝ := 1 / 10 ^ 8

/-- Column `j` of a tensor: along the first axis -/
def col (a : ρ → κ → ℝ) (j : κ) : ρ → ℝ := fun r => a r j

/-- `add_cosine_generic` on one entry (lines 136-138) -/
noncomputable def generic (a b alpha similarity : ℝ) : ℝ := wsum a b (1 - min (max (similarity - alpha) 0) 1)

/-- `add_cosine_a` (lines 113-121) -/
noncomputable def addCosineA (a b alpha : ρ → κ → ℝ) : ρ → κ → ℝ := fun r j =>
  generic (a r j) (b r j) (alpha r j) (cosine eps8 (normalize (col a j)) (normalize (col b j)))

/-- A tensor as one vector -/
def flat (a : ρ → κ → ℝ) : ρ × κ → ℝ := fun p => a p.1 p.2

open Classical in
/-- `add_cosine_b` (lines 124-133).  If one of the tensors is zero, the quotient of line 131 is NaN and so is everything: `none`. -/
noncomputable def addCosineB (a b alpha : ρ → κ → ℝ) : Option (ρ → κ → ℝ) :=
  if norm (flat a) * norm (flat b) = 0 then none
  else some fun r j => generic (a r j) (b r j) (alpha r j)
    ((cosine eps8 (col a j) (col b j) + dot (flat a) (flat b) / (norm (flat a) * norm (flat b))) / 2)

/-! ## Model stock -/

/-- `cos_thetas` of lines 741-742 for one row: the similarities of neighbours in the list -/
noncomputable def neighbours (eps : ℝ) : List (κ → ℝ) → List ℝ
  | x :: y :: l => cosine eps x y :: neighbours eps (y :: l)
  | _ => []

/-- `torch.stack(cos_thetas).mean(dim=0)` for one row (line 745) -/
noncomputable def meanCos (eps : ℝ) (rows : List (κ → ℝ)) : ℝ := (neighbours eps rows).sum / (neighbours eps rows).length

open Classical in
/-- `torch.nan_to_num(t * w)` for `t = n * c / (1 + (n - 1) * c)` (lines 733, 748).  If the denominator vanishes, `c` is negative and `t` is
`-inf`; `big` is what `nan_to_num` makes of `inf`. -/
noncomputable def stockTimes (big : ℝ) (n : ℕ) (c w : ℝ) : ℝ :=
  if 1 + ((n : ℝ) - 1) * c = 0 then (if w = 0 then 0 else if 0 < w then -big else big)
  else n * c / (1 + ((n : ℝ) - 1) * c) * w

/-- `model_stock(*deltas, cos_eps)` (lines 720-749); `a r` is a row along the last axis.  `torch.stack` raises for an empty list, so that there
must be two deltas. -/
noncomputable def modelStock (big eps : ℝ) (deltas : List (ρ → κ → ℝ)) : Option (ρ → κ → ℝ) :=
  if deltas.length < 2 then none
  else some fun r i => stockTimes big deltas.length (meanCos eps (deltas.map fun d => d r)) ((deltas.map fun d => d r i).sum / deltas.length)

end Verif.Geometry.Cosine
