import Verif.Model.Shape

/-!
# Specification: shapes of merged tensors
-/
namespace Verif.Shape.Spec

/-- The size of the `i`-th dimension from the end; dimensions that are not there count as 1. -/
def side (s : List Nat) (i : Nat) : Nat := s.reverse.getD i 1

/-- Tensors of shapes `a` and `b` can be combined entry by entry, and the result has shape `u`. -/
def Joint (a b u : List Nat) : Prop :=
  u.length = max a.length b.length ∧
  ∀ i, (side a i = side b i ∨ side a i = 1 ∨ side b i = 1) ∧ side u i = if side a i = 1 then side b i else side a i

/-- A tensor of shape `x` can be combined with one of shape `s` without changing the latter's shape. -/
def Fits (x s : List Nat) : Prop := x.length ≤ s.length ∧ ∀ i, side x i = side s i ∨ side x i = 1

/-- Methods that weigh by the cosine similarity along the last dimension -/
def LastCosine (m : Many) : Prop :=
  m = .modelStock ∨ ∃ d n, m = .tiesSumExtended d false true n ∨ m = .tiesSumWithDropout d false true n

mutual
/-- Recipes whose merge methods get tensors where they need tensors, and that weigh by similarities along the last dimension only if there is
one -/
def Proper (s : List Nat) : Tree → Prop
  | .tensor => True
  | .number => False
  | .one _ a => Proper s a
  | .two _ a b alpha => Proper s a ∧ Proper s b ∧ (alpha = .number ∨ Proper s alpha)
  | .three _ a b c alpha => Proper s a ∧ Proper s b ∧ Proper s c ∧ (alpha = .number ∨ Proper s alpha)
  | .many m a rest => Proper s a ∧ ProperL s rest ∧ (LastCosine m → s ≠ [])
def ProperL (s : List Nat) : List Tree → Prop
  | [] => True
  | t :: ts => Proper s t ∧ ProperL s ts
end

end Verif.Shape.Spec
