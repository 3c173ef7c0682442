/-!
# Shapes of pointwise operations

What PyTorch does with operands of different shapes.  This is part of the contract with PyTorch, not code in the repository.
-/
namespace Verif.Power

/-- The shape two reversed shapes are broadcast to -/
def broadcastRev : List Nat → List Nat → Option (List Nat)
  | [], t => some t
  | s, [] => some s
  | x :: s, y :: t =>
    if x = y ∨ y = 1 then (broadcastRev s t).map (x :: ·)
    else if x = 1 then (broadcastRev s t).map (y :: ·)
    else none

/-- `torch.broadcast_shapes(s, t)`; `none` is a RuntimeError. -/
def broadcast (s t : List Nat) : Option (List Nat) := (broadcastRev s.reverse t.reverse).map List.reverse

/-- The entry of a tensor of shape `s` at an index of a shape it is broadcast to -/
def bindex (s i : List Nat) : List Nat := (s.zip (i.drop (i.length - s.length))).map fun p => if p.1 = 1 then 0 else p.2

end Verif.Power
