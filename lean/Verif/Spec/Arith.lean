import Mathlib.Algebra.Order.Field.Basic
import Mathlib.Algebra.BigOperators.Group.List.Basic
import Mathlib.Tactic.Common

/-!
# What elementwise methods are meant to compute
-/
namespace Verif.Arith.Spec
variable {K : Type} [Field K] [LinearOrder K]

/-- The average of a list of numbers, zero for the empty list. -/
def mean (xs : List K) : K := if xs = [] then 0 else xs.sum / xs.length

/-- `v` is the value of TIES for the trimmed deltas `ds` once a positive (`1`), a negative (`-1`) or no (`0`)
sign has been elected: the average of the deltas of that sign. -/
def tiesValue (ds : List K) (sign : Int) : K :=
  if sign = 1 then mean (ds.filter fun d => decide (0 < d))
  else if sign = -1 then mean (ds.filter fun d => decide (d < 0))
  else 0

/-- The sign elected by counting: which of the signs occurs more often. -/
def byCount (ds : List K) : Int :=
  if (ds.countP fun d => decide (d < 0)) < ds.countP fun d => decide (0 < d) then 1
  else if (ds.countP fun d => decide (0 < d)) < ds.countP fun d => decide (d < 0) then -1 else 0

/-- The sign elected by mass: the sign of the sum. -/
def byMass (ds : List K) : Int := if 0 < ds.sum then 1 else if ds.sum < 0 then -1 else 0

/-- `t` is `a` without its smallest entries: there is an entry `j` such that an entry is kept exactly if it is
not smaller in magnitude; less than `c` entries are set to zero, and `c` entries are not larger than entry
`j`. -/
def Trimmed {m : Nat} (a t : Fin m → K) (c : Nat) : Prop := ∃ j : Fin m,
  (∀ i, t i = if |a j| ≤ |a i| then a i else 0) ∧
  ((List.finRange m).countP fun i => decide (|a i| < |a j|)) < c ∧
  c ≤ (List.finRange m).countP fun i => decide (|a i| ≤ |a j|)

end Verif.Arith.Spec
