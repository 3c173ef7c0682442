import Verif.Spec.Blocks
import Verif.Model.Whole

/-!
# Specification: merging in two steps

A `Plan` is a recipe in which some places are left open; `q.fill f` is the recipe with `f i` in the place `i`.
-/
namespace Verif.Steps.Spec
open Method Recipe Config Eval Eval.Spec Whole Blocks.Spec
variable {F T : Type}

mutual
/-- The methods around the open places look at the current key only. -/
def Here (W : World F T) : Plan F → Prop
  | .hole _ => True
  | .fixed _ => True
  | .merge m args kwargs => Local (W.impl m) ∧ HereL W args ∧ HereK W kwargs
def HereL (W : World F T) : List (Plan F) → Prop
  | [] => True
  | a :: l => Here W a ∧ HereL W l
def HereK (W : World F T) : List (Str × Plan F) → Prop
  | [] => True
  | (_, a) :: l => Here W a ∧ HereK W l
end

/-- `t` is not changed when it is saved with the options `o₁`, nor when it is then loaded with the options `o`. -/
def Kept (move : Option Str → Option Str → T → Except Err T) (o₁ o : Options F) (t : T) : Prop :=
  (o₁.castsOutput = true → move o₁.outputDevice o₁.outputDtype t = .ok t) ∧ (o.castsInputs = true → move o.mergeDevice o.mergeDtype t = .ok t)

end Verif.Steps.Spec
