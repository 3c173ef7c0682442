import Verif.Spec.Whole

/-!
# Specification: recipes that can be merged
-/
namespace Verif.Total.Spec
open Method Recipe Config Eval
variable {F : Type}

mutual
/-- What the constructors of nodes see to, and that mappings have an entry: inputs are in one of the library's merge spaces, mappings hold values that
are no recipes or recipes of one config and space, and the merge space of a merge node can be told. -/
def Ready (E : Env F) : Val F → Prop
  | .model _ _ s => ∃ x ∈ allSpaces, s = some x
  | .lit (.dict es) c s => s ∈ allSpaces ∧ es ≠ [] ∧ ((∀ p ∈ es, p.2.isNode = false) ∨
      (∃ t, ∀ p ∈ es, p.2.isNode = true ∧ p.2.config E = .ok c ∧ p.2.space E = .ok (some t)) ∧ ReadyK E es)
  | .lit _ _ s => s ∈ allSpaces
  | .merge m args kwargs => (∃ s, (Val.merge m args kwargs).space E = .ok (some s)) ∧ ReadyL E args ∧ ReadyK E kwargs
  | _ => False
def ReadyL (E : Env F) : List (Val F) → Prop
  | [] => True
  | v :: l => Ready E v ∧ ReadyL E l
def ReadyK (E : Env F) : List (Str × Val F) → Prop
  | [] => True
  | (_, v) :: l => Ready E v ∧ ReadyK E l
end

/-- What is passed to a method: recipes that are ready, mappings that have an entry and hold no recipes or only such, or other values. -/
def Good (E : Env F) (v : Val F) : Prop :=
  match v with
  | .dict es => es ≠ [] ∧ ((∀ p ∈ es, p.2.isNode = false) ∨
      (∀ p ∈ es, p.2.isNode = true ∧ Ready E p.2 ∧ ∃ s ∈ allSpaces, p.2.space E = .ok (some s)))
  | v => v.isNode = true → Ready E v

/-- The recipe and its fallback model are in the merge space `s`. -/
def InSpace (E : Env F) (r : Val F) (fb : Option (Val F)) (s : Str) : Prop :=
  r.space E = .ok (some s) ∧ ∀ b, fb = some b → b.space E = .ok (some s)

/-- The config that the recipe and its fallback model have: that of the one that has one, and they have no two -/
def OneConfig (E : Env F) (r : Val F) (fb : Option (Val F)) (c : Str) : Prop :=
  match fb with
  | none => r.config E = .ok (some c)
  | some b => ∃ cr cb, r.config E = .ok cr ∧ b.config E = .ok cb ∧ (cr = some c ∧ (cb = none ∨ cb = some c) ∨ cr = none ∧ cb = some c)

end Verif.Total.Spec
