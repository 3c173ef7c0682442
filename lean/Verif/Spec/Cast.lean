import Verif.Model.Cast
import Verif.Spec.Eval

/-!
# Vocabulary for C32: a recipe whose inputs were cast beforehand
-/
namespace Verif.Eval.Spec
open Method Recipe Config Eval
variable {F T : Type}

mutual
/-- The recipe in which every numeric or tensor literal, alone or in a mapping, is replaced by the tensor numbered `enc`. -/
def precast (enc : Val F → ℕ) : Val F → Val F
  | .lit (.dict es) c s => .lit (.dict (precastD enc es)) c s
  | .lit v c s => .lit (if isScalar v then .tensor (enc v) else v) c s
  | .merge m args kwargs => .merge m (precastL enc args) (precastK enc kwargs)
  | v => v
def precastD (enc : Val F → ℕ) : List (Str × Val F) → List (Str × Val F)
  | [] => []
  | (k, v) :: l => (k, if isScalar v then .tensor (enc v) else precast enc v) :: precastD enc l
def precastL (enc : Val F → ℕ) : List (Val F) → List (Val F)
  | [] => []
  | v :: l => precast enc v :: precastL enc l
def precastK (enc : Val F → ℕ) : List (Str × Val F) → List (Str × Val F)
  | [] => []
  | (k, v) :: l => (k, precast enc v) :: precastK enc l
end

/-- The world in which every file holds tensors that were cast beforehand, and with other tensors in memory. -/
def castWorld (W : World F T) (move : T → Except Err T) (tensors : ℕ → T) : World F T :=
  { W with
    tensors := tensors
    read := fun p k => match W.read p k with | .ok x => move x | .error e => .error e }

/-- Tensor number `enc v` is the cast of the literal `v`. -/
def CastScalar (W : World F T) (move : T → Except Err T) (tensors : ℕ → T) (enc : Val F → ℕ) (v : Val F) : Prop :=
  ∃ v' x, (∀ key, eval W v key = .ok v') ∧ castTo W.conv .tensor v' = .ok (.tensor x) ∧ move x = .ok (tensors (enc v))

/-- Arguments that fail do so in one way only. -/
def OneError (W : World F T) (m : Str) (args : List (Val F)) (kwargs : Dict Str (Val F)) : Prop :=
  ∀ key e e', Fails W m args kwargs key e → Fails W m args kwargs key e' → e = e'

/-- A mapping holds values of one sort, as `value_to_node` demands. -/
def SameSort (es : List (Str × Val F)) : Prop :=
  (∀ p ∈ es, isScalar p.2 = true) ∨ (∀ p ∈ es, p.2.isNode = true) ∨ (∀ p ∈ es, isScalar p.2 = false ∧ p.2.isNode = false)

mutual
/-- What C32 asks of the nodes of a recipe: literals hold no node and can be cast (to tensors numbered by `enc`), mappings know their config and hold
values of one sort, merge nodes are as `create_recipe` builds them, and arguments that fail do so in one way only. -/
def Castable (W : World F T) (move : T → Except Err T) (tensors : ℕ → T) (enc : Val F → ℕ) : Val F → Prop
  | .lit (.dict es) c _ => c.isSome ∧ SameSort es ∧ CastableD W move tensors enc es
  | .lit v _ _ => v.isNode = false ∧ (isScalar v = true → CastScalar W move tensors enc v)
  | .model .. => True
  | .merge m args kwargs =>
    Call W m args kwargs ∧ OneError (castWorld W move tensors) m (precastL enc args) (precastK enc kwargs) ∧
      CastableL W move tensors enc args ∧ CastableK W move tensors enc kwargs
  | _ => True
def CastableD (W : World F T) (move : T → Except Err T) (tensors : ℕ → T) (enc : Val F → ℕ) : List (Str × Val F) → Prop
  | [] => True
  | (_, v) :: l => (isScalar v = true → CastScalar W move tensors enc v) ∧ Castable W move tensors enc v ∧
      CastableD W move tensors enc l
def CastableL (W : World F T) (move : T → Except Err T) (tensors : ℕ → T) (enc : Val F → ℕ) : List (Val F) → Prop
  | [] => True
  | v :: l => Castable W move tensors enc v ∧ CastableL W move tensors enc l
def CastableK (W : World F T) (move : T → Except Err T) (tensors : ℕ → T) (enc : Val F → ℕ) : List (Str × Val F) → Prop
  | [] => True
  | (_, v) :: l => Castable W move tensors enc v ∧ CastableK W move tensors enc l
end

end Verif.Eval.Spec
