import Verif.Model.Blocks
import Verif.Spec.Eval

/-!
# Specification: recipes with weights per block
-/
namespace Verif.Blocks.Spec
open Method Recipe Config Eval Eval.Spec Program
variable {F T : Type}

/-- A recipe in which some parameters are left open -/
inductive Plan (F : Type) where
  | hole (i : ℕ)
  | fixed (v : Val F)
  | merge (method : Str) (args : List (Plan F)) (kwargs : List (Str × Plan F))

mutual
/-- The recipe with `f i` for the parameter `i` -/
def Plan.fill (f : ℕ → Val F) : Plan F → Val F
  | .hole i => f i
  | .fixed v => v
  | .merge m args kwargs => .merge m (fillL f args) (fillK f kwargs)
def fillL (f : ℕ → Val F) : List (Plan F) → List (Val F)
  | [] => []
  | a :: l => a.fill f :: fillL f l
def fillK (f : ℕ → Val F) : List (Str × Plan F) → List (Str × Val F)
  | [] => []
  | (k, a) :: l => (k, a.fill f) :: fillK f l
end

mutual
/-- All parameters that are open satisfy `p`. -/
def Plan.Every (p : ℕ → Prop) : Plan F → Prop
  | .hole i => p i
  | .fixed _ => True
  | .merge _ args kwargs => EveryL p args ∧ EveryK p kwargs
def EveryL (p : ℕ → Prop) : List (Plan F) → Prop
  | [] => True
  | a :: l => a.Every p ∧ EveryL p l
def EveryK (p : ℕ → Prop) : List (Str × Plan F) → Prop
  | [] => True
  | (_, a) :: l => a.Every p ∧ EveryK p l
end

/-- Weights per block, with or without a weight for the blocks that are not named: `literal(entries, config)`, `literal(entries, config) | rest` -/
structure Weights (F : Type) where
  entries : Dict Str (Val F)
  rest : Option (Val F)

def number (x : Val F) : Val F := .lit x none "param".toList

/-- `convert(weights, model)` -/
def Weights.node (K : Conversion) (w : Weights F) : Val F :=
  match w.rest with
  | none => .merge K.name [.lit (.dict w.entries) (some K.blocks) "param".toList] []
  | some x => .merge K.name [.merge nFallback [.lit (.dict w.entries) (some K.blocks) "param".toList, number x] []] []

/-- The weight of a block -/
def Weights.of (w : Weights F) (block : Str) : Option (Val F) :=
  match w.entries.get? block with
  | some x => some x
  | none => w.rest

/-- A python number -/
inductive IsNumber : Val F → Prop
  | int (i : ℤ) : IsNumber (.int i)
  | float (x : F) : IsNumber (.float x)

/-- The block of a key -/
def BlockOf (K : Conversion) (key block : Str) : Prop := ∃ b, K.block (Lora.codes key) = some (.read b) ∧ block = Shipped.str b

mutual
/-- The mappings in a recipe know their config. -/
def Known : Val F → Prop
  | .lit (.dict es) c _ => c.isSome = true ∧ KnownK es
  | .merge _ args kwargs => KnownL args ∧ KnownK kwargs
  | _ => True
def KnownL : List (Val F) → Prop
  | [] => True
  | v :: l => Known v ∧ KnownL l
def KnownK : List (Str × Val F) → Prop
  | [] => True
  | (_, v) :: l => Known v ∧ KnownK l
end

/-- `a` is the argument at `idx`. -/
def At {A : Type} (args : List A) (kwargs : List (Str × A)) : Idx → A → Prop
  | .pos i, a => args[i]? = some a
  | .name k, a => (k, a) ∈ kwargs

/-- Of config `c`, whatever is put in its open parameters -/
def Given (E : Env F) (c : Str) : Plan F → Prop
  | .hole _ => False
  | .fixed v => v.config E = .ok (some c)
  | .merge .. => True

mutual
/-- A recipe for models of config `c`: its methods look at the current key only and do not ask for particular configs; each gets something of config `c`; parameters that
are open are values, not mappings. -/
def Fine (W : World F T) (c : Str) : Plan F → Prop
  | .hole _ => True
  | .fixed v => Known v ∧ (v.config W.env = .ok none ∨ v.config W.env = .ok (some c))
  | .merge m args kwargs =>
    Local (W.impl m) ∧
    (∃ sig, W.env.resolve m = .ok sig ∧ sig.retConfig = none ∧ ∀ idx a, At args kwargs idx a → (sig.inputConfigs.asDict (some args.length)).get? idx = some none) ∧
    (∃ idx a, At args kwargs idx a ∧ Given W.env c a) ∧
    (∀ idx i, At args kwargs idx (.hole i) → ∃ t, typeOf W m args.length idx = some (.val t)) ∧ FineL W c args ∧ FineK W c kwargs
def FineL (W : World F T) (c : Str) : List (Plan F) → Prop
  | [] => True
  | a :: l => Fine W c a ∧ FineL W c l
def FineK (W : World F T) (c : Str) : List (Str × Plan F) → Prop
  | [] => True
  | (_, a) :: l => Fine W c a ∧ FineK W c l
end

mutual
/-- Every instruction is as `create_recipe` builds it, and no argument passed by value fails for `key`, except that the key is missing. -/
def Calm (W : World F T) (key : Str) : Val F → Prop
  | .merge m args kwargs => Call W m args kwargs ∧ (∀ e, Fails W m args kwargs key e → e = .stateDictKey) ∧ CalmL W key args ∧ CalmK W key kwargs
  | _ => True
def CalmL (W : World F T) (key : Str) : List (Val F) → Prop
  | [] => True
  | v :: l => Calm W key v ∧ CalmL W key l
def CalmK (W : World F T) (key : Str) : List (Str × Val F) → Prop
  | [] => True
  | (_, v) :: l => Calm W key v ∧ CalmK W key l
end

end Verif.Blocks.Spec
