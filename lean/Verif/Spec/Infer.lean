import Verif.Model.Infer
import Mathlib.Data.Finset.Card
import Mathlib.Data.Finset.Dedup

/-!
# What is claimed about config inference
-/
namespace Verif.Infer.Spec
open Method Config

/-- `k` is a key of `c` or an alias of one of its keys. -/
def Known (c : ModelConfig) (k : Str) : Prop := ∃ p ∈ c.keys, k = p.1 ∨ k ∈ p.2.aliases

instance (c : ModelConfig) (k : Str) : Decidable (Known c k) := inferInstanceAs (Decidable (∃ p ∈ c.keys, _))

/-- The number of different keys of the state dict that `c` knows -/
def count (sd : List Str) (c : ModelConfig) : ℕ := (sd.toFinset.filter (Known c)).card

/-- At least a tenth of the keys of the state dict -/
def Enough (sd : List Str) (c : ModelConfig) : Prop := sd.toFinset.card ≤ 10 * count sd c

/-- `c` knows all keys of the state dict and has at most a ninth more. -/
def Stops (sd : List Str) (c : ModelConfig) : Prop := count sd c = sd.toFinset.card ∧ 9 * c.keys.length ≤ 10 * count sd c

instance (sd : List Str) (c : ModelConfig) : Decidable (Enough sd c) := inferInstanceAs (Decidable (_ ≤ _))
instance (sd : List Str) (c : ModelConfig) : Decidable (Stops sd c) := inferInstanceAs (Decidable (_ ∧ _))

/-- `c` is looked at: no config before it in the registry stops the search. -/
def Examined (L : List RegCfg) (sd : List Str) (c : RegCfg) : Prop :=
  ∃ pre post, L = pre ++ c :: post ∧ ∀ d ∈ pre, ¬ Stops sd d.config

/-- The key `k` of `c` is there, under its name or an alias. -/
def Present (sd : List Str) (k : Str) (m : KeyMeta) : Prop := k ∈ sd ∨ ∃ a ∈ m.aliases, a ∈ sd

end Verif.Infer.Spec
