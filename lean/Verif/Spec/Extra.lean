import Verif.Model.Extra

/-!
# What is claimed about extra keys
-/
namespace Verif.Extra.Spec
open Method Recipe Config Eval
variable {F T : Type}

/-- `n` is a node in the recipe: the recipe itself, an argument, or an entry of a dict of nodes. -/
inductive Occurs : Val F → Val F → Prop
  | self (v : Val F) : Occurs v v
  | arg {m : Str} {args : List (Val F)} {kwargs : List (Str × Val F)} {v n : Val F} (hv : v ∈ args) (h : Occurs v n) : Occurs (.merge m args kwargs) n
  | kwarg {m : Str} {args : List (Val F)} {kwargs : List (Str × Val F)} {k : Str} {v n : Val F} (hv : (k, v) ∈ kwargs) (h : Occurs v n) :
      Occurs (.merge m args kwargs) n
  | entry {es : List (Str × Val F)} {c : Option Str} {s k : Str} {v n : Val F} (hes : ∀ p ∈ es, p.2.isNode = true) (hv : (k, v) ∈ es) (h : Occurs v n) :
      Occurs (.lit (.dict es) c s) n

/-- An input of config `c`: a file, or a dict of tensors in the merge space of the recipe -/
inductive Source (recipe : Val F) (c : Str) (space : Option Str) : Val F → Prop
  | file {path : Str} {s : Option Str} (h : Occurs recipe (.model path (some c) s)) : Source recipe c space (.model path (some c) s)
  | dict {es : List (Str × Val F)} {s : Str} (h : Occurs recipe (.lit (.dict es) (some c) s)) (hs : some s = space) (hne : es ≠ [])
      (ht : ∀ p ∈ es, ∃ i, p.2 = .tensor i) : Source recipe c space (.lit (.dict es) (some c) s)

/-- `k` is a key of the input. -/
inductive KeyOf (I : Inputs F) : Val F → Str → Prop
  | file {path : Str} {c s : Option Str} {d : Dict Str TensorMeta} {k : Str} (h : I.file path = .ok d) (hk : k ∈ d.keys) : KeyOf I (.model path c s) k
  | dict {es : Dict Str (Val F)} {c : Option Str} {s : Str} {k : Str} (hk : k ∈ es.keys) : KeyOf I (.lit (.dict es) c s) k

/-- `k` is the name in the config for a key stored as `k'`. -/
def Name (cfg : ModelConfig) (k' k : Str) : Prop :=
  (∃ as, cfg.aliases.get? k = some as ∧ k' ∈ as) ∨ (k = k' ∧ ∀ k0 as, cfg.aliases.get? k0 = some as → k' ∉ as)

end Verif.Extra.Spec
