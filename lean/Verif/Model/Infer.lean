import Verif.Model.Registry
import Verif.Model.Float
import Mathlib.Data.List.Dedup

/-!
# Which config a state dict has (sd_mecha/merging.py:462-508)
-/
namespace Verif.Infer
open Method Config Float

/-- A registered config.  `hashable` is whether the object can be a dict key: a `YamlModelConfig` can (model_configs.py:288-305), a
`ModelConfigImpl` cannot, being a dataclass with `eq` (model_configs.py:108-109). -/
structure RegCfg where
  config : ModelConfig
  hashable : Bool
deriving DecidableEq

/-- The double `0.1` -/
def tenth : Dy := ⟨3602879701896397, -55⟩
/-- The double `0.9` -/
def nine : Dy := ⟨8106479329266893, -53⟩

/-- `m >= n * x` for integers `m`, `n` and a double `x`: the product is rounded to a double, the comparison is exact.  `n` itself is
taken to be a double (it is below `2^53`). -/
def geMul (m n : ℕ) (x : Dy) : Bool :=
  match f64 ⟨n * x.m, x.e⟩ with
  | some y => if 0 ≤ y.e then decide (y.m * 2 ^ y.e.toNat ≤ m) else decide (y.m ≤ m * 2 ^ (-y.e).toNat)
  | none => false

/-- `config_keys` (merging.py:467) -/
def configKeys (c : ModelConfig) : List Str := c.keys.keys ++ c.aliases.flatMap fun p => p.2

/-- `matched_keys` (merging.py:468).  Sets are lists without duplicates. -/
def matched (sd : List Str) (c : ModelConfig) : List Str := sd.dedup.filter (· ∈ configKeys c)

/-- The loop of `infer_model_configs` (merging.py:463-475): the entries it puts into `configs_affinity`. -/
def scan (sd : List Str) : List RegCfg → Except Err (List (RegCfg × ℕ))
  | [] => .ok []
  | c :: cs =>
    let m := (matched sd c.config).length
    let rest := if m = sd.dedup.length ∧ geMul m c.config.keys.length nine then .ok [] else scan sd cs
    if geMul m sd.dedup.length tenth then
      if c.hashable then
        match rest with
        | .ok l => .ok ((c, m) :: l)
        | .error e => .error e
      else .error .type
    else rest

/-- `configs_affinity[next(iter(s))]` -/
def affinity (g : List (RegCfg × ℕ)) : ℕ := match g with | p :: _ => p.2 | [] => 0

/-- `best_configs` (merging.py:477-480); the order within a set is not used by the code. -/
def rank (l : List (RegCfg × ℕ)) : List (List RegCfg) :=
  (((l.map (·.2)).dedup.map fun a => l.filter fun p => p.2 = a).insertionSort fun g h => affinity h ≤ affinity g).map fun g => g.map (·.1)

/-- `infer_model_configs` (merging.py:462-481); `configs` is `model_configs.get_all()`, see `Registry.getAll`. -/
def infer (configs : List RegCfg) (sd : List Str) : Except Err (List (List RegCfg)) :=
  match scan sd configs with
  | .ok l => .ok (rank l)
  | .error e => .error e

/-- `missing_keys` of `check_model_config` (merging.py:492-505): the loop over the aliases replaces `k` by the first alias that is in
the state dict. -/
def missing (sd : List Str) (keys : Dict Str KeyMeta) : List Str :=
  keys.filterMap fun p =>
    if p.2.optional then none
    else
      let k := match p.2.aliases.find? (· ∈ sd) with | some a => a | none => p.1
      if k ∈ sd then none else some k

/-- `check_model_config` (merging.py:484-508).  `strip_extra_keys` only logs. -/
def check (sd : List Str) (c : ModelConfig) (checkMandatory : Bool) : Except Err Unit :=
  if checkMandatory then if missing sd c.keys ≠ [] then .error .runtime else .ok () else .ok ()

end Verif.Infer
