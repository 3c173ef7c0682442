import Verif.Model.Method

/-!
# Model configs (sd_mecha/extensions/model_configs.py)

The data of a config.  The caches and registries are in `Verif/Model/Registry.lean`.
-/
namespace Verif.Config
open Method

/-- `KeyMetadata` (model_configs.py:21-35).  `dtype` is the name of the torch dtype. -/
structure KeyMeta where
  shape : Option (List ℕ)
  dtype : Option Str
  aliases : List Str
  optional : Bool
  deriving DecidableEq, Repr

/-- `TensorMetadata` (streaming.py:143-167) -/
structure TensorMeta where
  shape : Option (List ℕ)
  dtype : Option Str
  deriving DecidableEq, Repr

/-- `KeyMetadata.metadata` (model_configs.py:34-35) -/
def KeyMeta.metadata (k : KeyMeta) : TensorMeta := ⟨k.shape, k.dtype⟩

/-- `ModelComponent`: its keys (model_configs.py:38-67) -/
abbrev Component := Dict Str KeyMeta

/-- A config: `ModelConfigImpl` (model_configs.py:108-173), or `StructuralModelConfig` (:226-262), which has the one component
`keys`. -/
structure ModelConfig where
  identifier : Str
  components : Dict Str Component
  deriving DecidableEq, Repr

/-- `ModelConfigImpl.keys` (model_configs.py:148-155): later components win, first position is kept. -/
def ModelConfig.keys (c : ModelConfig) : Dict Str KeyMeta :=
  Dict.ofList (c.components.flatMap fun p => p.2)

/-- `ModelConfigImpl.metadata` (model_configs.py:157-164) -/
def ModelConfig.metadata (c : ModelConfig) : Dict Str TensorMeta :=
  Dict.ofList (c.components.flatMap fun p => p.2.map fun q => (q.1, q.2.metadata))

/-- `ModelConfigImpl.aliases` (model_configs.py:166-173) -/
def ModelConfig.aliases (c : ModelConfig) : Dict Str (List Str) :=
  Dict.ofList (c.components.flatMap fun p => p.2.map fun q => (q.1, q.2.aliases))

/-- `StructuralModelConfig(keys)` (model_configs.py:226-262) -/
def structural (keys : Dict Str KeyMeta) : ModelConfig := ⟨"structural".toList, [("keys".toList, keys)]⟩

end Verif.Config
