import Verif.Py.Text

/-!
# Format of the key tables of the shipped configs

One `Entry` for every key of a YAML file in sd_mecha/extensions/builtin/model_configs (see model_configs.py:285-306 for the format).
-/
namespace Verif.Data

/-- The dtypes named in the files -/
inductive DType where
  | float32 | float16 | bfloat16 | int64 | int32
  deriving DecidableEq, Repr

structure Entry where
  key : Text
  shape : List Nat
  dtype : DType
  aliases : List Text
  optional : Bool
  deriving DecidableEq, Repr

structure Table where
  identifier : Text
  components : List (Text × List Entry)

/-- All entries of a config -/
def Table.entries (t : Table) : List Entry := t.components.flatMap (·.2)

end Verif.Data
