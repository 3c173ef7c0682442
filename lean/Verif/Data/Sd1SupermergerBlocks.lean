import Verif.Data.Entry

/-!
# Keys of `sd1-supermerger_blocks.yaml`

Generated by tools/gen_tables.py from sd_mecha/extensions/builtin/model_configs/sd1-supermerger_blocks.yaml.
-/
namespace Verif.Data.Sd1SupermergerBlocks


noncomputable def blocks0 : List Entry := [
  ⟨key% "BASE", [], .float32, [], false⟩,
  ⟨key% "IN00", [], .float32, [], false⟩,
  ⟨key% "IN01", [], .float32, [], false⟩,
  ⟨key% "IN02", [], .float32, [], false⟩,
  ⟨key% "IN03", [], .float32, [], false⟩,
  ⟨key% "IN04", [], .float32, [], false⟩,
  ⟨key% "IN05", [], .float32, [], false⟩,
  ⟨key% "IN06", [], .float32, [], false⟩,
  ⟨key% "IN07", [], .float32, [], false⟩,
  ⟨key% "IN08", [], .float32, [], false⟩,
  ⟨key% "IN09", [], .float32, [], false⟩,
  ⟨key% "IN10", [], .float32, [], false⟩,
  ⟨key% "IN11", [], .float32, [], false⟩,
  ⟨key% "M00", [], .float32, [], false⟩,
  ⟨key% "OUT00", [], .float32, [], false⟩,
  ⟨key% "OUT01", [], .float32, [], false⟩,
  ⟨key% "OUT02", [], .float32, [], false⟩,
  ⟨key% "OUT03", [], .float32, [], false⟩,
  ⟨key% "OUT04", [], .float32, [], false⟩,
  ⟨key% "OUT05", [], .float32, [], false⟩,
  ⟨key% "OUT06", [], .float32, [], false⟩,
  ⟨key% "OUT07", [], .float32, [], false⟩,
  ⟨key% "OUT08", [], .float32, [], false⟩,
  ⟨key% "OUT09", [], .float32, [], false⟩,
  ⟨key% "OUT10", [], .float32, [], false⟩,
  ⟨key% "OUT11", [], .float32, [], false⟩]
/-- Component `blocks`: 26 keys -/
noncomputable def blocks : List Entry := blocks0

/-- The config as written in the file: its identifier and its components -/
noncomputable def table : Table := ⟨key% "sd1-supermerger_blocks", [(key% "blocks", blocks)]⟩

end Verif.Data.Sd1SupermergerBlocks
