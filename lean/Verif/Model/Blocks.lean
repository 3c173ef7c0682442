import Verif.Model.Lora
import Verif.Model.Convert

/-!
# Weights per block (sd_mecha/extensions/builtin/model_configs/convert_sd1_blocks.py, convert_sdxl_blocks.py)

The conversions from a mapping of blocks to a mapping of keys, as methods.  Which block a key belongs to is in `Verif/Model/Convert.lean`.
-/
namespace Verif.Blocks
open Method Recipe Config Eval Program Whole Shipped
variable {F T : Type}

/-- `convert_sd1_blocks_to_ldm` and `convert_sdxl_blocks_to_sgm` (convert_sd1_blocks.py:19-41, convert_sdxl_blocks.py:19-43): `block` says what is read for a
key, which is always the entry of one block. -/
def blockSource (block : Text → Option Convert.Conv) : Source F T where
  types := ⟨[.sd .typeVar], none, []⟩
  body args _ key :=
    match args with
    | [.sd _] =>
      match block (Lora.codes key) with
      | some (.read b) => .ask (.pos 0) (str b) .done
      | _ => .done (.error .stateDictKey)
    | _ => .done (.error .type)

/-- Their signatures: from config `b` to config `c` (convert_sd1_blocks.py:19-23, convert_sdxl_blocks.py:19-23) -/
def blockSig (b c : Str) : Sig (Val F) := ⟨[("blocks".toList, ⟨none, some b, false⟩)], none, [], [], [], .none, some c⟩

/-- A conversion from blocks: its name, its configs and the block of a key -/
structure Conversion where
  name : Str
  blocks : Str
  model : Str
  block : Text → Option Convert.Conv

def sd1 : Conversion := ⟨"convert_sd1_blocks_to_ldm".toList, "sd1-supermerger_blocks".toList, "sd1-ldm".toList, Convert.sd1Blocks⟩
def sdxl : Conversion := ⟨"convert_sdxl_blocks_to_sgm".toList, "sdxl-supermerger_blocks".toList, "sdxl-sgm".toList, Convert.sdxlBlocks⟩

/-- The conversion is registered under its name; the blocks have no aliases (sd1-supermerger_blocks.yaml, sdxl-supermerger_blocks.yaml). -/
structure Conversion.Registered (K : Conversion) (P : PWorld F T) : Prop where
  sig : P.env.resolve K.name = .ok (blockSig K.blocks K.model)
  source : P.source K.name = blockSource K.block
  config : ∃ cfg, P.configs K.blocks = some cfg ∧ ∀ block, (cfg.aliases.get? block).getD [] = []

end Verif.Blocks
