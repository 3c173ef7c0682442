import Verif.Model.Inputs
import Verif.Model.Lycoris
import Verif.Data.FluxFlux
import Verif.Data.FluxFluxDiffuserOnly
import Verif.Data.Sd1Kohya
import Verif.Data.Sd1Ldm
import Verif.Data.Sd1SupermergerBlocks
import Verif.Data.Sd3Comfyui
import Verif.Data.SdxlDiffusersUnetOnly
import Verif.Data.SdxlKohya
import Verif.Data.SdxlSgm
import Verif.Data.SdxlSupermergerBlocks

/-!
# The configs that are registered when the library is imported

One for each YAML file, and two for LoRAs of each of them.  The tables are those of `Verif/Data`.
-/
namespace Verif.Shipped
open Method Config Data Infer

/-- The string with the given code points -/
def str (t : Text) : Str := t.map Char.ofNat

/-- `getattr(torch, name)` as a name (model_configs.py:31-32) -/
def dtypeName : Data.DType → Str
  | .float32 => "float32".toList
  | .float16 => "float16".toList
  | .bfloat16 => "bfloat16".toList
  | .int64 => "int64".toList
  | .int32 => "int32".toList

/-- `dtype.is_floating_point` -/
def floating : Data.DType → Bool
  | .float32 | .float16 | .bfloat16 => true
  | .int64 | .int32 => false

/-- `KeyMetadata(**v)` for the entry of a YAML file (model_configs.py:21-32, 42-49) -/
def keyMeta (e : Entry) : KeyMeta := ⟨some e.shape, some (dtypeName e.dtype), e.aliases.map str, e.optional⟩

/-- `YamlModelConfig` of the file `stem.yaml` (model_configs.py:293-306, 362-364).  It goes by the name of the file; the identifier within the file
is not used for it. -/
def base (stem : Text) (t : Table) : ModelConfig := ⟨str stem, t.components.map fun c => (str c.1, c.2.map fun e => (str e.key, keyMeta e))⟩

/-- `_to_lycoris_keys` for the keys of a component (lycoris.py:85-106).  The aliases of a key are kept for its LoRA keys. -/
def loraComponent (pre : Text) (es : List Entry) : Component :=
  Dict.ofList (es.flatMap fun e => match Lycoris.moduleName pre e.key (floating e.dtype) with
    | none => []
    | some m => Lycoris.suffixes.map fun s => (str (m ++ key% "." ++ s), { keyMeta e with shape := some [], optional := true }))

/-- `LycorisModelConfig` of a config (lycoris.py:58-80) -/
def lora (c : Lycoris.Config) (t : Table) : ModelConfig := ⟨str c.identifier, t.components.map fun p => (str p.1, loraComponent c.pre p.2)⟩

/-- The YAML files by their names (builtin/model_configs/__init__.py:8-11) -/
noncomputable def tables : List (Text × Table) :=
  [(key% "flux-flux", FluxFlux.table), (key% "flux-flux_diffuser_only", FluxFluxDiffuserOnly.table), (key% "sd1-kohya", Sd1Kohya.table),
   (key% "sd1-ldm", Sd1Ldm.table), (key% "sd1-supermerger_blocks", Sd1SupermergerBlocks.table), (key% "sd3-comfyui", Sd3Comfyui.table),
   (key% "sdxl-diffusers_unet_only", SdxlDiffusersUnetOnly.table), (key% "sdxl-kohya", SdxlKohya.table), (key% "sdxl-sgm", SdxlSgm.table),
   (key% "sdxl-supermerger_blocks", SdxlSupermergerBlocks.table)]

/-- All configs, in no particular order; objects of both classes are hashable.  (builtin/model_configs/__init__.py:8-14, lycoris.py:10-17) -/
noncomputable def configs : List RegCfg :=
  tables.map (fun p => ⟨base p.1 p.2, true⟩) ++ tables.flatMap fun p => (Lycoris.configsOf p.1).map fun c => ⟨lora c p.2, true⟩

end Verif.Shipped
