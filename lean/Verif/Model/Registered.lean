import Verif.Model.Shipped
import Verif.Model.Conversion

/-!
# The conversions the library comes with
-/
namespace Verif.Shipped
open Method Conversion

/-- A conversion of the files `builtin/model_configs/convert_*.py`: its identifier, source and target -/
structure Named where
  name : Text
  src : Text
  tgt : Text
  deriving DecidableEq

/-- The conversions of the modules that are imported (builtin/model_configs/__init__.py:15-19), in order: convert_sdxl_kohya_to_original.py:12-19,
convert_sdxl_diffusers_unet_to_original.py:14-21, convert_sd1_kohya_to_original.py:14-21, convert_sdxl_blocks.py:18-22,
convert_sd1_blocks.py:18-22 -/
def imported : List Named :=
  [⟨key% "convert_'sdxl-kohya'_to_'sdxl-sgm'", key% "sdxl-kohya", key% "sdxl-sgm"⟩,
   ⟨key% "convert_'sdxl-diffusers_unet_only'_to_'sdxl-sgm'", key% "sdxl-diffusers_unet_only", key% "sdxl-sgm"⟩,
   ⟨key% "convert_'sd1-kohya'_to_'sd1-ldm'", key% "sd1-kohya", key% "sd1-ldm"⟩,
   ⟨key% "convert_sdxl_blocks_to_sgm", key% "sdxl-supermerger_blocks", key% "sdxl-sgm"⟩,
   ⟨key% "convert_sd1_blocks_to_ldm", key% "sd1-supermerger_blocks", key% "sd1-ldm"⟩]

/-- The conversions of convert_flux.py:5-25, which no module imports -/
def flux : List Named :=
  [⟨key% "convert_flux_to_backbone_only", key% "flux-flux", key% "flux-flux_diffuser_only"⟩,
   ⟨key% "convert_flux_backbone_to_full", key% "flux-flux_diffuser_only", key% "flux-flux"⟩]

/-- The conversions of LoRAs for a config (lycoris.py:13-24) -/
def loraNamed (base : Text) : List Named :=
  (Lycoris.configsOf base).map fun c => ⟨key% "convert_'" ++ c.identifier ++ key% "'_to_base", c.identifier, base⟩

/-- As converters -/
def Named.converter (n : Named) : Converter := ⟨str n.name, str n.src, str n.tgt⟩

/-- The conversions registered when the library is imported (__init__.py:48-53), for the configs in the order they were registered in -/
def registered (bases : List Text) : List Converter := (imported ++ bases.flatMap loraNamed).map Named.converter

end Verif.Shipped
