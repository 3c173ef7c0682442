import Verif.Data.FluxFlux
import Verif.Data.FluxFluxDiffuserOnly
import Verif.Data.Sd1Kohya
import Verif.Data.Sd1Ldm
import Verif.Data.Sd1SupermergerBlocks
import Verif.Data.Sd3Comfyui
import Verif.Data.SdxlDiffusersUnetOnly
import Verif.Data.SdxlKohya
import Verif.Data.SdxlSgm
import Verif.Data.SdxlSupermergerBlocks

/-! # The parts of the key tables

Generated by tools/gen_chunks.py. -/
namespace Verif.Data

noncomputable def FluxFlux.chunks : List (List Entry) := [FluxFlux.diffuser0, FluxFlux.diffuser1, FluxFlux.diffuser2, FluxFlux.diffuser3, FluxFlux.diffuser4, FluxFlux.diffuser5, FluxFlux.diffuser6, FluxFlux.diffuser7, FluxFlux.clip_l0, FluxFlux.clip_l1, FluxFlux.t5xxl0, FluxFlux.t5xxl1, FluxFlux.t5xxl2, FluxFlux.vae0, FluxFlux.vae1, FluxFlux.vae2]

theorem FluxFlux.entries_eq : FluxFlux.table.entries = FluxFlux.chunks.flatten := by
  simp [Table.entries, FluxFlux.table, FluxFlux.chunks, FluxFlux.diffuser, FluxFlux.clip_l, FluxFlux.t5xxl, FluxFlux.vae]

noncomputable def FluxFluxDiffuserOnly.chunks : List (List Entry) := [FluxFluxDiffuserOnly.diffuser0, FluxFluxDiffuserOnly.diffuser1, FluxFluxDiffuserOnly.diffuser2, FluxFluxDiffuserOnly.diffuser3, FluxFluxDiffuserOnly.diffuser4, FluxFluxDiffuserOnly.diffuser5, FluxFluxDiffuserOnly.diffuser6, FluxFluxDiffuserOnly.diffuser7]

theorem FluxFluxDiffuserOnly.entries_eq : FluxFluxDiffuserOnly.table.entries = FluxFluxDiffuserOnly.chunks.flatten := by
  simp [Table.entries, FluxFluxDiffuserOnly.table, FluxFluxDiffuserOnly.chunks, FluxFluxDiffuserOnly.diffuser]

noncomputable def Sd1Kohya.chunks : List (List Entry) := [Sd1Kohya.clip_l0, Sd1Kohya.clip_l1, Sd1Kohya.diffuser0, Sd1Kohya.diffuser1, Sd1Kohya.diffuser2, Sd1Kohya.diffuser3, Sd1Kohya.diffuser4, Sd1Kohya.diffuser5, Sd1Kohya.diffuser6, Sd1Kohya.vae0, Sd1Kohya.vae1, Sd1Kohya.vae2]

theorem Sd1Kohya.entries_eq : Sd1Kohya.table.entries = Sd1Kohya.chunks.flatten := by
  simp [Table.entries, Sd1Kohya.table, Sd1Kohya.chunks, Sd1Kohya.clip_l, Sd1Kohya.diffuser, Sd1Kohya.vae]

noncomputable def Sd1Ldm.chunks : List (List Entry) := [Sd1Ldm.clip_l0, Sd1Ldm.clip_l1, Sd1Ldm.vae0, Sd1Ldm.vae1, Sd1Ldm.vae2, Sd1Ldm.diffuser0, Sd1Ldm.diffuser1, Sd1Ldm.diffuser2, Sd1Ldm.diffuser3, Sd1Ldm.diffuser4, Sd1Ldm.diffuser5, Sd1Ldm.diffuser6, Sd1Ldm.ema0, Sd1Ldm.ema1, Sd1Ldm.ema2, Sd1Ldm.ema3, Sd1Ldm.ema4, Sd1Ldm.ema5, Sd1Ldm.ema6, Sd1Ldm.scheduler0]

theorem Sd1Ldm.entries_eq : Sd1Ldm.table.entries = Sd1Ldm.chunks.flatten := by
  simp [Table.entries, Sd1Ldm.table, Sd1Ldm.chunks, Sd1Ldm.clip_l, Sd1Ldm.vae, Sd1Ldm.diffuser, Sd1Ldm.ema, Sd1Ldm.scheduler]

noncomputable def Sd1SupermergerBlocks.chunks : List (List Entry) := [Sd1SupermergerBlocks.blocks0]

theorem Sd1SupermergerBlocks.entries_eq : Sd1SupermergerBlocks.table.entries = Sd1SupermergerBlocks.chunks.flatten := by
  simp [Table.entries, Sd1SupermergerBlocks.table, Sd1SupermergerBlocks.chunks, Sd1SupermergerBlocks.blocks]

noncomputable def Sd3Comfyui.chunks : List (List Entry) := [Sd3Comfyui.vae0, Sd3Comfyui.vae1, Sd3Comfyui.vae2, Sd3Comfyui.diffuser0, Sd3Comfyui.diffuser1, Sd3Comfyui.diffuser2, Sd3Comfyui.diffuser3, Sd3Comfyui.diffuser4, Sd3Comfyui.clip_g0, Sd3Comfyui.clip_g1, Sd3Comfyui.clip_g2, Sd3Comfyui.clip_g3, Sd3Comfyui.clip_g4, Sd3Comfyui.clip_g5, Sd3Comfyui.clip_l0, Sd3Comfyui.clip_l1, Sd3Comfyui.t5xxl0, Sd3Comfyui.t5xxl1, Sd3Comfyui.t5xxl2]

theorem Sd3Comfyui.entries_eq : Sd3Comfyui.table.entries = Sd3Comfyui.chunks.flatten := by
  simp [Table.entries, Sd3Comfyui.table, Sd3Comfyui.chunks, Sd3Comfyui.vae, Sd3Comfyui.diffuser, Sd3Comfyui.clip_g, Sd3Comfyui.clip_l, Sd3Comfyui.t5xxl]

noncomputable def SdxlDiffusersUnetOnly.chunks : List (List Entry) := [SdxlDiffusersUnetOnly.diffuser0, SdxlDiffusersUnetOnly.diffuser1, SdxlDiffusersUnetOnly.diffuser2, SdxlDiffusersUnetOnly.diffuser3, SdxlDiffusersUnetOnly.diffuser4, SdxlDiffusersUnetOnly.diffuser5, SdxlDiffusersUnetOnly.diffuser6, SdxlDiffusersUnetOnly.diffuser7, SdxlDiffusersUnetOnly.diffuser8, SdxlDiffusersUnetOnly.diffuser9, SdxlDiffusersUnetOnly.diffuser10, SdxlDiffusersUnetOnly.diffuser11, SdxlDiffusersUnetOnly.diffuser12, SdxlDiffusersUnetOnly.diffuser13, SdxlDiffusersUnetOnly.diffuser14, SdxlDiffusersUnetOnly.diffuser15, SdxlDiffusersUnetOnly.diffuser16]

theorem SdxlDiffusersUnetOnly.entries_eq : SdxlDiffusersUnetOnly.table.entries = SdxlDiffusersUnetOnly.chunks.flatten := by
  simp [Table.entries, SdxlDiffusersUnetOnly.table, SdxlDiffusersUnetOnly.chunks, SdxlDiffusersUnetOnly.diffuser]

noncomputable def SdxlKohya.chunks : List (List Entry) := [SdxlKohya.vae0, SdxlKohya.vae1, SdxlKohya.vae2, SdxlKohya.clip_l0, SdxlKohya.clip_l1, SdxlKohya.clip_g0, SdxlKohya.clip_g1, SdxlKohya.clip_g2, SdxlKohya.clip_g3, SdxlKohya.clip_g4, SdxlKohya.clip_g5, SdxlKohya.diffuser0, SdxlKohya.diffuser1, SdxlKohya.diffuser2, SdxlKohya.diffuser3, SdxlKohya.diffuser4, SdxlKohya.diffuser5, SdxlKohya.diffuser6, SdxlKohya.diffuser7, SdxlKohya.diffuser8, SdxlKohya.diffuser9, SdxlKohya.diffuser10, SdxlKohya.diffuser11, SdxlKohya.diffuser12, SdxlKohya.diffuser13, SdxlKohya.diffuser14, SdxlKohya.diffuser15, SdxlKohya.diffuser16]

theorem SdxlKohya.entries_eq : SdxlKohya.table.entries = SdxlKohya.chunks.flatten := by
  simp [Table.entries, SdxlKohya.table, SdxlKohya.chunks, SdxlKohya.vae, SdxlKohya.clip_l, SdxlKohya.clip_g, SdxlKohya.diffuser]

noncomputable def SdxlSgm.chunks : List (List Entry) := [SdxlSgm.clip_l0, SdxlSgm.clip_l1, SdxlSgm.clip_g0, SdxlSgm.clip_g1, SdxlSgm.clip_g2, SdxlSgm.clip_g3, SdxlSgm.vae0, SdxlSgm.vae1, SdxlSgm.vae2, SdxlSgm.diffuser0, SdxlSgm.diffuser1, SdxlSgm.diffuser2, SdxlSgm.diffuser3, SdxlSgm.diffuser4, SdxlSgm.diffuser5, SdxlSgm.diffuser6, SdxlSgm.diffuser7, SdxlSgm.diffuser8, SdxlSgm.diffuser9, SdxlSgm.diffuser10, SdxlSgm.diffuser11, SdxlSgm.diffuser12, SdxlSgm.diffuser13, SdxlSgm.diffuser14, SdxlSgm.diffuser15, SdxlSgm.diffuser16]

theorem SdxlSgm.entries_eq : SdxlSgm.table.entries = SdxlSgm.chunks.flatten := by
  simp [Table.entries, SdxlSgm.table, SdxlSgm.chunks, SdxlSgm.clip_l, SdxlSgm.clip_g, SdxlSgm.vae, SdxlSgm.diffuser]

noncomputable def SdxlSupermergerBlocks.chunks : List (List Entry) := [SdxlSupermergerBlocks.blocks0]

theorem SdxlSupermergerBlocks.entries_eq : SdxlSupermergerBlocks.table.entries = SdxlSupermergerBlocks.chunks.flatten := by
  simp [Table.entries, SdxlSupermergerBlocks.table, SdxlSupermergerBlocks.chunks, SdxlSupermergerBlocks.blocks]

end Verif.Data
