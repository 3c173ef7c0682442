import Verif.Proofs.Distinct
import Verif.Data.Chunks

/-! # The names in the key tables, and those of their modules, are pairwise different

The numbers are those of tools/find_moduli.py. -/
namespace Verif.Fast
open Data

theorem names_FluxFlux : (names FluxFlux.table.entries).Nodup := by
  rw [FluxFlux.entries_eq]
  exact names_nodup 119517 (by kernel_rfl)

theorem stems_FluxFlux : (stems FluxFlux.table.entries).Nodup := by
  rw [FluxFlux.entries_eq]
  exact stems_nodup 49493 (by kernel_rfl)

theorem names_FluxFluxDiffuserOnly : (names FluxFluxDiffuserOnly.table.entries).Nodup := by
  rw [FluxFluxDiffuserOnly.entries_eq]
  exact names_nodup 34423 (by kernel_rfl)

theorem stems_FluxFluxDiffuserOnly : (stems FluxFluxDiffuserOnly.table.entries).Nodup := by
  rw [FluxFluxDiffuserOnly.entries_eq]
  exact stems_nodup 15775 (by kernel_rfl)

theorem names_Sd1Kohya : (names Sd1Kohya.table.entries).Nodup := by
  rw [Sd1Kohya.entries_eq]
  exact names_nodup 71993 (by kernel_rfl)

theorem stems_Sd1Kohya : (stems Sd1Kohya.table.entries).Nodup := by
  rw [Sd1Kohya.entries_eq]
  exact stems_nodup 21931 (by kernel_rfl)

theorem names_Sd1Ldm : (names Sd1Ldm.table.entries).Nodup := by
  rw [Sd1Ldm.entries_eq]
  exact names_nodup 417905 (by kernel_rfl)

theorem stems_Sd1Ldm : (stems Sd1Ldm.table.entries).Nodup := by
  rw [Sd1Ldm.entries_eq]
  exact stems_nodup 61555 (by kernel_rfl)

theorem names_Sd1SupermergerBlocks : (names Sd1SupermergerBlocks.table.entries).Nodup := by
  rw [Sd1SupermergerBlocks.entries_eq]
  exact names_nodup 57 (by kernel_rfl)

theorem stems_Sd1SupermergerBlocks : (stems Sd1SupermergerBlocks.table.entries).Nodup := by
  rw [Sd1SupermergerBlocks.entries_eq]
  exact stems_nodup 57 (by kernel_rfl)

theorem names_Sd3Comfyui : (names Sd3Comfyui.table.entries).Nodup := by
  rw [Sd3Comfyui.entries_eq]
  exact names_nodup 155723 (by kernel_rfl)

theorem stems_Sd3Comfyui : (stems Sd3Comfyui.table.entries).Nodup := by
  rw [Sd3Comfyui.entries_eq]
  exact stems_nodup 52521 (by kernel_rfl)

theorem names_SdxlDiffusersUnetOnly : (names SdxlDiffusersUnetOnly.table.entries).Nodup := by
  rw [SdxlDiffusersUnetOnly.entries_eq]
  exact names_nodup 157171 (by kernel_rfl)

theorem stems_SdxlDiffusersUnetOnly : (stems SdxlDiffusersUnetOnly.table.entries).Nodup := by
  rw [SdxlDiffusersUnetOnly.entries_eq]
  exact stems_nodup 61491 (by kernel_rfl)

theorem names_SdxlKohya : (names SdxlKohya.table.entries).Nodup := by
  rw [SdxlKohya.entries_eq]
  exact names_nodup 390645 (by kernel_rfl)

theorem stems_SdxlKohya : (stems SdxlKohya.table.entries).Nodup := by
  rw [SdxlKohya.entries_eq]
  exact stems_nodup 135119 (by kernel_rfl)

theorem names_SdxlSgm : (names SdxlSgm.table.entries).Nodup := by
  rw [SdxlSgm.entries_eq]
  exact names_nodup 358181 (by kernel_rfl)

theorem stems_SdxlSgm : (stems SdxlSgm.table.entries).Nodup := by
  rw [SdxlSgm.entries_eq]
  exact stems_nodup 122179 (by kernel_rfl)

theorem names_SdxlSupermergerBlocks : (names SdxlSupermergerBlocks.table.entries).Nodup := by
  rw [SdxlSupermergerBlocks.entries_eq]
  exact names_nodup 43 (by kernel_rfl)

theorem stems_SdxlSupermergerBlocks : (stems SdxlSupermergerBlocks.table.entries).Nodup := by
  rw [SdxlSupermergerBlocks.entries_eq]
  exact stems_nodup 43 (by kernel_rfl)

end Verif.Fast
