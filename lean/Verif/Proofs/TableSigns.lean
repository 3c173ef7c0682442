import Verif.Proofs.Shipped

/-! # What tells the shipped configs apart

For each table, a required key that no other table has, under its name or as an alias, and a module that no other table has. -/
namespace Verif.Fast
open Text Data

theorem plain_FluxFlux : ∀ e ∈ FluxFlux.table.entries, ∀ a ∈ e.key :: e.aliases, Plain a :=
  everywhere_mono (p := eachName plain) (fun e h a ha => plain_sound a (eachName_sound _ e h a ha)) FluxFlux.entries_eq (by kernel_rfl)

theorem size_FluxFlux : FluxFlux.table.entries.length = 1439 := by
  rw [FluxFlux.entries_eq, ← Nat.zero_add (List.length _), ← size_eq]
  kernel_rfl

theorem modules_FluxFlux : (stems FluxFlux.table.entries).length = 906 := by
  rw [FluxFlux.entries_eq]
  exact stems_length (by kernel_rfl)

theorem own_FluxFlux : (∃ e ∈ FluxFlux.table.entries, Required (key% "model.diffusion_model.double_blocks.0.img_attn.norm.key_norm.scale") e) ∧ ∃ e ∈ FluxFlux.table.entries, HasModule (key% "model_diffusion_model_double_blocks_0_img_attn_norm_key_norm_scale") e :=
  ⟨somewhere_mono (fun e => required_sound _ e) FluxFlux.entries_eq (by kernel_rfl), somewhere_mono (fun e => hasModule_sound _ (key% "model.diffusion_model.double_blocks.0.img_attn.norm.key_norm.scale") (by decide +kernel) (by decide +kernel) e) FluxFlux.entries_eq (by kernel_rfl)⟩

theorem free_FluxFlux : ∀ q ∈ Shipped.tables, q.1 ≠ key% "flux-flux" → ∀ e ∈ q.2.entries, Free (key% "model.diffusion_model.double_blocks.0.img_attn.norm.key_norm.scale") (key% "model_diffusion_model_double_blocks_0_img_attn_norm_key_norm_scale") e := by
  simp only [Shipped.tables, List.forall_mem_cons, List.not_mem_nil, false_imp_iff, implies_true, and_true]
  refine ⟨fun h => absurd rfl h,
    fun _ => everywhere_mono (fun e => free_sound _ _ e) FluxFluxDiffuserOnly.entries_eq (by kernel_rfl),
    fun _ => everywhere_mono (fun e => free_sound _ _ e) Sd1Kohya.entries_eq (by kernel_rfl),
    fun _ => everywhere_mono (fun e => free_sound _ _ e) Sd1Ldm.entries_eq (by kernel_rfl),
    fun _ => everywhere_mono (fun e => free_sound _ _ e) Sd1SupermergerBlocks.entries_eq (by kernel_rfl),
    fun _ => everywhere_mono (fun e => free_sound _ _ e) Sd3Comfyui.entries_eq (by kernel_rfl),
    fun _ => everywhere_mono (fun e => free_sound _ _ e) SdxlDiffusersUnetOnly.entries_eq (by kernel_rfl),
    fun _ => everywhere_mono (fun e => free_sound _ _ e) SdxlKohya.entries_eq (by kernel_rfl),
    fun _ => everywhere_mono (fun e => free_sound _ _ e) SdxlSgm.entries_eq (by kernel_rfl),
    fun _ => everywhere_mono (fun e => free_sound _ _ e) SdxlSupermergerBlocks.entries_eq (by kernel_rfl)⟩

theorem plain_FluxFluxDiffuserOnly : ∀ e ∈ FluxFluxDiffuserOnly.table.entries, ∀ a ∈ e.key :: e.aliases, Plain a :=
  everywhere_mono (p := eachName plain) (fun e h a ha => plain_sound a (eachName_sound _ e h a ha)) FluxFluxDiffuserOnly.entries_eq (by kernel_rfl)

theorem size_FluxFluxDiffuserOnly : FluxFluxDiffuserOnly.table.entries.length = 780 := by
  rw [FluxFluxDiffuserOnly.entries_eq, ← Nat.zero_add (List.length _), ← size_eq]
  kernel_rfl

theorem modules_FluxFluxDiffuserOnly : (stems FluxFluxDiffuserOnly.table.entries).length = 466 := by
  rw [FluxFluxDiffuserOnly.entries_eq]
  exact stems_length (by kernel_rfl)

theorem own_FluxFluxDiffuserOnly : (∃ e ∈ FluxFluxDiffuserOnly.table.entries, Required (key% "double_blocks.0.img_attn.norm.key_norm.scale") e) ∧ ∃ e ∈ FluxFluxDiffuserOnly.table.entries, HasModule (key% "double_blocks_0_img_attn_norm_key_norm_scale") e :=
  ⟨somewhere_mono (fun e => required_sound _ e) FluxFluxDiffuserOnly.entries_eq (by kernel_rfl), somewhere_mono (fun e => hasModule_sound _ (key% "double_blocks.0.img_attn.norm.key_norm.scale") (by decide +kernel) (by decide +kernel) e) FluxFluxDiffuserOnly.entries_eq (by kernel_rfl)⟩

theorem free_FluxFluxDiffuserOnly : ∀ q ∈ Shipped.tables, q.1 ≠ key% "flux-flux_diffuser_only" → ∀ e ∈ q.2.entries, Free (key% "double_blocks.0.img_attn.norm.key_norm.scale") (key% "double_blocks_0_img_attn_norm_key_norm_scale") e := by
  simp only [Shipped.tables, List.forall_mem_cons, List.not_mem_nil, false_imp_iff, implies_true, and_true]
  refine ⟨fun _ => everywhere_mono (fun e => free_sound _ _ e) FluxFlux.entries_eq (by kernel_rfl),
    fun h => absurd rfl h,
    fun _ => everywhere_mono (fun e => free_sound _ _ e) Sd1Kohya.entries_eq (by kernel_rfl),
    fun _ => everywhere_mono (fun e => free_sound _ _ e) Sd1Ldm.entries_eq (by kernel_rfl),
    fun _ => everywhere_mono (fun e => free_sound _ _ e) Sd1SupermergerBlocks.entries_eq (by kernel_rfl),
    fun _ => everywhere_mono (fun e => free_sound _ _ e) Sd3Comfyui.entries_eq (by kernel_rfl),
    fun _ => everywhere_mono (fun e => free_sound _ _ e) SdxlDiffusersUnetOnly.entries_eq (by kernel_rfl),
    fun _ => everywhere_mono (fun e => free_sound _ _ e) SdxlKohya.entries_eq (by kernel_rfl),
    fun _ => everywhere_mono (fun e => free_sound _ _ e) SdxlSgm.entries_eq (by kernel_rfl),
    fun _ => everywhere_mono (fun e => free_sound _ _ e) SdxlSupermergerBlocks.entries_eq (by kernel_rfl)⟩

theorem plain_Sd1Kohya : ∀ e ∈ Sd1Kohya.table.entries, ∀ a ∈ e.key :: e.aliases, Plain a :=
  everywhere_mono (p := eachName plain) (fun e h a ha => plain_sound a (eachName_sound _ e h a ha)) Sd1Kohya.entries_eq (by kernel_rfl)

theorem size_Sd1Kohya : Sd1Kohya.table.entries.length = 1130 := by
  rw [Sd1Kohya.entries_eq, ← Nat.zero_add (List.length _), ← size_eq]
  kernel_rfl

theorem modules_Sd1Kohya : (stems Sd1Kohya.table.entries).length = 614 := by
  rw [Sd1Kohya.entries_eq]
  exact stems_length (by kernel_rfl)

theorem own_Sd1Kohya : (∃ e ∈ Sd1Kohya.table.entries, Required (key% "te.text_model.embeddings.position_embedding.weight") e) ∧ ∃ e ∈ Sd1Kohya.table.entries, HasModule (key% "te_text_model_embeddings_position_embedding") e :=
  ⟨somewhere_mono (fun e => required_sound _ e) Sd1Kohya.entries_eq (by kernel_rfl), somewhere_mono (fun e => hasModule_sound _ (key% "te.text_model.embeddings.position_embedding.weight") (by decide +kernel) (by decide +kernel) e) Sd1Kohya.entries_eq (by kernel_rfl)⟩

theorem free_Sd1Kohya : ∀ q ∈ Shipped.tables, q.1 ≠ key% "sd1-kohya" → ∀ e ∈ q.2.entries, Free (key% "te.text_model.embeddings.position_embedding.weight") (key% "te_text_model_embeddings_position_embedding") e := by
  simp only [Shipped.tables, List.forall_mem_cons, List.not_mem_nil, false_imp_iff, implies_true, and_true]
  refine ⟨fun _ => everywhere_mono (fun e => free_sound _ _ e) FluxFlux.entries_eq (by kernel_rfl),
    fun _ => everywhere_mono (fun e => free_sound _ _ e) FluxFluxDiffuserOnly.entries_eq (by kernel_rfl),
    fun h => absurd rfl h,
    fun _ => everywhere_mono (fun e => free_sound _ _ e) Sd1Ldm.entries_eq (by kernel_rfl),
    fun _ => everywhere_mono (fun e => free_sound _ _ e) Sd1SupermergerBlocks.entries_eq (by kernel_rfl),
    fun _ => everywhere_mono (fun e => free_sound _ _ e) Sd3Comfyui.entries_eq (by kernel_rfl),
    fun _ => everywhere_mono (fun e => free_sound _ _ e) SdxlDiffusersUnetOnly.entries_eq (by kernel_rfl),
    fun _ => everywhere_mono (fun e => free_sound _ _ e) SdxlKohya.entries_eq (by kernel_rfl),
    fun _ => everywhere_mono (fun e => free_sound _ _ e) SdxlSgm.entries_eq (by kernel_rfl),
    fun _ => everywhere_mono (fun e => free_sound _ _ e) SdxlSupermergerBlocks.entries_eq (by kernel_rfl)⟩

theorem plain_Sd1Ldm : ∀ e ∈ Sd1Ldm.table.entries, ∀ a ∈ e.key :: e.aliases, Plain a :=
  everywhere_mono (p := eachName plain) (fun e h a ha => plain_sound a (eachName_sound _ e h a ha)) Sd1Ldm.entries_eq (by kernel_rfl)

theorem size_Sd1Ldm : Sd1Ldm.table.entries.length = 1831 := by
  rw [Sd1Ldm.entries_eq, ← Nat.zero_add (List.length _), ← size_eq]
  kernel_rfl

theorem modules_Sd1Ldm : (stems Sd1Ldm.table.entries).length = 1018 := by
  rw [Sd1Ldm.entries_eq]
  exact stems_length (by kernel_rfl)

theorem own_Sd1Ldm : (∃ e ∈ Sd1Ldm.table.entries, Required (key% "model.diffusion_model.input_blocks.1.1.norm.bias") e) ∧ ∃ e ∈ Sd1Ldm.table.entries, HasModule (key% "cond_stage_model_transformer_text_model_embeddings_position_embedding") e :=
  ⟨somewhere_mono (fun e => required_sound _ e) Sd1Ldm.entries_eq (by kernel_rfl), somewhere_mono (fun e => hasModule_sound _ (key% "cond_stage_model.transformer.text_model.embeddings.position_embedding.weight") (by decide +kernel) (by decide +kernel) e) Sd1Ldm.entries_eq (by kernel_rfl)⟩

theorem free_Sd1Ldm : ∀ q ∈ Shipped.tables, q.1 ≠ key% "sd1-ldm" → ∀ e ∈ q.2.entries, Free (key% "model.diffusion_model.input_blocks.1.1.norm.bias") (key% "cond_stage_model_transformer_text_model_embeddings_position_embedding") e := by
  simp only [Shipped.tables, List.forall_mem_cons, List.not_mem_nil, false_imp_iff, implies_true, and_true]
  refine ⟨fun _ => everywhere_mono (fun e => free_sound _ _ e) FluxFlux.entries_eq (by kernel_rfl),
    fun _ => everywhere_mono (fun e => free_sound _ _ e) FluxFluxDiffuserOnly.entries_eq (by kernel_rfl),
    fun _ => everywhere_mono (fun e => free_sound _ _ e) Sd1Kohya.entries_eq (by kernel_rfl),
    fun h => absurd rfl h,
    fun _ => everywhere_mono (fun e => free_sound _ _ e) Sd1SupermergerBlocks.entries_eq (by kernel_rfl),
    fun _ => everywhere_mono (fun e => free_sound _ _ e) Sd3Comfyui.entries_eq (by kernel_rfl),
    fun _ => everywhere_mono (fun e => free_sound _ _ e) SdxlDiffusersUnetOnly.entries_eq (by kernel_rfl),
    fun _ => everywhere_mono (fun e => free_sound _ _ e) SdxlKohya.entries_eq (by kernel_rfl),
    fun _ => everywhere_mono (fun e => free_sound _ _ e) SdxlSgm.entries_eq (by kernel_rfl),
    fun _ => everywhere_mono (fun e => free_sound _ _ e) SdxlSupermergerBlocks.entries_eq (by kernel_rfl)⟩

theorem plain_Sd1SupermergerBlocks : ∀ e ∈ Sd1SupermergerBlocks.table.entries, ∀ a ∈ e.key :: e.aliases, Plain a :=
  everywhere_mono (p := eachName plain) (fun e h a ha => plain_sound a (eachName_sound _ e h a ha)) Sd1SupermergerBlocks.entries_eq (by kernel_rfl)

theorem size_Sd1SupermergerBlocks : Sd1SupermergerBlocks.table.entries.length = 26 := by
  rw [Sd1SupermergerBlocks.entries_eq, ← Nat.zero_add (List.length _), ← size_eq]
  kernel_rfl

theorem modules_Sd1SupermergerBlocks : (stems Sd1SupermergerBlocks.table.entries).length = 26 := by
  rw [Sd1SupermergerBlocks.entries_eq]
  exact stems_length (by kernel_rfl)

theorem own_Sd1SupermergerBlocks : (∃ e ∈ Sd1SupermergerBlocks.table.entries, Required (key% "IN09") e) ∧ ∃ e ∈ Sd1SupermergerBlocks.table.entries, HasModule (key% "IN09") e :=
  ⟨somewhere_mono (fun e => required_sound _ e) Sd1SupermergerBlocks.entries_eq (by kernel_rfl), somewhere_mono (fun e => hasModule_sound _ (key% "IN09") (by decide +kernel) (by decide +kernel) e) Sd1SupermergerBlocks.entries_eq (by kernel_rfl)⟩

theorem free_Sd1SupermergerBlocks : ∀ q ∈ Shipped.tables, q.1 ≠ key% "sd1-supermerger_blocks" → ∀ e ∈ q.2.entries, Free (key% "IN09") (key% "IN09") e := by
  simp only [Shipped.tables, List.forall_mem_cons, List.not_mem_nil, false_imp_iff, implies_true, and_true]
  refine ⟨fun _ => everywhere_mono (fun e => free_sound _ _ e) FluxFlux.entries_eq (by kernel_rfl),
    fun _ => everywhere_mono (fun e => free_sound _ _ e) FluxFluxDiffuserOnly.entries_eq (by kernel_rfl),
    fun _ => everywhere_mono (fun e => free_sound _ _ e) Sd1Kohya.entries_eq (by kernel_rfl),
    fun _ => everywhere_mono (fun e => free_sound _ _ e) Sd1Ldm.entries_eq (by kernel_rfl),
    fun h => absurd rfl h,
    fun _ => everywhere_mono (fun e => free_sound _ _ e) Sd3Comfyui.entries_eq (by kernel_rfl),
    fun _ => everywhere_mono (fun e => free_sound _ _ e) SdxlDiffusersUnetOnly.entries_eq (by kernel_rfl),
    fun _ => everywhere_mono (fun e => free_sound _ _ e) SdxlKohya.entries_eq (by kernel_rfl),
    fun _ => everywhere_mono (fun e => free_sound _ _ e) SdxlSgm.entries_eq (by kernel_rfl),
    fun _ => everywhere_mono (fun e => free_sound _ _ e) SdxlSupermergerBlocks.entries_eq (by kernel_rfl)⟩

theorem plain_Sd3Comfyui : ∀ e ∈ Sd3Comfyui.table.entries, ∀ a ∈ e.key :: e.aliases, Plain a :=
  everywhere_mono (p := eachName plain) (fun e h a ha => plain_sound a (eachName_sound _ e h a ha)) Sd3Comfyui.entries_eq (by kernel_rfl)

theorem size_Sd3Comfyui : Sd3Comfyui.table.entries.length = 1672 := by
  rw [Sd3Comfyui.entries_eq, ← Nat.zero_add (List.length _), ← size_eq]
  kernel_rfl

theorem modules_Sd3Comfyui : (stems Sd3Comfyui.table.entries).length = 951 := by
  rw [Sd3Comfyui.entries_eq]
  exact stems_length (by kernel_rfl)

theorem own_Sd3Comfyui : (∃ e ∈ Sd3Comfyui.table.entries, Required (key% "model.diffusion_model.context_embedder.bias") e) ∧ ∃ e ∈ Sd3Comfyui.table.entries, HasModule (key% "model_diffusion_model_context_embedder") e :=
  ⟨somewhere_mono (fun e => required_sound _ e) Sd3Comfyui.entries_eq (by kernel_rfl), somewhere_mono (fun e => hasModule_sound _ (key% "model.diffusion_model.context_embedder.weight") (by decide +kernel) (by decide +kernel) e) Sd3Comfyui.entries_eq (by kernel_rfl)⟩

theorem free_Sd3Comfyui : ∀ q ∈ Shipped.tables, q.1 ≠ key% "sd3-comfyui" → ∀ e ∈ q.2.entries, Free (key% "model.diffusion_model.context_embedder.bias") (key% "model_diffusion_model_context_embedder") e := by
  simp only [Shipped.tables, List.forall_mem_cons, List.not_mem_nil, false_imp_iff, implies_true, and_true]
  refine ⟨fun _ => everywhere_mono (fun e => free_sound _ _ e) FluxFlux.entries_eq (by kernel_rfl),
    fun _ => everywhere_mono (fun e => free_sound _ _ e) FluxFluxDiffuserOnly.entries_eq (by kernel_rfl),
    fun _ => everywhere_mono (fun e => free_sound _ _ e) Sd1Kohya.entries_eq (by kernel_rfl),
    fun _ => everywhere_mono (fun e => free_sound _ _ e) Sd1Ldm.entries_eq (by kernel_rfl),
    fun _ => everywhere_mono (fun e => free_sound _ _ e) Sd1SupermergerBlocks.entries_eq (by kernel_rfl),
    fun h => absurd rfl h,
    fun _ => everywhere_mono (fun e => free_sound _ _ e) SdxlDiffusersUnetOnly.entries_eq (by kernel_rfl),
    fun _ => everywhere_mono (fun e => free_sound _ _ e) SdxlKohya.entries_eq (by kernel_rfl),
    fun _ => everywhere_mono (fun e => free_sound _ _ e) SdxlSgm.entries_eq (by kernel_rfl),
    fun _ => everywhere_mono (fun e => free_sound _ _ e) SdxlSupermergerBlocks.entries_eq (by kernel_rfl)⟩

theorem plain_SdxlDiffusersUnetOnly : ∀ e ∈ SdxlDiffusersUnetOnly.table.entries, ∀ a ∈ e.key :: e.aliases, Plain a :=
  everywhere_mono (p := eachName plain) (fun e h a ha => plain_sound a (eachName_sound _ e h a ha)) SdxlDiffusersUnetOnly.entries_eq (by kernel_rfl)

theorem size_SdxlDiffusersUnetOnly : SdxlDiffusersUnetOnly.table.entries.length = 1680 := by
  rw [SdxlDiffusersUnetOnly.entries_eq, ← Nat.zero_add (List.length _), ← size_eq]
  kernel_rfl

theorem modules_SdxlDiffusersUnetOnly : (stems SdxlDiffusersUnetOnly.table.entries).length = 1050 := by
  rw [SdxlDiffusersUnetOnly.entries_eq]
  exact stems_length (by kernel_rfl)

theorem own_SdxlDiffusersUnetOnly : (∃ e ∈ SdxlDiffusersUnetOnly.table.entries, Required (key% "add_embedding.linear_1.bias") e) ∧ ∃ e ∈ SdxlDiffusersUnetOnly.table.entries, HasModule (key% "add_embedding_linear_1") e :=
  ⟨somewhere_mono (fun e => required_sound _ e) SdxlDiffusersUnetOnly.entries_eq (by kernel_rfl), somewhere_mono (fun e => hasModule_sound _ (key% "add_embedding.linear_1.weight") (by decide +kernel) (by decide +kernel) e) SdxlDiffusersUnetOnly.entries_eq (by kernel_rfl)⟩

theorem free_SdxlDiffusersUnetOnly : ∀ q ∈ Shipped.tables, q.1 ≠ key% "sdxl-diffusers_unet_only" → ∀ e ∈ q.2.entries, Free (key% "add_embedding.linear_1.bias") (key% "add_embedding_linear_1") e := by
  simp only [Shipped.tables, List.forall_mem_cons, List.not_mem_nil, false_imp_iff, implies_true, and_true]
  refine ⟨fun _ => everywhere_mono (fun e => free_sound _ _ e) FluxFlux.entries_eq (by kernel_rfl),
    fun _ => everywhere_mono (fun e => free_sound _ _ e) FluxFluxDiffuserOnly.entries_eq (by kernel_rfl),
    fun _ => everywhere_mono (fun e => free_sound _ _ e) Sd1Kohya.entries_eq (by kernel_rfl),
    fun _ => everywhere_mono (fun e => free_sound _ _ e) Sd1Ldm.entries_eq (by kernel_rfl),
    fun _ => everywhere_mono (fun e => free_sound _ _ e) Sd1SupermergerBlocks.entries_eq (by kernel_rfl),
    fun _ => everywhere_mono (fun e => free_sound _ _ e) Sd3Comfyui.entries_eq (by kernel_rfl),
    fun h => absurd rfl h,
    fun _ => everywhere_mono (fun e => free_sound _ _ e) SdxlKohya.entries_eq (by kernel_rfl),
    fun _ => everywhere_mono (fun e => free_sound _ _ e) SdxlSgm.entries_eq (by kernel_rfl),
    fun _ => everywhere_mono (fun e => free_sound _ _ e) SdxlSupermergerBlocks.entries_eq (by kernel_rfl)⟩

theorem plain_SdxlKohya : ∀ e ∈ SdxlKohya.table.entries, ∀ a ∈ e.key :: e.aliases, Plain a :=
  everywhere_mono (p := eachName plain) (fun e h a ha => plain_sound a (eachName_sound _ e h a ha)) SdxlKohya.entries_eq (by kernel_rfl)

theorem size_SdxlKohya : SdxlKohya.table.entries.length = 2642 := by
  rw [SdxlKohya.entries_eq, ← Nat.zero_add (List.length _), ← size_eq]
  kernel_rfl

theorem modules_SdxlKohya : (stems SdxlKohya.table.entries).length = 1533 := by
  rw [SdxlKohya.entries_eq]
  exact stems_length (by kernel_rfl)

theorem own_SdxlKohya : (∃ e ∈ SdxlKohya.table.entries, Required (key% "te1.text_model.embeddings.position_embedding.weight") e) ∧ ∃ e ∈ SdxlKohya.table.entries, HasModule (key% "te1_text_model_embeddings_position_embedding") e :=
  ⟨somewhere_mono (fun e => required_sound _ e) SdxlKohya.entries_eq (by kernel_rfl), somewhere_mono (fun e => hasModule_sound _ (key% "te1.text_model.embeddings.position_embedding.weight") (by decide +kernel) (by decide +kernel) e) SdxlKohya.entries_eq (by kernel_rfl)⟩

theorem free_SdxlKohya : ∀ q ∈ Shipped.tables, q.1 ≠ key% "sdxl-kohya" → ∀ e ∈ q.2.entries, Free (key% "te1.text_model.embeddings.position_embedding.weight") (key% "te1_text_model_embeddings_position_embedding") e := by
  simp only [Shipped.tables, List.forall_mem_cons, List.not_mem_nil, false_imp_iff, implies_true, and_true]
  refine ⟨fun _ => everywhere_mono (fun e => free_sound _ _ e) FluxFlux.entries_eq (by kernel_rfl),
    fun _ => everywhere_mono (fun e => free_sound _ _ e) FluxFluxDiffuserOnly.entries_eq (by kernel_rfl),
    fun _ => everywhere_mono (fun e => free_sound _ _ e) Sd1Kohya.entries_eq (by kernel_rfl),
    fun _ => everywhere_mono (fun e => free_sound _ _ e) Sd1Ldm.entries_eq (by kernel_rfl),
    fun _ => everywhere_mono (fun e => free_sound _ _ e) Sd1SupermergerBlocks.entries_eq (by kernel_rfl),
    fun _ => everywhere_mono (fun e => free_sound _ _ e) Sd3Comfyui.entries_eq (by kernel_rfl),
    fun _ => everywhere_mono (fun e => free_sound _ _ e) SdxlDiffusersUnetOnly.entries_eq (by kernel_rfl),
    fun h => absurd rfl h,
    fun _ => everywhere_mono (fun e => free_sound _ _ e) SdxlSgm.entries_eq (by kernel_rfl),
    fun _ => everywhere_mono (fun e => free_sound _ _ e) SdxlSupermergerBlocks.entries_eq (by kernel_rfl)⟩

theorem plain_SdxlSgm : ∀ e ∈ SdxlSgm.table.entries, ∀ a ∈ e.key :: e.aliases, Plain a :=
  everywhere_mono (p := eachName plain) (fun e h a ha => plain_sound a (eachName_sound _ e h a ha)) SdxlSgm.entries_eq (by kernel_rfl)

theorem size_SdxlSgm : SdxlSgm.table.entries.length = 2519 := by
  rw [SdxlSgm.entries_eq, ← Nat.zero_add (List.length _), ← size_eq]
  kernel_rfl

theorem modules_SdxlSgm : (stems SdxlSgm.table.entries).length = 1472 := by
  rw [SdxlSgm.entries_eq]
  exact stems_length (by kernel_rfl)

theorem own_SdxlSgm : (∃ e ∈ SdxlSgm.table.entries, Required (key% "conditioner.embedders.0.transformer.text_model.embeddings.position_embedding.weight") e) ∧ ∃ e ∈ SdxlSgm.table.entries, HasModule (key% "conditioner_embedders_0_transformer_text_model_embeddings_position_embedding") e :=
  ⟨somewhere_mono (fun e => required_sound _ e) SdxlSgm.entries_eq (by kernel_rfl), somewhere_mono (fun e => hasModule_sound _ (key% "conditioner.embedders.0.transformer.text_model.embeddings.position_embedding.weight") (by decide +kernel) (by decide +kernel) e) SdxlSgm.entries_eq (by kernel_rfl)⟩

theorem free_SdxlSgm : ∀ q ∈ Shipped.tables, q.1 ≠ key% "sdxl-sgm" → ∀ e ∈ q.2.entries, Free (key% "conditioner.embedders.0.transformer.text_model.embeddings.position_embedding.weight") (key% "conditioner_embedders_0_transformer_text_model_embeddings_position_embedding") e := by
  simp only [Shipped.tables, List.forall_mem_cons, List.not_mem_nil, false_imp_iff, implies_true, and_true]
  refine ⟨fun _ => everywhere_mono (fun e => free_sound _ _ e) FluxFlux.entries_eq (by kernel_rfl),
    fun _ => everywhere_mono (fun e => free_sound _ _ e) FluxFluxDiffuserOnly.entries_eq (by kernel_rfl),
    fun _ => everywhere_mono (fun e => free_sound _ _ e) Sd1Kohya.entries_eq (by kernel_rfl),
    fun _ => everywhere_mono (fun e => free_sound _ _ e) Sd1Ldm.entries_eq (by kernel_rfl),
    fun _ => everywhere_mono (fun e => free_sound _ _ e) Sd1SupermergerBlocks.entries_eq (by kernel_rfl),
    fun _ => everywhere_mono (fun e => free_sound _ _ e) Sd3Comfyui.entries_eq (by kernel_rfl),
    fun _ => everywhere_mono (fun e => free_sound _ _ e) SdxlDiffusersUnetOnly.entries_eq (by kernel_rfl),
    fun _ => everywhere_mono (fun e => free_sound _ _ e) SdxlKohya.entries_eq (by kernel_rfl),
    fun h => absurd rfl h,
    fun _ => everywhere_mono (fun e => free_sound _ _ e) SdxlSupermergerBlocks.entries_eq (by kernel_rfl)⟩

theorem plain_SdxlSupermergerBlocks : ∀ e ∈ SdxlSupermergerBlocks.table.entries, ∀ a ∈ e.key :: e.aliases, Plain a :=
  everywhere_mono (p := eachName plain) (fun e h a ha => plain_sound a (eachName_sound _ e h a ha)) SdxlSupermergerBlocks.entries_eq (by kernel_rfl)

theorem size_SdxlSupermergerBlocks : SdxlSupermergerBlocks.table.entries.length = 21 := by
  rw [SdxlSupermergerBlocks.entries_eq, ← Nat.zero_add (List.length _), ← size_eq]
  kernel_rfl

theorem modules_SdxlSupermergerBlocks : (stems SdxlSupermergerBlocks.table.entries).length = 21 := by
  rw [SdxlSupermergerBlocks.entries_eq]
  exact stems_length (by kernel_rfl)

theorem own_SdxlSupermergerBlocks : (∃ e ∈ SdxlSupermergerBlocks.table.entries, Required (key% "VAE") e) ∧ ∃ e ∈ SdxlSupermergerBlocks.table.entries, HasModule (key% "VAE") e :=
  ⟨somewhere_mono (fun e => required_sound _ e) SdxlSupermergerBlocks.entries_eq (by kernel_rfl), somewhere_mono (fun e => hasModule_sound _ (key% "VAE") (by decide +kernel) (by decide +kernel) e) SdxlSupermergerBlocks.entries_eq (by kernel_rfl)⟩

theorem free_SdxlSupermergerBlocks : ∀ q ∈ Shipped.tables, q.1 ≠ key% "sdxl-supermerger_blocks" → ∀ e ∈ q.2.entries, Free (key% "VAE") (key% "VAE") e := by
  simp only [Shipped.tables, List.forall_mem_cons, List.not_mem_nil, false_imp_iff, implies_true, and_true]
  refine ⟨fun _ => everywhere_mono (fun e => free_sound _ _ e) FluxFlux.entries_eq (by kernel_rfl),
    fun _ => everywhere_mono (fun e => free_sound _ _ e) FluxFluxDiffuserOnly.entries_eq (by kernel_rfl),
    fun _ => everywhere_mono (fun e => free_sound _ _ e) Sd1Kohya.entries_eq (by kernel_rfl),
    fun _ => everywhere_mono (fun e => free_sound _ _ e) Sd1Ldm.entries_eq (by kernel_rfl),
    fun _ => everywhere_mono (fun e => free_sound _ _ e) Sd1SupermergerBlocks.entries_eq (by kernel_rfl),
    fun _ => everywhere_mono (fun e => free_sound _ _ e) Sd3Comfyui.entries_eq (by kernel_rfl),
    fun _ => everywhere_mono (fun e => free_sound _ _ e) SdxlDiffusersUnetOnly.entries_eq (by kernel_rfl),
    fun _ => everywhere_mono (fun e => free_sound _ _ e) SdxlKohya.entries_eq (by kernel_rfl),
    fun _ => everywhere_mono (fun e => free_sound _ _ e) SdxlSgm.entries_eq (by kernel_rfl),
    fun h => absurd rfl h⟩

/-- What tells a table apart: a required key without aliases, and a module -/
def Sign (p : Text × Table) : Prop :=
  ∃ w v, ((∃ e ∈ p.2.entries, Required w e) ∧ ∃ e ∈ p.2.entries, HasModule v e) ∧ ∀ q ∈ Shipped.tables, q.1 ≠ p.1 → ∀ e ∈ q.2.entries, Free w v e

/-- What is known about a table -/
structure Known (p : Text × Table) : Prop where
  plain : ∀ e ∈ p.2.entries, ∀ a ∈ e.key :: e.aliases, Plain a
  size : p.2.entries.length < 2 ^ 30 ∧ 20 < p.2.entries.length
  modules : 20 < (stems p.2.entries).length
  names : (names p.2.entries).Nodup
  stems : (stems p.2.entries).Nodup
  sign : Sign p

theorem known : ∀ p ∈ Shipped.tables, Known p := by
  simp only [Shipped.tables, List.forall_mem_cons, List.not_mem_nil, false_imp_iff, implies_true, and_true]
  exact ⟨⟨plain_FluxFlux, by rw [size_FluxFlux]; decide, by rw [modules_FluxFlux]; decide, names_FluxFlux, stems_FluxFlux, _, _, own_FluxFlux, free_FluxFlux⟩,
    ⟨plain_FluxFluxDiffuserOnly, by rw [size_FluxFluxDiffuserOnly]; decide, by rw [modules_FluxFluxDiffuserOnly]; decide, names_FluxFluxDiffuserOnly, stems_FluxFluxDiffuserOnly, _, _, own_FluxFluxDiffuserOnly, free_FluxFluxDiffuserOnly⟩,
    ⟨plain_Sd1Kohya, by rw [size_Sd1Kohya]; decide, by rw [modules_Sd1Kohya]; decide, names_Sd1Kohya, stems_Sd1Kohya, _, _, own_Sd1Kohya, free_Sd1Kohya⟩,
    ⟨plain_Sd1Ldm, by rw [size_Sd1Ldm]; decide, by rw [modules_Sd1Ldm]; decide, names_Sd1Ldm, stems_Sd1Ldm, _, _, own_Sd1Ldm, free_Sd1Ldm⟩,
    ⟨plain_Sd1SupermergerBlocks, by rw [size_Sd1SupermergerBlocks]; decide, by rw [modules_Sd1SupermergerBlocks]; decide, names_Sd1SupermergerBlocks, stems_Sd1SupermergerBlocks, _, _, own_Sd1SupermergerBlocks, free_Sd1SupermergerBlocks⟩,
    ⟨plain_Sd3Comfyui, by rw [size_Sd3Comfyui]; decide, by rw [modules_Sd3Comfyui]; decide, names_Sd3Comfyui, stems_Sd3Comfyui, _, _, own_Sd3Comfyui, free_Sd3Comfyui⟩,
    ⟨plain_SdxlDiffusersUnetOnly, by rw [size_SdxlDiffusersUnetOnly]; decide, by rw [modules_SdxlDiffusersUnetOnly]; decide, names_SdxlDiffusersUnetOnly, stems_SdxlDiffusersUnetOnly, _, _, own_SdxlDiffusersUnetOnly, free_SdxlDiffusersUnetOnly⟩,
    ⟨plain_SdxlKohya, by rw [size_SdxlKohya]; decide, by rw [modules_SdxlKohya]; decide, names_SdxlKohya, stems_SdxlKohya, _, _, own_SdxlKohya, free_SdxlKohya⟩,
    ⟨plain_SdxlSgm, by rw [size_SdxlSgm]; decide, by rw [modules_SdxlSgm]; decide, names_SdxlSgm, stems_SdxlSgm, _, _, own_SdxlSgm, free_SdxlSgm⟩,
    ⟨plain_SdxlSupermergerBlocks, by rw [size_SdxlSupermergerBlocks]; decide, by rw [modules_SdxlSupermergerBlocks]; decide, names_SdxlSupermergerBlocks, stems_SdxlSupermergerBlocks, _, _, own_SdxlSupermergerBlocks, free_SdxlSupermergerBlocks⟩⟩

end Verif.Fast
