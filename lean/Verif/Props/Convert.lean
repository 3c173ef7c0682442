import Verif.Data.CertSd1
import Verif.Data.CertSdxl
import Verif.Data.CertUnet
import Verif.Data.CertSd1Blocks
import Verif.Data.CertSdxlBlocks
import Verif.Data.CertFlux
import Verif.Data.Sd3Comfyui
import Verif.Proofs.ConvertFacts

/-!
# Conversions between shipped configs

Statements over the whole key tables of the shipped configs (`Verif/Data`, generated from the YAML files).  `Spec` says how the layouts
correspond (Props/ConvertSpec.lean).
-/
namespace Verif.Convert
open Text Data Spec

/-! ## C60: blocks -/

/-- Every key of SD1 takes its parameter from the block it belongs to, which is a block of the config. -/
theorem C60_sd1 (e : Entry) (he : e ∈ Sd1Ldm.table.entries) :
    sd1Blocks e.key = some (.read (Spec.sd1Block e.key)) ∧ ∃ b ∈ Sd1SupermergerBlocks.table.entries, b.key = Spec.sd1Block e.key := by
  have hm : Fast.scalar e ∈ CertSd1Blocks.target.flatten := by
    rw [CertSd1Blocks.target_eq]
    exact List.mem_map_of_mem he
  obtain ⟨c, hc⟩ := CertSd1Blocks.allGood.entry hm
  rcases hc.gives with h | ⟨v, hv, hr, h⟩
  · cases h
  · rw [Fast.sd1Blocks_eq]
    have hv' : Fast.sd1Blocks e.key = some v := hv
    replace hr : Spec.reads v = [Spec.sd1Block e.key] := hr
    obtain ⟨b, hb⟩ : ∃ b, v = .read b := by
      rw [← Fast.sd1Blocks_eq] at hv'
      exact ⟨_, (Option.some.inj hv').symm⟩
    subst hb
    obtain rfl : b = Spec.sd1Block e.key := by simpa [Spec.reads] using hr
    refine ⟨hv', ?_⟩
    rw [← CertSd1Blocks.source_eq]
    rcases h with h | ⟨_, n, _, h⟩
    · exact Fast.gives_reads h _ List.mem_cons_self
    · exact Fast.gives_reads h _ List.mem_cons_self

/-- Every block of SD1 has keys. -/
theorem C60_sd1_used (b : Entry) (hb : b ∈ Sd1SupermergerBlocks.table.entries) : ∃ e ∈ Sd1Ldm.table.entries, sd1Blocks e.key = some (.read b.key) := by
  rw [← CertSd1Blocks.source_eq] at hb
  obtain ⟨e, he, v, hv, hr⟩ := CertSd1Blocks.allGood.used CertSd1Blocks.masks CertSd1Blocks.covers CertSd1Blocks.below hb (by simp [Fast.never])
  rw [CertSd1Blocks.target_eq] at he
  obtain ⟨e', he', rfl⟩ := List.mem_map.1 he
  replace hv : Fast.sd1Blocks e'.key = some v := hv
  rw [← Fast.sd1Blocks_eq] at hv
  refine ⟨e', he', ?_⟩
  rw [hv]
  cases (Option.some.inj hv)
  rw [List.mem_singleton.1 hr]

/-- Every key of SDXL takes its parameter from the block it belongs to, which is a block of the config. -/
theorem C60_sdxl (e : Entry) (he : e ∈ SdxlSgm.table.entries) :
    sdxlBlocks e.key = some (.read (Spec.sdxlBlock e.key)) ∧ ∃ b ∈ SdxlSupermergerBlocks.table.entries, b.key = Spec.sdxlBlock e.key := by
  have hm : Fast.scalar e ∈ CertSdxlBlocks.target.flatten := by
    rw [CertSdxlBlocks.target_eq]
    exact List.mem_map_of_mem he
  obtain ⟨c, hc⟩ := CertSdxlBlocks.allGood.entry hm
  rcases hc.gives with h | ⟨v, hv, hr, h⟩
  · cases h
  · rw [Fast.sdxlBlocks_eq]
    have hv' : Fast.sdxlBlocks e.key = some v := hv
    replace hr : Spec.reads v = [Spec.sdxlBlock e.key] := hr
    obtain ⟨b, hb⟩ : ∃ b, v = .read b := by
      rw [← Fast.sdxlBlocks_eq] at hv'
      exact ⟨_, (Option.some.inj hv').symm⟩
    subst hb
    obtain rfl : b = Spec.sdxlBlock e.key := by simpa [Spec.reads] using hr
    refine ⟨hv', ?_⟩
    rw [← CertSdxlBlocks.source_eq]
    rcases h with h | ⟨_, n, _, h⟩
    · exact Fast.gives_reads h _ List.mem_cons_self
    · exact Fast.gives_reads h _ List.mem_cons_self

/-- Every block of SDXL has keys. -/
theorem C60_sdxl_used (b : Entry) (hb : b ∈ SdxlSupermergerBlocks.table.entries) : ∃ e ∈ SdxlSgm.table.entries, sdxlBlocks e.key = some (.read b.key) := by
  rw [← CertSdxlBlocks.source_eq] at hb
  obtain ⟨e, he, v, hv, hr⟩ := CertSdxlBlocks.allGood.used CertSdxlBlocks.masks CertSdxlBlocks.covers CertSdxlBlocks.below hb (by simp [Fast.never])
  rw [CertSdxlBlocks.target_eq] at he
  obtain ⟨e', he', rfl⟩ := List.mem_map.1 he
  replace hv : Fast.sdxlBlocks e'.key = some v := hv
  rw [← Fast.sdxlBlocks_eq] at hv
  refine ⟨e', he', ?_⟩
  rw [hv]
  cases (Option.some.inj hv)
  rw [List.mem_singleton.1 hr]

/-! ## C61: Flux -/

/-- A conversion that only renames, applied to a state dict -/
def renamed {α : Type} (f : Text → Option Conv) (sd : Text → Option α) (k : Text) : Option α :=
  match f k with
  | some (.read k') => sd k'
  | _ => none

/-- To the diffusion model only and back: its keys keep their values, all others are missing. -/
theorem C61_full {α : Type} (sd : Text → Option α) (k : Text) :
    renamed fluxToFull (renamed fluxToBackbone sd) k = if key% "model.diffusion_model." <+: k then sd k else none := by
  by_cases h : key% "model.diffusion_model." <+: k
  · rw [if_pos h]
    obtain ⟨r, rfl⟩ := h
    have : fluxToFull (key% "model.diffusion_model." ++ r) = some (.read r) := by
      unfold fluxToFull
      rw [if_pos ((startsWith_iff _ _).2 (List.prefix_append _ _)), List.drop_left]
    unfold renamed
    rw [this]
    rfl
  · rw [if_neg h]
    have : fluxToFull k = none := by
      unfold fluxToFull
      rw [if_neg (fun hs => h ((startsWith_iff _ _).1 hs))]
    unfold renamed
    rw [this]

/-- To the full model and back: nothing changes. -/
theorem C61_backbone {α : Type} (sd : Text → Option α) (k : Text) : renamed fluxToBackbone (renamed fluxToFull sd) k = sd k := by
  have : fluxToFull (key% "model.diffusion_model." ++ k) = some (.read k) := by
    unfold fluxToFull
    rw [if_pos ((startsWith_iff _ _).2 (List.prefix_append _ _)), List.drop_left]
  show renamed fluxToFull sd (key% "model.diffusion_model." ++ k) = _
  unfold renamed
  rw [this]

/-- The two configs agree: the diffusion model of the full config has the keys of the other one, with the same shapes. -/
theorem C61_tables : (∀ e ∈ FluxFluxDiffuserOnly.table.entries, ∃ s ∈ FluxFlux.table.entries, s.key = key% "model.diffusion_model." ++ e.key ∧ s.shape = e.shape) ∧
    ∀ s ∈ FluxFlux.table.entries, key% "model.diffusion_model." <+: s.key → ∃ e ∈ FluxFluxDiffuserOnly.table.entries, s.key = key% "model.diffusion_model." ++ e.key := by
  constructor
  · intro e he
    rw [← CertFlux.target_eq] at he
    obtain ⟨c, hc⟩ := CertFlux.allGood.entry he
    obtain ⟨v, hv, _, hg⟩ := hc.gives_of (fun ks h => by cases h) (by simp [Fast.never])
    rw [CertFlux.source_eq] at hg
    cases hv
    generalize hw : Conv.read (key% "model.diffusion_model." ++ e.key) = w at hg
    generalize hsh : e.shape = shape at hg
    cases hg with
    | read s h => exact ⟨s, h, (Conv.read.inj hw).symm, rfl⟩
    | _ => cases hw
  · intro s hs hp
    rw [← CertFlux.source_eq] at hs
    obtain ⟨e, he, v, hv, hr⟩ := CertFlux.allFresh.used CertFlux.allGood CertFlux.covers CertFlux.below hs (by
      simp only [Fast.fluxUnused, Fast.isPrefix_eq, Bool.not_eq_true', Bool.not_eq_false]
      exact (isPrefixOf_iff _ _).2 hp)
    rw [CertFlux.target_eq] at he
    cases hv
    exact ⟨e, he, List.mem_singleton.1 hr⟩

/-! ## C76: SD1, kohya -/

theorem sd1Kohya_single (k : Text) : ∀ ks, some (Fast.sd1Kohya k) ≠ some (.stacked ks) := by
  intro ks h
  rw [← Fast.sd1Kohya_eq] at h
  unfold sd1Kohya at h
  split at h
  · cases h
  split at h
  · cases h
  split at h
  · unfold convertVae at h
    dsimp only at h
    split at h <;> cases h
  · cases h

/-- Every required key of SD1, except those of the normalization of the autoencoder's attention, is read from the key that stands for the
same layer in the layout of kohya, which exists and has the right shape (after the reshaping the conversion does). -/
theorem C76_sd1_partial (e : Entry) (he : e ∈ Sd1Ldm.table.entries) (ho : e.optional = false) (hn : ¬ key% ".attn_1.norm." <:+: e.key) :
    ∃ c, sd1Kohya e.key = some c ∧ reads c = [Spec.sd1Kohya e.key] ∧ Gives Sd1Kohya.table.entries c e.shape := by
  rw [← CertSd1.target_eq] at he
  obtain ⟨c, hc⟩ := CertSd1.allGood.entry he
  rw [← CertSd1.source_eq, Fast.sd1Kohya_eq]
  refine hc.gives_of (sd1Kohya_single _) ?_
  rw [Fast.sd1Lost, ho, Bool.false_or, Fast.occ_eq _ _ (List.cons_ne_nil _ _), occurs_iff]
  exact hn

/-- The attention of the autoencoder: its weight is reshaped -/
example : ∃ e ∈ Sd1Ldm.table.entries, e.key = key% "first_stage_model.decoder.mid.attn_1.q.weight" ∧ e.optional = false ∧ ¬ key% ".attn_1.norm." <:+: e.key := by
  have h : Fast.somewhere (Fast.is (key% "first_stage_model.decoder.mid.attn_1.q.weight") [512, 512, 1, 1]) CertSd1.target = true := by kernel_rfl
  obtain ⟨e, he, h⟩ := Fast.somewhere_sound _ _ h
  rw [CertSd1.target_eq] at he
  rw [Fast.is_iff] at h
  refine ⟨e, he, h.1, h.2.2, ?_⟩
  rw [h.1, ← occurs_iff]
  decide

/-- Every tensor of a model in the layout of kohya is used, except that normalization. -/
theorem C76_sd1_used_partial (s : Entry) (hs : s ∈ Sd1Kohya.table.entries) (hn : ¬ key% ".attentions.0.group_norm." <:+: s.key) :
    ∃ e ∈ Sd1Ldm.table.entries, ∃ c, sd1Kohya e.key = some c ∧ s.key ∈ reads c := by
  rw [← CertSd1.source_eq] at hs
  obtain ⟨e, he, v, hv, hr⟩ := CertSd1.allFresh.used CertSd1.allGood CertSd1.covers CertSd1.below hs (by
    rw [Fast.sd1Unused, Fast.occ_eq _ _ (List.cons_ne_nil _ _), occurs_iff]; exact hn)
  rw [CertSd1.target_eq] at he
  exact ⟨e, he, v, by rw [Fast.sd1Kohya_eq]; exact hv, hr⟩

/-- No tensor is used for two required keys. -/
theorem C76_sd1_once (e₁ e₂ : Entry) (h₁ : e₁ ∈ Sd1Ldm.table.entries) (h₂ : e₂ ∈ Sd1Ldm.table.entries) (ho₁ : e₁.optional = false) (ho₂ : e₂.optional = false)
    (hn₁ : ¬ key% ".attn_1.norm." <:+: e₁.key) (hn₂ : ¬ key% ".attn_1.norm." <:+: e₂.key) (hne : e₁.key ≠ e₂.key) (c₁ c₂ : Conv)
    (hc₁ : sd1Kohya e₁.key = some c₁) (hc₂ : sd1Kohya e₂.key = some c₂) : List.Disjoint (reads c₁) (reads c₂) := by
  rw [← CertSd1.target_eq] at h₁ h₂
  have lost : ∀ e : Entry, e.optional = false → ¬ key% ".attn_1.norm." <:+: e.key → ¬ Fast.sd1Lost e = true := by
    intro e ho hn
    rw [Fast.sd1Lost, ho, Bool.false_or, Fast.occ_eq _ _ (List.cons_ne_nil _ _), occurs_iff]
    exact hn
  rw [Fast.sd1Kohya_eq] at hc₁ hc₂
  exact CertSd1.allFresh.disjoint CertSd1.allGood CertSd1.nodup h₁ h₂ (lost _ ho₁ hn₁) (lost _ ho₂ hn₂) hne hc₁ hc₂

/-- False for the normalization of the autoencoder's attention: its keys are required, and no state dict with the keys of the config has
what the conversion reads for them. -/
theorem C76_sd1_false : (∀ e ∈ Sd1Ldm.table.entries, key% ".attn_1.norm." <:+: e.key → ¬ ∃ c shape, sd1Kohya e.key = some c ∧ Gives Sd1Kohya.table.entries c shape) ∧
    ∃ e ∈ Sd1Ldm.table.entries, e.optional = false ∧ e.key = key% "first_stage_model.decoder.mid.attn_1.norm.weight" := by
  constructor
  · have h1 : Fast.everywhere (fun e => !Fast.occ (key% ".attn_1.norm.") e.key ||
        (match Fast.sd1Kohya e.key with | .read k => Fast.occ (key% ".attentions.0.norm.") k | _ => false)) CertSd1.target = true := by kernel_rfl
    have h2 : Fast.everywhere (fun e => !Fast.occ (key% ".attentions.0.norm.") e.key || !Fast.isPrefix (key% "vae.") e.key) CertSd1.source = true := by kernel_rfl
    have h3 : Fast.everywhere (fun e => !Fast.occ (key% ".attn_1.norm.") e.key || Fast.isPrefix (key% "first_stage_model.") e.key) CertSd1.target = true := by kernel_rfl
    rintro e he hn ⟨c, shape, hc, hg⟩
    rw [← CertSd1.target_eq] at he
    rw [← CertSd1.source_eq] at hg
    have hocc : Fast.occ (key% ".attn_1.norm.") e.key = true := by rw [Fast.occ_eq _ _ (List.cons_ne_nil _ _), occurs_iff]; exact hn
    have hpre := Fast.everywhere_sound _ _ h3 e he
    have hrd := Fast.everywhere_sound _ _ h1 e he
    rw [hocc] at hpre hrd
    simp only [Bool.not_true, Bool.false_or] at hpre hrd
    rw [Fast.isPrefix_eq, isPrefixOf_iff] at hpre
    rw [Fast.sd1Kohya_eq] at hc
    split at hrd
    · rename_i k hk
      rw [hk] at hc
      cases hc
      obtain ⟨s, hs, rfl⟩ := Fast.gives_reads hg k List.mem_cons_self
      have := Fast.everywhere_sound _ _ h2 s hs
      dsimp only at this
      rw [hrd, Bool.not_true, Bool.false_or, Bool.not_eq_true', ← Bool.not_eq_true, Fast.isPrefix_eq, isPrefixOf_iff] at this
      apply this
      have hk2 : sd1Kohya e.key = some (.read s.key) := by rw [Fast.sd1Kohya_eq, hk]
      obtain ⟨r, hr⟩ := hpre
      rw [← hr] at hk2
      have hv : sd1Kohya (key% "first_stage_model." ++ r) = some (convertVae (key% "first_stage_model." ++ r)) := rfl
      rw [hv] at hk2
      unfold convertVae at hk2
      dsimp only at hk2
      split at hk2
      · cases hk2
      · rw [← Conv.read.inj (Option.some.inj hk2)]
        exact List.prefix_append _ _
    · cases hrd
  · have h : Fast.somewhere (Fast.is (key% "first_stage_model.decoder.mid.attn_1.norm.weight") [512]) CertSd1.target = true := by kernel_rfl
    obtain ⟨e, he, h⟩ := Fast.somewhere_sound _ _ h
    rw [CertSd1.target_eq] at he
    rw [Fast.is_iff] at h
    exact ⟨e, he, h.2.2, h.1⟩

/-! ## C77: SDXL, kohya -/

/-- Every required key of SDXL outside of the autoencoder, except the biases of the attentions in the second text encoder, is read from the
keys that stand for the same layer, which exist; what is made of them has the right shape. -/
theorem C77_sdxl_partial (e : Entry) (he : e ∈ SdxlSgm.table.entries) (ho : e.optional = false) (hv : ¬ key% "first_stage_model." <+: e.key)
    (hb : ¬ key% ".attn.in_proj_bias" <:+ e.key) :
    ∃ c, sdxlKohya e.key = some c ∧ reads c = Spec.sdxlKohya e.key ∧ Gives SdxlKohya.table.entries c e.shape := by
  rw [← CertSdxl.target_eq] at he
  obtain ⟨c, hc⟩ := CertSdxl.allGood.entry he
  rw [← CertSdxl.source_eq, Fast.sdxlKohya_eq]
  rcases hc.gives with h | ⟨v, h1, h2, h3 | ⟨h3, _⟩⟩
  · rw [Fast.sdxlLost, ho, Bool.false_or, Fast.isPrefix_eq, isPrefixOf_iff] at h
    exact absurd h hv
  · exact ⟨v, h1, h2, h3⟩
  · rw [Fast.bias, Fast.ends_eq, endsWith_iff] at h3
    exact absurd h3 hb

/-- An attention of the second text encoder: three matrices are stacked -/
example : ∃ e ∈ SdxlSgm.table.entries, e.key = key% "conditioner.embedders.1.model.transformer.resblocks.0.attn.in_proj_weight" ∧ e.optional = false ∧ ¬ key% "first_stage_model." <+: e.key ∧ ¬ key% ".attn.in_proj_bias" <:+ e.key := by
  have h : Fast.somewhere (Fast.is (key% "conditioner.embedders.1.model.transformer.resblocks.0.attn.in_proj_weight") [3840, 1280]) CertSdxl.target = true := by kernel_rfl
  obtain ⟨e, he, h⟩ := Fast.somewhere_sound _ _ h
  rw [CertSdxl.target_eq] at he
  rw [Fast.is_iff] at h
  refine ⟨e, he, h.1, h.2.2, ?_, ?_⟩
  · rw [h.1, ← startsWith_iff]
    decide
  · rw [h.1, ← endsWith_iff]
    decide

/-- Every tensor of a model in the layout of kohya is used, except the autoencoder. -/
theorem C77_sdxl_used_partial (s : Entry) (hs : s ∈ SdxlKohya.table.entries) (hn : ¬ key% "first_stage_model." <+: s.key) :
    ∃ e ∈ SdxlSgm.table.entries, ∃ c, sdxlKohya e.key = some c ∧ s.key ∈ reads c := by
  rw [← CertSdxl.source_eq] at hs
  obtain ⟨e, he, v, hv, hr⟩ := CertSdxl.allFresh.used CertSdxl.allGood CertSdxl.covers CertSdxl.below hs (by
    rw [Fast.sdxlUnused, Fast.isPrefix_eq, isPrefixOf_iff]; exact hn)
  rw [CertSdxl.target_eq] at he
  exact ⟨e, he, v, by rw [Fast.sdxlKohya_eq]; exact hv, hr⟩

/-- No tensor is used for two required keys. -/
theorem C77_sdxl_once (e₁ e₂ : Entry) (h₁ : e₁ ∈ SdxlSgm.table.entries) (h₂ : e₂ ∈ SdxlSgm.table.entries) (ho₁ : e₁.optional = false) (ho₂ : e₂.optional = false)
    (hn₁ : ¬ key% "first_stage_model." <+: e₁.key) (hn₂ : ¬ key% "first_stage_model." <+: e₂.key) (hne : e₁.key ≠ e₂.key) (c₁ c₂ : Conv)
    (hc₁ : sdxlKohya e₁.key = some c₁) (hc₂ : sdxlKohya e₂.key = some c₂) : List.Disjoint (reads c₁) (reads c₂) := by
  rw [← CertSdxl.target_eq] at h₁ h₂
  have lost : ∀ e : Entry, e.optional = false → ¬ key% "first_stage_model." <+: e.key → ¬ Fast.sdxlLost e = true := by
    intro e ho hn
    rw [Fast.sdxlLost, ho, Bool.false_or, Fast.isPrefix_eq, isPrefixOf_iff]
    exact hn
  rw [Fast.sdxlKohya_eq] at hc₁ hc₂
  exact CertSdxl.allFresh.disjoint CertSdxl.allGood CertSdxl.nodup h₁ h₂ (lost _ ho₁ hn₁) (lost _ ho₂ hn₂) hne hc₁ hc₂

/-- The conversion of the autoencoder reads keys that start with `vae.`. -/
theorem convertVae_reads (k : Text) : ∃ r, reads (convertVae k) = [key% "vae." ++ r] := by
  unfold convertVae
  dsimp only
  split
  · exact ⟨_, rfl⟩
  · exact ⟨_, rfl⟩

/-- False for the autoencoder: whatever the key, the conversion reads keys that start with `vae.`, and the config of kohya has none. -/
theorem C77_vae_false (k : Text) (hk : key% "first_stage_model." <+: k) : ¬ ∃ c shape, sdxlKohya k = some c ∧ Gives SdxlKohya.table.entries c shape := by
  have h1 : Fast.everywhere (fun e => !Fast.isPrefix (key% "vae.") e.key) CertSdxl.source = true := by kernel_rfl
  rintro ⟨c, shape, hc, hg⟩
  obtain ⟨r, rfl⟩ := hk
  have hv : sdxlKohya (key% "first_stage_model." ++ r) = some (convertVae (key% "first_stage_model." ++ r)) := rfl
  rw [hv] at hc
  cases hc
  obtain ⟨r', hr⟩ := convertVae_reads (key% "first_stage_model." ++ r)
  rw [← CertSdxl.source_eq] at hg
  obtain ⟨s, hs, he⟩ := Fast.gives_reads hg (key% "vae." ++ r') (by rw [hr]; exact List.mem_cons_self)
  have := Fast.everywhere_sound _ _ h1 s hs
  rw [Bool.not_eq_true', ← Bool.not_eq_true, Fast.isPrefix_eq, isPrefixOf_iff, he] at this
  exact this (List.prefix_append _ _)

/-- Such keys are required. -/
example : ∃ e ∈ SdxlSgm.table.entries, e.optional = false ∧ e.key = key% "first_stage_model.decoder.conv_in.weight" ∧ key% "first_stage_model." <+: e.key := by
  have h : Fast.somewhere (Fast.is (key% "first_stage_model.decoder.conv_in.weight") [512, 4, 3, 3]) CertSdxl.target = true := by kernel_rfl
  obtain ⟨e, he, h⟩ := Fast.somewhere_sound _ _ h
  rw [CertSdxl.target_eq] at he
  rw [Fast.is_iff] at h
  refine ⟨e, he, h.2.2, h.1, ?_⟩
  rw [h.1]
  exact ⟨key% "decoder.conv_in.weight", rfl⟩

/-- False for the biases of the attentions in the second text encoder: three vectors are stacked to a matrix where one vector is expected. -/
theorem C77_bias_false : (∀ e ∈ SdxlSgm.table.entries, key% ".attn.in_proj_bias" <:+ e.key → ¬ ∃ c, sdxlKohya e.key = some c ∧ Gives SdxlKohya.table.entries c e.shape) ∧
    ∃ e ∈ SdxlSgm.table.entries, e.optional = false ∧ e.key = key% "conditioner.embedders.1.model.transformer.resblocks.0.attn.in_proj_bias" := by
  constructor
  · have h1 : Fast.everywhere (fun e => match e.shape with
        | [_] => !Fast.bias e || (match Fast.sdxlKohya e.key with | .stacked _ => true | _ => false)
        | _ => !Fast.bias e) CertSdxl.target = true := by kernel_rfl
    rintro e he hn ⟨c, hc, hg⟩
    rw [← CertSdxl.target_eq] at he
    have hb : Fast.bias e = true := by rw [Fast.bias, Fast.ends_eq, endsWith_iff]; exact hn
    have h := Fast.everywhere_sound _ _ h1 e he
    rw [hb] at h
    rw [Fast.sdxlKohya_eq] at hc
    cases hc
    split at h
    · rename_i n hsh
      rw [Bool.not_true, Bool.false_or] at h
      split at h
      · rename_i ks hks
        rw [hks, hsh] at hg
        cases hg
      · cases h
    · cases h
  · have h : Fast.somewhere (Fast.is (key% "conditioner.embedders.1.model.transformer.resblocks.0.attn.in_proj_bias") [3840]) CertSdxl.target = true := by kernel_rfl
    obtain ⟨e, he, h⟩ := Fast.somewhere_sound _ _ h
    rw [CertSdxl.target_eq] at he
    rw [Fast.is_iff] at h
    exact ⟨e, he, h.2.2, h.1⟩

/-! ## C78: SDXL, diffusers -/

/-- Every key of the diffusion model of SDXL, except the last attention and the upsampler of the first output blocks, is read from the key
that stands for the same layer in the layout of diffusers, which exists and has the right shape. -/
theorem C78_unet_partial (e : Entry) (he : e ∈ SdxlSgm.table.entries) (hd : key% "model.diffusion_model." <+: e.key)
    (h1 : ¬ key% "model.diffusion_model.output_blocks.2.1." <+: e.key) (h2 : ¬ key% "model.diffusion_model.output_blocks.2.2." <+: e.key) :
    ∃ c, sdxlDiffusers e.key = some c ∧ reads c = [Spec.sdxlDiffusers e.key] ∧ Gives SdxlDiffusersUnetOnly.table.entries c e.shape := by
  rw [← CertUnet.target_eq] at he
  obtain ⟨c, hc⟩ := CertUnet.allGood.entry he
  rw [← CertUnet.source_eq, Fast.sdxlDiffusers_eq]
  refine hc.gives_of ?_ ?_
  · intro ks h
    rw [← Fast.sdxlDiffusers_eq] at h
    unfold sdxlDiffusers at h
    split at h <;> cases h
  · simp only [Fast.unetLost, Fast.isPrefix_eq, Bool.or_eq_true, Bool.not_eq_true', isPrefixOf_iff, ← Bool.not_eq_true]
    tauto

/-- The upsampler of the second output blocks -/
example : ∃ e ∈ SdxlSgm.table.entries, e.key = key% "model.diffusion_model.output_blocks.5.2.conv.weight" ∧ e.optional = false ∧ key% "model.diffusion_model." <+: e.key ∧ ¬ key% "model.diffusion_model.output_blocks.2.1." <+: e.key ∧ ¬ key% "model.diffusion_model.output_blocks.2.2." <+: e.key := by
  have h : Fast.somewhere (Fast.is (key% "model.diffusion_model.output_blocks.5.2.conv.weight") [640, 640, 3, 3]) CertUnet.target = true := by kernel_rfl
  obtain ⟨e, he, h⟩ := Fast.somewhere_sound _ _ h
  rw [CertUnet.target_eq] at he
  rw [Fast.is_iff] at h
  refine ⟨e, he, h.1, h.2.2, ?_, ?_, ?_⟩
  · rw [h.1, ← startsWith_iff]
    decide
  · rw [h.1, ← startsWith_iff]
    decide
  · rw [h.1, ← startsWith_iff]
    decide

/-- Every tensor is used, except that attention and that upsampler. -/
theorem C78_unet_used_partial (s : Entry) (hs : s ∈ SdxlDiffusersUnetOnly.table.entries) (h1 : ¬ key% "up_blocks.0.attentions.2." <+: s.key)
    (h2 : ¬ key% "up_blocks.0.upsamplers.0." <+: s.key) : ∃ e ∈ SdxlSgm.table.entries, ∃ c, sdxlDiffusers e.key = some c ∧ s.key ∈ reads c := by
  rw [← CertUnet.source_eq] at hs
  obtain ⟨e, he, v, hv, hr⟩ := CertUnet.allFresh.used CertUnet.allGood CertUnet.covers CertUnet.below hs (by
    simp only [Fast.unetUnused, Fast.isPrefix_eq, Bool.or_eq_true, isPrefixOf_iff]; tauto)
  rw [CertUnet.target_eq] at he
  exact ⟨e, he, v, by rw [Fast.sdxlDiffusers_eq]; exact hv, hr⟩

/-- False for the last attention and the upsampler of the first output blocks: what the conversion reads for their keys does not exist. -/
theorem C78_unet_false : (∀ e ∈ SdxlSgm.table.entries,
      key% "model.diffusion_model.output_blocks.2.1." <+: e.key ∨ key% "model.diffusion_model.output_blocks.2.2." <+: e.key →
      ¬ ∃ c shape, sdxlDiffusers e.key = some c ∧ Gives SdxlDiffusersUnetOnly.table.entries c shape) ∧
    (∃ e ∈ SdxlSgm.table.entries, e.optional = false ∧ e.key = key% "model.diffusion_model.output_blocks.2.1.norm.weight") ∧
    ∃ e ∈ SdxlSgm.table.entries, e.optional = false ∧ e.key = key% "model.diffusion_model.output_blocks.2.2.conv.weight" := by
  refine ⟨?_, ?_, ?_⟩
  · have h1 : Fast.everywhere (fun e =>
        !(Fast.isPrefix (key% "model.diffusion_model.output_blocks.2.1.") e.key || Fast.isPrefix (key% "model.diffusion_model.output_blocks.2.2.") e.key) ||
        (match Fast.sdxlDiffusers e.key with
          | some (.read k) => Fast.isPrefix (key% "output_blocks.") k ||
            Fast.isPrefix (key% "up_blocks.0.upsamplers.0.") k && !Fast.isPrefix (key% "up_blocks.0.upsamplers.0.conv.") k
          | _ => false)) CertUnet.target = true := by kernel_rfl
    have h2 : Fast.everywhere (fun e => !(Fast.isPrefix (key% "output_blocks.") e.key ||
      Fast.isPrefix (key% "up_blocks.0.upsamplers.0.") e.key && !Fast.isPrefix (key% "up_blocks.0.upsamplers.0.conv.") e.key)) CertUnet.source = true := by kernel_rfl
    rintro e he hp ⟨c, shape, hc, hg⟩
    rw [← CertUnet.target_eq] at he
    rw [← CertUnet.source_eq] at hg
    have hp' : (Fast.isPrefix (key% "model.diffusion_model.output_blocks.2.1.") e.key || Fast.isPrefix (key% "model.diffusion_model.output_blocks.2.2.") e.key) = true := by
      rw [Bool.or_eq_true, Fast.isPrefix_eq, Fast.isPrefix_eq, isPrefixOf_iff, isPrefixOf_iff]
      exact hp
    have h := Fast.everywhere_sound _ _ h1 e he
    rw [hp', Bool.not_true, Bool.false_or] at h
    rw [Fast.sdxlDiffusers_eq] at hc
    rw [hc] at h
    split at h
    · rename_i k hk
      cases hk
      obtain ⟨s, hs, rfl⟩ := Fast.gives_reads hg k List.mem_cons_self
      have := Fast.everywhere_sound _ _ h2 s hs
      dsimp only at this
      rw [h] at this
      cases this
    · cases h
  · have h : Fast.somewhere (Fast.is (key% "model.diffusion_model.output_blocks.2.1.norm.weight") [1280]) CertUnet.target = true := by kernel_rfl
    obtain ⟨e, he, h⟩ := Fast.somewhere_sound _ _ h
    rw [CertUnet.target_eq] at he
    rw [Fast.is_iff] at h
    exact ⟨e, he, h.2.2, h.1⟩
  · have h : Fast.somewhere (Fast.is (key% "model.diffusion_model.output_blocks.2.2.conv.weight") [1280, 1280, 3, 3]) CertUnet.target = true := by kernel_rfl
    obtain ⟨e, he, h⟩ := Fast.somewhere_sound _ _ h
    rw [CertUnet.target_eq] at he
    rw [Fast.is_iff] at h
    exact ⟨e, he, h.2.2, h.1⟩

end Verif.Convert
