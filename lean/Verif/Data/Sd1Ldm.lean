import Verif.Data.Entry

/-!
# Keys of `sd1-ldm.yaml`

Generated by tools/gen_tables.py from sd_mecha/extensions/builtin/model_configs/sd1-ldm.yaml.
-/
namespace Verif.Data.Sd1Ldm


noncomputable def clip_l0 : List Entry := [
  ⟨key% "cond_stage_model.transformer.text_model.embeddings.position_embedding.weight", [77, 768], .float32, [key% "cond_stage_model.transformer.embeddings.position_embedding.weight"], false⟩,
  ⟨key% "cond_stage_model.transformer.text_model.embeddings.position_ids", [1, 77], .int64, [key% "cond_stage_model.transformer.embeddings.position_ids"], true⟩,
  ⟨key% "cond_stage_model.transformer.text_model.embeddings.token_embedding.weight", [49408, 768], .float32, [key% "cond_stage_model.transformer.embeddings.token_embedding.weight"], false⟩,
  ⟨key% "cond_stage_model.transformer.text_model.encoder.layers.0.layer_norm1.bias", [768], .float32, [key% "cond_stage_model.transformer.encoder.layers.0.layer_norm1.bias"], false⟩,
  ⟨key% "cond_stage_model.transformer.text_model.encoder.layers.0.layer_norm1.weight", [768], .float32, [key% "cond_stage_model.transformer.encoder.layers.0.layer_norm1.weight"], false⟩,
  ⟨key% "cond_stage_model.transformer.text_model.encoder.layers.0.layer_norm2.bias", [768], .float32, [key% "cond_stage_model.transformer.encoder.layers.0.layer_norm2.bias"], false⟩,
  ⟨key% "cond_stage_model.transformer.text_model.encoder.layers.0.layer_norm2.weight", [768], .float32, [key% "cond_stage_model.transformer.encoder.layers.0.layer_norm2.weight"], false⟩,
  ⟨key% "cond_stage_model.transformer.text_model.encoder.layers.0.mlp.fc1.bias", [3072], .float32, [key% "cond_stage_model.transformer.encoder.layers.0.mlp.fc1.bias"], false⟩,
  ⟨key% "cond_stage_model.transformer.text_model.encoder.layers.0.mlp.fc1.weight", [3072, 768], .float32, [key% "cond_stage_model.transformer.encoder.layers.0.mlp.fc1.weight"], false⟩,
  ⟨key% "cond_stage_model.transformer.text_model.encoder.layers.0.mlp.fc2.bias", [768], .float32, [key% "cond_stage_model.transformer.encoder.layers.0.mlp.fc2.bias"], false⟩,
  ⟨key% "cond_stage_model.transformer.text_model.encoder.layers.0.mlp.fc2.weight", [768, 3072], .float32, [key% "cond_stage_model.transformer.encoder.layers.0.mlp.fc2.weight"], false⟩,
  ⟨key% "cond_stage_model.transformer.text_model.encoder.layers.0.self_attn.k_proj.bias", [768], .float32, [key% "cond_stage_model.transformer.encoder.layers.0.self_attn.k_proj.bias"], false⟩,
  ⟨key% "cond_stage_model.transformer.text_model.encoder.layers.0.self_attn.k_proj.weight", [768, 768], .float32, [key% "cond_stage_model.transformer.encoder.layers.0.self_attn.k_proj.weight"], false⟩,
  ⟨key% "cond_stage_model.transformer.text_model.encoder.layers.0.self_attn.out_proj.bias", [768], .float32, [key% "cond_stage_model.transformer.encoder.layers.0.self_attn.out_proj.bias"], false⟩,
  ⟨key% "cond_stage_model.transformer.text_model.encoder.layers.0.self_attn.out_proj.weight", [768, 768], .float32, [key% "cond_stage_model.transformer.encoder.layers.0.self_attn.out_proj.weight"], false⟩,
  ⟨key% "cond_stage_model.transformer.text_model.encoder.layers.0.self_attn.q_proj.bias", [768], .float32, [key% "cond_stage_model.transformer.encoder.layers.0.self_attn.q_proj.bias"], false⟩,
  ⟨key% "cond_stage_model.transformer.text_model.encoder.layers.0.self_attn.q_proj.weight", [768, 768], .float32, [key% "cond_stage_model.transformer.encoder.layers.0.self_attn.q_proj.weight"], false⟩,
  ⟨key% "cond_stage_model.transformer.text_model.encoder.layers.0.self_attn.v_proj.bias", [768], .float32, [key% "cond_stage_model.transformer.encoder.layers.0.self_attn.v_proj.bias"], false⟩,
  ⟨key% "cond_stage_model.transformer.text_model.encoder.layers.0.self_attn.v_proj.weight", [768, 768], .float32, [key% "cond_stage_model.transformer.encoder.layers.0.self_attn.v_proj.weight"], false⟩,
  ⟨key% "cond_stage_model.transformer.text_model.encoder.layers.1.layer_norm1.bias", [768], .float32, [key% "cond_stage_model.transformer.encoder.layers.1.layer_norm1.bias"], false⟩,
  ⟨key% "cond_stage_model.transformer.text_model.encoder.layers.1.layer_norm1.weight", [768], .float32, [key% "cond_stage_model.transformer.encoder.layers.1.layer_norm1.weight"], false⟩,
  ⟨key% "cond_stage_model.transformer.text_model.encoder.layers.1.layer_norm2.bias", [768], .float32, [key% "cond_stage_model.transformer.encoder.layers.1.layer_norm2.bias"], false⟩,
  ⟨key% "cond_stage_model.transformer.text_model.encoder.layers.1.layer_norm2.weight", [768], .float32, [key% "cond_stage_model.transformer.encoder.layers.1.layer_norm2.weight"], false⟩,
  ⟨key% "cond_stage_model.transformer.text_model.encoder.layers.1.mlp.fc1.bias", [3072], .float32, [key% "cond_stage_model.transformer.encoder.layers.1.mlp.fc1.bias"], false⟩,
  ⟨key% "cond_stage_model.transformer.text_model.encoder.layers.1.mlp.fc1.weight", [3072, 768], .float32, [key% "cond_stage_model.transformer.encoder.layers.1.mlp.fc1.weight"], false⟩,
  ⟨key% "cond_stage_model.transformer.text_model.encoder.layers.1.mlp.fc2.bias", [768], .float32, [key% "cond_stage_model.transformer.encoder.layers.1.mlp.fc2.bias"], false⟩,
  ⟨key% "cond_stage_model.transformer.text_model.encoder.layers.1.mlp.fc2.weight", [768, 3072], .float32, [key% "cond_stage_model.transformer.encoder.layers.1.mlp.fc2.weight"], false⟩,
  ⟨key% "cond_stage_model.transformer.text_model.encoder.layers.1.self_attn.k_proj.bias", [768], .float32, [key% "cond_stage_model.transformer.encoder.layers.1.self_attn.k_proj.bias"], false⟩,
  ⟨key% "cond_stage_model.transformer.text_model.encoder.layers.1.self_attn.k_proj.weight", [768, 768], .float32, [key% "cond_stage_model.transformer.encoder.layers.1.self_attn.k_proj.weight"], false⟩,
  ⟨key% "cond_stage_model.transformer.text_model.encoder.layers.1.self_attn.out_proj.bias", [768], .float32, [key% "cond_stage_model.transformer.encoder.layers.1.self_attn.out_proj.bias"], false⟩,
  ⟨key% "cond_stage_model.transformer.text_model.encoder.layers.1.self_attn.out_proj.weight", [768, 768], .float32, [key% "cond_stage_model.transformer.encoder.layers.1.self_attn.out_proj.weight"], false⟩,
  ⟨key% "cond_stage_model.transformer.text_model.encoder.layers.1.self_attn.q_proj.bias", [768], .float32, [key% "cond_stage_model.transformer.encoder.layers.1.self_attn.q_proj.bias"], false⟩,
  ⟨key% "cond_stage_model.transformer.text_model.encoder.layers.1.self_attn.q_proj.weight", [768, 768], .float32, [key% "cond_stage_model.transformer.encoder.layers.1.self_attn.q_proj.weight"], false⟩,
  ⟨key% "cond_stage_model.transformer.text_model.encoder.layers.1.self_attn.v_proj.bias", [768], .float32, [key% "cond_stage_model.transformer.encoder.layers.1.self_attn.v_proj.bias"], false⟩,
  ⟨key% "cond_stage_model.transformer.text_model.encoder.layers.1.self_attn.v_proj.weight", [768, 768], .float32, [key% "cond_stage_model.transformer.encoder.layers.1.self_attn.v_proj.weight"], false⟩,
  ⟨key% "cond_stage_model.transformer.text_model.encoder.layers.10.layer_norm1.bias", [768], .float32, [key% "cond_stage_model.transformer.encoder.layers.10.layer_norm1.bias"], false⟩,
  ⟨key% "cond_stage_model.transformer.text_model.encoder.layers.10.layer_norm1.weight", [768], .float32, [key% "cond_stage_model.transformer.encoder.layers.10.layer_norm1.weight"], false⟩,
  ⟨key% "cond_stage_model.transformer.text_model.encoder.layers.10.layer_norm2.bias", [768], .float32, [key% "cond_stage_model.transformer.encoder.layers.10.layer_norm2.bias"], false⟩,
  ⟨key% "cond_stage_model.transformer.text_model.encoder.layers.10.layer_norm2.weight", [768], .float32, [key% "cond_stage_model.transformer.encoder.layers.10.layer_norm2.weight"], false⟩,
  ⟨key% "cond_stage_model.transformer.text_model.encoder.layers.10.mlp.fc1.bias", [3072], .float32, [key% "cond_stage_model.transformer.encoder.layers.10.mlp.fc1.bias"], false⟩,
  ⟨key% "cond_stage_model.transformer.text_model.encoder.layers.10.mlp.fc1.weight", [3072, 768], .float32, [key% "cond_stage_model.transformer.encoder.layers.10.mlp.fc1.weight"], false⟩,
  ⟨key% "cond_stage_model.transformer.text_model.encoder.layers.10.mlp.fc2.bias", [768], .float32, [key% "cond_stage_model.transformer.encoder.layers.10.mlp.fc2.bias"], false⟩,
  ⟨key% "cond_stage_model.transformer.text_model.encoder.layers.10.mlp.fc2.weight", [768, 3072], .float32, [key% "cond_stage_model.transformer.encoder.layers.10.mlp.fc2.weight"], false⟩,
  ⟨key% "cond_stage_model.transformer.text_model.encoder.layers.10.self_attn.k_proj.bias", [768], .float32, [key% "cond_stage_model.transformer.encoder.layers.10.self_attn.k_proj.bias"], false⟩,
  ⟨key% "cond_stage_model.transformer.text_model.encoder.layers.10.self_attn.k_proj.weight", [768, 768], .float32, [key% "cond_stage_model.transformer.encoder.layers.10.self_attn.k_proj.weight"], false⟩,
  ⟨key% "cond_stage_model.transformer.text_model.encoder.layers.10.self_attn.out_proj.bias", [768], .float32, [key% "cond_stage_model.transformer.encoder.layers.10.self_attn.out_proj.bias"], false⟩,
  ⟨key% "cond_stage_model.transformer.text_model.encoder.layers.10.self_attn.out_proj.weight", [768, 768], .float32, [key% "cond_stage_model.transformer.encoder.layers.10.self_attn.out_proj.weight"], false⟩,
  ⟨key% "cond_stage_model.transformer.text_model.encoder.layers.10.self_attn.q_proj.bias", [768], .float32, [key% "cond_stage_model.transformer.encoder.layers.10.self_attn.q_proj.bias"], false⟩,
  ⟨key% "cond_stage_model.transformer.text_model.encoder.layers.10.self_attn.q_proj.weight", [768, 768], .float32, [key% "cond_stage_model.transformer.encoder.layers.10.self_attn.q_proj.weight"], false⟩,
  ⟨key% "cond_stage_model.transformer.text_model.encoder.layers.10.self_attn.v_proj.bias", [768], .float32, [key% "cond_stage_model.transformer.encoder.layers.10.self_attn.v_proj.bias"], false⟩,
  ⟨key% "cond_stage_model.transformer.text_model.encoder.layers.10.self_attn.v_proj.weight", [768, 768], .float32, [key% "cond_stage_model.transformer.encoder.layers.10.self_attn.v_proj.weight"], false⟩,
  ⟨key% "cond_stage_model.transformer.text_model.encoder.layers.11.layer_norm1.bias", [768], .float32, [key% "cond_stage_model.transformer.encoder.layers.11.layer_norm1.bias"], false⟩,
  ⟨key% "cond_stage_model.transformer.text_model.encoder.layers.11.layer_norm1.weight", [768], .float32, [key% "cond_stage_model.transformer.encoder.layers.11.layer_norm1.weight"], false⟩,
  ⟨key% "cond_stage_model.transformer.text_model.encoder.layers.11.layer_norm2.bias", [768], .float32, [key% "cond_stage_model.transformer.encoder.layers.11.layer_norm2.bias"], false⟩,
  ⟨key% "cond_stage_model.transformer.text_model.encoder.layers.11.layer_norm2.weight", [768], .float32, [key% "cond_stage_model.transformer.encoder.layers.11.layer_norm2.weight"], false⟩,
  ⟨key% "cond_stage_model.transformer.text_model.encoder.layers.11.mlp.fc1.bias", [3072], .float32, [key% "cond_stage_model.transformer.encoder.layers.11.mlp.fc1.bias"], false⟩,
  ⟨key% "cond_stage_model.transformer.text_model.encoder.layers.11.mlp.fc1.weight", [3072, 768], .float32, [key% "cond_stage_model.transformer.encoder.layers.11.mlp.fc1.weight"], false⟩,
  ⟨key% "cond_stage_model.transformer.text_model.encoder.layers.11.mlp.fc2.bias", [768], .float32, [key% "cond_stage_model.transformer.encoder.layers.11.mlp.fc2.bias"], false⟩,
  ⟨key% "cond_stage_model.transformer.text_model.encoder.layers.11.mlp.fc2.weight", [768, 3072], .float32, [key% "cond_stage_model.transformer.encoder.layers.11.mlp.fc2.weight"], false⟩,
  ⟨key% "cond_stage_model.transformer.text_model.encoder.layers.11.self_attn.k_proj.bias", [768], .float32, [key% "cond_stage_model.transformer.encoder.layers.11.self_attn.k_proj.bias"], false⟩,
  ⟨key% "cond_stage_model.transformer.text_model.encoder.layers.11.self_attn.k_proj.weight", [768, 768], .float32, [key% "cond_stage_model.transformer.encoder.layers.11.self_attn.k_proj.weight"], false⟩,
  ⟨key% "cond_stage_model.transformer.text_model.encoder.layers.11.self_attn.out_proj.bias", [768], .float32, [key% "cond_stage_model.transformer.encoder.layers.11.self_attn.out_proj.bias"], false⟩,
  ⟨key% "cond_stage_model.transformer.text_model.encoder.layers.11.self_attn.out_proj.weight", [768, 768], .float32, [key% "cond_stage_model.transformer.encoder.layers.11.self_attn.out_proj.weight"], false⟩,
  ⟨key% "cond_stage_model.transformer.text_model.encoder.layers.11.self_attn.q_proj.bias", [768], .float32, [key% "cond_stage_model.transformer.encoder.layers.11.self_attn.q_proj.bias"], false⟩,
  ⟨key% "cond_stage_model.transformer.text_model.encoder.layers.11.self_attn.q_proj.weight", [768, 768], .float32, [key% "cond_stage_model.transformer.encoder.layers.11.self_attn.q_proj.weight"], false⟩,
  ⟨key% "cond_stage_model.transformer.text_model.encoder.layers.11.self_attn.v_proj.bias", [768], .float32, [key% "cond_stage_model.transformer.encoder.layers.11.self_attn.v_proj.bias"], false⟩,
  ⟨key% "cond_stage_model.transformer.text_model.encoder.layers.11.self_attn.v_proj.weight", [768, 768], .float32, [key% "cond_stage_model.transformer.encoder.layers.11.self_attn.v_proj.weight"], false⟩,
  ⟨key% "cond_stage_model.transformer.text_model.encoder.layers.2.layer_norm1.bias", [768], .float32, [key% "cond_stage_model.transformer.encoder.layers.2.layer_norm1.bias"], false⟩,
  ⟨key% "cond_stage_model.transformer.text_model.encoder.layers.2.layer_norm1.weight", [768], .float32, [key% "cond_stage_model.transformer.encoder.layers.2.layer_norm1.weight"], false⟩,
  ⟨key% "cond_stage_model.transformer.text_model.encoder.layers.2.layer_norm2.bias", [768], .float32, [key% "cond_stage_model.transformer.encoder.layers.2.layer_norm2.bias"], false⟩,
  ⟨key% "cond_stage_model.transformer.text_model.encoder.layers.2.layer_norm2.weight", [768], .float32, [key% "cond_stage_model.transformer.encoder.layers.2.layer_norm2.weight"], false⟩,
  ⟨key% "cond_stage_model.transformer.text_model.encoder.layers.2.mlp.fc1.bias", [3072], .float32, [key% "cond_stage_model.transformer.encoder.layers.2.mlp.fc1.bias"], false⟩,
  ⟨key% "cond_stage_model.transformer.text_model.encoder.layers.2.mlp.fc1.weight", [3072, 768], .float32, [key% "cond_stage_model.transformer.encoder.layers.2.mlp.fc1.weight"], false⟩,
  ⟨key% "cond_stage_model.transformer.text_model.encoder.layers.2.mlp.fc2.bias", [768], .float32, [key% "cond_stage_model.transformer.encoder.layers.2.mlp.fc2.bias"], false⟩,
  ⟨key% "cond_stage_model.transformer.text_model.encoder.layers.2.mlp.fc2.weight", [768, 3072], .float32, [key% "cond_stage_model.transformer.encoder.layers.2.mlp.fc2.weight"], false⟩,
  ⟨key% "cond_stage_model.transformer.text_model.encoder.layers.2.self_attn.k_proj.bias", [768], .float32, [key% "cond_stage_model.transformer.encoder.layers.2.self_attn.k_proj.bias"], false⟩,
  ⟨key% "cond_stage_model.transformer.text_model.encoder.layers.2.self_attn.k_proj.weight", [768, 768], .float32, [key% "cond_stage_model.transformer.encoder.layers.2.self_attn.k_proj.weight"], false⟩,
  ⟨key% "cond_stage_model.transformer.text_model.encoder.layers.2.self_attn.out_proj.bias", [768], .float32, [key% "cond_stage_model.transformer.encoder.layers.2.self_attn.out_proj.bias"], false⟩,
  ⟨key% "cond_stage_model.transformer.text_model.encoder.layers.2.self_attn.out_proj.weight", [768, 768], .float32, [key% "cond_stage_model.transformer.encoder.layers.2.self_attn.out_proj.weight"], false⟩,
  ⟨key% "cond_stage_model.transformer.text_model.encoder.layers.2.self_attn.q_proj.bias", [768], .float32, [key% "cond_stage_model.transformer.encoder.layers.2.self_attn.q_proj.bias"], false⟩,
  ⟨key% "cond_stage_model.transformer.text_model.encoder.layers.2.self_attn.q_proj.weight", [768, 768], .float32, [key% "cond_stage_model.transformer.encoder.layers.2.self_attn.q_proj.weight"], false⟩,
  ⟨key% "cond_stage_model.transformer.text_model.encoder.layers.2.self_attn.v_proj.bias", [768], .float32, [key% "cond_stage_model.transformer.encoder.layers.2.self_attn.v_proj.bias"], false⟩,
  ⟨key% "cond_stage_model.transformer.text_model.encoder.layers.2.self_attn.v_proj.weight", [768, 768], .float32, [key% "cond_stage_model.transformer.encoder.layers.2.self_attn.v_proj.weight"], false⟩,
  ⟨key% "cond_stage_model.transformer.text_model.encoder.layers.3.layer_norm1.bias", [768], .float32, [key% "cond_stage_model.transformer.encoder.layers.3.layer_norm1.bias"], false⟩,
  ⟨key% "cond_stage_model.transformer.text_model.encoder.layers.3.layer_norm1.weight", [768], .float32, [key% "cond_stage_model.transformer.encoder.layers.3.layer_norm1.weight"], false⟩,
  ⟨key% "cond_stage_model.transformer.text_model.encoder.layers.3.layer_norm2.bias", [768], .float32, [key% "cond_stage_model.transformer.encoder.layers.3.layer_norm2.bias"], false⟩,
  ⟨key% "cond_stage_model.transformer.text_model.encoder.layers.3.layer_norm2.weight", [768], .float32, [key% "cond_stage_model.transformer.encoder.layers.3.layer_norm2.weight"], false⟩,
  ⟨key% "cond_stage_model.transformer.text_model.encoder.layers.3.mlp.fc1.bias", [3072], .float32, [key% "cond_stage_model.transformer.encoder.layers.3.mlp.fc1.bias"], false⟩,
  ⟨key% "cond_stage_model.transformer.text_model.encoder.layers.3.mlp.fc1.weight", [3072, 768], .float32, [key% "cond_stage_model.transformer.encoder.layers.3.mlp.fc1.weight"], false⟩,
  ⟨key% "cond_stage_model.transformer.text_model.encoder.layers.3.mlp.fc2.bias", [768], .float32, [key% "cond_stage_model.transformer.encoder.layers.3.mlp.fc2.bias"], false⟩,
  ⟨key% "cond_stage_model.transformer.text_model.encoder.layers.3.mlp.fc2.weight", [768, 3072], .float32, [key% "cond_stage_model.transformer.encoder.layers.3.mlp.fc2.weight"], false⟩,
  ⟨key% "cond_stage_model.transformer.text_model.encoder.layers.3.self_attn.k_proj.bias", [768], .float32, [key% "cond_stage_model.transformer.encoder.layers.3.self_attn.k_proj.bias"], false⟩,
  ⟨key% "cond_stage_model.transformer.text_model.encoder.layers.3.self_attn.k_proj.weight", [768, 768], .float32, [key% "cond_stage_model.transformer.encoder.layers.3.self_attn.k_proj.weight"], false⟩,
  ⟨key% "cond_stage_model.transformer.text_model.encoder.layers.3.self_attn.out_proj.bias", [768], .float32, [key% "cond_stage_model.transformer.encoder.layers.3.self_attn.out_proj.bias"], false⟩,
  ⟨key% "cond_stage_model.transformer.text_model.encoder.layers.3.self_attn.out_proj.weight", [768, 768], .float32, [key% "cond_stage_model.transformer.encoder.layers.3.self_attn.out_proj.weight"], false⟩,
  ⟨key% "cond_stage_model.transformer.text_model.encoder.layers.3.self_attn.q_proj.bias", [768], .float32, [key% "cond_stage_model.transformer.encoder.layers.3.self_attn.q_proj.bias"], false⟩,
  ⟨key% "cond_stage_model.transformer.text_model.encoder.layers.3.self_attn.q_proj.weight", [768, 768], .float32, [key% "cond_stage_model.transformer.encoder.layers.3.self_attn.q_proj.weight"], false⟩,
  ⟨key% "cond_stage_model.transformer.text_model.encoder.layers.3.self_attn.v_proj.bias", [768], .float32, [key% "cond_stage_model.transformer.encoder.layers.3.self_attn.v_proj.bias"], false⟩,
  ⟨key% "cond_stage_model.transformer.text_model.encoder.layers.3.self_attn.v_proj.weight", [768, 768], .float32, [key% "cond_stage_model.transformer.encoder.layers.3.self_attn.v_proj.weight"], false⟩,
  ⟨key% "cond_stage_model.transformer.text_model.encoder.layers.4.layer_norm1.bias", [768], .float32, [key% "cond_stage_model.transformer.encoder.layers.4.layer_norm1.bias"], false⟩]
noncomputable def clip_l1 : List Entry := [
  ⟨key% "cond_stage_model.transformer.text_model.encoder.layers.4.layer_norm1.weight", [768], .float32, [key% "cond_stage_model.transformer.encoder.layers.4.layer_norm1.weight"], false⟩,
  ⟨key% "cond_stage_model.transformer.text_model.encoder.layers.4.layer_norm2.bias", [768], .float32, [key% "cond_stage_model.transformer.encoder.layers.4.layer_norm2.bias"], false⟩,
  ⟨key% "cond_stage_model.transformer.text_model.encoder.layers.4.layer_norm2.weight", [768], .float32, [key% "cond_stage_model.transformer.encoder.layers.4.layer_norm2.weight"], false⟩,
  ⟨key% "cond_stage_model.transformer.text_model.encoder.layers.4.mlp.fc1.bias", [3072], .float32, [key% "cond_stage_model.transformer.encoder.layers.4.mlp.fc1.bias"], false⟩,
  ⟨key% "cond_stage_model.transformer.text_model.encoder.layers.4.mlp.fc1.weight", [3072, 768], .float32, [key% "cond_stage_model.transformer.encoder.layers.4.mlp.fc1.weight"], false⟩,
  ⟨key% "cond_stage_model.transformer.text_model.encoder.layers.4.mlp.fc2.bias", [768], .float32, [key% "cond_stage_model.transformer.encoder.layers.4.mlp.fc2.bias"], false⟩,
  ⟨key% "cond_stage_model.transformer.text_model.encoder.layers.4.mlp.fc2.weight", [768, 3072], .float32, [key% "cond_stage_model.transformer.encoder.layers.4.mlp.fc2.weight"], false⟩,
  ⟨key% "cond_stage_model.transformer.text_model.encoder.layers.4.self_attn.k_proj.bias", [768], .float32, [key% "cond_stage_model.transformer.encoder.layers.4.self_attn.k_proj.bias"], false⟩,
  ⟨key% "cond_stage_model.transformer.text_model.encoder.layers.4.self_attn.k_proj.weight", [768, 768], .float32, [key% "cond_stage_model.transformer.encoder.layers.4.self_attn.k_proj.weight"], false⟩,
  ⟨key% "cond_stage_model.transformer.text_model.encoder.layers.4.self_attn.out_proj.bias", [768], .float32, [key% "cond_stage_model.transformer.encoder.layers.4.self_attn.out_proj.bias"], false⟩,
  ⟨key% "cond_stage_model.transformer.text_model.encoder.layers.4.self_attn.out_proj.weight", [768, 768], .float32, [key% "cond_stage_model.transformer.encoder.layers.4.self_attn.out_proj.weight"], false⟩,
  ⟨key% "cond_stage_model.transformer.text_model.encoder.layers.4.self_attn.q_proj.bias", [768], .float32, [key% "cond_stage_model.transformer.encoder.layers.4.self_attn.q_proj.bias"], false⟩,
  ⟨key% "cond_stage_model.transformer.text_model.encoder.layers.4.self_attn.q_proj.weight", [768, 768], .float32, [key% "cond_stage_model.transformer.encoder.layers.4.self_attn.q_proj.weight"], false⟩,
  ⟨key% "cond_stage_model.transformer.text_model.encoder.layers.4.self_attn.v_proj.bias", [768], .float32, [key% "cond_stage_model.transformer.encoder.layers.4.self_attn.v_proj.bias"], false⟩,
  ⟨key% "cond_stage_model.transformer.text_model.encoder.layers.4.self_attn.v_proj.weight", [768, 768], .float32, [key% "cond_stage_model.transformer.encoder.layers.4.self_attn.v_proj.weight"], false⟩,
  ⟨key% "cond_stage_model.transformer.text_model.encoder.layers.5.layer_norm1.bias", [768], .float32, [key% "cond_stage_model.transformer.encoder.layers.5.layer_norm1.bias"], false⟩,
  ⟨key% "cond_stage_model.transformer.text_model.encoder.layers.5.layer_norm1.weight", [768], .float32, [key% "cond_stage_model.transformer.encoder.layers.5.layer_norm1.weight"], false⟩,
  ⟨key% "cond_stage_model.transformer.text_model.encoder.layers.5.layer_norm2.bias", [768], .float32, [key% "cond_stage_model.transformer.encoder.layers.5.layer_norm2.bias"], false⟩,
  ⟨key% "cond_stage_model.transformer.text_model.encoder.layers.5.layer_norm2.weight", [768], .float32, [key% "cond_stage_model.transformer.encoder.layers.5.layer_norm2.weight"], false⟩,
  ⟨key% "cond_stage_model.transformer.text_model.encoder.layers.5.mlp.fc1.bias", [3072], .float32, [key% "cond_stage_model.transformer.encoder.layers.5.mlp.fc1.bias"], false⟩,
  ⟨key% "cond_stage_model.transformer.text_model.encoder.layers.5.mlp.fc1.weight", [3072, 768], .float32, [key% "cond_stage_model.transformer.encoder.layers.5.mlp.fc1.weight"], false⟩,
  ⟨key% "cond_stage_model.transformer.text_model.encoder.layers.5.mlp.fc2.bias", [768], .float32, [key% "cond_stage_model.transformer.encoder.layers.5.mlp.fc2.bias"], false⟩,
  ⟨key% "cond_stage_model.transformer.text_model.encoder.layers.5.mlp.fc2.weight", [768, 3072], .float32, [key% "cond_stage_model.transformer.encoder.layers.5.mlp.fc2.weight"], false⟩,
  ⟨key% "cond_stage_model.transformer.text_model.encoder.layers.5.self_attn.k_proj.bias", [768], .float32, [key% "cond_stage_model.transformer.encoder.layers.5.self_attn.k_proj.bias"], false⟩,
  ⟨key% "cond_stage_model.transformer.text_model.encoder.layers.5.self_attn.k_proj.weight", [768, 768], .float32, [key% "cond_stage_model.transformer.encoder.layers.5.self_attn.k_proj.weight"], false⟩,
  ⟨key% "cond_stage_model.transformer.text_model.encoder.layers.5.self_attn.out_proj.bias", [768], .float32, [key% "cond_stage_model.transformer.encoder.layers.5.self_attn.out_proj.bias"], false⟩,
  ⟨key% "cond_stage_model.transformer.text_model.encoder.layers.5.self_attn.out_proj.weight", [768, 768], .float32, [key% "cond_stage_model.transformer.encoder.layers.5.self_attn.out_proj.weight"], false⟩,
  ⟨key% "cond_stage_model.transformer.text_model.encoder.layers.5.self_attn.q_proj.bias", [768], .float32, [key% "cond_stage_model.transformer.encoder.layers.5.self_attn.q_proj.bias"], false⟩,
  ⟨key% "cond_stage_model.transformer.text_model.encoder.layers.5.self_attn.q_proj.weight", [768, 768], .float32, [key% "cond_stage_model.transformer.encoder.layers.5.self_attn.q_proj.weight"], false⟩,
  ⟨key% "cond_stage_model.transformer.text_model.encoder.layers.5.self_attn.v_proj.bias", [768], .float32, [key% "cond_stage_model.transformer.encoder.layers.5.self_attn.v_proj.bias"], false⟩,
  ⟨key% "cond_stage_model.transformer.text_model.encoder.layers.5.self_attn.v_proj.weight", [768, 768], .float32, [key% "cond_stage_model.transformer.encoder.layers.5.self_attn.v_proj.weight"], false⟩,
  ⟨key% "cond_stage_model.transformer.text_model.encoder.layers.6.layer_norm1.bias", [768], .float32, [key% "cond_stage_model.transformer.encoder.layers.6.layer_norm1.bias"], false⟩,
  ⟨key% "cond_stage_model.transformer.text_model.encoder.layers.6.layer_norm1.weight", [768], .float32, [key% "cond_stage_model.transformer.encoder.layers.6.layer_norm1.weight"], false⟩,
  ⟨key% "cond_stage_model.transformer.text_model.encoder.layers.6.layer_norm2.bias", [768], .float32, [key% "cond_stage_model.transformer.encoder.layers.6.layer_norm2.bias"], false⟩,
  ⟨key% "cond_stage_model.transformer.text_model.encoder.layers.6.layer_norm2.weight", [768], .float32, [key% "cond_stage_model.transformer.encoder.layers.6.layer_norm2.weight"], false⟩,
  ⟨key% "cond_stage_model.transformer.text_model.encoder.layers.6.mlp.fc1.bias", [3072], .float32, [key% "cond_stage_model.transformer.encoder.layers.6.mlp.fc1.bias"], false⟩,
  ⟨key% "cond_stage_model.transformer.text_model.encoder.layers.6.mlp.fc1.weight", [3072, 768], .float32, [key% "cond_stage_model.transformer.encoder.layers.6.mlp.fc1.weight"], false⟩,
  ⟨key% "cond_stage_model.transformer.text_model.encoder.layers.6.mlp.fc2.bias", [768], .float32, [key% "cond_stage_model.transformer.encoder.layers.6.mlp.fc2.bias"], false⟩,
  ⟨key% "cond_stage_model.transformer.text_model.encoder.layers.6.mlp.fc2.weight", [768, 3072], .float32, [key% "cond_stage_model.transformer.encoder.layers.6.mlp.fc2.weight"], false⟩,
  ⟨key% "cond_stage_model.transformer.text_model.encoder.layers.6.self_attn.k_proj.bias", [768], .float32, [key% "cond_stage_model.transformer.encoder.layers.6.self_attn.k_proj.bias"], false⟩,
  ⟨key% "cond_stage_model.transformer.text_model.encoder.layers.6.self_attn.k_proj.weight", [768, 768], .float32, [key% "cond_stage_model.transformer.encoder.layers.6.self_attn.k_proj.weight"], false⟩,
  ⟨key% "cond_stage_model.transformer.text_model.encoder.layers.6.self_attn.out_proj.bias", [768], .float32, [key% "cond_stage_model.transformer.encoder.layers.6.self_attn.out_proj.bias"], false⟩,
  ⟨key% "cond_stage_model.transformer.text_model.encoder.layers.6.self_attn.out_proj.weight", [768, 768], .float32, [key% "cond_stage_model.transformer.encoder.layers.6.self_attn.out_proj.weight"], false⟩,
  ⟨key% "cond_stage_model.transformer.text_model.encoder.layers.6.self_attn.q_proj.bias", [768], .float32, [key% "cond_stage_model.transformer.encoder.layers.6.self_attn.q_proj.bias"], false⟩,
  ⟨key% "cond_stage_model.transformer.text_model.encoder.layers.6.self_attn.q_proj.weight", [768, 768], .float32, [key% "cond_stage_model.transformer.encoder.layers.6.self_attn.q_proj.weight"], false⟩,
  ⟨key% "cond_stage_model.transformer.text_model.encoder.layers.6.self_attn.v_proj.bias", [768], .float32, [key% "cond_stage_model.transformer.encoder.layers.6.self_attn.v_proj.bias"], false⟩,
  ⟨key% "cond_stage_model.transformer.text_model.encoder.layers.6.self_attn.v_proj.weight", [768, 768], .float32, [key% "cond_stage_model.transformer.encoder.layers.6.self_attn.v_proj.weight"], false⟩,
  ⟨key% "cond_stage_model.transformer.text_model.encoder.layers.7.layer_norm1.bias", [768], .float32, [key% "cond_stage_model.transformer.encoder.layers.7.layer_norm1.bias"], false⟩,
  ⟨key% "cond_stage_model.transformer.text_model.encoder.layers.7.layer_norm1.weight", [768], .float32, [key% "cond_stage_model.transformer.encoder.layers.7.layer_norm1.weight"], false⟩,
  ⟨key% "cond_stage_model.transformer.text_model.encoder.layers.7.layer_norm2.bias", [768], .float32, [key% "cond_stage_model.transformer.encoder.layers.7.layer_norm2.bias"], false⟩,
  ⟨key% "cond_stage_model.transformer.text_model.encoder.layers.7.layer_norm2.weight", [768], .float32, [key% "cond_stage_model.transformer.encoder.layers.7.layer_norm2.weight"], false⟩,
  ⟨key% "cond_stage_model.transformer.text_model.encoder.layers.7.mlp.fc1.bias", [3072], .float32, [key% "cond_stage_model.transformer.encoder.layers.7.mlp.fc1.bias"], false⟩,
  ⟨key% "cond_stage_model.transformer.text_model.encoder.layers.7.mlp.fc1.weight", [3072, 768], .float32, [key% "cond_stage_model.transformer.encoder.layers.7.mlp.fc1.weight"], false⟩,
  ⟨key% "cond_stage_model.transformer.text_model.encoder.layers.7.mlp.fc2.bias", [768], .float32, [key% "cond_stage_model.transformer.encoder.layers.7.mlp.fc2.bias"], false⟩,
  ⟨key% "cond_stage_model.transformer.text_model.encoder.layers.7.mlp.fc2.weight", [768, 3072], .float32, [key% "cond_stage_model.transformer.encoder.layers.7.mlp.fc2.weight"], false⟩,
  ⟨key% "cond_stage_model.transformer.text_model.encoder.layers.7.self_attn.k_proj.bias", [768], .float32, [key% "cond_stage_model.transformer.encoder.layers.7.self_attn.k_proj.bias"], false⟩,
  ⟨key% "cond_stage_model.transformer.text_model.encoder.layers.7.self_attn.k_proj.weight", [768, 768], .float32, [key% "cond_stage_model.transformer.encoder.layers.7.self_attn.k_proj.weight"], false⟩,
  ⟨key% "cond_stage_model.transformer.text_model.encoder.layers.7.self_attn.out_proj.bias", [768], .float32, [key% "cond_stage_model.transformer.encoder.layers.7.self_attn.out_proj.bias"], false⟩,
  ⟨key% "cond_stage_model.transformer.text_model.encoder.layers.7.self_attn.out_proj.weight", [768, 768], .float32, [key% "cond_stage_model.transformer.encoder.layers.7.self_attn.out_proj.weight"], false⟩,
  ⟨key% "cond_stage_model.transformer.text_model.encoder.layers.7.self_attn.q_proj.bias", [768], .float32, [key% "cond_stage_model.transformer.encoder.layers.7.self_attn.q_proj.bias"], false⟩,
  ⟨key% "cond_stage_model.transformer.text_model.encoder.layers.7.self_attn.q_proj.weight", [768, 768], .float32, [key% "cond_stage_model.transformer.encoder.layers.7.self_attn.q_proj.weight"], false⟩,
  ⟨key% "cond_stage_model.transformer.text_model.encoder.layers.7.self_attn.v_proj.bias", [768], .float32, [key% "cond_stage_model.transformer.encoder.layers.7.self_attn.v_proj.bias"], false⟩,
  ⟨key% "cond_stage_model.transformer.text_model.encoder.layers.7.self_attn.v_proj.weight", [768, 768], .float32, [key% "cond_stage_model.transformer.encoder.layers.7.self_attn.v_proj.weight"], false⟩,
  ⟨key% "cond_stage_model.transformer.text_model.encoder.layers.8.layer_norm1.bias", [768], .float32, [key% "cond_stage_model.transformer.encoder.layers.8.layer_norm1.bias"], false⟩,
  ⟨key% "cond_stage_model.transformer.text_model.encoder.layers.8.layer_norm1.weight", [768], .float32, [key% "cond_stage_model.transformer.encoder.layers.8.layer_norm1.weight"], false⟩,
  ⟨key% "cond_stage_model.transformer.text_model.encoder.layers.8.layer_norm2.bias", [768], .float32, [key% "cond_stage_model.transformer.encoder.layers.8.layer_norm2.bias"], false⟩,
  ⟨key% "cond_stage_model.transformer.text_model.encoder.layers.8.layer_norm2.weight", [768], .float32, [key% "cond_stage_model.transformer.encoder.layers.8.layer_norm2.weight"], false⟩,
  ⟨key% "cond_stage_model.transformer.text_model.encoder.layers.8.mlp.fc1.bias", [3072], .float32, [key% "cond_stage_model.transformer.encoder.layers.8.mlp.fc1.bias"], false⟩,
  ⟨key% "cond_stage_model.transformer.text_model.encoder.layers.8.mlp.fc1.weight", [3072, 768], .float32, [key% "cond_stage_model.transformer.encoder.layers.8.mlp.fc1.weight"], false⟩,
  ⟨key% "cond_stage_model.transformer.text_model.encoder.layers.8.mlp.fc2.bias", [768], .float32, [key% "cond_stage_model.transformer.encoder.layers.8.mlp.fc2.bias"], false⟩,
  ⟨key% "cond_stage_model.transformer.text_model.encoder.layers.8.mlp.fc2.weight", [768, 3072], .float32, [key% "cond_stage_model.transformer.encoder.layers.8.mlp.fc2.weight"], false⟩,
  ⟨key% "cond_stage_model.transformer.text_model.encoder.layers.8.self_attn.k_proj.bias", [768], .float32, [key% "cond_stage_model.transformer.encoder.layers.8.self_attn.k_proj.bias"], false⟩,
  ⟨key% "cond_stage_model.transformer.text_model.encoder.layers.8.self_attn.k_proj.weight", [768, 768], .float32, [key% "cond_stage_model.transformer.encoder.layers.8.self_attn.k_proj.weight"], false⟩,
  ⟨key% "cond_stage_model.transformer.text_model.encoder.layers.8.self_attn.out_proj.bias", [768], .float32, [key% "cond_stage_model.transformer.encoder.layers.8.self_attn.out_proj.bias"], false⟩,
  ⟨key% "cond_stage_model.transformer.text_model.encoder.layers.8.self_attn.out_proj.weight", [768, 768], .float32, [key% "cond_stage_model.transformer.encoder.layers.8.self_attn.out_proj.weight"], false⟩,
  ⟨key% "cond_stage_model.transformer.text_model.encoder.layers.8.self_attn.q_proj.bias", [768], .float32, [key% "cond_stage_model.transformer.encoder.layers.8.self_attn.q_proj.bias"], false⟩,
  ⟨key% "cond_stage_model.transformer.text_model.encoder.layers.8.self_attn.q_proj.weight", [768, 768], .float32, [key% "cond_stage_model.transformer.encoder.layers.8.self_attn.q_proj.weight"], false⟩,
  ⟨key% "cond_stage_model.transformer.text_model.encoder.layers.8.self_attn.v_proj.bias", [768], .float32, [key% "cond_stage_model.transformer.encoder.layers.8.self_attn.v_proj.bias"], false⟩,
  ⟨key% "cond_stage_model.transformer.text_model.encoder.layers.8.self_attn.v_proj.weight", [768, 768], .float32, [key% "cond_stage_model.transformer.encoder.layers.8.self_attn.v_proj.weight"], false⟩,
  ⟨key% "cond_stage_model.transformer.text_model.encoder.layers.9.layer_norm1.bias", [768], .float32, [key% "cond_stage_model.transformer.encoder.layers.9.layer_norm1.bias"], false⟩,
  ⟨key% "cond_stage_model.transformer.text_model.encoder.layers.9.layer_norm1.weight", [768], .float32, [key% "cond_stage_model.transformer.encoder.layers.9.layer_norm1.weight"], false⟩,
  ⟨key% "cond_stage_model.transformer.text_model.encoder.layers.9.layer_norm2.bias", [768], .float32, [key% "cond_stage_model.transformer.encoder.layers.9.layer_norm2.bias"], false⟩,
  ⟨key% "cond_stage_model.transformer.text_model.encoder.layers.9.layer_norm2.weight", [768], .float32, [key% "cond_stage_model.transformer.encoder.layers.9.layer_norm2.weight"], false⟩,
  ⟨key% "cond_stage_model.transformer.text_model.encoder.layers.9.mlp.fc1.bias", [3072], .float32, [key% "cond_stage_model.transformer.encoder.layers.9.mlp.fc1.bias"], false⟩,
  ⟨key% "cond_stage_model.transformer.text_model.encoder.layers.9.mlp.fc1.weight", [3072, 768], .float32, [key% "cond_stage_model.transformer.encoder.layers.9.mlp.fc1.weight"], false⟩,
  ⟨key% "cond_stage_model.transformer.text_model.encoder.layers.9.mlp.fc2.bias", [768], .float32, [key% "cond_stage_model.transformer.encoder.layers.9.mlp.fc2.bias"], false⟩,
  ⟨key% "cond_stage_model.transformer.text_model.encoder.layers.9.mlp.fc2.weight", [768, 3072], .float32, [key% "cond_stage_model.transformer.encoder.layers.9.mlp.fc2.weight"], false⟩,
  ⟨key% "cond_stage_model.transformer.text_model.encoder.layers.9.self_attn.k_proj.bias", [768], .float32, [key% "cond_stage_model.transformer.encoder.layers.9.self_attn.k_proj.bias"], false⟩,
  ⟨key% "cond_stage_model.transformer.text_model.encoder.layers.9.self_attn.k_proj.weight", [768, 768], .float32, [key% "cond_stage_model.transformer.encoder.layers.9.self_attn.k_proj.weight"], false⟩,
  ⟨key% "cond_stage_model.transformer.text_model.encoder.layers.9.self_attn.out_proj.bias", [768], .float32, [key% "cond_stage_model.transformer.encoder.layers.9.self_attn.out_proj.bias"], false⟩,
  ⟨key% "cond_stage_model.transformer.text_model.encoder.layers.9.self_attn.out_proj.weight", [768, 768], .float32, [key% "cond_stage_model.transformer.encoder.layers.9.self_attn.out_proj.weight"], false⟩,
  ⟨key% "cond_stage_model.transformer.text_model.encoder.layers.9.self_attn.q_proj.bias", [768], .float32, [key% "cond_stage_model.transformer.encoder.layers.9.self_attn.q_proj.bias"], false⟩,
  ⟨key% "cond_stage_model.transformer.text_model.encoder.layers.9.self_attn.q_proj.weight", [768, 768], .float32, [key% "cond_stage_model.transformer.encoder.layers.9.self_attn.q_proj.weight"], false⟩,
  ⟨key% "cond_stage_model.transformer.text_model.encoder.layers.9.self_attn.v_proj.bias", [768], .float32, [key% "cond_stage_model.transformer.encoder.layers.9.self_attn.v_proj.bias"], false⟩,
  ⟨key% "cond_stage_model.transformer.text_model.encoder.layers.9.self_attn.v_proj.weight", [768, 768], .float32, [key% "cond_stage_model.transformer.encoder.layers.9.self_attn.v_proj.weight"], false⟩,
  ⟨key% "cond_stage_model.transformer.text_model.final_layer_norm.bias", [768], .float32, [key% "cond_stage_model.transformer.final_layer_norm.bias"], false⟩,
  ⟨key% "cond_stage_model.transformer.text_model.final_layer_norm.weight", [768], .float32, [key% "cond_stage_model.transformer.final_layer_norm.weight"], false⟩]
/-- Component `clip_l`: 197 keys -/
noncomputable def clip_l : List Entry := clip_l0 ++ clip_l1

noncomputable def vae0 : List Entry := [
  ⟨key% "first_stage_model.decoder.conv_in.bias", [512], .float32, [], false⟩,
  ⟨key% "first_stage_model.decoder.conv_in.weight", [512, 4, 3, 3], .float32, [], false⟩,
  ⟨key% "first_stage_model.decoder.conv_out.bias", [3], .float32, [], false⟩,
  ⟨key% "first_stage_model.decoder.conv_out.weight", [3, 128, 3, 3], .float32, [], false⟩,
  ⟨key% "first_stage_model.decoder.mid.attn_1.k.bias", [512], .float32, [], false⟩,
  ⟨key% "first_stage_model.decoder.mid.attn_1.k.weight", [512, 512, 1, 1], .float32, [], false⟩,
  ⟨key% "first_stage_model.decoder.mid.attn_1.norm.bias", [512], .float32, [], false⟩,
  ⟨key% "first_stage_model.decoder.mid.attn_1.norm.weight", [512], .float32, [], false⟩,
  ⟨key% "first_stage_model.decoder.mid.attn_1.proj_out.bias", [512], .float32, [], false⟩,
  ⟨key% "first_stage_model.decoder.mid.attn_1.proj_out.weight", [512, 512, 1, 1], .float32, [], false⟩,
  ⟨key% "first_stage_model.decoder.mid.attn_1.q.bias", [512], .float32, [], false⟩,
  ⟨key% "first_stage_model.decoder.mid.attn_1.q.weight", [512, 512, 1, 1], .float32, [], false⟩,
  ⟨key% "first_stage_model.decoder.mid.attn_1.v.bias", [512], .float32, [], false⟩,
  ⟨key% "first_stage_model.decoder.mid.attn_1.v.weight", [512, 512, 1, 1], .float32, [], false⟩,
  ⟨key% "first_stage_model.decoder.mid.block_1.conv1.bias", [512], .float32, [], false⟩,
  ⟨key% "first_stage_model.decoder.mid.block_1.conv1.weight", [512, 512, 3, 3], .float32, [], false⟩,
  ⟨key% "first_stage_model.decoder.mid.block_1.conv2.bias", [512], .float32, [], false⟩,
  ⟨key% "first_stage_model.decoder.mid.block_1.conv2.weight", [512, 512, 3, 3], .float32, [], false⟩,
  ⟨key% "first_stage_model.decoder.mid.block_1.norm1.bias", [512], .float32, [], false⟩,
  ⟨key% "first_stage_model.decoder.mid.block_1.norm1.weight", [512], .float32, [], false⟩,
  ⟨key% "first_stage_model.decoder.mid.block_1.norm2.bias", [512], .float32, [], false⟩,
  ⟨key% "first_stage_model.decoder.mid.block_1.norm2.weight", [512], .float32, [], false⟩,
  ⟨key% "first_stage_model.decoder.mid.block_2.conv1.bias", [512], .float32, [], false⟩,
  ⟨key% "first_stage_model.decoder.mid.block_2.conv1.weight", [512, 512, 3, 3], .float32, [], false⟩,
  ⟨key% "first_stage_model.decoder.mid.block_2.conv2.bias", [512], .float32, [], false⟩,
  ⟨key% "first_stage_model.decoder.mid.block_2.conv2.weight", [512, 512, 3, 3], .float32, [], false⟩,
  ⟨key% "first_stage_model.decoder.mid.block_2.norm1.bias", [512], .float32, [], false⟩,
  ⟨key% "first_stage_model.decoder.mid.block_2.norm1.weight", [512], .float32, [], false⟩,
  ⟨key% "first_stage_model.decoder.mid.block_2.norm2.bias", [512], .float32, [], false⟩,
  ⟨key% "first_stage_model.decoder.mid.block_2.norm2.weight", [512], .float32, [], false⟩,
  ⟨key% "first_stage_model.decoder.norm_out.bias", [128], .float32, [], false⟩,
  ⟨key% "first_stage_model.decoder.norm_out.weight", [128], .float32, [], false⟩,
  ⟨key% "first_stage_model.decoder.up.0.block.0.conv1.bias", [128], .float32, [], false⟩,
  ⟨key% "first_stage_model.decoder.up.0.block.0.conv1.weight", [128, 256, 3, 3], .float32, [], false⟩,
  ⟨key% "first_stage_model.decoder.up.0.block.0.conv2.bias", [128], .float32, [], false⟩,
  ⟨key% "first_stage_model.decoder.up.0.block.0.conv2.weight", [128, 128, 3, 3], .float32, [], false⟩,
  ⟨key% "first_stage_model.decoder.up.0.block.0.nin_shortcut.bias", [128], .float32, [], false⟩,
  ⟨key% "first_stage_model.decoder.up.0.block.0.nin_shortcut.weight", [128, 256, 1, 1], .float32, [], false⟩,
  ⟨key% "first_stage_model.decoder.up.0.block.0.norm1.bias", [256], .float32, [], false⟩,
  ⟨key% "first_stage_model.decoder.up.0.block.0.norm1.weight", [256], .float32, [], false⟩,
  ⟨key% "first_stage_model.decoder.up.0.block.0.norm2.bias", [128], .float32, [], false⟩,
  ⟨key% "first_stage_model.decoder.up.0.block.0.norm2.weight", [128], .float32, [], false⟩,
  ⟨key% "first_stage_model.decoder.up.0.block.1.conv1.bias", [128], .float32, [], false⟩,
  ⟨key% "first_stage_model.decoder.up.0.block.1.conv1.weight", [128, 128, 3, 3], .float32, [], false⟩,
  ⟨key% "first_stage_model.decoder.up.0.block.1.conv2.bias", [128], .float32, [], false⟩,
  ⟨key% "first_stage_model.decoder.up.0.block.1.conv2.weight", [128, 128, 3, 3], .float32, [], false⟩,
  ⟨key% "first_stage_model.decoder.up.0.block.1.norm1.bias", [128], .float32, [], false⟩,
  ⟨key% "first_stage_model.decoder.up.0.block.1.norm1.weight", [128], .float32, [], false⟩,
  ⟨key% "first_stage_model.decoder.up.0.block.1.norm2.bias", [128], .float32, [], false⟩,
  ⟨key% "first_stage_model.decoder.up.0.block.1.norm2.weight", [128], .float32, [], false⟩,
  ⟨key% "first_stage_model.decoder.up.0.block.2.conv1.bias", [128], .float32, [], false⟩,
  ⟨key% "first_stage_model.decoder.up.0.block.2.conv1.weight", [128, 128, 3, 3], .float32, [], false⟩,
  ⟨key% "first_stage_model.decoder.up.0.block.2.conv2.bias", [128], .float32, [], false⟩,
  ⟨key% "first_stage_model.decoder.up.0.block.2.conv2.weight", [128, 128, 3, 3], .float32, [], false⟩,
  ⟨key% "first_stage_model.decoder.up.0.block.2.norm1.bias", [128], .float32, [], false⟩,
  ⟨key% "first_stage_model.decoder.up.0.block.2.norm1.weight", [128], .float32, [], false⟩,
  ⟨key% "first_stage_model.decoder.up.0.block.2.norm2.bias", [128], .float32, [], false⟩,
  ⟨key% "first_stage_model.decoder.up.0.block.2.norm2.weight", [128], .float32, [], false⟩,
  ⟨key% "first_stage_model.decoder.up.1.block.0.conv1.bias", [256], .float32, [], false⟩,
  ⟨key% "first_stage_model.decoder.up.1.block.0.conv1.weight", [256, 512, 3, 3], .float32, [], false⟩,
  ⟨key% "first_stage_model.decoder.up.1.block.0.conv2.bias", [256], .float32, [], false⟩,
  ⟨key% "first_stage_model.decoder.up.1.block.0.conv2.weight", [256, 256, 3, 3], .float32, [], false⟩,
  ⟨key% "first_stage_model.decoder.up.1.block.0.nin_shortcut.bias", [256], .float32, [], false⟩,
  ⟨key% "first_stage_model.decoder.up.1.block.0.nin_shortcut.weight", [256, 512, 1, 1], .float32, [], false⟩,
  ⟨key% "first_stage_model.decoder.up.1.block.0.norm1.bias", [512], .float32, [], false⟩,
  ⟨key% "first_stage_model.decoder.up.1.block.0.norm1.weight", [512], .float32, [], false⟩,
  ⟨key% "first_stage_model.decoder.up.1.block.0.norm2.bias", [256], .float32, [], false⟩,
  ⟨key% "first_stage_model.decoder.up.1.block.0.norm2.weight", [256], .float32, [], false⟩,
  ⟨key% "first_stage_model.decoder.up.1.block.1.conv1.bias", [256], .float32, [], false⟩,
  ⟨key% "first_stage_model.decoder.up.1.block.1.conv1.weight", [256, 256, 3, 3], .float32, [], false⟩,
  ⟨key% "first_stage_model.decoder.up.1.block.1.conv2.bias", [256], .float32, [], false⟩,
  ⟨key% "first_stage_model.decoder.up.1.block.1.conv2.weight", [256, 256, 3, 3], .float32, [], false⟩,
  ⟨key% "first_stage_model.decoder.up.1.block.1.norm1.bias", [256], .float32, [], false⟩,
  ⟨key% "first_stage_model.decoder.up.1.block.1.norm1.weight", [256], .float32, [], false⟩,
  ⟨key% "first_stage_model.decoder.up.1.block.1.norm2.bias", [256], .float32, [], false⟩,
  ⟨key% "first_stage_model.decoder.up.1.block.1.norm2.weight", [256], .float32, [], false⟩,
  ⟨key% "first_stage_model.decoder.up.1.block.2.conv1.bias", [256], .float32, [], false⟩,
  ⟨key% "first_stage_model.decoder.up.1.block.2.conv1.weight", [256, 256, 3, 3], .float32, [], false⟩,
  ⟨key% "first_stage_model.decoder.up.1.block.2.conv2.bias", [256], .float32, [], false⟩,
  ⟨key% "first_stage_model.decoder.up.1.block.2.conv2.weight", [256, 256, 3, 3], .float32, [], false⟩,
  ⟨key% "first_stage_model.decoder.up.1.block.2.norm1.bias", [256], .float32, [], false⟩,
  ⟨key% "first_stage_model.decoder.up.1.block.2.norm1.weight", [256], .float32, [], false⟩,
  ⟨key% "first_stage_model.decoder.up.1.block.2.norm2.bias", [256], .float32, [], false⟩,
  ⟨key% "first_stage_model.decoder.up.1.block.2.norm2.weight", [256], .float32, [], false⟩,
  ⟨key% "first_stage_model.decoder.up.1.upsample.conv.bias", [256], .float32, [], false⟩,
  ⟨key% "first_stage_model.decoder.up.1.upsample.conv.weight", [256, 256, 3, 3], .float32, [], false⟩,
  ⟨key% "first_stage_model.decoder.up.2.block.0.conv1.bias", [512], .float32, [], false⟩,
  ⟨key% "first_stage_model.decoder.up.2.block.0.conv1.weight", [512, 512, 3, 3], .float32, [], false⟩,
  ⟨key% "first_stage_model.decoder.up.2.block.0.conv2.bias", [512], .float32, [], false⟩,
  ⟨key% "first_stage_model.decoder.up.2.block.0.conv2.weight", [512, 512, 3, 3], .float32, [], false⟩,
  ⟨key% "first_stage_model.decoder.up.2.block.0.norm1.bias", [512], .float32, [], false⟩,
  ⟨key% "first_stage_model.decoder.up.2.block.0.norm1.weight", [512], .float32, [], false⟩,
  ⟨key% "first_stage_model.decoder.up.2.block.0.norm2.bias", [512], .float32, [], false⟩,
  ⟨key% "first_stage_model.decoder.up.2.block.0.norm2.weight", [512], .float32, [], false⟩,
  ⟨key% "first_stage_model.decoder.up.2.block.1.conv1.bias", [512], .float32, [], false⟩,
  ⟨key% "first_stage_model.decoder.up.2.block.1.conv1.weight", [512, 512, 3, 3], .float32, [], false⟩,
  ⟨key% "first_stage_model.decoder.up.2.block.1.conv2.bias", [512], .float32, [], false⟩,
  ⟨key% "first_stage_model.decoder.up.2.block.1.conv2.weight", [512, 512, 3, 3], .float32, [], false⟩,
  ⟨key% "first_stage_model.decoder.up.2.block.1.norm1.bias", [512], .float32, [], false⟩,
  ⟨key% "first_stage_model.decoder.up.2.block.1.norm1.weight", [512], .float32, [], false⟩]
noncomputable def vae1 : List Entry := [
  ⟨key% "first_stage_model.decoder.up.2.block.1.norm2.bias", [512], .float32, [], false⟩,
  ⟨key% "first_stage_model.decoder.up.2.block.1.norm2.weight", [512], .float32, [], false⟩,
  ⟨key% "first_stage_model.decoder.up.2.block.2.conv1.bias", [512], .float32, [], false⟩,
  ⟨key% "first_stage_model.decoder.up.2.block.2.conv1.weight", [512, 512, 3, 3], .float32, [], false⟩,
  ⟨key% "first_stage_model.decoder.up.2.block.2.conv2.bias", [512], .float32, [], false⟩,
  ⟨key% "first_stage_model.decoder.up.2.block.2.conv2.weight", [512, 512, 3, 3], .float32, [], false⟩,
  ⟨key% "first_stage_model.decoder.up.2.block.2.norm1.bias", [512], .float32, [], false⟩,
  ⟨key% "first_stage_model.decoder.up.2.block.2.norm1.weight", [512], .float32, [], false⟩,
  ⟨key% "first_stage_model.decoder.up.2.block.2.norm2.bias", [512], .float32, [], false⟩,
  ⟨key% "first_stage_model.decoder.up.2.block.2.norm2.weight", [512], .float32, [], false⟩,
  ⟨key% "first_stage_model.decoder.up.2.upsample.conv.bias", [512], .float32, [], false⟩,
  ⟨key% "first_stage_model.decoder.up.2.upsample.conv.weight", [512, 512, 3, 3], .float32, [], false⟩,
  ⟨key% "first_stage_model.decoder.up.3.block.0.conv1.bias", [512], .float32, [], false⟩,
  ⟨key% "first_stage_model.decoder.up.3.block.0.conv1.weight", [512, 512, 3, 3], .float32, [], false⟩,
  ⟨key% "first_stage_model.decoder.up.3.block.0.conv2.bias", [512], .float32, [], false⟩,
  ⟨key% "first_stage_model.decoder.up.3.block.0.conv2.weight", [512, 512, 3, 3], .float32, [], false⟩,
  ⟨key% "first_stage_model.decoder.up.3.block.0.norm1.bias", [512], .float32, [], false⟩,
  ⟨key% "first_stage_model.decoder.up.3.block.0.norm1.weight", [512], .float32, [], false⟩,
  ⟨key% "first_stage_model.decoder.up.3.block.0.norm2.bias", [512], .float32, [], false⟩,
  ⟨key% "first_stage_model.decoder.up.3.block.0.norm2.weight", [512], .float32, [], false⟩,
  ⟨key% "first_stage_model.decoder.up.3.block.1.conv1.bias", [512], .float32, [], false⟩,
  ⟨key% "first_stage_model.decoder.up.3.block.1.conv1.weight", [512, 512, 3, 3], .float32, [], false⟩,
  ⟨key% "first_stage_model.decoder.up.3.block.1.conv2.bias", [512], .float32, [], false⟩,
  ⟨key% "first_stage_model.decoder.up.3.block.1.conv2.weight", [512, 512, 3, 3], .float32, [], false⟩,
  ⟨key% "first_stage_model.decoder.up.3.block.1.norm1.bias", [512], .float32, [], false⟩,
  ⟨key% "first_stage_model.decoder.up.3.block.1.norm1.weight", [512], .float32, [], false⟩,
  ⟨key% "first_stage_model.decoder.up.3.block.1.norm2.bias", [512], .float32, [], false⟩,
  ⟨key% "first_stage_model.decoder.up.3.block.1.norm2.weight", [512], .float32, [], false⟩,
  ⟨key% "first_stage_model.decoder.up.3.block.2.conv1.bias", [512], .float32, [], false⟩,
  ⟨key% "first_stage_model.decoder.up.3.block.2.conv1.weight", [512, 512, 3, 3], .float32, [], false⟩,
  ⟨key% "first_stage_model.decoder.up.3.block.2.conv2.bias", [512], .float32, [], false⟩,
  ⟨key% "first_stage_model.decoder.up.3.block.2.conv2.weight", [512, 512, 3, 3], .float32, [], false⟩,
  ⟨key% "first_stage_model.decoder.up.3.block.2.norm1.bias", [512], .float32, [], false⟩,
  ⟨key% "first_stage_model.decoder.up.3.block.2.norm1.weight", [512], .float32, [], false⟩,
  ⟨key% "first_stage_model.decoder.up.3.block.2.norm2.bias", [512], .float32, [], false⟩,
  ⟨key% "first_stage_model.decoder.up.3.block.2.norm2.weight", [512], .float32, [], false⟩,
  ⟨key% "first_stage_model.decoder.up.3.upsample.conv.bias", [512], .float32, [], false⟩,
  ⟨key% "first_stage_model.decoder.up.3.upsample.conv.weight", [512, 512, 3, 3], .float32, [], false⟩,
  ⟨key% "first_stage_model.encoder.conv_in.bias", [128], .float32, [], false⟩,
  ⟨key% "first_stage_model.encoder.conv_in.weight", [128, 3, 3, 3], .float32, [], false⟩,
  ⟨key% "first_stage_model.encoder.conv_out.bias", [8], .float32, [], false⟩,
  ⟨key% "first_stage_model.encoder.conv_out.weight", [8, 512, 3, 3], .float32, [], false⟩,
  ⟨key% "first_stage_model.encoder.down.0.block.0.conv1.bias", [128], .float32, [], false⟩,
  ⟨key% "first_stage_model.encoder.down.0.block.0.conv1.weight", [128, 128, 3, 3], .float32, [], false⟩,
  ⟨key% "first_stage_model.encoder.down.0.block.0.conv2.bias", [128], .float32, [], false⟩,
  ⟨key% "first_stage_model.encoder.down.0.block.0.conv2.weight", [128, 128, 3, 3], .float32, [], false⟩,
  ⟨key% "first_stage_model.encoder.down.0.block.0.norm1.bias", [128], .float32, [], false⟩,
  ⟨key% "first_stage_model.encoder.down.0.block.0.norm1.weight", [128], .float32, [], false⟩,
  ⟨key% "first_stage_model.encoder.down.0.block.0.norm2.bias", [128], .float32, [], false⟩,
  ⟨key% "first_stage_model.encoder.down.0.block.0.norm2.weight", [128], .float32, [], false⟩,
  ⟨key% "first_stage_model.encoder.down.0.block.1.conv1.bias", [128], .float32, [], false⟩,
  ⟨key% "first_stage_model.encoder.down.0.block.1.conv1.weight", [128, 128, 3, 3], .float32, [], false⟩,
  ⟨key% "first_stage_model.encoder.down.0.block.1.conv2.bias", [128], .float32, [], false⟩,
  ⟨key% "first_stage_model.encoder.down.0.block.1.conv2.weight", [128, 128, 3, 3], .float32, [], false⟩,
  ⟨key% "first_stage_model.encoder.down.0.block.1.norm1.bias", [128], .float32, [], false⟩,
  ⟨key% "first_stage_model.encoder.down.0.block.1.norm1.weight", [128], .float32, [], false⟩,
  ⟨key% "first_stage_model.encoder.down.0.block.1.norm2.bias", [128], .float32, [], false⟩,
  ⟨key% "first_stage_model.encoder.down.0.block.1.norm2.weight", [128], .float32, [], false⟩,
  ⟨key% "first_stage_model.encoder.down.0.downsample.conv.bias", [128], .float32, [], false⟩,
  ⟨key% "first_stage_model.encoder.down.0.downsample.conv.weight", [128, 128, 3, 3], .float32, [], false⟩,
  ⟨key% "first_stage_model.encoder.down.1.block.0.conv1.bias", [256], .float32, [], false⟩,
  ⟨key% "first_stage_model.encoder.down.1.block.0.conv1.weight", [256, 128, 3, 3], .float32, [], false⟩,
  ⟨key% "first_stage_model.encoder.down.1.block.0.conv2.bias", [256], .float32, [], false⟩,
  ⟨key% "first_stage_model.encoder.down.1.block.0.conv2.weight", [256, 256, 3, 3], .float32, [], false⟩,
  ⟨key% "first_stage_model.encoder.down.1.block.0.nin_shortcut.bias", [256], .float32, [], false⟩,
  ⟨key% "first_stage_model.encoder.down.1.block.0.nin_shortcut.weight", [256, 128, 1, 1], .float32, [], false⟩,
  ⟨key% "first_stage_model.encoder.down.1.block.0.norm1.bias", [128], .float32, [], false⟩,
  ⟨key% "first_stage_model.encoder.down.1.block.0.norm1.weight", [128], .float32, [], false⟩,
  ⟨key% "first_stage_model.encoder.down.1.block.0.norm2.bias", [256], .float32, [], false⟩,
  ⟨key% "first_stage_model.encoder.down.1.block.0.norm2.weight", [256], .float32, [], false⟩,
  ⟨key% "first_stage_model.encoder.down.1.block.1.conv1.bias", [256], .float32, [], false⟩,
  ⟨key% "first_stage_model.encoder.down.1.block.1.conv1.weight", [256, 256, 3, 3], .float32, [], false⟩,
  ⟨key% "first_stage_model.encoder.down.1.block.1.conv2.bias", [256], .float32, [], false⟩,
  ⟨key% "first_stage_model.encoder.down.1.block.1.conv2.weight", [256, 256, 3, 3], .float32, [], false⟩,
  ⟨key% "first_stage_model.encoder.down.1.block.1.norm1.bias", [256], .float32, [], false⟩,
  ⟨key% "first_stage_model.encoder.down.1.block.1.norm1.weight", [256], .float32, [], false⟩,
  ⟨key% "first_stage_model.encoder.down.1.block.1.norm2.bias", [256], .float32, [], false⟩,
  ⟨key% "first_stage_model.encoder.down.1.block.1.norm2.weight", [256], .float32, [], false⟩,
  ⟨key% "first_stage_model.encoder.down.1.downsample.conv.bias", [256], .float32, [], false⟩,
  ⟨key% "first_stage_model.encoder.down.1.downsample.conv.weight", [256, 256, 3, 3], .float32, [], false⟩,
  ⟨key% "first_stage_model.encoder.down.2.block.0.conv1.bias", [512], .float32, [], false⟩,
  ⟨key% "first_stage_model.encoder.down.2.block.0.conv1.weight", [512, 256, 3, 3], .float32, [], false⟩,
  ⟨key% "first_stage_model.encoder.down.2.block.0.conv2.bias", [512], .float32, [], false⟩,
  ⟨key% "first_stage_model.encoder.down.2.block.0.conv2.weight", [512, 512, 3, 3], .float32, [], false⟩,
  ⟨key% "first_stage_model.encoder.down.2.block.0.nin_shortcut.bias", [512], .float32, [], false⟩,
  ⟨key% "first_stage_model.encoder.down.2.block.0.nin_shortcut.weight", [512, 256, 1, 1], .float32, [], false⟩,
  ⟨key% "first_stage_model.encoder.down.2.block.0.norm1.bias", [256], .float32, [], false⟩,
  ⟨key% "first_stage_model.encoder.down.2.block.0.norm1.weight", [256], .float32, [], false⟩,
  ⟨key% "first_stage_model.encoder.down.2.block.0.norm2.bias", [512], .float32, [], false⟩,
  ⟨key% "first_stage_model.encoder.down.2.block.0.norm2.weight", [512], .float32, [], false⟩,
  ⟨key% "first_stage_model.encoder.down.2.block.1.conv1.bias", [512], .float32, [], false⟩,
  ⟨key% "first_stage_model.encoder.down.2.block.1.conv1.weight", [512, 512, 3, 3], .float32, [], false⟩,
  ⟨key% "first_stage_model.encoder.down.2.block.1.conv2.bias", [512], .float32, [], false⟩,
  ⟨key% "first_stage_model.encoder.down.2.block.1.conv2.weight", [512, 512, 3, 3], .float32, [], false⟩,
  ⟨key% "first_stage_model.encoder.down.2.block.1.norm1.bias", [512], .float32, [], false⟩,
  ⟨key% "first_stage_model.encoder.down.2.block.1.norm1.weight", [512], .float32, [], false⟩,
  ⟨key% "first_stage_model.encoder.down.2.block.1.norm2.bias", [512], .float32, [], false⟩,
  ⟨key% "first_stage_model.encoder.down.2.block.1.norm2.weight", [512], .float32, [], false⟩,
  ⟨key% "first_stage_model.encoder.down.2.downsample.conv.bias", [512], .float32, [], false⟩,
  ⟨key% "first_stage_model.encoder.down.2.downsample.conv.weight", [512, 512, 3, 3], .float32, [], false⟩]
noncomputable def vae2 : List Entry := [
  ⟨key% "first_stage_model.encoder.down.3.block.0.conv1.bias", [512], .float32, [], false⟩,
  ⟨key% "first_stage_model.encoder.down.3.block.0.conv1.weight", [512, 512, 3, 3], .float32, [], false⟩,
  ⟨key% "first_stage_model.encoder.down.3.block.0.conv2.bias", [512], .float32, [], false⟩,
  ⟨key% "first_stage_model.encoder.down.3.block.0.conv2.weight", [512, 512, 3, 3], .float32, [], false⟩,
  ⟨key% "first_stage_model.encoder.down.3.block.0.norm1.bias", [512], .float32, [], false⟩,
  ⟨key% "first_stage_model.encoder.down.3.block.0.norm1.weight", [512], .float32, [], false⟩,
  ⟨key% "first_stage_model.encoder.down.3.block.0.norm2.bias", [512], .float32, [], false⟩,
  ⟨key% "first_stage_model.encoder.down.3.block.0.norm2.weight", [512], .float32, [], false⟩,
  ⟨key% "first_stage_model.encoder.down.3.block.1.conv1.bias", [512], .float32, [], false⟩,
  ⟨key% "first_stage_model.encoder.down.3.block.1.conv1.weight", [512, 512, 3, 3], .float32, [], false⟩,
  ⟨key% "first_stage_model.encoder.down.3.block.1.conv2.bias", [512], .float32, [], false⟩,
  ⟨key% "first_stage_model.encoder.down.3.block.1.conv2.weight", [512, 512, 3, 3], .float32, [], false⟩,
  ⟨key% "first_stage_model.encoder.down.3.block.1.norm1.bias", [512], .float32, [], false⟩,
  ⟨key% "first_stage_model.encoder.down.3.block.1.norm1.weight", [512], .float32, [], false⟩,
  ⟨key% "first_stage_model.encoder.down.3.block.1.norm2.bias", [512], .float32, [], false⟩,
  ⟨key% "first_stage_model.encoder.down.3.block.1.norm2.weight", [512], .float32, [], false⟩,
  ⟨key% "first_stage_model.encoder.mid.attn_1.k.bias", [512], .float32, [], false⟩,
  ⟨key% "first_stage_model.encoder.mid.attn_1.k.weight", [512, 512, 1, 1], .float32, [], false⟩,
  ⟨key% "first_stage_model.encoder.mid.attn_1.norm.bias", [512], .float32, [], false⟩,
  ⟨key% "first_stage_model.encoder.mid.attn_1.norm.weight", [512], .float32, [], false⟩,
  ⟨key% "first_stage_model.encoder.mid.attn_1.proj_out.bias", [512], .float32, [], false⟩,
  ⟨key% "first_stage_model.encoder.mid.attn_1.proj_out.weight", [512, 512, 1, 1], .float32, [], false⟩,
  ⟨key% "first_stage_model.encoder.mid.attn_1.q.bias", [512], .float32, [], false⟩,
  ⟨key% "first_stage_model.encoder.mid.attn_1.q.weight", [512, 512, 1, 1], .float32, [], false⟩,
  ⟨key% "first_stage_model.encoder.mid.attn_1.v.bias", [512], .float32, [], false⟩,
  ⟨key% "first_stage_model.encoder.mid.attn_1.v.weight", [512, 512, 1, 1], .float32, [], false⟩,
  ⟨key% "first_stage_model.encoder.mid.block_1.conv1.bias", [512], .float32, [], false⟩,
  ⟨key% "first_stage_model.encoder.mid.block_1.conv1.weight", [512, 512, 3, 3], .float32, [], false⟩,
  ⟨key% "first_stage_model.encoder.mid.block_1.conv2.bias", [512], .float32, [], false⟩,
  ⟨key% "first_stage_model.encoder.mid.block_1.conv2.weight", [512, 512, 3, 3], .float32, [], false⟩,
  ⟨key% "first_stage_model.encoder.mid.block_1.norm1.bias", [512], .float32, [], false⟩,
  ⟨key% "first_stage_model.encoder.mid.block_1.norm1.weight", [512], .float32, [], false⟩,
  ⟨key% "first_stage_model.encoder.mid.block_1.norm2.bias", [512], .float32, [], false⟩,
  ⟨key% "first_stage_model.encoder.mid.block_1.norm2.weight", [512], .float32, [], false⟩,
  ⟨key% "first_stage_model.encoder.mid.block_2.conv1.bias", [512], .float32, [], false⟩,
  ⟨key% "first_stage_model.encoder.mid.block_2.conv1.weight", [512, 512, 3, 3], .float32, [], false⟩,
  ⟨key% "first_stage_model.encoder.mid.block_2.conv2.bias", [512], .float32, [], false⟩,
  ⟨key% "first_stage_model.encoder.mid.block_2.conv2.weight", [512, 512, 3, 3], .float32, [], false⟩,
  ⟨key% "first_stage_model.encoder.mid.block_2.norm1.bias", [512], .float32, [], false⟩,
  ⟨key% "first_stage_model.encoder.mid.block_2.norm1.weight", [512], .float32, [], false⟩,
  ⟨key% "first_stage_model.encoder.mid.block_2.norm2.bias", [512], .float32, [], false⟩,
  ⟨key% "first_stage_model.encoder.mid.block_2.norm2.weight", [512], .float32, [], false⟩,
  ⟨key% "first_stage_model.encoder.norm_out.bias", [512], .float32, [], false⟩,
  ⟨key% "first_stage_model.encoder.norm_out.weight", [512], .float32, [], false⟩,
  ⟨key% "first_stage_model.post_quant_conv.bias", [4], .float32, [], false⟩,
  ⟨key% "first_stage_model.post_quant_conv.weight", [4, 4, 1, 1], .float32, [], false⟩,
  ⟨key% "first_stage_model.quant_conv.bias", [8], .float32, [], false⟩,
  ⟨key% "first_stage_model.quant_conv.weight", [8, 8, 1, 1], .float32, [], false⟩]
/-- Component `vae`: 248 keys -/
noncomputable def vae : List Entry := vae0 ++ vae1 ++ vae2

noncomputable def diffuser0 : List Entry := [
  ⟨key% "model.diffusion_model.input_blocks.0.0.bias", [320], .float32, [], false⟩,
  ⟨key% "model.diffusion_model.input_blocks.0.0.weight", [320, 4, 3, 3], .float32, [], false⟩,
  ⟨key% "model.diffusion_model.input_blocks.1.0.emb_layers.1.bias", [320], .float32, [], false⟩,
  ⟨key% "model.diffusion_model.input_blocks.1.0.emb_layers.1.weight", [320, 1280], .float32, [], false⟩,
  ⟨key% "model.diffusion_model.input_blocks.1.0.in_layers.0.bias", [320], .float32, [], false⟩,
  ⟨key% "model.diffusion_model.input_blocks.1.0.in_layers.0.weight", [320], .float32, [], false⟩,
  ⟨key% "model.diffusion_model.input_blocks.1.0.in_layers.2.bias", [320], .float32, [], false⟩,
  ⟨key% "model.diffusion_model.input_blocks.1.0.in_layers.2.weight", [320, 320, 3, 3], .float32, [], false⟩,
  ⟨key% "model.diffusion_model.input_blocks.1.0.out_layers.0.bias", [320], .float32, [], false⟩,
  ⟨key% "model.diffusion_model.input_blocks.1.0.out_layers.0.weight", [320], .float32, [], false⟩,
  ⟨key% "model.diffusion_model.input_blocks.1.0.out_layers.3.bias", [320], .float32, [], false⟩,
  ⟨key% "model.diffusion_model.input_blocks.1.0.out_layers.3.weight", [320, 320, 3, 3], .float32, [], false⟩,
  ⟨key% "model.diffusion_model.input_blocks.1.1.norm.bias", [320], .float32, [], false⟩,
  ⟨key% "model.diffusion_model.input_blocks.1.1.norm.weight", [320], .float32, [], false⟩,
  ⟨key% "model.diffusion_model.input_blocks.1.1.proj_in.bias", [320], .float32, [], false⟩,
  ⟨key% "model.diffusion_model.input_blocks.1.1.proj_in.weight", [320, 320, 1, 1], .float32, [], false⟩,
  ⟨key% "model.diffusion_model.input_blocks.1.1.proj_out.bias", [320], .float32, [], false⟩,
  ⟨key% "model.diffusion_model.input_blocks.1.1.proj_out.weight", [320, 320, 1, 1], .float32, [], false⟩,
  ⟨key% "model.diffusion_model.input_blocks.1.1.transformer_blocks.0.attn1.to_k.weight", [320, 320], .float32, [], false⟩,
  ⟨key% "model.diffusion_model.input_blocks.1.1.transformer_blocks.0.attn1.to_out.0.bias", [320], .float32, [], false⟩,
  ⟨key% "model.diffusion_model.input_blocks.1.1.transformer_blocks.0.attn1.to_out.0.weight", [320, 320], .float32, [], false⟩,
  ⟨key% "model.diffusion_model.input_blocks.1.1.transformer_blocks.0.attn1.to_q.weight", [320, 320], .float32, [], false⟩,
  ⟨key% "model.diffusion_model.input_blocks.1.1.transformer_blocks.0.attn1.to_v.weight", [320, 320], .float32, [], false⟩,
  ⟨key% "model.diffusion_model.input_blocks.1.1.transformer_blocks.0.attn2.to_k.weight", [320, 768], .float32, [], false⟩,
  ⟨key% "model.diffusion_model.input_blocks.1.1.transformer_blocks.0.attn2.to_out.0.bias", [320], .float32, [], false⟩,
  ⟨key% "model.diffusion_model.input_blocks.1.1.transformer_blocks.0.attn2.to_out.0.weight", [320, 320], .float32, [], false⟩,
  ⟨key% "model.diffusion_model.input_blocks.1.1.transformer_blocks.0.attn2.to_q.weight", [320, 320], .float32, [], false⟩,
  ⟨key% "model.diffusion_model.input_blocks.1.1.transformer_blocks.0.attn2.to_v.weight", [320, 768], .float32, [], false⟩,
  ⟨key% "model.diffusion_model.input_blocks.1.1.transformer_blocks.0.ff.net.0.proj.bias", [2560], .float32, [], false⟩,
  ⟨key% "model.diffusion_model.input_blocks.1.1.transformer_blocks.0.ff.net.0.proj.weight", [2560, 320], .float32, [], false⟩,
  ⟨key% "model.diffusion_model.input_blocks.1.1.transformer_blocks.0.ff.net.2.bias", [320], .float32, [], false⟩,
  ⟨key% "model.diffusion_model.input_blocks.1.1.transformer_blocks.0.ff.net.2.weight", [320, 1280], .float32, [], false⟩,
  ⟨key% "model.diffusion_model.input_blocks.1.1.transformer_blocks.0.norm1.bias", [320], .float32, [], false⟩,
  ⟨key% "model.diffusion_model.input_blocks.1.1.transformer_blocks.0.norm1.weight", [320], .float32, [], false⟩,
  ⟨key% "model.diffusion_model.input_blocks.1.1.transformer_blocks.0.norm2.bias", [320], .float32, [], false⟩,
  ⟨key% "model.diffusion_model.input_blocks.1.1.transformer_blocks.0.norm2.weight", [320], .float32, [], false⟩,
  ⟨key% "model.diffusion_model.input_blocks.1.1.transformer_blocks.0.norm3.bias", [320], .float32, [], false⟩,
  ⟨key% "model.diffusion_model.input_blocks.1.1.transformer_blocks.0.norm3.weight", [320], .float32, [], false⟩,
  ⟨key% "model.diffusion_model.input_blocks.10.0.emb_layers.1.bias", [1280], .float32, [], false⟩,
  ⟨key% "model.diffusion_model.input_blocks.10.0.emb_layers.1.weight", [1280, 1280], .float32, [], false⟩,
  ⟨key% "model.diffusion_model.input_blocks.10.0.in_layers.0.bias", [1280], .float32, [], false⟩,
  ⟨key% "model.diffusion_model.input_blocks.10.0.in_layers.0.weight", [1280], .float32, [], false⟩,
  ⟨key% "model.diffusion_model.input_blocks.10.0.in_layers.2.bias", [1280], .float32, [], false⟩,
  ⟨key% "model.diffusion_model.input_blocks.10.0.in_layers.2.weight", [1280, 1280, 3, 3], .float32, [], false⟩,
  ⟨key% "model.diffusion_model.input_blocks.10.0.out_layers.0.bias", [1280], .float32, [], false⟩,
  ⟨key% "model.diffusion_model.input_blocks.10.0.out_layers.0.weight", [1280], .float32, [], false⟩,
  ⟨key% "model.diffusion_model.input_blocks.10.0.out_layers.3.bias", [1280], .float32, [], false⟩,
  ⟨key% "model.diffusion_model.input_blocks.10.0.out_layers.3.weight", [1280, 1280, 3, 3], .float32, [], false⟩,
  ⟨key% "model.diffusion_model.input_blocks.11.0.emb_layers.1.bias", [1280], .float32, [], false⟩,
  ⟨key% "model.diffusion_model.input_blocks.11.0.emb_layers.1.weight", [1280, 1280], .float32, [], false⟩,
  ⟨key% "model.diffusion_model.input_blocks.11.0.in_layers.0.bias", [1280], .float32, [], false⟩,
  ⟨key% "model.diffusion_model.input_blocks.11.0.in_layers.0.weight", [1280], .float32, [], false⟩,
  ⟨key% "model.diffusion_model.input_blocks.11.0.in_layers.2.bias", [1280], .float32, [], false⟩,
  ⟨key% "model.diffusion_model.input_blocks.11.0.in_layers.2.weight", [1280, 1280, 3, 3], .float32, [], false⟩,
  ⟨key% "model.diffusion_model.input_blocks.11.0.out_layers.0.bias", [1280], .float32, [], false⟩,
  ⟨key% "model.diffusion_model.input_blocks.11.0.out_layers.0.weight", [1280], .float32, [], false⟩,
  ⟨key% "model.diffusion_model.input_blocks.11.0.out_layers.3.bias", [1280], .float32, [], false⟩,
  ⟨key% "model.diffusion_model.input_blocks.11.0.out_layers.3.weight", [1280, 1280, 3, 3], .float32, [], false⟩,
  ⟨key% "model.diffusion_model.input_blocks.2.0.emb_layers.1.bias", [320], .float32, [], false⟩,
  ⟨key% "model.diffusion_model.input_blocks.2.0.emb_layers.1.weight", [320, 1280], .float32, [], false⟩,
  ⟨key% "model.diffusion_model.input_blocks.2.0.in_layers.0.bias", [320], .float32, [], false⟩,
  ⟨key% "model.diffusion_model.input_blocks.2.0.in_layers.0.weight", [320], .float32, [], false⟩,
  ⟨key% "model.diffusion_model.input_blocks.2.0.in_layers.2.bias", [320], .float32, [], false⟩,
  ⟨key% "model.diffusion_model.input_blocks.2.0.in_layers.2.weight", [320, 320, 3, 3], .float32, [], false⟩,
  ⟨key% "model.diffusion_model.input_blocks.2.0.out_layers.0.bias", [320], .float32, [], false⟩,
  ⟨key% "model.diffusion_model.input_blocks.2.0.out_layers.0.weight", [320], .float32, [], false⟩,
  ⟨key% "model.diffusion_model.input_blocks.2.0.out_layers.3.bias", [320], .float32, [], false⟩,
  ⟨key% "model.diffusion_model.input_blocks.2.0.out_layers.3.weight", [320, 320, 3, 3], .float32, [], false⟩,
  ⟨key% "model.diffusion_model.input_blocks.2.1.norm.bias", [320], .float32, [], false⟩,
  ⟨key% "model.diffusion_model.input_blocks.2.1.norm.weight", [320], .float32, [], false⟩,
  ⟨key% "model.diffusion_model.input_blocks.2.1.proj_in.bias", [320], .float32, [], false⟩,
  ⟨key% "model.diffusion_model.input_blocks.2.1.proj_in.weight", [320, 320, 1, 1], .float32, [], false⟩,
  ⟨key% "model.diffusion_model.input_blocks.2.1.proj_out.bias", [320], .float32, [], false⟩,
  ⟨key% "model.diffusion_model.input_blocks.2.1.proj_out.weight", [320, 320, 1, 1], .float32, [], false⟩,
  ⟨key% "model.diffusion_model.input_blocks.2.1.transformer_blocks.0.attn1.to_k.weight", [320, 320], .float32, [], false⟩,
  ⟨key% "model.diffusion_model.input_blocks.2.1.transformer_blocks.0.attn1.to_out.0.bias", [320], .float32, [], false⟩,
  ⟨key% "model.diffusion_model.input_blocks.2.1.transformer_blocks.0.attn1.to_out.0.weight", [320, 320], .float32, [], false⟩,
  ⟨key% "model.diffusion_model.input_blocks.2.1.transformer_blocks.0.attn1.to_q.weight", [320, 320], .float32, [], false⟩,
  ⟨key% "model.diffusion_model.input_blocks.2.1.transformer_blocks.0.attn1.to_v.weight", [320, 320], .float32, [], false⟩,
  ⟨key% "model.diffusion_model.input_blocks.2.1.transformer_blocks.0.attn2.to_k.weight", [320, 768], .float32, [], false⟩,
  ⟨key% "model.diffusion_model.input_blocks.2.1.transformer_blocks.0.attn2.to_out.0.bias", [320], .float32, [], false⟩,
  ⟨key% "model.diffusion_model.input_blocks.2.1.transformer_blocks.0.attn2.to_out.0.weight", [320, 320], .float32, [], false⟩,
  ⟨key% "model.diffusion_model.input_blocks.2.1.transformer_blocks.0.attn2.to_q.weight", [320, 320], .float32, [], false⟩,
  ⟨key% "model.diffusion_model.input_blocks.2.1.transformer_blocks.0.attn2.to_v.weight", [320, 768], .float32, [], false⟩,
  ⟨key% "model.diffusion_model.input_blocks.2.1.transformer_blocks.0.ff.net.0.proj.bias", [2560], .float32, [], false⟩,
  ⟨key% "model.diffusion_model.input_blocks.2.1.transformer_blocks.0.ff.net.0.proj.weight", [2560, 320], .float32, [], false⟩,
  ⟨key% "model.diffusion_model.input_blocks.2.1.transformer_blocks.0.ff.net.2.bias", [320], .float32, [], false⟩,
  ⟨key% "model.diffusion_model.input_blocks.2.1.transformer_blocks.0.ff.net.2.weight", [320, 1280], .float32, [], false⟩,
  ⟨key% "model.diffusion_model.input_blocks.2.1.transformer_blocks.0.norm1.bias", [320], .float32, [], false⟩,
  ⟨key% "model.diffusion_model.input_blocks.2.1.transformer_blocks.0.norm1.weight", [320], .float32, [], false⟩,
  ⟨key% "model.diffusion_model.input_blocks.2.1.transformer_blocks.0.norm2.bias", [320], .float32, [], false⟩,
  ⟨key% "model.diffusion_model.input_blocks.2.1.transformer_blocks.0.norm2.weight", [320], .float32, [], false⟩,
  ⟨key% "model.diffusion_model.input_blocks.2.1.transformer_blocks.0.norm3.bias", [320], .float32, [], false⟩,
  ⟨key% "model.diffusion_model.input_blocks.2.1.transformer_blocks.0.norm3.weight", [320], .float32, [], false⟩,
  ⟨key% "model.diffusion_model.input_blocks.3.0.op.bias", [320], .float32, [], false⟩,
  ⟨key% "model.diffusion_model.input_blocks.3.0.op.weight", [320, 320, 3, 3], .float32, [], false⟩,
  ⟨key% "model.diffusion_model.input_blocks.4.0.emb_layers.1.bias", [640], .float32, [], false⟩,
  ⟨key% "model.diffusion_model.input_blocks.4.0.emb_layers.1.weight", [640, 1280], .float32, [], false⟩,
  ⟨key% "model.diffusion_model.input_blocks.4.0.in_layers.0.bias", [320], .float32, [], false⟩,
  ⟨key% "model.diffusion_model.input_blocks.4.0.in_layers.0.weight", [320], .float32, [], false⟩]
noncomputable def diffuser1 : List Entry := [
  ⟨key% "model.diffusion_model.input_blocks.4.0.in_layers.2.bias", [640], .float32, [], false⟩,
  ⟨key% "model.diffusion_model.input_blocks.4.0.in_layers.2.weight", [640, 320, 3, 3], .float32, [], false⟩,
  ⟨key% "model.diffusion_model.input_blocks.4.0.out_layers.0.bias", [640], .float32, [], false⟩,
  ⟨key% "model.diffusion_model.input_blocks.4.0.out_layers.0.weight", [640], .float32, [], false⟩,
  ⟨key% "model.diffusion_model.input_blocks.4.0.out_layers.3.bias", [640], .float32, [], false⟩,
  ⟨key% "model.diffusion_model.input_blocks.4.0.out_layers.3.weight", [640, 640, 3, 3], .float32, [], false⟩,
  ⟨key% "model.diffusion_model.input_blocks.4.0.skip_connection.bias", [640], .float32, [], false⟩,
  ⟨key% "model.diffusion_model.input_blocks.4.0.skip_connection.weight", [640, 320, 1, 1], .float32, [], false⟩,
  ⟨key% "model.diffusion_model.input_blocks.4.1.norm.bias", [640], .float32, [], false⟩,
  ⟨key% "model.diffusion_model.input_blocks.4.1.norm.weight", [640], .float32, [], false⟩,
  ⟨key% "model.diffusion_model.input_blocks.4.1.proj_in.bias", [640], .float32, [], false⟩,
  ⟨key% "model.diffusion_model.input_blocks.4.1.proj_in.weight", [640, 640, 1, 1], .float32, [], false⟩,
  ⟨key% "model.diffusion_model.input_blocks.4.1.proj_out.bias", [640], .float32, [], false⟩,
  ⟨key% "model.diffusion_model.input_blocks.4.1.proj_out.weight", [640, 640, 1, 1], .float32, [], false⟩,
  ⟨key% "model.diffusion_model.input_blocks.4.1.transformer_blocks.0.attn1.to_k.weight", [640, 640], .float32, [], false⟩,
  ⟨key% "model.diffusion_model.input_blocks.4.1.transformer_blocks.0.attn1.to_out.0.bias", [640], .float32, [], false⟩,
  ⟨key% "model.diffusion_model.input_blocks.4.1.transformer_blocks.0.attn1.to_out.0.weight", [640, 640], .float32, [], false⟩,
  ⟨key% "model.diffusion_model.input_blocks.4.1.transformer_blocks.0.attn1.to_q.weight", [640, 640], .float32, [], false⟩,
  ⟨key% "model.diffusion_model.input_blocks.4.1.transformer_blocks.0.attn1.to_v.weight", [640, 640], .float32, [], false⟩,
  ⟨key% "model.diffusion_model.input_blocks.4.1.transformer_blocks.0.attn2.to_k.weight", [640, 768], .float32, [], false⟩,
  ⟨key% "model.diffusion_model.input_blocks.4.1.transformer_blocks.0.attn2.to_out.0.bias", [640], .float32, [], false⟩,
  ⟨key% "model.diffusion_model.input_blocks.4.1.transformer_blocks.0.attn2.to_out.0.weight", [640, 640], .float32, [], false⟩,
  ⟨key% "model.diffusion_model.input_blocks.4.1.transformer_blocks.0.attn2.to_q.weight", [640, 640], .float32, [], false⟩,
  ⟨key% "model.diffusion_model.input_blocks.4.1.transformer_blocks.0.attn2.to_v.weight", [640, 768], .float32, [], false⟩,
  ⟨key% "model.diffusion_model.input_blocks.4.1.transformer_blocks.0.ff.net.0.proj.bias", [5120], .float32, [], false⟩,
  ⟨key% "model.diffusion_model.input_blocks.4.1.transformer_blocks.0.ff.net.0.proj.weight", [5120, 640], .float32, [], false⟩,
  ⟨key% "model.diffusion_model.input_blocks.4.1.transformer_blocks.0.ff.net.2.bias", [640], .float32, [], false⟩,
  ⟨key% "model.diffusion_model.input_blocks.4.1.transformer_blocks.0.ff.net.2.weight", [640, 2560], .float32, [], false⟩,
  ⟨key% "model.diffusion_model.input_blocks.4.1.transformer_blocks.0.norm1.bias", [640], .float32, [], false⟩,
  ⟨key% "model.diffusion_model.input_blocks.4.1.transformer_blocks.0.norm1.weight", [640], .float32, [], false⟩,
  ⟨key% "model.diffusion_model.input_blocks.4.1.transformer_blocks.0.norm2.bias", [640], .float32, [], false⟩,
  ⟨key% "model.diffusion_model.input_blocks.4.1.transformer_blocks.0.norm2.weight", [640], .float32, [], false⟩,
  ⟨key% "model.diffusion_model.input_blocks.4.1.transformer_blocks.0.norm3.bias", [640], .float32, [], false⟩,
  ⟨key% "model.diffusion_model.input_blocks.4.1.transformer_blocks.0.norm3.weight", [640], .float32, [], false⟩,
  ⟨key% "model.diffusion_model.input_blocks.5.0.emb_layers.1.bias", [640], .float32, [], false⟩,
  ⟨key% "model.diffusion_model.input_blocks.5.0.emb_layers.1.weight", [640, 1280], .float32, [], false⟩,
  ⟨key% "model.diffusion_model.input_blocks.5.0.in_layers.0.bias", [640], .float32, [], false⟩,
  ⟨key% "model.diffusion_model.input_blocks.5.0.in_layers.0.weight", [640], .float32, [], false⟩,
  ⟨key% "model.diffusion_model.input_blocks.5.0.in_layers.2.bias", [640], .float32, [], false⟩,
  ⟨key% "model.diffusion_model.input_blocks.5.0.in_layers.2.weight", [640, 640, 3, 3], .float32, [], false⟩,
  ⟨key% "model.diffusion_model.input_blocks.5.0.out_layers.0.bias", [640], .float32, [], false⟩,
  ⟨key% "model.diffusion_model.input_blocks.5.0.out_layers.0.weight", [640], .float32, [], false⟩,
  ⟨key% "model.diffusion_model.input_blocks.5.0.out_layers.3.bias", [640], .float32, [], false⟩,
  ⟨key% "model.diffusion_model.input_blocks.5.0.out_layers.3.weight", [640, 640, 3, 3], .float32, [], false⟩,
  ⟨key% "model.diffusion_model.input_blocks.5.1.norm.bias", [640], .float32, [], false⟩,
  ⟨key% "model.diffusion_model.input_blocks.5.1.norm.weight", [640], .float32, [], false⟩,
  ⟨key% "model.diffusion_model.input_blocks.5.1.proj_in.bias", [640], .float32, [], false⟩,
  ⟨key% "model.diffusion_model.input_blocks.5.1.proj_in.weight", [640, 640, 1, 1], .float32, [], false⟩,
  ⟨key% "model.diffusion_model.input_blocks.5.1.proj_out.bias", [640], .float32, [], false⟩,
  ⟨key% "model.diffusion_model.input_blocks.5.1.proj_out.weight", [640, 640, 1, 1], .float32, [], false⟩,
  ⟨key% "model.diffusion_model.input_blocks.5.1.transformer_blocks.0.attn1.to_k.weight", [640, 640], .float32, [], false⟩,
  ⟨key% "model.diffusion_model.input_blocks.5.1.transformer_blocks.0.attn1.to_out.0.bias", [640], .float32, [], false⟩,
  ⟨key% "model.diffusion_model.input_blocks.5.1.transformer_blocks.0.attn1.to_out.0.weight", [640, 640], .float32, [], false⟩,
  ⟨key% "model.diffusion_model.input_blocks.5.1.transformer_blocks.0.attn1.to_q.weight", [640, 640], .float32, [], false⟩,
  ⟨key% "model.diffusion_model.input_blocks.5.1.transformer_blocks.0.attn1.to_v.weight", [640, 640], .float32, [], false⟩,
  ⟨key% "model.diffusion_model.input_blocks.5.1.transformer_blocks.0.attn2.to_k.weight", [640, 768], .float32, [], false⟩,
  ⟨key% "model.diffusion_model.input_blocks.5.1.transformer_blocks.0.attn2.to_out.0.bias", [640], .float32, [], false⟩,
  ⟨key% "model.diffusion_model.input_blocks.5.1.transformer_blocks.0.attn2.to_out.0.weight", [640, 640], .float32, [], false⟩,
  ⟨key% "model.diffusion_model.input_blocks.5.1.transformer_blocks.0.attn2.to_q.weight", [640, 640], .float32, [], false⟩,
  ⟨key% "model.diffusion_model.input_blocks.5.1.transformer_blocks.0.attn2.to_v.weight", [640, 768], .float32, [], false⟩,
  ⟨key% "model.diffusion_model.input_blocks.5.1.transformer_blocks.0.ff.net.0.proj.bias", [5120], .float32, [], false⟩,
  ⟨key% "model.diffusion_model.input_blocks.5.1.transformer_blocks.0.ff.net.0.proj.weight", [5120, 640], .float32, [], false⟩,
  ⟨key% "model.diffusion_model.input_blocks.5.1.transformer_blocks.0.ff.net.2.bias", [640], .float32, [], false⟩,
  ⟨key% "model.diffusion_model.input_blocks.5.1.transformer_blocks.0.ff.net.2.weight", [640, 2560], .float32, [], false⟩,
  ⟨key% "model.diffusion_model.input_blocks.5.1.transformer_blocks.0.norm1.bias", [640], .float32, [], false⟩,
  ⟨key% "model.diffusion_model.input_blocks.5.1.transformer_blocks.0.norm1.weight", [640], .float32, [], false⟩,
  ⟨key% "model.diffusion_model.input_blocks.5.1.transformer_blocks.0.norm2.bias", [640], .float32, [], false⟩,
  ⟨key% "model.diffusion_model.input_blocks.5.1.transformer_blocks.0.norm2.weight", [640], .float32, [], false⟩,
  ⟨key% "model.diffusion_model.input_blocks.5.1.transformer_blocks.0.norm3.bias", [640], .float32, [], false⟩,
  ⟨key% "model.diffusion_model.input_blocks.5.1.transformer_blocks.0.norm3.weight", [640], .float32, [], false⟩,
  ⟨key% "model.diffusion_model.input_blocks.6.0.op.bias", [640], .float32, [], false⟩,
  ⟨key% "model.diffusion_model.input_blocks.6.0.op.weight", [640, 640, 3, 3], .float32, [], false⟩,
  ⟨key% "model.diffusion_model.input_blocks.7.0.emb_layers.1.bias", [1280], .float32, [], false⟩,
  ⟨key% "model.diffusion_model.input_blocks.7.0.emb_layers.1.weight", [1280, 1280], .float32, [], false⟩,
  ⟨key% "model.diffusion_model.input_blocks.7.0.in_layers.0.bias", [640], .float32, [], false⟩,
  ⟨key% "model.diffusion_model.input_blocks.7.0.in_layers.0.weight", [640], .float32, [], false⟩,
  ⟨key% "model.diffusion_model.input_blocks.7.0.in_layers.2.bias", [1280], .float32, [], false⟩,
  ⟨key% "model.diffusion_model.input_blocks.7.0.in_layers.2.weight", [1280, 640, 3, 3], .float32, [], false⟩,
  ⟨key% "model.diffusion_model.input_blocks.7.0.out_layers.0.bias", [1280], .float32, [], false⟩,
  ⟨key% "model.diffusion_model.input_blocks.7.0.out_layers.0.weight", [1280], .float32, [], false⟩,
  ⟨key% "model.diffusion_model.input_blocks.7.0.out_layers.3.bias", [1280], .float32, [], false⟩,
  ⟨key% "model.diffusion_model.input_blocks.7.0.out_layers.3.weight", [1280, 1280, 3, 3], .float32, [], false⟩,
  ⟨key% "model.diffusion_model.input_blocks.7.0.skip_connection.bias", [1280], .float32, [], false⟩,
  ⟨key% "model.diffusion_model.input_blocks.7.0.skip_connection.weight", [1280, 640, 1, 1], .float32, [], false⟩,
  ⟨key% "model.diffusion_model.input_blocks.7.1.norm.bias", [1280], .float32, [], false⟩,
  ⟨key% "model.diffusion_model.input_blocks.7.1.norm.weight", [1280], .float32, [], false⟩,
  ⟨key% "model.diffusion_model.input_blocks.7.1.proj_in.bias", [1280], .float32, [], false⟩,
  ⟨key% "model.diffusion_model.input_blocks.7.1.proj_in.weight", [1280, 1280, 1, 1], .float32, [], false⟩,
  ⟨key% "model.diffusion_model.input_blocks.7.1.proj_out.bias", [1280], .float32, [], false⟩,
  ⟨key% "model.diffusion_model.input_blocks.7.1.proj_out.weight", [1280, 1280, 1, 1], .float32, [], false⟩,
  ⟨key% "model.diffusion_model.input_blocks.7.1.transformer_blocks.0.attn1.to_k.weight", [1280, 1280], .float32, [], false⟩,
  ⟨key% "model.diffusion_model.input_blocks.7.1.transformer_blocks.0.attn1.to_out.0.bias", [1280], .float32, [], false⟩,
  ⟨key% "model.diffusion_model.input_blocks.7.1.transformer_blocks.0.attn1.to_out.0.weight", [1280, 1280], .float32, [], false⟩,
  ⟨key% "model.diffusion_model.input_blocks.7.1.transformer_blocks.0.attn1.to_q.weight", [1280, 1280], .float32, [], false⟩,
  ⟨key% "model.diffusion_model.input_blocks.7.1.transformer_blocks.0.attn1.to_v.weight", [1280, 1280], .float32, [], false⟩,
  ⟨key% "model.diffusion_model.input_blocks.7.1.transformer_blocks.0.attn2.to_k.weight", [1280, 768], .float32, [], false⟩,
  ⟨key% "model.diffusion_model.input_blocks.7.1.transformer_blocks.0.attn2.to_out.0.bias", [1280], .float32, [], false⟩,
  ⟨key% "model.diffusion_model.input_blocks.7.1.transformer_blocks.0.attn2.to_out.0.weight", [1280, 1280], .float32, [], false⟩,
  ⟨key% "model.diffusion_model.input_blocks.7.1.transformer_blocks.0.attn2.to_q.weight", [1280, 1280], .float32, [], false⟩,
  ⟨key% "model.diffusion_model.input_blocks.7.1.transformer_blocks.0.attn2.to_v.weight", [1280, 768], .float32, [], false⟩]
noncomputable def diffuser2 : List Entry := [
  ⟨key% "model.diffusion_model.input_blocks.7.1.transformer_blocks.0.ff.net.0.proj.bias", [10240], .float32, [], false⟩,
  ⟨key% "model.diffusion_model.input_blocks.7.1.transformer_blocks.0.ff.net.0.proj.weight", [10240, 1280], .float32, [], false⟩,
  ⟨key% "model.diffusion_model.input_blocks.7.1.transformer_blocks.0.ff.net.2.bias", [1280], .float32, [], false⟩,
  ⟨key% "model.diffusion_model.input_blocks.7.1.transformer_blocks.0.ff.net.2.weight", [1280, 5120], .float32, [], false⟩,
  ⟨key% "model.diffusion_model.input_blocks.7.1.transformer_blocks.0.norm1.bias", [1280], .float32, [], false⟩,
  ⟨key% "model.diffusion_model.input_blocks.7.1.transformer_blocks.0.norm1.weight", [1280], .float32, [], false⟩,
  ⟨key% "model.diffusion_model.input_blocks.7.1.transformer_blocks.0.norm2.bias", [1280], .float32, [], false⟩,
  ⟨key% "model.diffusion_model.input_blocks.7.1.transformer_blocks.0.norm2.weight", [1280], .float32, [], false⟩,
  ⟨key% "model.diffusion_model.input_blocks.7.1.transformer_blocks.0.norm3.bias", [1280], .float32, [], false⟩,
  ⟨key% "model.diffusion_model.input_blocks.7.1.transformer_blocks.0.norm3.weight", [1280], .float32, [], false⟩,
  ⟨key% "model.diffusion_model.input_blocks.8.0.emb_layers.1.bias", [1280], .float32, [], false⟩,
  ⟨key% "model.diffusion_model.input_blocks.8.0.emb_layers.1.weight", [1280, 1280], .float32, [], false⟩,
  ⟨key% "model.diffusion_model.input_blocks.8.0.in_layers.0.bias", [1280], .float32, [], false⟩,
  ⟨key% "model.diffusion_model.input_blocks.8.0.in_layers.0.weight", [1280], .float32, [], false⟩,
  ⟨key% "model.diffusion_model.input_blocks.8.0.in_layers.2.bias", [1280], .float32, [], false⟩,
  ⟨key% "model.diffusion_model.input_blocks.8.0.in_layers.2.weight", [1280, 1280, 3, 3], .float32, [], false⟩,
  ⟨key% "model.diffusion_model.input_blocks.8.0.out_layers.0.bias", [1280], .float32, [], false⟩,
  ⟨key% "model.diffusion_model.input_blocks.8.0.out_layers.0.weight", [1280], .float32, [], false⟩,
  ⟨key% "model.diffusion_model.input_blocks.8.0.out_layers.3.bias", [1280], .float32, [], false⟩,
  ⟨key% "model.diffusion_model.input_blocks.8.0.out_layers.3.weight", [1280, 1280, 3, 3], .float32, [], false⟩,
  ⟨key% "model.diffusion_model.input_blocks.8.1.norm.bias", [1280], .float32, [], false⟩,
  ⟨key% "model.diffusion_model.input_blocks.8.1.norm.weight", [1280], .float32, [], false⟩,
  ⟨key% "model.diffusion_model.input_blocks.8.1.proj_in.bias", [1280], .float32, [], false⟩,
  ⟨key% "model.diffusion_model.input_blocks.8.1.proj_in.weight", [1280, 1280, 1, 1], .float32, [], false⟩,
  ⟨key% "model.diffusion_model.input_blocks.8.1.proj_out.bias", [1280], .float32, [], false⟩,
  ⟨key% "model.diffusion_model.input_blocks.8.1.proj_out.weight", [1280, 1280, 1, 1], .float32, [], false⟩,
  ⟨key% "model.diffusion_model.input_blocks.8.1.transformer_blocks.0.attn1.to_k.weight", [1280, 1280], .float32, [], false⟩,
  ⟨key% "model.diffusion_model.input_blocks.8.1.transformer_blocks.0.attn1.to_out.0.bias", [1280], .float32, [], false⟩,
  ⟨key% "model.diffusion_model.input_blocks.8.1.transformer_blocks.0.attn1.to_out.0.weight", [1280, 1280], .float32, [], false⟩,
  ⟨key% "model.diffusion_model.input_blocks.8.1.transformer_blocks.0.attn1.to_q.weight", [1280, 1280], .float32, [], false⟩,
  ⟨key% "model.diffusion_model.input_blocks.8.1.transformer_blocks.0.attn1.to_v.weight", [1280, 1280], .float32, [], false⟩,
  ⟨key% "model.diffusion_model.input_blocks.8.1.transformer_blocks.0.attn2.to_k.weight", [1280, 768], .float32, [], false⟩,
  ⟨key% "model.diffusion_model.input_blocks.8.1.transformer_blocks.0.attn2.to_out.0.bias", [1280], .float32, [], false⟩,
  ⟨key% "model.diffusion_model.input_blocks.8.1.transformer_blocks.0.attn2.to_out.0.weight", [1280, 1280], .float32, [], false⟩,
  ⟨key% "model.diffusion_model.input_blocks.8.1.transformer_blocks.0.attn2.to_q.weight", [1280, 1280], .float32, [], false⟩,
  ⟨key% "model.diffusion_model.input_blocks.8.1.transformer_blocks.0.attn2.to_v.weight", [1280, 768], .float32, [], false⟩,
  ⟨key% "model.diffusion_model.input_blocks.8.1.transformer_blocks.0.ff.net.0.proj.bias", [10240], .float32, [], false⟩,
  ⟨key% "model.diffusion_model.input_blocks.8.1.transformer_blocks.0.ff.net.0.proj.weight", [10240, 1280], .float32, [], false⟩,
  ⟨key% "model.diffusion_model.input_blocks.8.1.transformer_blocks.0.ff.net.2.bias", [1280], .float32, [], false⟩,
  ⟨key% "model.diffusion_model.input_blocks.8.1.transformer_blocks.0.ff.net.2.weight", [1280, 5120], .float32, [], false⟩,
  ⟨key% "model.diffusion_model.input_blocks.8.1.transformer_blocks.0.norm1.bias", [1280], .float32, [], false⟩,
  ⟨key% "model.diffusion_model.input_blocks.8.1.transformer_blocks.0.norm1.weight", [1280], .float32, [], false⟩,
  ⟨key% "model.diffusion_model.input_blocks.8.1.transformer_blocks.0.norm2.bias", [1280], .float32, [], false⟩,
  ⟨key% "model.diffusion_model.input_blocks.8.1.transformer_blocks.0.norm2.weight", [1280], .float32, [], false⟩,
  ⟨key% "model.diffusion_model.input_blocks.8.1.transformer_blocks.0.norm3.bias", [1280], .float32, [], false⟩,
  ⟨key% "model.diffusion_model.input_blocks.8.1.transformer_blocks.0.norm3.weight", [1280], .float32, [], false⟩,
  ⟨key% "model.diffusion_model.input_blocks.9.0.op.bias", [1280], .float32, [], false⟩,
  ⟨key% "model.diffusion_model.input_blocks.9.0.op.weight", [1280, 1280, 3, 3], .float32, [], false⟩,
  ⟨key% "model.diffusion_model.middle_block.0.emb_layers.1.bias", [1280], .float32, [], false⟩,
  ⟨key% "model.diffusion_model.middle_block.0.emb_layers.1.weight", [1280, 1280], .float32, [], false⟩,
  ⟨key% "model.diffusion_model.middle_block.0.in_layers.0.bias", [1280], .float32, [], false⟩,
  ⟨key% "model.diffusion_model.middle_block.0.in_layers.0.weight", [1280], .float32, [], false⟩,
  ⟨key% "model.diffusion_model.middle_block.0.in_layers.2.bias", [1280], .float32, [], false⟩,
  ⟨key% "model.diffusion_model.middle_block.0.in_layers.2.weight", [1280, 1280, 3, 3], .float32, [], false⟩,
  ⟨key% "model.diffusion_model.middle_block.0.out_layers.0.bias", [1280], .float32, [], false⟩,
  ⟨key% "model.diffusion_model.middle_block.0.out_layers.0.weight", [1280], .float32, [], false⟩,
  ⟨key% "model.diffusion_model.middle_block.0.out_layers.3.bias", [1280], .float32, [], false⟩,
  ⟨key% "model.diffusion_model.middle_block.0.out_layers.3.weight", [1280, 1280, 3, 3], .float32, [], false⟩,
  ⟨key% "model.diffusion_model.middle_block.1.norm.bias", [1280], .float32, [], false⟩,
  ⟨key% "model.diffusion_model.middle_block.1.norm.weight", [1280], .float32, [], false⟩,
  ⟨key% "model.diffusion_model.middle_block.1.proj_in.bias", [1280], .float32, [], false⟩,
  ⟨key% "model.diffusion_model.middle_block.1.proj_in.weight", [1280, 1280, 1, 1], .float32, [], false⟩,
  ⟨key% "model.diffusion_model.middle_block.1.proj_out.bias", [1280], .float32, [], false⟩,
  ⟨key% "model.diffusion_model.middle_block.1.proj_out.weight", [1280, 1280, 1, 1], .float32, [], false⟩,
  ⟨key% "model.diffusion_model.middle_block.1.transformer_blocks.0.attn1.to_k.weight", [1280, 1280], .float32, [], false⟩,
  ⟨key% "model.diffusion_model.middle_block.1.transformer_blocks.0.attn1.to_out.0.bias", [1280], .float32, [], false⟩,
  ⟨key% "model.diffusion_model.middle_block.1.transformer_blocks.0.attn1.to_out.0.weight", [1280, 1280], .float32, [], false⟩,
  ⟨key% "model.diffusion_model.middle_block.1.transformer_blocks.0.attn1.to_q.weight", [1280, 1280], .float32, [], false⟩,
  ⟨key% "model.diffusion_model.middle_block.1.transformer_blocks.0.attn1.to_v.weight", [1280, 1280], .float32, [], false⟩,
  ⟨key% "model.diffusion_model.middle_block.1.transformer_blocks.0.attn2.to_k.weight", [1280, 768], .float32, [], false⟩,
  ⟨key% "model.diffusion_model.middle_block.1.transformer_blocks.0.attn2.to_out.0.bias", [1280], .float32, [], false⟩,
  ⟨key% "model.diffusion_model.middle_block.1.transformer_blocks.0.attn2.to_out.0.weight", [1280, 1280], .float32, [], false⟩,
  ⟨key% "model.diffusion_model.middle_block.1.transformer_blocks.0.attn2.to_q.weight", [1280, 1280], .float32, [], false⟩,
  ⟨key% "model.diffusion_model.middle_block.1.transformer_blocks.0.attn2.to_v.weight", [1280, 768], .float32, [], false⟩,
  ⟨key% "model.diffusion_model.middle_block.1.transformer_blocks.0.ff.net.0.proj.bias", [10240], .float32, [], false⟩,
  ⟨key% "model.diffusion_model.middle_block.1.transformer_blocks.0.ff.net.0.proj.weight", [10240, 1280], .float32, [], false⟩,
  ⟨key% "model.diffusion_model.middle_block.1.transformer_blocks.0.ff.net.2.bias", [1280], .float32, [], false⟩,
  ⟨key% "model.diffusion_model.middle_block.1.transformer_blocks.0.ff.net.2.weight", [1280, 5120], .float32, [], false⟩,
  ⟨key% "model.diffusion_model.middle_block.1.transformer_blocks.0.norm1.bias", [1280], .float32, [], false⟩,
  ⟨key% "model.diffusion_model.middle_block.1.transformer_blocks.0.norm1.weight", [1280], .float32, [], false⟩,
  ⟨key% "model.diffusion_model.middle_block.1.transformer_blocks.0.norm2.bias", [1280], .float32, [], false⟩,
  ⟨key% "model.diffusion_model.middle_block.1.transformer_blocks.0.norm2.weight", [1280], .float32, [], false⟩,
  ⟨key% "model.diffusion_model.middle_block.1.transformer_blocks.0.norm3.bias", [1280], .float32, [], false⟩,
  ⟨key% "model.diffusion_model.middle_block.1.transformer_blocks.0.norm3.weight", [1280], .float32, [], false⟩,
  ⟨key% "model.diffusion_model.middle_block.2.emb_layers.1.bias", [1280], .float32, [], false⟩,
  ⟨key% "model.diffusion_model.middle_block.2.emb_layers.1.weight", [1280, 1280], .float32, [], false⟩,
  ⟨key% "model.diffusion_model.middle_block.2.in_layers.0.bias", [1280], .float32, [], false⟩,
  ⟨key% "model.diffusion_model.middle_block.2.in_layers.0.weight", [1280], .float32, [], false⟩,
  ⟨key% "model.diffusion_model.middle_block.2.in_layers.2.bias", [1280], .float32, [], false⟩,
  ⟨key% "model.diffusion_model.middle_block.2.in_layers.2.weight", [1280, 1280, 3, 3], .float32, [], false⟩,
  ⟨key% "model.diffusion_model.middle_block.2.out_layers.0.bias", [1280], .float32, [], false⟩,
  ⟨key% "model.diffusion_model.middle_block.2.out_layers.0.weight", [1280], .float32, [], false⟩,
  ⟨key% "model.diffusion_model.middle_block.2.out_layers.3.bias", [1280], .float32, [], false⟩,
  ⟨key% "model.diffusion_model.middle_block.2.out_layers.3.weight", [1280, 1280, 3, 3], .float32, [], false⟩,
  ⟨key% "model.diffusion_model.out.0.bias", [320], .float32, [], false⟩,
  ⟨key% "model.diffusion_model.out.0.weight", [320], .float32, [], false⟩,
  ⟨key% "model.diffusion_model.out.2.bias", [4], .float32, [], false⟩,
  ⟨key% "model.diffusion_model.out.2.weight", [4, 320, 3, 3], .float32, [], false⟩,
  ⟨key% "model.diffusion_model.output_blocks.0.0.emb_layers.1.bias", [1280], .float32, [], false⟩,
  ⟨key% "model.diffusion_model.output_blocks.0.0.emb_layers.1.weight", [1280, 1280], .float32, [], false⟩]
noncomputable def diffuser3 : List Entry := [
  ⟨key% "model.diffusion_model.output_blocks.0.0.in_layers.0.bias", [2560], .float32, [], false⟩,
  ⟨key% "model.diffusion_model.output_blocks.0.0.in_layers.0.weight", [2560], .float32, [], false⟩,
  ⟨key% "model.diffusion_model.output_blocks.0.0.in_layers.2.bias", [1280], .float32, [], false⟩,
  ⟨key% "model.diffusion_model.output_blocks.0.0.in_layers.2.weight", [1280, 2560, 3, 3], .float32, [], false⟩,
  ⟨key% "model.diffusion_model.output_blocks.0.0.out_layers.0.bias", [1280], .float32, [], false⟩,
  ⟨key% "model.diffusion_model.output_blocks.0.0.out_layers.0.weight", [1280], .float32, [], false⟩,
  ⟨key% "model.diffusion_model.output_blocks.0.0.out_layers.3.bias", [1280], .float32, [], false⟩,
  ⟨key% "model.diffusion_model.output_blocks.0.0.out_layers.3.weight", [1280, 1280, 3, 3], .float32, [], false⟩,
  ⟨key% "model.diffusion_model.output_blocks.0.0.skip_connection.bias", [1280], .float32, [], false⟩,
  ⟨key% "model.diffusion_model.output_blocks.0.0.skip_connection.weight", [1280, 2560, 1, 1], .float32, [], false⟩,
  ⟨key% "model.diffusion_model.output_blocks.1.0.emb_layers.1.bias", [1280], .float32, [], false⟩,
  ⟨key% "model.diffusion_model.output_blocks.1.0.emb_layers.1.weight", [1280, 1280], .float32, [], false⟩,
  ⟨key% "model.diffusion_model.output_blocks.1.0.in_layers.0.bias", [2560], .float32, [], false⟩,
  ⟨key% "model.diffusion_model.output_blocks.1.0.in_layers.0.weight", [2560], .float32, [], false⟩,
  ⟨key% "model.diffusion_model.output_blocks.1.0.in_layers.2.bias", [1280], .float32, [], false⟩,
  ⟨key% "model.diffusion_model.output_blocks.1.0.in_layers.2.weight", [1280, 2560, 3, 3], .float32, [], false⟩,
  ⟨key% "model.diffusion_model.output_blocks.1.0.out_layers.0.bias", [1280], .float32, [], false⟩,
  ⟨key% "model.diffusion_model.output_blocks.1.0.out_layers.0.weight", [1280], .float32, [], false⟩,
  ⟨key% "model.diffusion_model.output_blocks.1.0.out_layers.3.bias", [1280], .float32, [], false⟩,
  ⟨key% "model.diffusion_model.output_blocks.1.0.out_layers.3.weight", [1280, 1280, 3, 3], .float32, [], false⟩,
  ⟨key% "model.diffusion_model.output_blocks.1.0.skip_connection.bias", [1280], .float32, [], false⟩,
  ⟨key% "model.diffusion_model.output_blocks.1.0.skip_connection.weight", [1280, 2560, 1, 1], .float32, [], false⟩,
  ⟨key% "model.diffusion_model.output_blocks.10.0.emb_layers.1.bias", [320], .float32, [], false⟩,
  ⟨key% "model.diffusion_model.output_blocks.10.0.emb_layers.1.weight", [320, 1280], .float32, [], false⟩,
  ⟨key% "model.diffusion_model.output_blocks.10.0.in_layers.0.bias", [640], .float32, [], false⟩,
  ⟨key% "model.diffusion_model.output_blocks.10.0.in_layers.0.weight", [640], .float32, [], false⟩,
  ⟨key% "model.diffusion_model.output_blocks.10.0.in_layers.2.bias", [320], .float32, [], false⟩,
  ⟨key% "model.diffusion_model.output_blocks.10.0.in_layers.2.weight", [320, 640, 3, 3], .float32, [], false⟩,
  ⟨key% "model.diffusion_model.output_blocks.10.0.out_layers.0.bias", [320], .float32, [], false⟩,
  ⟨key% "model.diffusion_model.output_blocks.10.0.out_layers.0.weight", [320], .float32, [], false⟩,
  ⟨key% "model.diffusion_model.output_blocks.10.0.out_layers.3.bias", [320], .float32, [], false⟩,
  ⟨key% "model.diffusion_model.output_blocks.10.0.out_layers.3.weight", [320, 320, 3, 3], .float32, [], false⟩,
  ⟨key% "model.diffusion_model.output_blocks.10.0.skip_connection.bias", [320], .float32, [], false⟩,
  ⟨key% "model.diffusion_model.output_blocks.10.0.skip_connection.weight", [320, 640, 1, 1], .float32, [], false⟩,
  ⟨key% "model.diffusion_model.output_blocks.10.1.norm.bias", [320], .float32, [], false⟩,
  ⟨key% "model.diffusion_model.output_blocks.10.1.norm.weight", [320], .float32, [], false⟩,
  ⟨key% "model.diffusion_model.output_blocks.10.1.proj_in.bias", [320], .float32, [], false⟩,
  ⟨key% "model.diffusion_model.output_blocks.10.1.proj_in.weight", [320, 320, 1, 1], .float32, [], false⟩,
  ⟨key% "model.diffusion_model.output_blocks.10.1.proj_out.bias", [320], .float32, [], false⟩,
  ⟨key% "model.diffusion_model.output_blocks.10.1.proj_out.weight", [320, 320, 1, 1], .float32, [], false⟩,
  ⟨key% "model.diffusion_model.output_blocks.10.1.transformer_blocks.0.attn1.to_k.weight", [320, 320], .float32, [], false⟩,
  ⟨key% "model.diffusion_model.output_blocks.10.1.transformer_blocks.0.attn1.to_out.0.bias", [320], .float32, [], false⟩,
  ⟨key% "model.diffusion_model.output_blocks.10.1.transformer_blocks.0.attn1.to_out.0.weight", [320, 320], .float32, [], false⟩,
  ⟨key% "model.diffusion_model.output_blocks.10.1.transformer_blocks.0.attn1.to_q.weight", [320, 320], .float32, [], false⟩,
  ⟨key% "model.diffusion_model.output_blocks.10.1.transformer_blocks.0.attn1.to_v.weight", [320, 320], .float32, [], false⟩,
  ⟨key% "model.diffusion_model.output_blocks.10.1.transformer_blocks.0.attn2.to_k.weight", [320, 768], .float32, [], false⟩,
  ⟨key% "model.diffusion_model.output_blocks.10.1.transformer_blocks.0.attn2.to_out.0.bias", [320], .float32, [], false⟩,
  ⟨key% "model.diffusion_model.output_blocks.10.1.transformer_blocks.0.attn2.to_out.0.weight", [320, 320], .float32, [], false⟩,
  ⟨key% "model.diffusion_model.output_blocks.10.1.transformer_blocks.0.attn2.to_q.weight", [320, 320], .float32, [], false⟩,
  ⟨key% "model.diffusion_model.output_blocks.10.1.transformer_blocks.0.attn2.to_v.weight", [320, 768], .float32, [], false⟩,
  ⟨key% "model.diffusion_model.output_blocks.10.1.transformer_blocks.0.ff.net.0.proj.bias", [2560], .float32, [], false⟩,
  ⟨key% "model.diffusion_model.output_blocks.10.1.transformer_blocks.0.ff.net.0.proj.weight", [2560, 320], .float32, [], false⟩,
  ⟨key% "model.diffusion_model.output_blocks.10.1.transformer_blocks.0.ff.net.2.bias", [320], .float32, [], false⟩,
  ⟨key% "model.diffusion_model.output_blocks.10.1.transformer_blocks.0.ff.net.2.weight", [320, 1280], .float32, [], false⟩,
  ⟨key% "model.diffusion_model.output_blocks.10.1.transformer_blocks.0.norm1.bias", [320], .float32, [], false⟩,
  ⟨key% "model.diffusion_model.output_blocks.10.1.transformer_blocks.0.norm1.weight", [320], .float32, [], false⟩,
  ⟨key% "model.diffusion_model.output_blocks.10.1.transformer_blocks.0.norm2.bias", [320], .float32, [], false⟩,
  ⟨key% "model.diffusion_model.output_blocks.10.1.transformer_blocks.0.norm2.weight", [320], .float32, [], false⟩,
  ⟨key% "model.diffusion_model.output_blocks.10.1.transformer_blocks.0.norm3.bias", [320], .float32, [], false⟩,
  ⟨key% "model.diffusion_model.output_blocks.10.1.transformer_blocks.0.norm3.weight", [320], .float32, [], false⟩,
  ⟨key% "model.diffusion_model.output_blocks.11.0.emb_layers.1.bias", [320], .float32, [], false⟩,
  ⟨key% "model.diffusion_model.output_blocks.11.0.emb_layers.1.weight", [320, 1280], .float32, [], false⟩,
  ⟨key% "model.diffusion_model.output_blocks.11.0.in_layers.0.bias", [640], .float32, [], false⟩,
  ⟨key% "model.diffusion_model.output_blocks.11.0.in_layers.0.weight", [640], .float32, [], false⟩,
  ⟨key% "model.diffusion_model.output_blocks.11.0.in_layers.2.bias", [320], .float32, [], false⟩,
  ⟨key% "model.diffusion_model.output_blocks.11.0.in_layers.2.weight", [320, 640, 3, 3], .float32, [], false⟩,
  ⟨key% "model.diffusion_model.output_blocks.11.0.out_layers.0.bias", [320], .float32, [], false⟩,
  ⟨key% "model.diffusion_model.output_blocks.11.0.out_layers.0.weight", [320], .float32, [], false⟩,
  ⟨key% "model.diffusion_model.output_blocks.11.0.out_layers.3.bias", [320], .float32, [], false⟩,
  ⟨key% "model.diffusion_model.output_blocks.11.0.out_layers.3.weight", [320, 320, 3, 3], .float32, [], false⟩,
  ⟨key% "model.diffusion_model.output_blocks.11.0.skip_connection.bias", [320], .float32, [], false⟩,
  ⟨key% "model.diffusion_model.output_blocks.11.0.skip_connection.weight", [320, 640, 1, 1], .float32, [], false⟩,
  ⟨key% "model.diffusion_model.output_blocks.11.1.norm.bias", [320], .float32, [], false⟩,
  ⟨key% "model.diffusion_model.output_blocks.11.1.norm.weight", [320], .float32, [], false⟩,
  ⟨key% "model.diffusion_model.output_blocks.11.1.proj_in.bias", [320], .float32, [], false⟩,
  ⟨key% "model.diffusion_model.output_blocks.11.1.proj_in.weight", [320, 320, 1, 1], .float32, [], false⟩,
  ⟨key% "model.diffusion_model.output_blocks.11.1.proj_out.bias", [320], .float32, [], false⟩,
  ⟨key% "model.diffusion_model.output_blocks.11.1.proj_out.weight", [320, 320, 1, 1], .float32, [], false⟩,
  ⟨key% "model.diffusion_model.output_blocks.11.1.transformer_blocks.0.attn1.to_k.weight", [320, 320], .float32, [], false⟩,
  ⟨key% "model.diffusion_model.output_blocks.11.1.transformer_blocks.0.attn1.to_out.0.bias", [320], .float32, [], false⟩,
  ⟨key% "model.diffusion_model.output_blocks.11.1.transformer_blocks.0.attn1.to_out.0.weight", [320, 320], .float32, [], false⟩,
  ⟨key% "model.diffusion_model.output_blocks.11.1.transformer_blocks.0.attn1.to_q.weight", [320, 320], .float32, [], false⟩,
  ⟨key% "model.diffusion_model.output_blocks.11.1.transformer_blocks.0.attn1.to_v.weight", [320, 320], .float32, [], false⟩,
  ⟨key% "model.diffusion_model.output_blocks.11.1.transformer_blocks.0.attn2.to_k.weight", [320, 768], .float32, [], false⟩,
  ⟨key% "model.diffusion_model.output_blocks.11.1.transformer_blocks.0.attn2.to_out.0.bias", [320], .float32, [], false⟩,
  ⟨key% "model.diffusion_model.output_blocks.11.1.transformer_blocks.0.attn2.to_out.0.weight", [320, 320], .float32, [], false⟩,
  ⟨key% "model.diffusion_model.output_blocks.11.1.transformer_blocks.0.attn2.to_q.weight", [320, 320], .float32, [], false⟩,
  ⟨key% "model.diffusion_model.output_blocks.11.1.transformer_blocks.0.attn2.to_v.weight", [320, 768], .float32, [], false⟩,
  ⟨key% "model.diffusion_model.output_blocks.11.1.transformer_blocks.0.ff.net.0.proj.bias", [2560], .float32, [], false⟩,
  ⟨key% "model.diffusion_model.output_blocks.11.1.transformer_blocks.0.ff.net.0.proj.weight", [2560, 320], .float32, [], false⟩,
  ⟨key% "model.diffusion_model.output_blocks.11.1.transformer_blocks.0.ff.net.2.bias", [320], .float32, [], false⟩,
  ⟨key% "model.diffusion_model.output_blocks.11.1.transformer_blocks.0.ff.net.2.weight", [320, 1280], .float32, [], false⟩,
  ⟨key% "model.diffusion_model.output_blocks.11.1.transformer_blocks.0.norm1.bias", [320], .float32, [], false⟩,
  ⟨key% "model.diffusion_model.output_blocks.11.1.transformer_blocks.0.norm1.weight", [320], .float32, [], false⟩,
  ⟨key% "model.diffusion_model.output_blocks.11.1.transformer_blocks.0.norm2.bias", [320], .float32, [], false⟩,
  ⟨key% "model.diffusion_model.output_blocks.11.1.transformer_blocks.0.norm2.weight", [320], .float32, [], false⟩,
  ⟨key% "model.diffusion_model.output_blocks.11.1.transformer_blocks.0.norm3.bias", [320], .float32, [], false⟩,
  ⟨key% "model.diffusion_model.output_blocks.11.1.transformer_blocks.0.norm3.weight", [320], .float32, [], false⟩,
  ⟨key% "model.diffusion_model.output_blocks.2.0.emb_layers.1.bias", [1280], .float32, [], false⟩,
  ⟨key% "model.diffusion_model.output_blocks.2.0.emb_layers.1.weight", [1280, 1280], .float32, [], false⟩]
noncomputable def diffuser4 : List Entry := [
  ⟨key% "model.diffusion_model.output_blocks.2.0.in_layers.0.bias", [2560], .float32, [], false⟩,
  ⟨key% "model.diffusion_model.output_blocks.2.0.in_layers.0.weight", [2560], .float32, [], false⟩,
  ⟨key% "model.diffusion_model.output_blocks.2.0.in_layers.2.bias", [1280], .float32, [], false⟩,
  ⟨key% "model.diffusion_model.output_blocks.2.0.in_layers.2.weight", [1280, 2560, 3, 3], .float32, [], false⟩,
  ⟨key% "model.diffusion_model.output_blocks.2.0.out_layers.0.bias", [1280], .float32, [], false⟩,
  ⟨key% "model.diffusion_model.output_blocks.2.0.out_layers.0.weight", [1280], .float32, [], false⟩,
  ⟨key% "model.diffusion_model.output_blocks.2.0.out_layers.3.bias", [1280], .float32, [], false⟩,
  ⟨key% "model.diffusion_model.output_blocks.2.0.out_layers.3.weight", [1280, 1280, 3, 3], .float32, [], false⟩,
  ⟨key% "model.diffusion_model.output_blocks.2.0.skip_connection.bias", [1280], .float32, [], false⟩,
  ⟨key% "model.diffusion_model.output_blocks.2.0.skip_connection.weight", [1280, 2560, 1, 1], .float32, [], false⟩,
  ⟨key% "model.diffusion_model.output_blocks.2.1.conv.bias", [1280], .float32, [], false⟩,
  ⟨key% "model.diffusion_model.output_blocks.2.1.conv.weight", [1280, 1280, 3, 3], .float32, [], false⟩,
  ⟨key% "model.diffusion_model.output_blocks.3.0.emb_layers.1.bias", [1280], .float32, [], false⟩,
  ⟨key% "model.diffusion_model.output_blocks.3.0.emb_layers.1.weight", [1280, 1280], .float32, [], false⟩,
  ⟨key% "model.diffusion_model.output_blocks.3.0.in_layers.0.bias", [2560], .float32, [], false⟩,
  ⟨key% "model.diffusion_model.output_blocks.3.0.in_layers.0.weight", [2560], .float32, [], false⟩,
  ⟨key% "model.diffusion_model.output_blocks.3.0.in_layers.2.bias", [1280], .float32, [], false⟩,
  ⟨key% "model.diffusion_model.output_blocks.3.0.in_layers.2.weight", [1280, 2560, 3, 3], .float32, [], false⟩,
  ⟨key% "model.diffusion_model.output_blocks.3.0.out_layers.0.bias", [1280], .float32, [], false⟩,
  ⟨key% "model.diffusion_model.output_blocks.3.0.out_layers.0.weight", [1280], .float32, [], false⟩,
  ⟨key% "model.diffusion_model.output_blocks.3.0.out_layers.3.bias", [1280], .float32, [], false⟩,
  ⟨key% "model.diffusion_model.output_blocks.3.0.out_layers.3.weight", [1280, 1280, 3, 3], .float32, [], false⟩,
  ⟨key% "model.diffusion_model.output_blocks.3.0.skip_connection.bias", [1280], .float32, [], false⟩,
  ⟨key% "model.diffusion_model.output_blocks.3.0.skip_connection.weight", [1280, 2560, 1, 1], .float32, [], false⟩,
  ⟨key% "model.diffusion_model.output_blocks.3.1.norm.bias", [1280], .float32, [], false⟩,
  ⟨key% "model.diffusion_model.output_blocks.3.1.norm.weight", [1280], .float32, [], false⟩,
  ⟨key% "model.diffusion_model.output_blocks.3.1.proj_in.bias", [1280], .float32, [], false⟩,
  ⟨key% "model.diffusion_model.output_blocks.3.1.proj_in.weight", [1280, 1280, 1, 1], .float32, [], false⟩,
  ⟨key% "model.diffusion_model.output_blocks.3.1.proj_out.bias", [1280], .float32, [], false⟩,
  ⟨key% "model.diffusion_model.output_blocks.3.1.proj_out.weight", [1280, 1280, 1, 1], .float32, [], false⟩,
  ⟨key% "model.diffusion_model.output_blocks.3.1.transformer_blocks.0.attn1.to_k.weight", [1280, 1280], .float32, [], false⟩,
  ⟨key% "model.diffusion_model.output_blocks.3.1.transformer_blocks.0.attn1.to_out.0.bias", [1280], .float32, [], false⟩,
  ⟨key% "model.diffusion_model.output_blocks.3.1.transformer_blocks.0.attn1.to_out.0.weight", [1280, 1280], .float32, [], false⟩,
  ⟨key% "model.diffusion_model.output_blocks.3.1.transformer_blocks.0.attn1.to_q.weight", [1280, 1280], .float32, [], false⟩,
  ⟨key% "model.diffusion_model.output_blocks.3.1.transformer_blocks.0.attn1.to_v.weight", [1280, 1280], .float32, [], false⟩,
  ⟨key% "model.diffusion_model.output_blocks.3.1.transformer_blocks.0.attn2.to_k.weight", [1280, 768], .float32, [], false⟩,
  ⟨key% "model.diffusion_model.output_blocks.3.1.transformer_blocks.0.attn2.to_out.0.bias", [1280], .float32, [], false⟩,
  ⟨key% "model.diffusion_model.output_blocks.3.1.transformer_blocks.0.attn2.to_out.0.weight", [1280, 1280], .float32, [], false⟩,
  ⟨key% "model.diffusion_model.output_blocks.3.1.transformer_blocks.0.attn2.to_q.weight", [1280, 1280], .float32, [], false⟩,
  ⟨key% "model.diffusion_model.output_blocks.3.1.transformer_blocks.0.attn2.to_v.weight", [1280, 768], .float32, [], false⟩,
  ⟨key% "model.diffusion_model.output_blocks.3.1.transformer_blocks.0.ff.net.0.proj.bias", [10240], .float32, [], false⟩,
  ⟨key% "model.diffusion_model.output_blocks.3.1.transformer_blocks.0.ff.net.0.proj.weight", [10240, 1280], .float32, [], false⟩,
  ⟨key% "model.diffusion_model.output_blocks.3.1.transformer_blocks.0.ff.net.2.bias", [1280], .float32, [], false⟩,
  ⟨key% "model.diffusion_model.output_blocks.3.1.transformer_blocks.0.ff.net.2.weight", [1280, 5120], .float32, [], false⟩,
  ⟨key% "model.diffusion_model.output_blocks.3.1.transformer_blocks.0.norm1.bias", [1280], .float32, [], false⟩,
  ⟨key% "model.diffusion_model.output_blocks.3.1.transformer_blocks.0.norm1.weight", [1280], .float32, [], false⟩,
  ⟨key% "model.diffusion_model.output_blocks.3.1.transformer_blocks.0.norm2.bias", [1280], .float32, [], false⟩,
  ⟨key% "model.diffusion_model.output_blocks.3.1.transformer_blocks.0.norm2.weight", [1280], .float32, [], false⟩,
  ⟨key% "model.diffusion_model.output_blocks.3.1.transformer_blocks.0.norm3.bias", [1280], .float32, [], false⟩,
  ⟨key% "model.diffusion_model.output_blocks.3.1.transformer_blocks.0.norm3.weight", [1280], .float32, [], false⟩,
  ⟨key% "model.diffusion_model.output_blocks.4.0.emb_layers.1.bias", [1280], .float32, [], false⟩,
  ⟨key% "model.diffusion_model.output_blocks.4.0.emb_layers.1.weight", [1280, 1280], .float32, [], false⟩,
  ⟨key% "model.diffusion_model.output_blocks.4.0.in_layers.0.bias", [2560], .float32, [], false⟩,
  ⟨key% "model.diffusion_model.output_blocks.4.0.in_layers.0.weight", [2560], .float32, [], false⟩,
  ⟨key% "model.diffusion_model.output_blocks.4.0.in_layers.2.bias", [1280], .float32, [], false⟩,
  ⟨key% "model.diffusion_model.output_blocks.4.0.in_layers.2.weight", [1280, 2560, 3, 3], .float32, [], false⟩,
  ⟨key% "model.diffusion_model.output_blocks.4.0.out_layers.0.bias", [1280], .float32, [], false⟩,
  ⟨key% "model.diffusion_model.output_blocks.4.0.out_layers.0.weight", [1280], .float32, [], false⟩,
  ⟨key% "model.diffusion_model.output_blocks.4.0.out_layers.3.bias", [1280], .float32, [], false⟩,
  ⟨key% "model.diffusion_model.output_blocks.4.0.out_layers.3.weight", [1280, 1280, 3, 3], .float32, [], false⟩,
  ⟨key% "model.diffusion_model.output_blocks.4.0.skip_connection.bias", [1280], .float32, [], false⟩,
  ⟨key% "model.diffusion_model.output_blocks.4.0.skip_connection.weight", [1280, 2560, 1, 1], .float32, [], false⟩,
  ⟨key% "model.diffusion_model.output_blocks.4.1.norm.bias", [1280], .float32, [], false⟩,
  ⟨key% "model.diffusion_model.output_blocks.4.1.norm.weight", [1280], .float32, [], false⟩,
  ⟨key% "model.diffusion_model.output_blocks.4.1.proj_in.bias", [1280], .float32, [], false⟩,
  ⟨key% "model.diffusion_model.output_blocks.4.1.proj_in.weight", [1280, 1280, 1, 1], .float32, [], false⟩,
  ⟨key% "model.diffusion_model.output_blocks.4.1.proj_out.bias", [1280], .float32, [], false⟩,
  ⟨key% "model.diffusion_model.output_blocks.4.1.proj_out.weight", [1280, 1280, 1, 1], .float32, [], false⟩,
  ⟨key% "model.diffusion_model.output_blocks.4.1.transformer_blocks.0.attn1.to_k.weight", [1280, 1280], .float32, [], false⟩,
  ⟨key% "model.diffusion_model.output_blocks.4.1.transformer_blocks.0.attn1.to_out.0.bias", [1280], .float32, [], false⟩,
  ⟨key% "model.diffusion_model.output_blocks.4.1.transformer_blocks.0.attn1.to_out.0.weight", [1280, 1280], .float32, [], false⟩,
  ⟨key% "model.diffusion_model.output_blocks.4.1.transformer_blocks.0.attn1.to_q.weight", [1280, 1280], .float32, [], false⟩,
  ⟨key% "model.diffusion_model.output_blocks.4.1.transformer_blocks.0.attn1.to_v.weight", [1280, 1280], .float32, [], false⟩,
  ⟨key% "model.diffusion_model.output_blocks.4.1.transformer_blocks.0.attn2.to_k.weight", [1280, 768], .float32, [], false⟩,
  ⟨key% "model.diffusion_model.output_blocks.4.1.transformer_blocks.0.attn2.to_out.0.bias", [1280], .float32, [], false⟩,
  ⟨key% "model.diffusion_model.output_blocks.4.1.transformer_blocks.0.attn2.to_out.0.weight", [1280, 1280], .float32, [], false⟩,
  ⟨key% "model.diffusion_model.output_blocks.4.1.transformer_blocks.0.attn2.to_q.weight", [1280, 1280], .float32, [], false⟩,
  ⟨key% "model.diffusion_model.output_blocks.4.1.transformer_blocks.0.attn2.to_v.weight", [1280, 768], .float32, [], false⟩,
  ⟨key% "model.diffusion_model.output_blocks.4.1.transformer_blocks.0.ff.net.0.proj.bias", [10240], .float32, [], false⟩,
  ⟨key% "model.diffusion_model.output_blocks.4.1.transformer_blocks.0.ff.net.0.proj.weight", [10240, 1280], .float32, [], false⟩,
  ⟨key% "model.diffusion_model.output_blocks.4.1.transformer_blocks.0.ff.net.2.bias", [1280], .float32, [], false⟩,
  ⟨key% "model.diffusion_model.output_blocks.4.1.transformer_blocks.0.ff.net.2.weight", [1280, 5120], .float32, [], false⟩,
  ⟨key% "model.diffusion_model.output_blocks.4.1.transformer_blocks.0.norm1.bias", [1280], .float32, [], false⟩,
  ⟨key% "model.diffusion_model.output_blocks.4.1.transformer_blocks.0.norm1.weight", [1280], .float32, [], false⟩,
  ⟨key% "model.diffusion_model.output_blocks.4.1.transformer_blocks.0.norm2.bias", [1280], .float32, [], false⟩,
  ⟨key% "model.diffusion_model.output_blocks.4.1.transformer_blocks.0.norm2.weight", [1280], .float32, [], false⟩,
  ⟨key% "model.diffusion_model.output_blocks.4.1.transformer_blocks.0.norm3.bias", [1280], .float32, [], false⟩,
  ⟨key% "model.diffusion_model.output_blocks.4.1.transformer_blocks.0.norm3.weight", [1280], .float32, [], false⟩,
  ⟨key% "model.diffusion_model.output_blocks.5.0.emb_layers.1.bias", [1280], .float32, [], false⟩,
  ⟨key% "model.diffusion_model.output_blocks.5.0.emb_layers.1.weight", [1280, 1280], .float32, [], false⟩,
  ⟨key% "model.diffusion_model.output_blocks.5.0.in_layers.0.bias", [1920], .float32, [], false⟩,
  ⟨key% "model.diffusion_model.output_blocks.5.0.in_layers.0.weight", [1920], .float32, [], false⟩,
  ⟨key% "model.diffusion_model.output_blocks.5.0.in_layers.2.bias", [1280], .float32, [], false⟩,
  ⟨key% "model.diffusion_model.output_blocks.5.0.in_layers.2.weight", [1280, 1920, 3, 3], .float32, [], false⟩,
  ⟨key% "model.diffusion_model.output_blocks.5.0.out_layers.0.bias", [1280], .float32, [], false⟩,
  ⟨key% "model.diffusion_model.output_blocks.5.0.out_layers.0.weight", [1280], .float32, [], false⟩,
  ⟨key% "model.diffusion_model.output_blocks.5.0.out_layers.3.bias", [1280], .float32, [], false⟩,
  ⟨key% "model.diffusion_model.output_blocks.5.0.out_layers.3.weight", [1280, 1280, 3, 3], .float32, [], false⟩,
  ⟨key% "model.diffusion_model.output_blocks.5.0.skip_connection.bias", [1280], .float32, [], false⟩,
  ⟨key% "model.diffusion_model.output_blocks.5.0.skip_connection.weight", [1280, 1920, 1, 1], .float32, [], false⟩]
noncomputable def diffuser5 : List Entry := [
  ⟨key% "model.diffusion_model.output_blocks.5.1.norm.bias", [1280], .float32, [], false⟩,
  ⟨key% "model.diffusion_model.output_blocks.5.1.norm.weight", [1280], .float32, [], false⟩,
  ⟨key% "model.diffusion_model.output_blocks.5.1.proj_in.bias", [1280], .float32, [], false⟩,
  ⟨key% "model.diffusion_model.output_blocks.5.1.proj_in.weight", [1280, 1280, 1, 1], .float32, [], false⟩,
  ⟨key% "model.diffusion_model.output_blocks.5.1.proj_out.bias", [1280], .float32, [], false⟩,
  ⟨key% "model.diffusion_model.output_blocks.5.1.proj_out.weight", [1280, 1280, 1, 1], .float32, [], false⟩,
  ⟨key% "model.diffusion_model.output_blocks.5.1.transformer_blocks.0.attn1.to_k.weight", [1280, 1280], .float32, [], false⟩,
  ⟨key% "model.diffusion_model.output_blocks.5.1.transformer_blocks.0.attn1.to_out.0.bias", [1280], .float32, [], false⟩,
  ⟨key% "model.diffusion_model.output_blocks.5.1.transformer_blocks.0.attn1.to_out.0.weight", [1280, 1280], .float32, [], false⟩,
  ⟨key% "model.diffusion_model.output_blocks.5.1.transformer_blocks.0.attn1.to_q.weight", [1280, 1280], .float32, [], false⟩,
  ⟨key% "model.diffusion_model.output_blocks.5.1.transformer_blocks.0.attn1.to_v.weight", [1280, 1280], .float32, [], false⟩,
  ⟨key% "model.diffusion_model.output_blocks.5.1.transformer_blocks.0.attn2.to_k.weight", [1280, 768], .float32, [], false⟩,
  ⟨key% "model.diffusion_model.output_blocks.5.1.transformer_blocks.0.attn2.to_out.0.bias", [1280], .float32, [], false⟩,
  ⟨key% "model.diffusion_model.output_blocks.5.1.transformer_blocks.0.attn2.to_out.0.weight", [1280, 1280], .float32, [], false⟩,
  ⟨key% "model.diffusion_model.output_blocks.5.1.transformer_blocks.0.attn2.to_q.weight", [1280, 1280], .float32, [], false⟩,
  ⟨key% "model.diffusion_model.output_blocks.5.1.transformer_blocks.0.attn2.to_v.weight", [1280, 768], .float32, [], false⟩,
  ⟨key% "model.diffusion_model.output_blocks.5.1.transformer_blocks.0.ff.net.0.proj.bias", [10240], .float32, [], false⟩,
  ⟨key% "model.diffusion_model.output_blocks.5.1.transformer_blocks.0.ff.net.0.proj.weight", [10240, 1280], .float32, [], false⟩,
  ⟨key% "model.diffusion_model.output_blocks.5.1.transformer_blocks.0.ff.net.2.bias", [1280], .float32, [], false⟩,
  ⟨key% "model.diffusion_model.output_blocks.5.1.transformer_blocks.0.ff.net.2.weight", [1280, 5120], .float32, [], false⟩,
  ⟨key% "model.diffusion_model.output_blocks.5.1.transformer_blocks.0.norm1.bias", [1280], .float32, [], false⟩,
  ⟨key% "model.diffusion_model.output_blocks.5.1.transformer_blocks.0.norm1.weight", [1280], .float32, [], false⟩,
  ⟨key% "model.diffusion_model.output_blocks.5.1.transformer_blocks.0.norm2.bias", [1280], .float32, [], false⟩,
  ⟨key% "model.diffusion_model.output_blocks.5.1.transformer_blocks.0.norm2.weight", [1280], .float32, [], false⟩,
  ⟨key% "model.diffusion_model.output_blocks.5.1.transformer_blocks.0.norm3.bias", [1280], .float32, [], false⟩,
  ⟨key% "model.diffusion_model.output_blocks.5.1.transformer_blocks.0.norm3.weight", [1280], .float32, [], false⟩,
  ⟨key% "model.diffusion_model.output_blocks.5.2.conv.bias", [1280], .float32, [], false⟩,
  ⟨key% "model.diffusion_model.output_blocks.5.2.conv.weight", [1280, 1280, 3, 3], .float32, [], false⟩,
  ⟨key% "model.diffusion_model.output_blocks.6.0.emb_layers.1.bias", [640], .float32, [], false⟩,
  ⟨key% "model.diffusion_model.output_blocks.6.0.emb_layers.1.weight", [640, 1280], .float32, [], false⟩,
  ⟨key% "model.diffusion_model.output_blocks.6.0.in_layers.0.bias", [1920], .float32, [], false⟩,
  ⟨key% "model.diffusion_model.output_blocks.6.0.in_layers.0.weight", [1920], .float32, [], false⟩,
  ⟨key% "model.diffusion_model.output_blocks.6.0.in_layers.2.bias", [640], .float32, [], false⟩,
  ⟨key% "model.diffusion_model.output_blocks.6.0.in_layers.2.weight", [640, 1920, 3, 3], .float32, [], false⟩,
  ⟨key% "model.diffusion_model.output_blocks.6.0.out_layers.0.bias", [640], .float32, [], false⟩,
  ⟨key% "model.diffusion_model.output_blocks.6.0.out_layers.0.weight", [640], .float32, [], false⟩,
  ⟨key% "model.diffusion_model.output_blocks.6.0.out_layers.3.bias", [640], .float32, [], false⟩,
  ⟨key% "model.diffusion_model.output_blocks.6.0.out_layers.3.weight", [640, 640, 3, 3], .float32, [], false⟩,
  ⟨key% "model.diffusion_model.output_blocks.6.0.skip_connection.bias", [640], .float32, [], false⟩,
  ⟨key% "model.diffusion_model.output_blocks.6.0.skip_connection.weight", [640, 1920, 1, 1], .float32, [], false⟩,
  ⟨key% "model.diffusion_model.output_blocks.6.1.norm.bias", [640], .float32, [], false⟩,
  ⟨key% "model.diffusion_model.output_blocks.6.1.norm.weight", [640], .float32, [], false⟩,
  ⟨key% "model.diffusion_model.output_blocks.6.1.proj_in.bias", [640], .float32, [], false⟩,
  ⟨key% "model.diffusion_model.output_blocks.6.1.proj_in.weight", [640, 640, 1, 1], .float32, [], false⟩,
  ⟨key% "model.diffusion_model.output_blocks.6.1.proj_out.bias", [640], .float32, [], false⟩,
  ⟨key% "model.diffusion_model.output_blocks.6.1.proj_out.weight", [640, 640, 1, 1], .float32, [], false⟩,
  ⟨key% "model.diffusion_model.output_blocks.6.1.transformer_blocks.0.attn1.to_k.weight", [640, 640], .float32, [], false⟩,
  ⟨key% "model.diffusion_model.output_blocks.6.1.transformer_blocks.0.attn1.to_out.0.bias", [640], .float32, [], false⟩,
  ⟨key% "model.diffusion_model.output_blocks.6.1.transformer_blocks.0.attn1.to_out.0.weight", [640, 640], .float32, [], false⟩,
  ⟨key% "model.diffusion_model.output_blocks.6.1.transformer_blocks.0.attn1.to_q.weight", [640, 640], .float32, [], false⟩,
  ⟨key% "model.diffusion_model.output_blocks.6.1.transformer_blocks.0.attn1.to_v.weight", [640, 640], .float32, [], false⟩,
  ⟨key% "model.diffusion_model.output_blocks.6.1.transformer_blocks.0.attn2.to_k.weight", [640, 768], .float32, [], false⟩,
  ⟨key% "model.diffusion_model.output_blocks.6.1.transformer_blocks.0.attn2.to_out.0.bias", [640], .float32, [], false⟩,
  ⟨key% "model.diffusion_model.output_blocks.6.1.transformer_blocks.0.attn2.to_out.0.weight", [640, 640], .float32, [], false⟩,
  ⟨key% "model.diffusion_model.output_blocks.6.1.transformer_blocks.0.attn2.to_q.weight", [640, 640], .float32, [], false⟩,
  ⟨key% "model.diffusion_model.output_blocks.6.1.transformer_blocks.0.attn2.to_v.weight", [640, 768], .float32, [], false⟩,
  ⟨key% "model.diffusion_model.output_blocks.6.1.transformer_blocks.0.ff.net.0.proj.bias", [5120], .float32, [], false⟩,
  ⟨key% "model.diffusion_model.output_blocks.6.1.transformer_blocks.0.ff.net.0.proj.weight", [5120, 640], .float32, [], false⟩,
  ⟨key% "model.diffusion_model.output_blocks.6.1.transformer_blocks.0.ff.net.2.bias", [640], .float32, [], false⟩,
  ⟨key% "model.diffusion_model.output_blocks.6.1.transformer_blocks.0.ff.net.2.weight", [640, 2560], .float32, [], false⟩,
  ⟨key% "model.diffusion_model.output_blocks.6.1.transformer_blocks.0.norm1.bias", [640], .float32, [], false⟩,
  ⟨key% "model.diffusion_model.output_blocks.6.1.transformer_blocks.0.norm1.weight", [640], .float32, [], false⟩,
  ⟨key% "model.diffusion_model.output_blocks.6.1.transformer_blocks.0.norm2.bias", [640], .float32, [], false⟩,
  ⟨key% "model.diffusion_model.output_blocks.6.1.transformer_blocks.0.norm2.weight", [640], .float32, [], false⟩,
  ⟨key% "model.diffusion_model.output_blocks.6.1.transformer_blocks.0.norm3.bias", [640], .float32, [], false⟩,
  ⟨key% "model.diffusion_model.output_blocks.6.1.transformer_blocks.0.norm3.weight", [640], .float32, [], false⟩,
  ⟨key% "model.diffusion_model.output_blocks.7.0.emb_layers.1.bias", [640], .float32, [], false⟩,
  ⟨key% "model.diffusion_model.output_blocks.7.0.emb_layers.1.weight", [640, 1280], .float32, [], false⟩,
  ⟨key% "model.diffusion_model.output_blocks.7.0.in_layers.0.bias", [1280], .float32, [], false⟩,
  ⟨key% "model.diffusion_model.output_blocks.7.0.in_layers.0.weight", [1280], .float32, [], false⟩,
  ⟨key% "model.diffusion_model.output_blocks.7.0.in_layers.2.bias", [640], .float32, [], false⟩,
  ⟨key% "model.diffusion_model.output_blocks.7.0.in_layers.2.weight", [640, 1280, 3, 3], .float32, [], false⟩,
  ⟨key% "model.diffusion_model.output_blocks.7.0.out_layers.0.bias", [640], .float32, [], false⟩,
  ⟨key% "model.diffusion_model.output_blocks.7.0.out_layers.0.weight", [640], .float32, [], false⟩,
  ⟨key% "model.diffusion_model.output_blocks.7.0.out_layers.3.bias", [640], .float32, [], false⟩,
  ⟨key% "model.diffusion_model.output_blocks.7.0.out_layers.3.weight", [640, 640, 3, 3], .float32, [], false⟩,
  ⟨key% "model.diffusion_model.output_blocks.7.0.skip_connection.bias", [640], .float32, [], false⟩,
  ⟨key% "model.diffusion_model.output_blocks.7.0.skip_connection.weight", [640, 1280, 1, 1], .float32, [], false⟩,
  ⟨key% "model.diffusion_model.output_blocks.7.1.norm.bias", [640], .float32, [], false⟩,
  ⟨key% "model.diffusion_model.output_blocks.7.1.norm.weight", [640], .float32, [], false⟩,
  ⟨key% "model.diffusion_model.output_blocks.7.1.proj_in.bias", [640], .float32, [], false⟩,
  ⟨key% "model.diffusion_model.output_blocks.7.1.proj_in.weight", [640, 640, 1, 1], .float32, [], false⟩,
  ⟨key% "model.diffusion_model.output_blocks.7.1.proj_out.bias", [640], .float32, [], false⟩,
  ⟨key% "model.diffusion_model.output_blocks.7.1.proj_out.weight", [640, 640, 1, 1], .float32, [], false⟩,
  ⟨key% "model.diffusion_model.output_blocks.7.1.transformer_blocks.0.attn1.to_k.weight", [640, 640], .float32, [], false⟩,
  ⟨key% "model.diffusion_model.output_blocks.7.1.transformer_blocks.0.attn1.to_out.0.bias", [640], .float32, [], false⟩,
  ⟨key% "model.diffusion_model.output_blocks.7.1.transformer_blocks.0.attn1.to_out.0.weight", [640, 640], .float32, [], false⟩,
  ⟨key% "model.diffusion_model.output_blocks.7.1.transformer_blocks.0.attn1.to_q.weight", [640, 640], .float32, [], false⟩,
  ⟨key% "model.diffusion_model.output_blocks.7.1.transformer_blocks.0.attn1.to_v.weight", [640, 640], .float32, [], false⟩,
  ⟨key% "model.diffusion_model.output_blocks.7.1.transformer_blocks.0.attn2.to_k.weight", [640, 768], .float32, [], false⟩,
  ⟨key% "model.diffusion_model.output_blocks.7.1.transformer_blocks.0.attn2.to_out.0.bias", [640], .float32, [], false⟩,
  ⟨key% "model.diffusion_model.output_blocks.7.1.transformer_blocks.0.attn2.to_out.0.weight", [640, 640], .float32, [], false⟩,
  ⟨key% "model.diffusion_model.output_blocks.7.1.transformer_blocks.0.attn2.to_q.weight", [640, 640], .float32, [], false⟩,
  ⟨key% "model.diffusion_model.output_blocks.7.1.transformer_blocks.0.attn2.to_v.weight", [640, 768], .float32, [], false⟩,
  ⟨key% "model.diffusion_model.output_blocks.7.1.transformer_blocks.0.ff.net.0.proj.bias", [5120], .float32, [], false⟩,
  ⟨key% "model.diffusion_model.output_blocks.7.1.transformer_blocks.0.ff.net.0.proj.weight", [5120, 640], .float32, [], false⟩,
  ⟨key% "model.diffusion_model.output_blocks.7.1.transformer_blocks.0.ff.net.2.bias", [640], .float32, [], false⟩,
  ⟨key% "model.diffusion_model.output_blocks.7.1.transformer_blocks.0.ff.net.2.weight", [640, 2560], .float32, [], false⟩,
  ⟨key% "model.diffusion_model.output_blocks.7.1.transformer_blocks.0.norm1.bias", [640], .float32, [], false⟩,
  ⟨key% "model.diffusion_model.output_blocks.7.1.transformer_blocks.0.norm1.weight", [640], .float32, [], false⟩]
noncomputable def diffuser6 : List Entry := [
  ⟨key% "model.diffusion_model.output_blocks.7.1.transformer_blocks.0.norm2.bias", [640], .float32, [], false⟩,
  ⟨key% "model.diffusion_model.output_blocks.7.1.transformer_blocks.0.norm2.weight", [640], .float32, [], false⟩,
  ⟨key% "model.diffusion_model.output_blocks.7.1.transformer_blocks.0.norm3.bias", [640], .float32, [], false⟩,
  ⟨key% "model.diffusion_model.output_blocks.7.1.transformer_blocks.0.norm3.weight", [640], .float32, [], false⟩,
  ⟨key% "model.diffusion_model.output_blocks.8.0.emb_layers.1.bias", [640], .float32, [], false⟩,
  ⟨key% "model.diffusion_model.output_blocks.8.0.emb_layers.1.weight", [640, 1280], .float32, [], false⟩,
  ⟨key% "model.diffusion_model.output_blocks.8.0.in_layers.0.bias", [960], .float32, [], false⟩,
  ⟨key% "model.diffusion_model.output_blocks.8.0.in_layers.0.weight", [960], .float32, [], false⟩,
  ⟨key% "model.diffusion_model.output_blocks.8.0.in_layers.2.bias", [640], .float32, [], false⟩,
  ⟨key% "model.diffusion_model.output_blocks.8.0.in_layers.2.weight", [640, 960, 3, 3], .float32, [], false⟩,
  ⟨key% "model.diffusion_model.output_blocks.8.0.out_layers.0.bias", [640], .float32, [], false⟩,
  ⟨key% "model.diffusion_model.output_blocks.8.0.out_layers.0.weight", [640], .float32, [], false⟩,
  ⟨key% "model.diffusion_model.output_blocks.8.0.out_layers.3.bias", [640], .float32, [], false⟩,
  ⟨key% "model.diffusion_model.output_blocks.8.0.out_layers.3.weight", [640, 640, 3, 3], .float32, [], false⟩,
  ⟨key% "model.diffusion_model.output_blocks.8.0.skip_connection.bias", [640], .float32, [], false⟩,
  ⟨key% "model.diffusion_model.output_blocks.8.0.skip_connection.weight", [640, 960, 1, 1], .float32, [], false⟩,
  ⟨key% "model.diffusion_model.output_blocks.8.1.norm.bias", [640], .float32, [], false⟩,
  ⟨key% "model.diffusion_model.output_blocks.8.1.norm.weight", [640], .float32, [], false⟩,
  ⟨key% "model.diffusion_model.output_blocks.8.1.proj_in.bias", [640], .float32, [], false⟩,
  ⟨key% "model.diffusion_model.output_blocks.8.1.proj_in.weight", [640, 640, 1, 1], .float32, [], false⟩,
  ⟨key% "model.diffusion_model.output_blocks.8.1.proj_out.bias", [640], .float32, [], false⟩,
  ⟨key% "model.diffusion_model.output_blocks.8.1.proj_out.weight", [640, 640, 1, 1], .float32, [], false⟩,
  ⟨key% "model.diffusion_model.output_blocks.8.1.transformer_blocks.0.attn1.to_k.weight", [640, 640], .float32, [], false⟩,
  ⟨key% "model.diffusion_model.output_blocks.8.1.transformer_blocks.0.attn1.to_out.0.bias", [640], .float32, [], false⟩,
  ⟨key% "model.diffusion_model.output_blocks.8.1.transformer_blocks.0.attn1.to_out.0.weight", [640, 640], .float32, [], false⟩,
  ⟨key% "model.diffusion_model.output_blocks.8.1.transformer_blocks.0.attn1.to_q.weight", [640, 640], .float32, [], false⟩,
  ⟨key% "model.diffusion_model.output_blocks.8.1.transformer_blocks.0.attn1.to_v.weight", [640, 640], .float32, [], false⟩,
  ⟨key% "model.diffusion_model.output_blocks.8.1.transformer_blocks.0.attn2.to_k.weight", [640, 768], .float32, [], false⟩,
  ⟨key% "model.diffusion_model.output_blocks.8.1.transformer_blocks.0.attn2.to_out.0.bias", [640], .float32, [], false⟩,
  ⟨key% "model.diffusion_model.output_blocks.8.1.transformer_blocks.0.attn2.to_out.0.weight", [640, 640], .float32, [], false⟩,
  ⟨key% "model.diffusion_model.output_blocks.8.1.transformer_blocks.0.attn2.to_q.weight", [640, 640], .float32, [], false⟩,
  ⟨key% "model.diffusion_model.output_blocks.8.1.transformer_blocks.0.attn2.to_v.weight", [640, 768], .float32, [], false⟩,
  ⟨key% "model.diffusion_model.output_blocks.8.1.transformer_blocks.0.ff.net.0.proj.bias", [5120], .float32, [], false⟩,
  ⟨key% "model.diffusion_model.output_blocks.8.1.transformer_blocks.0.ff.net.0.proj.weight", [5120, 640], .float32, [], false⟩,
  ⟨key% "model.diffusion_model.output_blocks.8.1.transformer_blocks.0.ff.net.2.bias", [640], .float32, [], false⟩,
  ⟨key% "model.diffusion_model.output_blocks.8.1.transformer_blocks.0.ff.net.2.weight", [640, 2560], .float32, [], false⟩,
  ⟨key% "model.diffusion_model.output_blocks.8.1.transformer_blocks.0.norm1.bias", [640], .float32, [], false⟩,
  ⟨key% "model.diffusion_model.output_blocks.8.1.transformer_blocks.0.norm1.weight", [640], .float32, [], false⟩,
  ⟨key% "model.diffusion_model.output_blocks.8.1.transformer_blocks.0.norm2.bias", [640], .float32, [], false⟩,
  ⟨key% "model.diffusion_model.output_blocks.8.1.transformer_blocks.0.norm2.weight", [640], .float32, [], false⟩,
  ⟨key% "model.diffusion_model.output_blocks.8.1.transformer_blocks.0.norm3.bias", [640], .float32, [], false⟩,
  ⟨key% "model.diffusion_model.output_blocks.8.1.transformer_blocks.0.norm3.weight", [640], .float32, [], false⟩,
  ⟨key% "model.diffusion_model.output_blocks.8.2.conv.bias", [640], .float32, [], false⟩,
  ⟨key% "model.diffusion_model.output_blocks.8.2.conv.weight", [640, 640, 3, 3], .float32, [], false⟩,
  ⟨key% "model.diffusion_model.output_blocks.9.0.emb_layers.1.bias", [320], .float32, [], false⟩,
  ⟨key% "model.diffusion_model.output_blocks.9.0.emb_layers.1.weight", [320, 1280], .float32, [], false⟩,
  ⟨key% "model.diffusion_model.output_blocks.9.0.in_layers.0.bias", [960], .float32, [], false⟩,
  ⟨key% "model.diffusion_model.output_blocks.9.0.in_layers.0.weight", [960], .float32, [], false⟩,
  ⟨key% "model.diffusion_model.output_blocks.9.0.in_layers.2.bias", [320], .float32, [], false⟩,
  ⟨key% "model.diffusion_model.output_blocks.9.0.in_layers.2.weight", [320, 960, 3, 3], .float32, [], false⟩,
  ⟨key% "model.diffusion_model.output_blocks.9.0.out_layers.0.bias", [320], .float32, [], false⟩,
  ⟨key% "model.diffusion_model.output_blocks.9.0.out_layers.0.weight", [320], .float32, [], false⟩,
  ⟨key% "model.diffusion_model.output_blocks.9.0.out_layers.3.bias", [320], .float32, [], false⟩,
  ⟨key% "model.diffusion_model.output_blocks.9.0.out_layers.3.weight", [320, 320, 3, 3], .float32, [], false⟩,
  ⟨key% "model.diffusion_model.output_blocks.9.0.skip_connection.bias", [320], .float32, [], false⟩,
  ⟨key% "model.diffusion_model.output_blocks.9.0.skip_connection.weight", [320, 960, 1, 1], .float32, [], false⟩,
  ⟨key% "model.diffusion_model.output_blocks.9.1.norm.bias", [320], .float32, [], false⟩,
  ⟨key% "model.diffusion_model.output_blocks.9.1.norm.weight", [320], .float32, [], false⟩,
  ⟨key% "model.diffusion_model.output_blocks.9.1.proj_in.bias", [320], .float32, [], false⟩,
  ⟨key% "model.diffusion_model.output_blocks.9.1.proj_in.weight", [320, 320, 1, 1], .float32, [], false⟩,
  ⟨key% "model.diffusion_model.output_blocks.9.1.proj_out.bias", [320], .float32, [], false⟩,
  ⟨key% "model.diffusion_model.output_blocks.9.1.proj_out.weight", [320, 320, 1, 1], .float32, [], false⟩,
  ⟨key% "model.diffusion_model.output_blocks.9.1.transformer_blocks.0.attn1.to_k.weight", [320, 320], .float32, [], false⟩,
  ⟨key% "model.diffusion_model.output_blocks.9.1.transformer_blocks.0.attn1.to_out.0.bias", [320], .float32, [], false⟩,
  ⟨key% "model.diffusion_model.output_blocks.9.1.transformer_blocks.0.attn1.to_out.0.weight", [320, 320], .float32, [], false⟩,
  ⟨key% "model.diffusion_model.output_blocks.9.1.transformer_blocks.0.attn1.to_q.weight", [320, 320], .float32, [], false⟩,
  ⟨key% "model.diffusion_model.output_blocks.9.1.transformer_blocks.0.attn1.to_v.weight", [320, 320], .float32, [], false⟩,
  ⟨key% "model.diffusion_model.output_blocks.9.1.transformer_blocks.0.attn2.to_k.weight", [320, 768], .float32, [], false⟩,
  ⟨key% "model.diffusion_model.output_blocks.9.1.transformer_blocks.0.attn2.to_out.0.bias", [320], .float32, [], false⟩,
  ⟨key% "model.diffusion_model.output_blocks.9.1.transformer_blocks.0.attn2.to_out.0.weight", [320, 320], .float32, [], false⟩,
  ⟨key% "model.diffusion_model.output_blocks.9.1.transformer_blocks.0.attn2.to_q.weight", [320, 320], .float32, [], false⟩,
  ⟨key% "model.diffusion_model.output_blocks.9.1.transformer_blocks.0.attn2.to_v.weight", [320, 768], .float32, [], false⟩,
  ⟨key% "model.diffusion_model.output_blocks.9.1.transformer_blocks.0.ff.net.0.proj.bias", [2560], .float32, [], false⟩,
  ⟨key% "model.diffusion_model.output_blocks.9.1.transformer_blocks.0.ff.net.0.proj.weight", [2560, 320], .float32, [], false⟩,
  ⟨key% "model.diffusion_model.output_blocks.9.1.transformer_blocks.0.ff.net.2.bias", [320], .float32, [], false⟩,
  ⟨key% "model.diffusion_model.output_blocks.9.1.transformer_blocks.0.ff.net.2.weight", [320, 1280], .float32, [], false⟩,
  ⟨key% "model.diffusion_model.output_blocks.9.1.transformer_blocks.0.norm1.bias", [320], .float32, [], false⟩,
  ⟨key% "model.diffusion_model.output_blocks.9.1.transformer_blocks.0.norm1.weight", [320], .float32, [], false⟩,
  ⟨key% "model.diffusion_model.output_blocks.9.1.transformer_blocks.0.norm2.bias", [320], .float32, [], false⟩,
  ⟨key% "model.diffusion_model.output_blocks.9.1.transformer_blocks.0.norm2.weight", [320], .float32, [], false⟩,
  ⟨key% "model.diffusion_model.output_blocks.9.1.transformer_blocks.0.norm3.bias", [320], .float32, [], false⟩,
  ⟨key% "model.diffusion_model.output_blocks.9.1.transformer_blocks.0.norm3.weight", [320], .float32, [], false⟩,
  ⟨key% "model.diffusion_model.time_embed.0.bias", [1280], .float32, [], false⟩,
  ⟨key% "model.diffusion_model.time_embed.0.weight", [1280, 320], .float32, [], false⟩,
  ⟨key% "model.diffusion_model.time_embed.2.bias", [1280], .float32, [], false⟩,
  ⟨key% "model.diffusion_model.time_embed.2.weight", [1280, 1280], .float32, [], false⟩]
/-- Component `diffuser`: 686 keys -/
noncomputable def diffuser : List Entry := diffuser0 ++ diffuser1 ++ diffuser2 ++ diffuser3 ++ diffuser4 ++ diffuser5 ++ diffuser6

noncomputable def ema0 : List Entry := [
  ⟨key% "model_ema.decay", [], .float32, [], true⟩,
  ⟨key% "model_ema.num_updates", [], .int32, [], true⟩,
  ⟨key% "model_ema.diffusion_modelinput_blocks00bias", [320], .float32, [key% "model_ema.input_blocks00bias"], true⟩,
  ⟨key% "model_ema.diffusion_modelinput_blocks00weight", [320, 4, 3, 3], .float32, [key% "model_ema.input_blocks00weight"], true⟩,
  ⟨key% "model_ema.diffusion_modelinput_blocks100emb_layers1bias", [1280], .float32, [key% "model_ema.input_blocks100emb_layers1bias"], true⟩,
  ⟨key% "model_ema.diffusion_modelinput_blocks100emb_layers1weight", [1280, 1280], .float32, [key% "model_ema.input_blocks100emb_layers1weight"], true⟩,
  ⟨key% "model_ema.diffusion_modelinput_blocks100in_layers0bias", [1280], .float32, [key% "model_ema.input_blocks100in_layers0bias"], true⟩,
  ⟨key% "model_ema.diffusion_modelinput_blocks100in_layers0weight", [1280], .float32, [key% "model_ema.input_blocks100in_layers0weight"], true⟩,
  ⟨key% "model_ema.diffusion_modelinput_blocks100in_layers2bias", [1280], .float32, [key% "model_ema.input_blocks100in_layers2bias"], true⟩,
  ⟨key% "model_ema.diffusion_modelinput_blocks100in_layers2weight", [1280, 1280, 3, 3], .float32, [key% "model_ema.input_blocks100in_layers2weight"], true⟩,
  ⟨key% "model_ema.diffusion_modelinput_blocks100out_layers0bias", [1280], .float32, [key% "model_ema.input_blocks100out_layers0bias"], true⟩,
  ⟨key% "model_ema.diffusion_modelinput_blocks100out_layers0weight", [1280], .float32, [key% "model_ema.input_blocks100out_layers0weight"], true⟩,
  ⟨key% "model_ema.diffusion_modelinput_blocks100out_layers3bias", [1280], .float32, [key% "model_ema.input_blocks100out_layers3bias"], true⟩,
  ⟨key% "model_ema.diffusion_modelinput_blocks100out_layers3weight", [1280, 1280, 3, 3], .float32, [key% "model_ema.input_blocks100out_layers3weight"], true⟩,
  ⟨key% "model_ema.diffusion_modelinput_blocks10emb_layers1bias", [320], .float32, [key% "model_ema.input_blocks10emb_layers1bias"], true⟩,
  ⟨key% "model_ema.diffusion_modelinput_blocks10emb_layers1weight", [320, 1280], .float32, [key% "model_ema.input_blocks10emb_layers1weight"], true⟩,
  ⟨key% "model_ema.diffusion_modelinput_blocks10in_layers0bias", [320], .float32, [key% "model_ema.input_blocks10in_layers0bias"], true⟩,
  ⟨key% "model_ema.diffusion_modelinput_blocks10in_layers0weight", [320], .float32, [key% "model_ema.input_blocks10in_layers0weight"], true⟩,
  ⟨key% "model_ema.diffusion_modelinput_blocks10in_layers2bias", [320], .float32, [key% "model_ema.input_blocks10in_layers2bias"], true⟩,
  ⟨key% "model_ema.diffusion_modelinput_blocks10in_layers2weight", [320, 320, 3, 3], .float32, [key% "model_ema.input_blocks10in_layers2weight"], true⟩,
  ⟨key% "model_ema.diffusion_modelinput_blocks10out_layers0bias", [320], .float32, [key% "model_ema.input_blocks10out_layers0bias"], true⟩,
  ⟨key% "model_ema.diffusion_modelinput_blocks10out_layers0weight", [320], .float32, [key% "model_ema.input_blocks10out_layers0weight"], true⟩,
  ⟨key% "model_ema.diffusion_modelinput_blocks10out_layers3bias", [320], .float32, [key% "model_ema.input_blocks10out_layers3bias"], true⟩,
  ⟨key% "model_ema.diffusion_modelinput_blocks10out_layers3weight", [320, 320, 3, 3], .float32, [key% "model_ema.input_blocks10out_layers3weight"], true⟩,
  ⟨key% "model_ema.diffusion_modelinput_blocks110emb_layers1bias", [1280], .float32, [key% "model_ema.input_blocks110emb_layers1bias"], true⟩,
  ⟨key% "model_ema.diffusion_modelinput_blocks110emb_layers1weight", [1280, 1280], .float32, [key% "model_ema.input_blocks110emb_layers1weight"], true⟩,
  ⟨key% "model_ema.diffusion_modelinput_blocks110in_layers0bias", [1280], .float32, [key% "model_ema.input_blocks110in_layers0bias"], true⟩,
  ⟨key% "model_ema.diffusion_modelinput_blocks110in_layers0weight", [1280], .float32, [key% "model_ema.input_blocks110in_layers0weight"], true⟩,
  ⟨key% "model_ema.diffusion_modelinput_blocks110in_layers2bias", [1280], .float32, [key% "model_ema.input_blocks110in_layers2bias"], true⟩,
  ⟨key% "model_ema.diffusion_modelinput_blocks110in_layers2weight", [1280, 1280, 3, 3], .float32, [key% "model_ema.input_blocks110in_layers2weight"], true⟩,
  ⟨key% "model_ema.diffusion_modelinput_blocks110out_layers0bias", [1280], .float32, [key% "model_ema.input_blocks110out_layers0bias"], true⟩,
  ⟨key% "model_ema.diffusion_modelinput_blocks110out_layers0weight", [1280], .float32, [key% "model_ema.input_blocks110out_layers0weight"], true⟩,
  ⟨key% "model_ema.diffusion_modelinput_blocks110out_layers3bias", [1280], .float32, [key% "model_ema.input_blocks110out_layers3bias"], true⟩,
  ⟨key% "model_ema.diffusion_modelinput_blocks110out_layers3weight", [1280, 1280, 3, 3], .float32, [key% "model_ema.input_blocks110out_layers3weight"], true⟩,
  ⟨key% "model_ema.diffusion_modelinput_blocks11normbias", [320], .float32, [key% "model_ema.input_blocks11normbias"], true⟩,
  ⟨key% "model_ema.diffusion_modelinput_blocks11normweight", [320], .float32, [key% "model_ema.input_blocks11normweight"], true⟩,
  ⟨key% "model_ema.diffusion_modelinput_blocks11proj_inbias", [320], .float32, [key% "model_ema.input_blocks11proj_inbias"], true⟩,
  ⟨key% "model_ema.diffusion_modelinput_blocks11proj_inweight", [320, 320, 1, 1], .float32, [key% "model_ema.input_blocks11proj_inweight"], true⟩,
  ⟨key% "model_ema.diffusion_modelinput_blocks11proj_outbias", [320], .float32, [key% "model_ema.input_blocks11proj_outbias"], true⟩,
  ⟨key% "model_ema.diffusion_modelinput_blocks11proj_outweight", [320, 320, 1, 1], .float32, [key% "model_ema.input_blocks11proj_outweight"], true⟩,
  ⟨key% "model_ema.diffusion_modelinput_blocks11transformer_blocks0attn1to_kweight", [320, 320], .float32, [key% "model_ema.input_blocks11transformer_blocks0attn1to_kweight"], true⟩,
  ⟨key% "model_ema.diffusion_modelinput_blocks11transformer_blocks0attn1to_out0bias", [320], .float32, [key% "model_ema.input_blocks11transformer_blocks0attn1to_out0bias"], true⟩,
  ⟨key% "model_ema.diffusion_modelinput_blocks11transformer_blocks0attn1to_out0weight", [320, 320], .float32, [key% "model_ema.input_blocks11transformer_blocks0attn1to_out0weight"], true⟩,
  ⟨key% "model_ema.diffusion_modelinput_blocks11transformer_blocks0attn1to_qweight", [320, 320], .float32, [key% "model_ema.input_blocks11transformer_blocks0attn1to_qweight"], true⟩,
  ⟨key% "model_ema.diffusion_modelinput_blocks11transformer_blocks0attn1to_vweight", [320, 320], .float32, [key% "model_ema.input_blocks11transformer_blocks0attn1to_vweight"], true⟩,
  ⟨key% "model_ema.diffusion_modelinput_blocks11transformer_blocks0attn2to_kweight", [320, 768], .float32, [key% "model_ema.input_blocks11transformer_blocks0attn2to_kweight"], true⟩,
  ⟨key% "model_ema.diffusion_modelinput_blocks11transformer_blocks0attn2to_out0bias", [320], .float32, [key% "model_ema.input_blocks11transformer_blocks0attn2to_out0bias"], true⟩,
  ⟨key% "model_ema.diffusion_modelinput_blocks11transformer_blocks0attn2to_out0weight", [320, 320], .float32, [key% "model_ema.input_blocks11transformer_blocks0attn2to_out0weight"], true⟩,
  ⟨key% "model_ema.diffusion_modelinput_blocks11transformer_blocks0attn2to_qweight", [320, 320], .float32, [key% "model_ema.input_blocks11transformer_blocks0attn2to_qweight"], true⟩,
  ⟨key% "model_ema.diffusion_modelinput_blocks11transformer_blocks0attn2to_vweight", [320, 768], .float32, [key% "model_ema.input_blocks11transformer_blocks0attn2to_vweight"], true⟩,
  ⟨key% "model_ema.diffusion_modelinput_blocks11transformer_blocks0ffnet0projbias", [2560], .float32, [key% "model_ema.input_blocks11transformer_blocks0ffnet0projbias"], true⟩,
  ⟨key% "model_ema.diffusion_modelinput_blocks11transformer_blocks0ffnet0projweight", [2560, 320], .float32, [key% "model_ema.input_blocks11transformer_blocks0ffnet0projweight"], true⟩,
  ⟨key% "model_ema.diffusion_modelinput_blocks11transformer_blocks0ffnet2bias", [320], .float32, [key% "model_ema.input_blocks11transformer_blocks0ffnet2bias"], true⟩,
  ⟨key% "model_ema.diffusion_modelinput_blocks11transformer_blocks0ffnet2weight", [320, 1280], .float32, [key% "model_ema.input_blocks11transformer_blocks0ffnet2weight"], true⟩,
  ⟨key% "model_ema.diffusion_modelinput_blocks11transformer_blocks0norm1bias", [320], .float32, [key% "model_ema.input_blocks11transformer_blocks0norm1bias"], true⟩,
  ⟨key% "model_ema.diffusion_modelinput_blocks11transformer_blocks0norm1weight", [320], .float32, [key% "model_ema.input_blocks11transformer_blocks0norm1weight"], true⟩,
  ⟨key% "model_ema.diffusion_modelinput_blocks11transformer_blocks0norm2bias", [320], .float32, [key% "model_ema.input_blocks11transformer_blocks0norm2bias"], true⟩,
  ⟨key% "model_ema.diffusion_modelinput_blocks11transformer_blocks0norm2weight", [320], .float32, [key% "model_ema.input_blocks11transformer_blocks0norm2weight"], true⟩,
  ⟨key% "model_ema.diffusion_modelinput_blocks11transformer_blocks0norm3bias", [320], .float32, [key% "model_ema.input_blocks11transformer_blocks0norm3bias"], true⟩,
  ⟨key% "model_ema.diffusion_modelinput_blocks11transformer_blocks0norm3weight", [320], .float32, [key% "model_ema.input_blocks11transformer_blocks0norm3weight"], true⟩,
  ⟨key% "model_ema.diffusion_modelinput_blocks20emb_layers1bias", [320], .float32, [key% "model_ema.input_blocks20emb_layers1bias"], true⟩,
  ⟨key% "model_ema.diffusion_modelinput_blocks20emb_layers1weight", [320, 1280], .float32, [key% "model_ema.input_blocks20emb_layers1weight"], true⟩,
  ⟨key% "model_ema.diffusion_modelinput_blocks20in_layers0bias", [320], .float32, [key% "model_ema.input_blocks20in_layers0bias"], true⟩,
  ⟨key% "model_ema.diffusion_modelinput_blocks20in_layers0weight", [320], .float32, [key% "model_ema.input_blocks20in_layers0weight"], true⟩,
  ⟨key% "model_ema.diffusion_modelinput_blocks20in_layers2bias", [320], .float32, [key% "model_ema.input_blocks20in_layers2bias"], true⟩,
  ⟨key% "model_ema.diffusion_modelinput_blocks20in_layers2weight", [320, 320, 3, 3], .float32, [key% "model_ema.input_blocks20in_layers2weight"], true⟩,
  ⟨key% "model_ema.diffusion_modelinput_blocks20out_layers0bias", [320], .float32, [key% "model_ema.input_blocks20out_layers0bias"], true⟩,
  ⟨key% "model_ema.diffusion_modelinput_blocks20out_layers0weight", [320], .float32, [key% "model_ema.input_blocks20out_layers0weight"], true⟩,
  ⟨key% "model_ema.diffusion_modelinput_blocks20out_layers3bias", [320], .float32, [key% "model_ema.input_blocks20out_layers3bias"], true⟩,
  ⟨key% "model_ema.diffusion_modelinput_blocks20out_layers3weight", [320, 320, 3, 3], .float32, [key% "model_ema.input_blocks20out_layers3weight"], true⟩,
  ⟨key% "model_ema.diffusion_modelinput_blocks21normbias", [320], .float32, [key% "model_ema.input_blocks21normbias"], true⟩,
  ⟨key% "model_ema.diffusion_modelinput_blocks21normweight", [320], .float32, [key% "model_ema.input_blocks21normweight"], true⟩,
  ⟨key% "model_ema.diffusion_modelinput_blocks21proj_inbias", [320], .float32, [key% "model_ema.input_blocks21proj_inbias"], true⟩,
  ⟨key% "model_ema.diffusion_modelinput_blocks21proj_inweight", [320, 320, 1, 1], .float32, [key% "model_ema.input_blocks21proj_inweight"], true⟩,
  ⟨key% "model_ema.diffusion_modelinput_blocks21proj_outbias", [320], .float32, [key% "model_ema.input_blocks21proj_outbias"], true⟩,
  ⟨key% "model_ema.diffusion_modelinput_blocks21proj_outweight", [320, 320, 1, 1], .float32, [key% "model_ema.input_blocks21proj_outweight"], true⟩,
  ⟨key% "model_ema.diffusion_modelinput_blocks21transformer_blocks0attn1to_kweight", [320, 320], .float32, [key% "model_ema.input_blocks21transformer_blocks0attn1to_kweight"], true⟩,
  ⟨key% "model_ema.diffusion_modelinput_blocks21transformer_blocks0attn1to_out0bias", [320], .float32, [key% "model_ema.input_blocks21transformer_blocks0attn1to_out0bias"], true⟩,
  ⟨key% "model_ema.diffusion_modelinput_blocks21transformer_blocks0attn1to_out0weight", [320, 320], .float32, [key% "model_ema.input_blocks21transformer_blocks0attn1to_out0weight"], true⟩,
  ⟨key% "model_ema.diffusion_modelinput_blocks21transformer_blocks0attn1to_qweight", [320, 320], .float32, [key% "model_ema.input_blocks21transformer_blocks0attn1to_qweight"], true⟩,
  ⟨key% "model_ema.diffusion_modelinput_blocks21transformer_blocks0attn1to_vweight", [320, 320], .float32, [key% "model_ema.input_blocks21transformer_blocks0attn1to_vweight"], true⟩,
  ⟨key% "model_ema.diffusion_modelinput_blocks21transformer_blocks0attn2to_kweight", [320, 768], .float32, [key% "model_ema.input_blocks21transformer_blocks0attn2to_kweight"], true⟩,
  ⟨key% "model_ema.diffusion_modelinput_blocks21transformer_blocks0attn2to_out0bias", [320], .float32, [key% "model_ema.input_blocks21transformer_blocks0attn2to_out0bias"], true⟩,
  ⟨key% "model_ema.diffusion_modelinput_blocks21transformer_blocks0attn2to_out0weight", [320, 320], .float32, [key% "model_ema.input_blocks21transformer_blocks0attn2to_out0weight"], true⟩,
  ⟨key% "model_ema.diffusion_modelinput_blocks21transformer_blocks0attn2to_qweight", [320, 320], .float32, [key% "model_ema.input_blocks21transformer_blocks0attn2to_qweight"], true⟩,
  ⟨key% "model_ema.diffusion_modelinput_blocks21transformer_blocks0attn2to_vweight", [320, 768], .float32, [key% "model_ema.input_blocks21transformer_blocks0attn2to_vweight"], true⟩,
  ⟨key% "model_ema.diffusion_modelinput_blocks21transformer_blocks0ffnet0projbias", [2560], .float32, [key% "model_ema.input_blocks21transformer_blocks0ffnet0projbias"], true⟩,
  ⟨key% "model_ema.diffusion_modelinput_blocks21transformer_blocks0ffnet0projweight", [2560, 320], .float32, [key% "model_ema.input_blocks21transformer_blocks0ffnet0projweight"], true⟩,
  ⟨key% "model_ema.diffusion_modelinput_blocks21transformer_blocks0ffnet2bias", [320], .float32, [key% "model_ema.input_blocks21transformer_blocks0ffnet2bias"], true⟩,
  ⟨key% "model_ema.diffusion_modelinput_blocks21transformer_blocks0ffnet2weight", [320, 1280], .float32, [key% "model_ema.input_blocks21transformer_blocks0ffnet2weight"], true⟩,
  ⟨key% "model_ema.diffusion_modelinput_blocks21transformer_blocks0norm1bias", [320], .float32, [key% "model_ema.input_blocks21transformer_blocks0norm1bias"], true⟩,
  ⟨key% "model_ema.diffusion_modelinput_blocks21transformer_blocks0norm1weight", [320], .float32, [key% "model_ema.input_blocks21transformer_blocks0norm1weight"], true⟩,
  ⟨key% "model_ema.diffusion_modelinput_blocks21transformer_blocks0norm2bias", [320], .float32, [key% "model_ema.input_blocks21transformer_blocks0norm2bias"], true⟩,
  ⟨key% "model_ema.diffusion_modelinput_blocks21transformer_blocks0norm2weight", [320], .float32, [key% "model_ema.input_blocks21transformer_blocks0norm2weight"], true⟩,
  ⟨key% "model_ema.diffusion_modelinput_blocks21transformer_blocks0norm3bias", [320], .float32, [key% "model_ema.input_blocks21transformer_blocks0norm3bias"], true⟩,
  ⟨key% "model_ema.diffusion_modelinput_blocks21transformer_blocks0norm3weight", [320], .float32, [key% "model_ema.input_blocks21transformer_blocks0norm3weight"], true⟩,
  ⟨key% "model_ema.diffusion_modelinput_blocks30opbias", [320], .float32, [key% "model_ema.input_blocks30opbias"], true⟩,
  ⟨key% "model_ema.diffusion_modelinput_blocks30opweight", [320, 320, 3, 3], .float32, [key% "model_ema.input_blocks30opweight"], true⟩,
  ⟨key% "model_ema.diffusion_modelinput_blocks40emb_layers1bias", [640], .float32, [key% "model_ema.input_blocks40emb_layers1bias"], true⟩,
  ⟨key% "model_ema.diffusion_modelinput_blocks40emb_layers1weight", [640, 1280], .float32, [key% "model_ema.input_blocks40emb_layers1weight"], true⟩]
noncomputable def ema1 : List Entry := [
  ⟨key% "model_ema.diffusion_modelinput_blocks40in_layers0bias", [320], .float32, [key% "model_ema.input_blocks40in_layers0bias"], true⟩,
  ⟨key% "model_ema.diffusion_modelinput_blocks40in_layers0weight", [320], .float32, [key% "model_ema.input_blocks40in_layers0weight"], true⟩,
  ⟨key% "model_ema.diffusion_modelinput_blocks40in_layers2bias", [640], .float32, [key% "model_ema.input_blocks40in_layers2bias"], true⟩,
  ⟨key% "model_ema.diffusion_modelinput_blocks40in_layers2weight", [640, 320, 3, 3], .float32, [key% "model_ema.input_blocks40in_layers2weight"], true⟩,
  ⟨key% "model_ema.diffusion_modelinput_blocks40out_layers0bias", [640], .float32, [key% "model_ema.input_blocks40out_layers0bias"], true⟩,
  ⟨key% "model_ema.diffusion_modelinput_blocks40out_layers0weight", [640], .float32, [key% "model_ema.input_blocks40out_layers0weight"], true⟩,
  ⟨key% "model_ema.diffusion_modelinput_blocks40out_layers3bias", [640], .float32, [key% "model_ema.input_blocks40out_layers3bias"], true⟩,
  ⟨key% "model_ema.diffusion_modelinput_blocks40out_layers3weight", [640, 640, 3, 3], .float32, [key% "model_ema.input_blocks40out_layers3weight"], true⟩,
  ⟨key% "model_ema.diffusion_modelinput_blocks40skip_connectionbias", [640], .float32, [key% "model_ema.input_blocks40skip_connectionbias"], true⟩,
  ⟨key% "model_ema.diffusion_modelinput_blocks40skip_connectionweight", [640, 320, 1, 1], .float32, [key% "model_ema.input_blocks40skip_connectionweight"], true⟩,
  ⟨key% "model_ema.diffusion_modelinput_blocks41normbias", [640], .float32, [key% "model_ema.input_blocks41normbias"], true⟩,
  ⟨key% "model_ema.diffusion_modelinput_blocks41normweight", [640], .float32, [key% "model_ema.input_blocks41normweight"], true⟩,
  ⟨key% "model_ema.diffusion_modelinput_blocks41proj_inbias", [640], .float32, [key% "model_ema.input_blocks41proj_inbias"], true⟩,
  ⟨key% "model_ema.diffusion_modelinput_blocks41proj_inweight", [640, 640, 1, 1], .float32, [key% "model_ema.input_blocks41proj_inweight"], true⟩,
  ⟨key% "model_ema.diffusion_modelinput_blocks41proj_outbias", [640], .float32, [key% "model_ema.input_blocks41proj_outbias"], true⟩,
  ⟨key% "model_ema.diffusion_modelinput_blocks41proj_outweight", [640, 640, 1, 1], .float32, [key% "model_ema.input_blocks41proj_outweight"], true⟩,
  ⟨key% "model_ema.diffusion_modelinput_blocks41transformer_blocks0attn1to_kweight", [640, 640], .float32, [key% "model_ema.input_blocks41transformer_blocks0attn1to_kweight"], true⟩,
  ⟨key% "model_ema.diffusion_modelinput_blocks41transformer_blocks0attn1to_out0bias", [640], .float32, [key% "model_ema.input_blocks41transformer_blocks0attn1to_out0bias"], true⟩,
  ⟨key% "model_ema.diffusion_modelinput_blocks41transformer_blocks0attn1to_out0weight", [640, 640], .float32, [key% "model_ema.input_blocks41transformer_blocks0attn1to_out0weight"], true⟩,
  ⟨key% "model_ema.diffusion_modelinput_blocks41transformer_blocks0attn1to_qweight", [640, 640], .float32, [key% "model_ema.input_blocks41transformer_blocks0attn1to_qweight"], true⟩,
  ⟨key% "model_ema.diffusion_modelinput_blocks41transformer_blocks0attn1to_vweight", [640, 640], .float32, [key% "model_ema.input_blocks41transformer_blocks0attn1to_vweight"], true⟩,
  ⟨key% "model_ema.diffusion_modelinput_blocks41transformer_blocks0attn2to_kweight", [640, 768], .float32, [key% "model_ema.input_blocks41transformer_blocks0attn2to_kweight"], true⟩,
  ⟨key% "model_ema.diffusion_modelinput_blocks41transformer_blocks0attn2to_out0bias", [640], .float32, [key% "model_ema.input_blocks41transformer_blocks0attn2to_out0bias"], true⟩,
  ⟨key% "model_ema.diffusion_modelinput_blocks41transformer_blocks0attn2to_out0weight", [640, 640], .float32, [key% "model_ema.input_blocks41transformer_blocks0attn2to_out0weight"], true⟩,
  ⟨key% "model_ema.diffusion_modelinput_blocks41transformer_blocks0attn2to_qweight", [640, 640], .float32, [key% "model_ema.input_blocks41transformer_blocks0attn2to_qweight"], true⟩,
  ⟨key% "model_ema.diffusion_modelinput_blocks41transformer_blocks0attn2to_vweight", [640, 768], .float32, [key% "model_ema.input_blocks41transformer_blocks0attn2to_vweight"], true⟩,
  ⟨key% "model_ema.diffusion_modelinput_blocks41transformer_blocks0ffnet0projbias", [5120], .float32, [key% "model_ema.input_blocks41transformer_blocks0ffnet0projbias"], true⟩,
  ⟨key% "model_ema.diffusion_modelinput_blocks41transformer_blocks0ffnet0projweight", [5120, 640], .float32, [key% "model_ema.input_blocks41transformer_blocks0ffnet0projweight"], true⟩,
  ⟨key% "model_ema.diffusion_modelinput_blocks41transformer_blocks0ffnet2bias", [640], .float32, [key% "model_ema.input_blocks41transformer_blocks0ffnet2bias"], true⟩,
  ⟨key% "model_ema.diffusion_modelinput_blocks41transformer_blocks0ffnet2weight", [640, 2560], .float32, [key% "model_ema.input_blocks41transformer_blocks0ffnet2weight"], true⟩,
  ⟨key% "model_ema.diffusion_modelinput_blocks41transformer_blocks0norm1bias", [640], .float32, [key% "model_ema.input_blocks41transformer_blocks0norm1bias"], true⟩,
  ⟨key% "model_ema.diffusion_modelinput_blocks41transformer_blocks0norm1weight", [640], .float32, [key% "model_ema.input_blocks41transformer_blocks0norm1weight"], true⟩,
  ⟨key% "model_ema.diffusion_modelinput_blocks41transformer_blocks0norm2bias", [640], .float32, [key% "model_ema.input_blocks41transformer_blocks0norm2bias"], true⟩,
  ⟨key% "model_ema.diffusion_modelinput_blocks41transformer_blocks0norm2weight", [640], .float32, [key% "model_ema.input_blocks41transformer_blocks0norm2weight"], true⟩,
  ⟨key% "model_ema.diffusion_modelinput_blocks41transformer_blocks0norm3bias", [640], .float32, [key% "model_ema.input_blocks41transformer_blocks0norm3bias"], true⟩,
  ⟨key% "model_ema.diffusion_modelinput_blocks41transformer_blocks0norm3weight", [640], .float32, [key% "model_ema.input_blocks41transformer_blocks0norm3weight"], true⟩,
  ⟨key% "model_ema.diffusion_modelinput_blocks50emb_layers1bias", [640], .float32, [key% "model_ema.input_blocks50emb_layers1bias"], true⟩,
  ⟨key% "model_ema.diffusion_modelinput_blocks50emb_layers1weight", [640, 1280], .float32, [key% "model_ema.input_blocks50emb_layers1weight"], true⟩,
  ⟨key% "model_ema.diffusion_modelinput_blocks50in_layers0bias", [640], .float32, [key% "model_ema.input_blocks50in_layers0bias"], true⟩,
  ⟨key% "model_ema.diffusion_modelinput_blocks50in_layers0weight", [640], .float32, [key% "model_ema.input_blocks50in_layers0weight"], true⟩,
  ⟨key% "model_ema.diffusion_modelinput_blocks50in_layers2bias", [640], .float32, [key% "model_ema.input_blocks50in_layers2bias"], true⟩,
  ⟨key% "model_ema.diffusion_modelinput_blocks50in_layers2weight", [640, 640, 3, 3], .float32, [key% "model_ema.input_blocks50in_layers2weight"], true⟩,
  ⟨key% "model_ema.diffusion_modelinput_blocks50out_layers0bias", [640], .float32, [key% "model_ema.input_blocks50out_layers0bias"], true⟩,
  ⟨key% "model_ema.diffusion_modelinput_blocks50out_layers0weight", [640], .float32, [key% "model_ema.input_blocks50out_layers0weight"], true⟩,
  ⟨key% "model_ema.diffusion_modelinput_blocks50out_layers3bias", [640], .float32, [key% "model_ema.input_blocks50out_layers3bias"], true⟩,
  ⟨key% "model_ema.diffusion_modelinput_blocks50out_layers3weight", [640, 640, 3, 3], .float32, [key% "model_ema.input_blocks50out_layers3weight"], true⟩,
  ⟨key% "model_ema.diffusion_modelinput_blocks51normbias", [640], .float32, [key% "model_ema.input_blocks51normbias"], true⟩,
  ⟨key% "model_ema.diffusion_modelinput_blocks51normweight", [640], .float32, [key% "model_ema.input_blocks51normweight"], true⟩,
  ⟨key% "model_ema.diffusion_modelinput_blocks51proj_inbias", [640], .float32, [key% "model_ema.input_blocks51proj_inbias"], true⟩,
  ⟨key% "model_ema.diffusion_modelinput_blocks51proj_inweight", [640, 640, 1, 1], .float32, [key% "model_ema.input_blocks51proj_inweight"], true⟩,
  ⟨key% "model_ema.diffusion_modelinput_blocks51proj_outbias", [640], .float32, [key% "model_ema.input_blocks51proj_outbias"], true⟩,
  ⟨key% "model_ema.diffusion_modelinput_blocks51proj_outweight", [640, 640, 1, 1], .float32, [key% "model_ema.input_blocks51proj_outweight"], true⟩,
  ⟨key% "model_ema.diffusion_modelinput_blocks51transformer_blocks0attn1to_kweight", [640, 640], .float32, [key% "model_ema.input_blocks51transformer_blocks0attn1to_kweight"], true⟩,
  ⟨key% "model_ema.diffusion_modelinput_blocks51transformer_blocks0attn1to_out0bias", [640], .float32, [key% "model_ema.input_blocks51transformer_blocks0attn1to_out0bias"], true⟩,
  ⟨key% "model_ema.diffusion_modelinput_blocks51transformer_blocks0attn1to_out0weight", [640, 640], .float32, [key% "model_ema.input_blocks51transformer_blocks0attn1to_out0weight"], true⟩,
  ⟨key% "model_ema.diffusion_modelinput_blocks51transformer_blocks0attn1to_qweight", [640, 640], .float32, [key% "model_ema.input_blocks51transformer_blocks0attn1to_qweight"], true⟩,
  ⟨key% "model_ema.diffusion_modelinput_blocks51transformer_blocks0attn1to_vweight", [640, 640], .float32, [key% "model_ema.input_blocks51transformer_blocks0attn1to_vweight"], true⟩,
  ⟨key% "model_ema.diffusion_modelinput_blocks51transformer_blocks0attn2to_kweight", [640, 768], .float32, [key% "model_ema.input_blocks51transformer_blocks0attn2to_kweight"], true⟩,
  ⟨key% "model_ema.diffusion_modelinput_blocks51transformer_blocks0attn2to_out0bias", [640], .float32, [key% "model_ema.input_blocks51transformer_blocks0attn2to_out0bias"], true⟩,
  ⟨key% "model_ema.diffusion_modelinput_blocks51transformer_blocks0attn2to_out0weight", [640, 640], .float32, [key% "model_ema.input_blocks51transformer_blocks0attn2to_out0weight"], true⟩,
  ⟨key% "model_ema.diffusion_modelinput_blocks51transformer_blocks0attn2to_qweight", [640, 640], .float32, [key% "model_ema.input_blocks51transformer_blocks0attn2to_qweight"], true⟩,
  ⟨key% "model_ema.diffusion_modelinput_blocks51transformer_blocks0attn2to_vweight", [640, 768], .float32, [key% "model_ema.input_blocks51transformer_blocks0attn2to_vweight"], true⟩,
  ⟨key% "model_ema.diffusion_modelinput_blocks51transformer_blocks0ffnet0projbias", [5120], .float32, [key% "model_ema.input_blocks51transformer_blocks0ffnet0projbias"], true⟩,
  ⟨key% "model_ema.diffusion_modelinput_blocks51transformer_blocks0ffnet0projweight", [5120, 640], .float32, [key% "model_ema.input_blocks51transformer_blocks0ffnet0projweight"], true⟩,
  ⟨key% "model_ema.diffusion_modelinput_blocks51transformer_blocks0ffnet2bias", [640], .float32, [key% "model_ema.input_blocks51transformer_blocks0ffnet2bias"], true⟩,
  ⟨key% "model_ema.diffusion_modelinput_blocks51transformer_blocks0ffnet2weight", [640, 2560], .float32, [key% "model_ema.input_blocks51transformer_blocks0ffnet2weight"], true⟩,
  ⟨key% "model_ema.diffusion_modelinput_blocks51transformer_blocks0norm1bias", [640], .float32, [key% "model_ema.input_blocks51transformer_blocks0norm1bias"], true⟩,
  ⟨key% "model_ema.diffusion_modelinput_blocks51transformer_blocks0norm1weight", [640], .float32, [key% "model_ema.input_blocks51transformer_blocks0norm1weight"], true⟩,
  ⟨key% "model_ema.diffusion_modelinput_blocks51transformer_blocks0norm2bias", [640], .float32, [key% "model_ema.input_blocks51transformer_blocks0norm2bias"], true⟩,
  ⟨key% "model_ema.diffusion_modelinput_blocks51transformer_blocks0norm2weight", [640], .float32, [key% "model_ema.input_blocks51transformer_blocks0norm2weight"], true⟩,
  ⟨key% "model_ema.diffusion_modelinput_blocks51transformer_blocks0norm3bias", [640], .float32, [key% "model_ema.input_blocks51transformer_blocks0norm3bias"], true⟩,
  ⟨key% "model_ema.diffusion_modelinput_blocks51transformer_blocks0norm3weight", [640], .float32, [key% "model_ema.input_blocks51transformer_blocks0norm3weight"], true⟩,
  ⟨key% "model_ema.diffusion_modelinput_blocks60opbias", [640], .float32, [key% "model_ema.input_blocks60opbias"], true⟩,
  ⟨key% "model_ema.diffusion_modelinput_blocks60opweight", [640, 640, 3, 3], .float32, [key% "model_ema.input_blocks60opweight"], true⟩,
  ⟨key% "model_ema.diffusion_modelinput_blocks70emb_layers1bias", [1280], .float32, [key% "model_ema.input_blocks70emb_layers1bias"], true⟩,
  ⟨key% "model_ema.diffusion_modelinput_blocks70emb_layers1weight", [1280, 1280], .float32, [key% "model_ema.input_blocks70emb_layers1weight"], true⟩,
  ⟨key% "model_ema.diffusion_modelinput_blocks70in_layers0bias", [640], .float32, [key% "model_ema.input_blocks70in_layers0bias"], true⟩,
  ⟨key% "model_ema.diffusion_modelinput_blocks70in_layers0weight", [640], .float32, [key% "model_ema.input_blocks70in_layers0weight"], true⟩,
  ⟨key% "model_ema.diffusion_modelinput_blocks70in_layers2bias", [1280], .float32, [key% "model_ema.input_blocks70in_layers2bias"], true⟩,
  ⟨key% "model_ema.diffusion_modelinput_blocks70in_layers2weight", [1280, 640, 3, 3], .float32, [key% "model_ema.input_blocks70in_layers2weight"], true⟩,
  ⟨key% "model_ema.diffusion_modelinput_blocks70out_layers0bias", [1280], .float32, [key% "model_ema.input_blocks70out_layers0bias"], true⟩,
  ⟨key% "model_ema.diffusion_modelinput_blocks70out_layers0weight", [1280], .float32, [key% "model_ema.input_blocks70out_layers0weight"], true⟩,
  ⟨key% "model_ema.diffusion_modelinput_blocks70out_layers3bias", [1280], .float32, [key% "model_ema.input_blocks70out_layers3bias"], true⟩,
  ⟨key% "model_ema.diffusion_modelinput_blocks70out_layers3weight", [1280, 1280, 3, 3], .float32, [key% "model_ema.input_blocks70out_layers3weight"], true⟩,
  ⟨key% "model_ema.diffusion_modelinput_blocks70skip_connectionbias", [1280], .float32, [key% "model_ema.input_blocks70skip_connectionbias"], true⟩,
  ⟨key% "model_ema.diffusion_modelinput_blocks70skip_connectionweight", [1280, 640, 1, 1], .float32, [key% "model_ema.input_blocks70skip_connectionweight"], true⟩,
  ⟨key% "model_ema.diffusion_modelinput_blocks71normbias", [1280], .float32, [key% "model_ema.input_blocks71normbias"], true⟩,
  ⟨key% "model_ema.diffusion_modelinput_blocks71normweight", [1280], .float32, [key% "model_ema.input_blocks71normweight"], true⟩,
  ⟨key% "model_ema.diffusion_modelinput_blocks71proj_inbias", [1280], .float32, [key% "model_ema.input_blocks71proj_inbias"], true⟩,
  ⟨key% "model_ema.diffusion_modelinput_blocks71proj_inweight", [1280, 1280, 1, 1], .float32, [key% "model_ema.input_blocks71proj_inweight"], true⟩,
  ⟨key% "model_ema.diffusion_modelinput_blocks71proj_outbias", [1280], .float32, [key% "model_ema.input_blocks71proj_outbias"], true⟩,
  ⟨key% "model_ema.diffusion_modelinput_blocks71proj_outweight", [1280, 1280, 1, 1], .float32, [key% "model_ema.input_blocks71proj_outweight"], true⟩,
  ⟨key% "model_ema.diffusion_modelinput_blocks71transformer_blocks0attn1to_kweight", [1280, 1280], .float32, [key% "model_ema.input_blocks71transformer_blocks0attn1to_kweight"], true⟩,
  ⟨key% "model_ema.diffusion_modelinput_blocks71transformer_blocks0attn1to_out0bias", [1280], .float32, [key% "model_ema.input_blocks71transformer_blocks0attn1to_out0bias"], true⟩,
  ⟨key% "model_ema.diffusion_modelinput_blocks71transformer_blocks0attn1to_out0weight", [1280, 1280], .float32, [key% "model_ema.input_blocks71transformer_blocks0attn1to_out0weight"], true⟩,
  ⟨key% "model_ema.diffusion_modelinput_blocks71transformer_blocks0attn1to_qweight", [1280, 1280], .float32, [key% "model_ema.input_blocks71transformer_blocks0attn1to_qweight"], true⟩,
  ⟨key% "model_ema.diffusion_modelinput_blocks71transformer_blocks0attn1to_vweight", [1280, 1280], .float32, [key% "model_ema.input_blocks71transformer_blocks0attn1to_vweight"], true⟩,
  ⟨key% "model_ema.diffusion_modelinput_blocks71transformer_blocks0attn2to_kweight", [1280, 768], .float32, [key% "model_ema.input_blocks71transformer_blocks0attn2to_kweight"], true⟩,
  ⟨key% "model_ema.diffusion_modelinput_blocks71transformer_blocks0attn2to_out0bias", [1280], .float32, [key% "model_ema.input_blocks71transformer_blocks0attn2to_out0bias"], true⟩,
  ⟨key% "model_ema.diffusion_modelinput_blocks71transformer_blocks0attn2to_out0weight", [1280, 1280], .float32, [key% "model_ema.input_blocks71transformer_blocks0attn2to_out0weight"], true⟩]
noncomputable def ema2 : List Entry := [
  ⟨key% "model_ema.diffusion_modelinput_blocks71transformer_blocks0attn2to_qweight", [1280, 1280], .float32, [key% "model_ema.input_blocks71transformer_blocks0attn2to_qweight"], true⟩,
  ⟨key% "model_ema.diffusion_modelinput_blocks71transformer_blocks0attn2to_vweight", [1280, 768], .float32, [key% "model_ema.input_blocks71transformer_blocks0attn2to_vweight"], true⟩,
  ⟨key% "model_ema.diffusion_modelinput_blocks71transformer_blocks0ffnet0projbias", [10240], .float32, [key% "model_ema.input_blocks71transformer_blocks0ffnet0projbias"], true⟩,
  ⟨key% "model_ema.diffusion_modelinput_blocks71transformer_blocks0ffnet0projweight", [10240, 1280], .float32, [key% "model_ema.input_blocks71transformer_blocks0ffnet0projweight"], true⟩,
  ⟨key% "model_ema.diffusion_modelinput_blocks71transformer_blocks0ffnet2bias", [1280], .float32, [key% "model_ema.input_blocks71transformer_blocks0ffnet2bias"], true⟩,
  ⟨key% "model_ema.diffusion_modelinput_blocks71transformer_blocks0ffnet2weight", [1280, 5120], .float32, [key% "model_ema.input_blocks71transformer_blocks0ffnet2weight"], true⟩,
  ⟨key% "model_ema.diffusion_modelinput_blocks71transformer_blocks0norm1bias", [1280], .float32, [key% "model_ema.input_blocks71transformer_blocks0norm1bias"], true⟩,
  ⟨key% "model_ema.diffusion_modelinput_blocks71transformer_blocks0norm1weight", [1280], .float32, [key% "model_ema.input_blocks71transformer_blocks0norm1weight"], true⟩,
  ⟨key% "model_ema.diffusion_modelinput_blocks71transformer_blocks0norm2bias", [1280], .float32, [key% "model_ema.input_blocks71transformer_blocks0norm2bias"], true⟩,
  ⟨key% "model_ema.diffusion_modelinput_blocks71transformer_blocks0norm2weight", [1280], .float32, [key% "model_ema.input_blocks71transformer_blocks0norm2weight"], true⟩,
  ⟨key% "model_ema.diffusion_modelinput_blocks71transformer_blocks0norm3bias", [1280], .float32, [key% "model_ema.input_blocks71transformer_blocks0norm3bias"], true⟩,
  ⟨key% "model_ema.diffusion_modelinput_blocks71transformer_blocks0norm3weight", [1280], .float32, [key% "model_ema.input_blocks71transformer_blocks0norm3weight"], true⟩,
  ⟨key% "model_ema.diffusion_modelinput_blocks80emb_layers1bias", [1280], .float32, [key% "model_ema.input_blocks80emb_layers1bias"], true⟩,
  ⟨key% "model_ema.diffusion_modelinput_blocks80emb_layers1weight", [1280, 1280], .float32, [key% "model_ema.input_blocks80emb_layers1weight"], true⟩,
  ⟨key% "model_ema.diffusion_modelinput_blocks80in_layers0bias", [1280], .float32, [key% "model_ema.input_blocks80in_layers0bias"], true⟩,
  ⟨key% "model_ema.diffusion_modelinput_blocks80in_layers0weight", [1280], .float32, [key% "model_ema.input_blocks80in_layers0weight"], true⟩,
  ⟨key% "model_ema.diffusion_modelinput_blocks80in_layers2bias", [1280], .float32, [key% "model_ema.input_blocks80in_layers2bias"], true⟩,
  ⟨key% "model_ema.diffusion_modelinput_blocks80in_layers2weight", [1280, 1280, 3, 3], .float32, [key% "model_ema.input_blocks80in_layers2weight"], true⟩,
  ⟨key% "model_ema.diffusion_modelinput_blocks80out_layers0bias", [1280], .float32, [key% "model_ema.input_blocks80out_layers0bias"], true⟩,
  ⟨key% "model_ema.diffusion_modelinput_blocks80out_layers0weight", [1280], .float32, [key% "model_ema.input_blocks80out_layers0weight"], true⟩,
  ⟨key% "model_ema.diffusion_modelinput_blocks80out_layers3bias", [1280], .float32, [key% "model_ema.input_blocks80out_layers3bias"], true⟩,
  ⟨key% "model_ema.diffusion_modelinput_blocks80out_layers3weight", [1280, 1280, 3, 3], .float32, [key% "model_ema.input_blocks80out_layers3weight"], true⟩,
  ⟨key% "model_ema.diffusion_modelinput_blocks81normbias", [1280], .float32, [key% "model_ema.input_blocks81normbias"], true⟩,
  ⟨key% "model_ema.diffusion_modelinput_blocks81normweight", [1280], .float32, [key% "model_ema.input_blocks81normweight"], true⟩,
  ⟨key% "model_ema.diffusion_modelinput_blocks81proj_inbias", [1280], .float32, [key% "model_ema.input_blocks81proj_inbias"], true⟩,
  ⟨key% "model_ema.diffusion_modelinput_blocks81proj_inweight", [1280, 1280, 1, 1], .float32, [key% "model_ema.input_blocks81proj_inweight"], true⟩,
  ⟨key% "model_ema.diffusion_modelinput_blocks81proj_outbias", [1280], .float32, [key% "model_ema.input_blocks81proj_outbias"], true⟩,
  ⟨key% "model_ema.diffusion_modelinput_blocks81proj_outweight", [1280, 1280, 1, 1], .float32, [key% "model_ema.input_blocks81proj_outweight"], true⟩,
  ⟨key% "model_ema.diffusion_modelinput_blocks81transformer_blocks0attn1to_kweight", [1280, 1280], .float32, [key% "model_ema.input_blocks81transformer_blocks0attn1to_kweight"], true⟩,
  ⟨key% "model_ema.diffusion_modelinput_blocks81transformer_blocks0attn1to_out0bias", [1280], .float32, [key% "model_ema.input_blocks81transformer_blocks0attn1to_out0bias"], true⟩,
  ⟨key% "model_ema.diffusion_modelinput_blocks81transformer_blocks0attn1to_out0weight", [1280, 1280], .float32, [key% "model_ema.input_blocks81transformer_blocks0attn1to_out0weight"], true⟩,
  ⟨key% "model_ema.diffusion_modelinput_blocks81transformer_blocks0attn1to_qweight", [1280, 1280], .float32, [key% "model_ema.input_blocks81transformer_blocks0attn1to_qweight"], true⟩,
  ⟨key% "model_ema.diffusion_modelinput_blocks81transformer_blocks0attn1to_vweight", [1280, 1280], .float32, [key% "model_ema.input_blocks81transformer_blocks0attn1to_vweight"], true⟩,
  ⟨key% "model_ema.diffusion_modelinput_blocks81transformer_blocks0attn2to_kweight", [1280, 768], .float32, [key% "model_ema.input_blocks81transformer_blocks0attn2to_kweight"], true⟩,
  ⟨key% "model_ema.diffusion_modelinput_blocks81transformer_blocks0attn2to_out0bias", [1280], .float32, [key% "model_ema.input_blocks81transformer_blocks0attn2to_out0bias"], true⟩,
  ⟨key% "model_ema.diffusion_modelinput_blocks81transformer_blocks0attn2to_out0weight", [1280, 1280], .float32, [key% "model_ema.input_blocks81transformer_blocks0attn2to_out0weight"], true⟩,
  ⟨key% "model_ema.diffusion_modelinput_blocks81transformer_blocks0attn2to_qweight", [1280, 1280], .float32, [key% "model_ema.input_blocks81transformer_blocks0attn2to_qweight"], true⟩,
  ⟨key% "model_ema.diffusion_modelinput_blocks81transformer_blocks0attn2to_vweight", [1280, 768], .float32, [key% "model_ema.input_blocks81transformer_blocks0attn2to_vweight"], true⟩,
  ⟨key% "model_ema.diffusion_modelinput_blocks81transformer_blocks0ffnet0projbias", [10240], .float32, [key% "model_ema.input_blocks81transformer_blocks0ffnet0projbias"], true⟩,
  ⟨key% "model_ema.diffusion_modelinput_blocks81transformer_blocks0ffnet0projweight", [10240, 1280], .float32, [key% "model_ema.input_blocks81transformer_blocks0ffnet0projweight"], true⟩,
  ⟨key% "model_ema.diffusion_modelinput_blocks81transformer_blocks0ffnet2bias", [1280], .float32, [key% "model_ema.input_blocks81transformer_blocks0ffnet2bias"], true⟩,
  ⟨key% "model_ema.diffusion_modelinput_blocks81transformer_blocks0ffnet2weight", [1280, 5120], .float32, [key% "model_ema.input_blocks81transformer_blocks0ffnet2weight"], true⟩,
  ⟨key% "model_ema.diffusion_modelinput_blocks81transformer_blocks0norm1bias", [1280], .float32, [key% "model_ema.input_blocks81transformer_blocks0norm1bias"], true⟩,
  ⟨key% "model_ema.diffusion_modelinput_blocks81transformer_blocks0norm1weight", [1280], .float32, [key% "model_ema.input_blocks81transformer_blocks0norm1weight"], true⟩,
  ⟨key% "model_ema.diffusion_modelinput_blocks81transformer_blocks0norm2bias", [1280], .float32, [key% "model_ema.input_blocks81transformer_blocks0norm2bias"], true⟩,
  ⟨key% "model_ema.diffusion_modelinput_blocks81transformer_blocks0norm2weight", [1280], .float32, [key% "model_ema.input_blocks81transformer_blocks0norm2weight"], true⟩,
  ⟨key% "model_ema.diffusion_modelinput_blocks81transformer_blocks0norm3bias", [1280], .float32, [key% "model_ema.input_blocks81transformer_blocks0norm3bias"], true⟩,
  ⟨key% "model_ema.diffusion_modelinput_blocks81transformer_blocks0norm3weight", [1280], .float32, [key% "model_ema.input_blocks81transformer_blocks0norm3weight"], true⟩,
  ⟨key% "model_ema.diffusion_modelinput_blocks90opbias", [1280], .float32, [key% "model_ema.input_blocks90opbias"], true⟩,
  ⟨key% "model_ema.diffusion_modelinput_blocks90opweight", [1280, 1280, 3, 3], .float32, [key% "model_ema.input_blocks90opweight"], true⟩,
  ⟨key% "model_ema.diffusion_modelmiddle_block0emb_layers1bias", [1280], .float32, [key% "model_ema.middle_block0emb_layers1bias"], true⟩,
  ⟨key% "model_ema.diffusion_modelmiddle_block0emb_layers1weight", [1280, 1280], .float32, [key% "model_ema.middle_block0emb_layers1weight"], true⟩,
  ⟨key% "model_ema.diffusion_modelmiddle_block0in_layers0bias", [1280], .float32, [key% "model_ema.middle_block0in_layers0bias"], true⟩,
  ⟨key% "model_ema.diffusion_modelmiddle_block0in_layers0weight", [1280], .float32, [key% "model_ema.middle_block0in_layers0weight"], true⟩,
  ⟨key% "model_ema.diffusion_modelmiddle_block0in_layers2bias", [1280], .float32, [key% "model_ema.middle_block0in_layers2bias"], true⟩,
  ⟨key% "model_ema.diffusion_modelmiddle_block0in_layers2weight", [1280, 1280, 3, 3], .float32, [key% "model_ema.middle_block0in_layers2weight"], true⟩,
  ⟨key% "model_ema.diffusion_modelmiddle_block0out_layers0bias", [1280], .float32, [key% "model_ema.middle_block0out_layers0bias"], true⟩,
  ⟨key% "model_ema.diffusion_modelmiddle_block0out_layers0weight", [1280], .float32, [key% "model_ema.middle_block0out_layers0weight"], true⟩,
  ⟨key% "model_ema.diffusion_modelmiddle_block0out_layers3bias", [1280], .float32, [key% "model_ema.middle_block0out_layers3bias"], true⟩,
  ⟨key% "model_ema.diffusion_modelmiddle_block0out_layers3weight", [1280, 1280, 3, 3], .float32, [key% "model_ema.middle_block0out_layers3weight"], true⟩,
  ⟨key% "model_ema.diffusion_modelmiddle_block1normbias", [1280], .float32, [key% "model_ema.middle_block1normbias"], true⟩,
  ⟨key% "model_ema.diffusion_modelmiddle_block1normweight", [1280], .float32, [key% "model_ema.middle_block1normweight"], true⟩,
  ⟨key% "model_ema.diffusion_modelmiddle_block1proj_inbias", [1280], .float32, [key% "model_ema.middle_block1proj_inbias"], true⟩,
  ⟨key% "model_ema.diffusion_modelmiddle_block1proj_inweight", [1280, 1280, 1, 1], .float32, [key% "model_ema.middle_block1proj_inweight"], true⟩,
  ⟨key% "model_ema.diffusion_modelmiddle_block1proj_outbias", [1280], .float32, [key% "model_ema.middle_block1proj_outbias"], true⟩,
  ⟨key% "model_ema.diffusion_modelmiddle_block1proj_outweight", [1280, 1280, 1, 1], .float32, [key% "model_ema.middle_block1proj_outweight"], true⟩,
  ⟨key% "model_ema.diffusion_modelmiddle_block1transformer_blocks0attn1to_kweight", [1280, 1280], .float32, [key% "model_ema.middle_block1transformer_blocks0attn1to_kweight"], true⟩,
  ⟨key% "model_ema.diffusion_modelmiddle_block1transformer_blocks0attn1to_out0bias", [1280], .float32, [key% "model_ema.middle_block1transformer_blocks0attn1to_out0bias"], true⟩,
  ⟨key% "model_ema.diffusion_modelmiddle_block1transformer_blocks0attn1to_out0weight", [1280, 1280], .float32, [key% "model_ema.middle_block1transformer_blocks0attn1to_out0weight"], true⟩,
  ⟨key% "model_ema.diffusion_modelmiddle_block1transformer_blocks0attn1to_qweight", [1280, 1280], .float32, [key% "model_ema.middle_block1transformer_blocks0attn1to_qweight"], true⟩,
  ⟨key% "model_ema.diffusion_modelmiddle_block1transformer_blocks0attn1to_vweight", [1280, 1280], .float32, [key% "model_ema.middle_block1transformer_blocks0attn1to_vweight"], true⟩,
  ⟨key% "model_ema.diffusion_modelmiddle_block1transformer_blocks0attn2to_kweight", [1280, 768], .float32, [key% "model_ema.middle_block1transformer_blocks0attn2to_kweight"], true⟩,
  ⟨key% "model_ema.diffusion_modelmiddle_block1transformer_blocks0attn2to_out0bias", [1280], .float32, [key% "model_ema.middle_block1transformer_blocks0attn2to_out0bias"], true⟩,
  ⟨key% "model_ema.diffusion_modelmiddle_block1transformer_blocks0attn2to_out0weight", [1280, 1280], .float32, [key% "model_ema.middle_block1transformer_blocks0attn2to_out0weight"], true⟩,
  ⟨key% "model_ema.diffusion_modelmiddle_block1transformer_blocks0attn2to_qweight", [1280, 1280], .float32, [key% "model_ema.middle_block1transformer_blocks0attn2to_qweight"], true⟩,
  ⟨key% "model_ema.diffusion_modelmiddle_block1transformer_blocks0attn2to_vweight", [1280, 768], .float32, [key% "model_ema.middle_block1transformer_blocks0attn2to_vweight"], true⟩,
  ⟨key% "model_ema.diffusion_modelmiddle_block1transformer_blocks0ffnet0projbias", [10240], .float32, [key% "model_ema.middle_block1transformer_blocks0ffnet0projbias"], true⟩,
  ⟨key% "model_ema.diffusion_modelmiddle_block1transformer_blocks0ffnet0projweight", [10240, 1280], .float32, [key% "model_ema.middle_block1transformer_blocks0ffnet0projweight"], true⟩,
  ⟨key% "model_ema.diffusion_modelmiddle_block1transformer_blocks0ffnet2bias", [1280], .float32, [key% "model_ema.middle_block1transformer_blocks0ffnet2bias"], true⟩,
  ⟨key% "model_ema.diffusion_modelmiddle_block1transformer_blocks0ffnet2weight", [1280, 5120], .float32, [key% "model_ema.middle_block1transformer_blocks0ffnet2weight"], true⟩,
  ⟨key% "model_ema.diffusion_modelmiddle_block1transformer_blocks0norm1bias", [1280], .float32, [key% "model_ema.middle_block1transformer_blocks0norm1bias"], true⟩,
  ⟨key% "model_ema.diffusion_modelmiddle_block1transformer_blocks0norm1weight", [1280], .float32, [key% "model_ema.middle_block1transformer_blocks0norm1weight"], true⟩,
  ⟨key% "model_ema.diffusion_modelmiddle_block1transformer_blocks0norm2bias", [1280], .float32, [key% "model_ema.middle_block1transformer_blocks0norm2bias"], true⟩,
  ⟨key% "model_ema.diffusion_modelmiddle_block1transformer_blocks0norm2weight", [1280], .float32, [key% "model_ema.middle_block1transformer_blocks0norm2weight"], true⟩,
  ⟨key% "model_ema.diffusion_modelmiddle_block1transformer_blocks0norm3bias", [1280], .float32, [key% "model_ema.middle_block1transformer_blocks0norm3bias"], true⟩,
  ⟨key% "model_ema.diffusion_modelmiddle_block1transformer_blocks0norm3weight", [1280], .float32, [key% "model_ema.middle_block1transformer_blocks0norm3weight"], true⟩,
  ⟨key% "model_ema.diffusion_modelmiddle_block2emb_layers1bias", [1280], .float32, [key% "model_ema.middle_block2emb_layers1bias"], true⟩,
  ⟨key% "model_ema.diffusion_modelmiddle_block2emb_layers1weight", [1280, 1280], .float32, [key% "model_ema.middle_block2emb_layers1weight"], true⟩,
  ⟨key% "model_ema.diffusion_modelmiddle_block2in_layers0bias", [1280], .float32, [key% "model_ema.middle_block2in_layers0bias"], true⟩,
  ⟨key% "model_ema.diffusion_modelmiddle_block2in_layers0weight", [1280], .float32, [key% "model_ema.middle_block2in_layers0weight"], true⟩,
  ⟨key% "model_ema.diffusion_modelmiddle_block2in_layers2bias", [1280], .float32, [key% "model_ema.middle_block2in_layers2bias"], true⟩,
  ⟨key% "model_ema.diffusion_modelmiddle_block2in_layers2weight", [1280, 1280, 3, 3], .float32, [key% "model_ema.middle_block2in_layers2weight"], true⟩,
  ⟨key% "model_ema.diffusion_modelmiddle_block2out_layers0bias", [1280], .float32, [key% "model_ema.middle_block2out_layers0bias"], true⟩,
  ⟨key% "model_ema.diffusion_modelmiddle_block2out_layers0weight", [1280], .float32, [key% "model_ema.middle_block2out_layers0weight"], true⟩,
  ⟨key% "model_ema.diffusion_modelmiddle_block2out_layers3bias", [1280], .float32, [key% "model_ema.middle_block2out_layers3bias"], true⟩,
  ⟨key% "model_ema.diffusion_modelmiddle_block2out_layers3weight", [1280, 1280, 3, 3], .float32, [key% "model_ema.middle_block2out_layers3weight"], true⟩,
  ⟨key% "model_ema.diffusion_modelout0bias", [320], .float32, [key% "model_ema.out0bias"], true⟩,
  ⟨key% "model_ema.diffusion_modelout0weight", [320], .float32, [key% "model_ema.out0weight"], true⟩,
  ⟨key% "model_ema.diffusion_modelout2bias", [4], .float32, [key% "model_ema.out2bias"], true⟩,
  ⟨key% "model_ema.diffusion_modelout2weight", [4, 320, 3, 3], .float32, [key% "model_ema.out2weight"], true⟩]
noncomputable def ema3 : List Entry := [
  ⟨key% "model_ema.diffusion_modeloutput_blocks00emb_layers1bias", [1280], .float32, [key% "model_ema.output_blocks00emb_layers1bias"], true⟩,
  ⟨key% "model_ema.diffusion_modeloutput_blocks00emb_layers1weight", [1280, 1280], .float32, [key% "model_ema.output_blocks00emb_layers1weight"], true⟩,
  ⟨key% "model_ema.diffusion_modeloutput_blocks00in_layers0bias", [2560], .float32, [key% "model_ema.output_blocks00in_layers0bias"], true⟩,
  ⟨key% "model_ema.diffusion_modeloutput_blocks00in_layers0weight", [2560], .float32, [key% "model_ema.output_blocks00in_layers0weight"], true⟩,
  ⟨key% "model_ema.diffusion_modeloutput_blocks00in_layers2bias", [1280], .float32, [key% "model_ema.output_blocks00in_layers2bias"], true⟩,
  ⟨key% "model_ema.diffusion_modeloutput_blocks00in_layers2weight", [1280, 2560, 3, 3], .float32, [key% "model_ema.output_blocks00in_layers2weight"], true⟩,
  ⟨key% "model_ema.diffusion_modeloutput_blocks00out_layers0bias", [1280], .float32, [key% "model_ema.output_blocks00out_layers0bias"], true⟩,
  ⟨key% "model_ema.diffusion_modeloutput_blocks00out_layers0weight", [1280], .float32, [key% "model_ema.output_blocks00out_layers0weight"], true⟩,
  ⟨key% "model_ema.diffusion_modeloutput_blocks00out_layers3bias", [1280], .float32, [key% "model_ema.output_blocks00out_layers3bias"], true⟩,
  ⟨key% "model_ema.diffusion_modeloutput_blocks00out_layers3weight", [1280, 1280, 3, 3], .float32, [key% "model_ema.output_blocks00out_layers3weight"], true⟩,
  ⟨key% "model_ema.diffusion_modeloutput_blocks00skip_connectionbias", [1280], .float32, [key% "model_ema.output_blocks00skip_connectionbias"], true⟩,
  ⟨key% "model_ema.diffusion_modeloutput_blocks00skip_connectionweight", [1280, 2560, 1, 1], .float32, [key% "model_ema.output_blocks00skip_connectionweight"], true⟩,
  ⟨key% "model_ema.diffusion_modeloutput_blocks100emb_layers1bias", [320], .float32, [key% "model_ema.output_blocks100emb_layers1bias"], true⟩,
  ⟨key% "model_ema.diffusion_modeloutput_blocks100emb_layers1weight", [320, 1280], .float32, [key% "model_ema.output_blocks100emb_layers1weight"], true⟩,
  ⟨key% "model_ema.diffusion_modeloutput_blocks100in_layers0bias", [640], .float32, [key% "model_ema.output_blocks100in_layers0bias"], true⟩,
  ⟨key% "model_ema.diffusion_modeloutput_blocks100in_layers0weight", [640], .float32, [key% "model_ema.output_blocks100in_layers0weight"], true⟩,
  ⟨key% "model_ema.diffusion_modeloutput_blocks100in_layers2bias", [320], .float32, [key% "model_ema.output_blocks100in_layers2bias"], true⟩,
  ⟨key% "model_ema.diffusion_modeloutput_blocks100in_layers2weight", [320, 640, 3, 3], .float32, [key% "model_ema.output_blocks100in_layers2weight"], true⟩,
  ⟨key% "model_ema.diffusion_modeloutput_blocks100out_layers0bias", [320], .float32, [key% "model_ema.output_blocks100out_layers0bias"], true⟩,
  ⟨key% "model_ema.diffusion_modeloutput_blocks100out_layers0weight", [320], .float32, [key% "model_ema.output_blocks100out_layers0weight"], true⟩,
  ⟨key% "model_ema.diffusion_modeloutput_blocks100out_layers3bias", [320], .float32, [key% "model_ema.output_blocks100out_layers3bias"], true⟩,
  ⟨key% "model_ema.diffusion_modeloutput_blocks100out_layers3weight", [320, 320, 3, 3], .float32, [key% "model_ema.output_blocks100out_layers3weight"], true⟩,
  ⟨key% "model_ema.diffusion_modeloutput_blocks100skip_connectionbias", [320], .float32, [key% "model_ema.output_blocks100skip_connectionbias"], true⟩,
  ⟨key% "model_ema.diffusion_modeloutput_blocks100skip_connectionweight", [320, 640, 1, 1], .float32, [key% "model_ema.output_blocks100skip_connectionweight"], true⟩,
  ⟨key% "model_ema.diffusion_modeloutput_blocks101normbias", [320], .float32, [key% "model_ema.output_blocks101normbias"], true⟩,
  ⟨key% "model_ema.diffusion_modeloutput_blocks101normweight", [320], .float32, [key% "model_ema.output_blocks101normweight"], true⟩,
  ⟨key% "model_ema.diffusion_modeloutput_blocks101proj_inbias", [320], .float32, [key% "model_ema.output_blocks101proj_inbias"], true⟩,
  ⟨key% "model_ema.diffusion_modeloutput_blocks101proj_inweight", [320, 320, 1, 1], .float32, [key% "model_ema.output_blocks101proj_inweight"], true⟩,
  ⟨key% "model_ema.diffusion_modeloutput_blocks101proj_outbias", [320], .float32, [key% "model_ema.output_blocks101proj_outbias"], true⟩,
  ⟨key% "model_ema.diffusion_modeloutput_blocks101proj_outweight", [320, 320, 1, 1], .float32, [key% "model_ema.output_blocks101proj_outweight"], true⟩,
  ⟨key% "model_ema.diffusion_modeloutput_blocks101transformer_blocks0attn1to_kweight", [320, 320], .float32, [key% "model_ema.output_blocks101transformer_blocks0attn1to_kweight"], true⟩,
  ⟨key% "model_ema.diffusion_modeloutput_blocks101transformer_blocks0attn1to_out0bias", [320], .float32, [key% "model_ema.output_blocks101transformer_blocks0attn1to_out0bias"], true⟩,
  ⟨key% "model_ema.diffusion_modeloutput_blocks101transformer_blocks0attn1to_out0weight", [320, 320], .float32, [key% "model_ema.output_blocks101transformer_blocks0attn1to_out0weight"], true⟩,
  ⟨key% "model_ema.diffusion_modeloutput_blocks101transformer_blocks0attn1to_qweight", [320, 320], .float32, [key% "model_ema.output_blocks101transformer_blocks0attn1to_qweight"], true⟩,
  ⟨key% "model_ema.diffusion_modeloutput_blocks101transformer_blocks0attn1to_vweight", [320, 320], .float32, [key% "model_ema.output_blocks101transformer_blocks0attn1to_vweight"], true⟩,
  ⟨key% "model_ema.diffusion_modeloutput_blocks101transformer_blocks0attn2to_kweight", [320, 768], .float32, [key% "model_ema.output_blocks101transformer_blocks0attn2to_kweight"], true⟩,
  ⟨key% "model_ema.diffusion_modeloutput_blocks101transformer_blocks0attn2to_out0bias", [320], .float32, [key% "model_ema.output_blocks101transformer_blocks0attn2to_out0bias"], true⟩,
  ⟨key% "model_ema.diffusion_modeloutput_blocks101transformer_blocks0attn2to_out0weight", [320, 320], .float32, [key% "model_ema.output_blocks101transformer_blocks0attn2to_out0weight"], true⟩,
  ⟨key% "model_ema.diffusion_modeloutput_blocks101transformer_blocks0attn2to_qweight", [320, 320], .float32, [key% "model_ema.output_blocks101transformer_blocks0attn2to_qweight"], true⟩,
  ⟨key% "model_ema.diffusion_modeloutput_blocks101transformer_blocks0attn2to_vweight", [320, 768], .float32, [key% "model_ema.output_blocks101transformer_blocks0attn2to_vweight"], true⟩,
  ⟨key% "model_ema.diffusion_modeloutput_blocks101transformer_blocks0ffnet0projbias", [2560], .float32, [key% "model_ema.output_blocks101transformer_blocks0ffnet0projbias"], true⟩,
  ⟨key% "model_ema.diffusion_modeloutput_blocks101transformer_blocks0ffnet0projweight", [2560, 320], .float32, [key% "model_ema.output_blocks101transformer_blocks0ffnet0projweight"], true⟩,
  ⟨key% "model_ema.diffusion_modeloutput_blocks101transformer_blocks0ffnet2bias", [320], .float32, [key% "model_ema.output_blocks101transformer_blocks0ffnet2bias"], true⟩,
  ⟨key% "model_ema.diffusion_modeloutput_blocks101transformer_blocks0ffnet2weight", [320, 1280], .float32, [key% "model_ema.output_blocks101transformer_blocks0ffnet2weight"], true⟩,
  ⟨key% "model_ema.diffusion_modeloutput_blocks101transformer_blocks0norm1bias", [320], .float32, [key% "model_ema.output_blocks101transformer_blocks0norm1bias"], true⟩,
  ⟨key% "model_ema.diffusion_modeloutput_blocks101transformer_blocks0norm1weight", [320], .float32, [key% "model_ema.output_blocks101transformer_blocks0norm1weight"], true⟩,
  ⟨key% "model_ema.diffusion_modeloutput_blocks101transformer_blocks0norm2bias", [320], .float32, [key% "model_ema.output_blocks101transformer_blocks0norm2bias"], true⟩,
  ⟨key% "model_ema.diffusion_modeloutput_blocks101transformer_blocks0norm2weight", [320], .float32, [key% "model_ema.output_blocks101transformer_blocks0norm2weight"], true⟩,
  ⟨key% "model_ema.diffusion_modeloutput_blocks101transformer_blocks0norm3bias", [320], .float32, [key% "model_ema.output_blocks101transformer_blocks0norm3bias"], true⟩,
  ⟨key% "model_ema.diffusion_modeloutput_blocks101transformer_blocks0norm3weight", [320], .float32, [key% "model_ema.output_blocks101transformer_blocks0norm3weight"], true⟩,
  ⟨key% "model_ema.diffusion_modeloutput_blocks10emb_layers1bias", [1280], .float32, [key% "model_ema.output_blocks10emb_layers1bias"], true⟩,
  ⟨key% "model_ema.diffusion_modeloutput_blocks10emb_layers1weight", [1280, 1280], .float32, [key% "model_ema.output_blocks10emb_layers1weight"], true⟩,
  ⟨key% "model_ema.diffusion_modeloutput_blocks10in_layers0bias", [2560], .float32, [key% "model_ema.output_blocks10in_layers0bias"], true⟩,
  ⟨key% "model_ema.diffusion_modeloutput_blocks10in_layers0weight", [2560], .float32, [key% "model_ema.output_blocks10in_layers0weight"], true⟩,
  ⟨key% "model_ema.diffusion_modeloutput_blocks10in_layers2bias", [1280], .float32, [key% "model_ema.output_blocks10in_layers2bias"], true⟩,
  ⟨key% "model_ema.diffusion_modeloutput_blocks10in_layers2weight", [1280, 2560, 3, 3], .float32, [key% "model_ema.output_blocks10in_layers2weight"], true⟩,
  ⟨key% "model_ema.diffusion_modeloutput_blocks10out_layers0bias", [1280], .float32, [key% "model_ema.output_blocks10out_layers0bias"], true⟩,
  ⟨key% "model_ema.diffusion_modeloutput_blocks10out_layers0weight", [1280], .float32, [key% "model_ema.output_blocks10out_layers0weight"], true⟩,
  ⟨key% "model_ema.diffusion_modeloutput_blocks10out_layers3bias", [1280], .float32, [key% "model_ema.output_blocks10out_layers3bias"], true⟩,
  ⟨key% "model_ema.diffusion_modeloutput_blocks10out_layers3weight", [1280, 1280, 3, 3], .float32, [key% "model_ema.output_blocks10out_layers3weight"], true⟩,
  ⟨key% "model_ema.diffusion_modeloutput_blocks10skip_connectionbias", [1280], .float32, [key% "model_ema.output_blocks10skip_connectionbias"], true⟩,
  ⟨key% "model_ema.diffusion_modeloutput_blocks10skip_connectionweight", [1280, 2560, 1, 1], .float32, [key% "model_ema.output_blocks10skip_connectionweight"], true⟩,
  ⟨key% "model_ema.diffusion_modeloutput_blocks110emb_layers1bias", [320], .float32, [key% "model_ema.output_blocks110emb_layers1bias"], true⟩,
  ⟨key% "model_ema.diffusion_modeloutput_blocks110emb_layers1weight", [320, 1280], .float32, [key% "model_ema.output_blocks110emb_layers1weight"], true⟩,
  ⟨key% "model_ema.diffusion_modeloutput_blocks110in_layers0bias", [640], .float32, [key% "model_ema.output_blocks110in_layers0bias"], true⟩,
  ⟨key% "model_ema.diffusion_modeloutput_blocks110in_layers0weight", [640], .float32, [key% "model_ema.output_blocks110in_layers0weight"], true⟩,
  ⟨key% "model_ema.diffusion_modeloutput_blocks110in_layers2bias", [320], .float32, [key% "model_ema.output_blocks110in_layers2bias"], true⟩,
  ⟨key% "model_ema.diffusion_modeloutput_blocks110in_layers2weight", [320, 640, 3, 3], .float32, [key% "model_ema.output_blocks110in_layers2weight"], true⟩,
  ⟨key% "model_ema.diffusion_modeloutput_blocks110out_layers0bias", [320], .float32, [key% "model_ema.output_blocks110out_layers0bias"], true⟩,
  ⟨key% "model_ema.diffusion_modeloutput_blocks110out_layers0weight", [320], .float32, [key% "model_ema.output_blocks110out_layers0weight"], true⟩,
  ⟨key% "model_ema.diffusion_modeloutput_blocks110out_layers3bias", [320], .float32, [key% "model_ema.output_blocks110out_layers3bias"], true⟩,
  ⟨key% "model_ema.diffusion_modeloutput_blocks110out_layers3weight", [320, 320, 3, 3], .float32, [key% "model_ema.output_blocks110out_layers3weight"], true⟩,
  ⟨key% "model_ema.diffusion_modeloutput_blocks110skip_connectionbias", [320], .float32, [key% "model_ema.output_blocks110skip_connectionbias"], true⟩,
  ⟨key% "model_ema.diffusion_modeloutput_blocks110skip_connectionweight", [320, 640, 1, 1], .float32, [key% "model_ema.output_blocks110skip_connectionweight"], true⟩,
  ⟨key% "model_ema.diffusion_modeloutput_blocks111normbias", [320], .float32, [key% "model_ema.output_blocks111normbias"], true⟩,
  ⟨key% "model_ema.diffusion_modeloutput_blocks111normweight", [320], .float32, [key% "model_ema.output_blocks111normweight"], true⟩,
  ⟨key% "model_ema.diffusion_modeloutput_blocks111proj_inbias", [320], .float32, [key% "model_ema.output_blocks111proj_inbias"], true⟩,
  ⟨key% "model_ema.diffusion_modeloutput_blocks111proj_inweight", [320, 320, 1, 1], .float32, [key% "model_ema.output_blocks111proj_inweight"], true⟩,
  ⟨key% "model_ema.diffusion_modeloutput_blocks111proj_outbias", [320], .float32, [key% "model_ema.output_blocks111proj_outbias"], true⟩,
  ⟨key% "model_ema.diffusion_modeloutput_blocks111proj_outweight", [320, 320, 1, 1], .float32, [key% "model_ema.output_blocks111proj_outweight"], true⟩,
  ⟨key% "model_ema.diffusion_modeloutput_blocks111transformer_blocks0attn1to_kweight", [320, 320], .float32, [key% "model_ema.output_blocks111transformer_blocks0attn1to_kweight"], true⟩,
  ⟨key% "model_ema.diffusion_modeloutput_blocks111transformer_blocks0attn1to_out0bias", [320], .float32, [key% "model_ema.output_blocks111transformer_blocks0attn1to_out0bias"], true⟩,
  ⟨key% "model_ema.diffusion_modeloutput_blocks111transformer_blocks0attn1to_out0weight", [320, 320], .float32, [key% "model_ema.output_blocks111transformer_blocks0attn1to_out0weight"], true⟩,
  ⟨key% "model_ema.diffusion_modeloutput_blocks111transformer_blocks0attn1to_qweight", [320, 320], .float32, [key% "model_ema.output_blocks111transformer_blocks0attn1to_qweight"], true⟩,
  ⟨key% "model_ema.diffusion_modeloutput_blocks111transformer_blocks0attn1to_vweight", [320, 320], .float32, [key% "model_ema.output_blocks111transformer_blocks0attn1to_vweight"], true⟩,
  ⟨key% "model_ema.diffusion_modeloutput_blocks111transformer_blocks0attn2to_kweight", [320, 768], .float32, [key% "model_ema.output_blocks111transformer_blocks0attn2to_kweight"], true⟩,
  ⟨key% "model_ema.diffusion_modeloutput_blocks111transformer_blocks0attn2to_out0bias", [320], .float32, [key% "model_ema.output_blocks111transformer_blocks0attn2to_out0bias"], true⟩,
  ⟨key% "model_ema.diffusion_modeloutput_blocks111transformer_blocks0attn2to_out0weight", [320, 320], .float32, [key% "model_ema.output_blocks111transformer_blocks0attn2to_out0weight"], true⟩,
  ⟨key% "model_ema.diffusion_modeloutput_blocks111transformer_blocks0attn2to_qweight", [320, 320], .float32, [key% "model_ema.output_blocks111transformer_blocks0attn2to_qweight"], true⟩,
  ⟨key% "model_ema.diffusion_modeloutput_blocks111transformer_blocks0attn2to_vweight", [320, 768], .float32, [key% "model_ema.output_blocks111transformer_blocks0attn2to_vweight"], true⟩,
  ⟨key% "model_ema.diffusion_modeloutput_blocks111transformer_blocks0ffnet0projbias", [2560], .float32, [key% "model_ema.output_blocks111transformer_blocks0ffnet0projbias"], true⟩,
  ⟨key% "model_ema.diffusion_modeloutput_blocks111transformer_blocks0ffnet0projweight", [2560, 320], .float32, [key% "model_ema.output_blocks111transformer_blocks0ffnet0projweight"], true⟩,
  ⟨key% "model_ema.diffusion_modeloutput_blocks111transformer_blocks0ffnet2bias", [320], .float32, [key% "model_ema.output_blocks111transformer_blocks0ffnet2bias"], true⟩,
  ⟨key% "model_ema.diffusion_modeloutput_blocks111transformer_blocks0ffnet2weight", [320, 1280], .float32, [key% "model_ema.output_blocks111transformer_blocks0ffnet2weight"], true⟩,
  ⟨key% "model_ema.diffusion_modeloutput_blocks111transformer_blocks0norm1bias", [320], .float32, [key% "model_ema.output_blocks111transformer_blocks0norm1bias"], true⟩,
  ⟨key% "model_ema.diffusion_modeloutput_blocks111transformer_blocks0norm1weight", [320], .float32, [key% "model_ema.output_blocks111transformer_blocks0norm1weight"], true⟩,
  ⟨key% "model_ema.diffusion_modeloutput_blocks111transformer_blocks0norm2bias", [320], .float32, [key% "model_ema.output_blocks111transformer_blocks0norm2bias"], true⟩,
  ⟨key% "model_ema.diffusion_modeloutput_blocks111transformer_blocks0norm2weight", [320], .float32, [key% "model_ema.output_blocks111transformer_blocks0norm2weight"], true⟩,
  ⟨key% "model_ema.diffusion_modeloutput_blocks111transformer_blocks0norm3bias", [320], .float32, [key% "model_ema.output_blocks111transformer_blocks0norm3bias"], true⟩,
  ⟨key% "model_ema.diffusion_modeloutput_blocks111transformer_blocks0norm3weight", [320], .float32, [key% "model_ema.output_blocks111transformer_blocks0norm3weight"], true⟩]
noncomputable def ema4 : List Entry := [
  ⟨key% "model_ema.diffusion_modeloutput_blocks20emb_layers1bias", [1280], .float32, [key% "model_ema.output_blocks20emb_layers1bias"], true⟩,
  ⟨key% "model_ema.diffusion_modeloutput_blocks20emb_layers1weight", [1280, 1280], .float32, [key% "model_ema.output_blocks20emb_layers1weight"], true⟩,
  ⟨key% "model_ema.diffusion_modeloutput_blocks20in_layers0bias", [2560], .float32, [key% "model_ema.output_blocks20in_layers0bias"], true⟩,
  ⟨key% "model_ema.diffusion_modeloutput_blocks20in_layers0weight", [2560], .float32, [key% "model_ema.output_blocks20in_layers0weight"], true⟩,
  ⟨key% "model_ema.diffusion_modeloutput_blocks20in_layers2bias", [1280], .float32, [key% "model_ema.output_blocks20in_layers2bias"], true⟩,
  ⟨key% "model_ema.diffusion_modeloutput_blocks20in_layers2weight", [1280, 2560, 3, 3], .float32, [key% "model_ema.output_blocks20in_layers2weight"], true⟩,
  ⟨key% "model_ema.diffusion_modeloutput_blocks20out_layers0bias", [1280], .float32, [key% "model_ema.output_blocks20out_layers0bias"], true⟩,
  ⟨key% "model_ema.diffusion_modeloutput_blocks20out_layers0weight", [1280], .float32, [key% "model_ema.output_blocks20out_layers0weight"], true⟩,
  ⟨key% "model_ema.diffusion_modeloutput_blocks20out_layers3bias", [1280], .float32, [key% "model_ema.output_blocks20out_layers3bias"], true⟩,
  ⟨key% "model_ema.diffusion_modeloutput_blocks20out_layers3weight", [1280, 1280, 3, 3], .float32, [key% "model_ema.output_blocks20out_layers3weight"], true⟩,
  ⟨key% "model_ema.diffusion_modeloutput_blocks20skip_connectionbias", [1280], .float32, [key% "model_ema.output_blocks20skip_connectionbias"], true⟩,
  ⟨key% "model_ema.diffusion_modeloutput_blocks20skip_connectionweight", [1280, 2560, 1, 1], .float32, [key% "model_ema.output_blocks20skip_connectionweight"], true⟩,
  ⟨key% "model_ema.diffusion_modeloutput_blocks21convbias", [1280], .float32, [key% "model_ema.output_blocks21convbias"], true⟩,
  ⟨key% "model_ema.diffusion_modeloutput_blocks21convweight", [1280, 1280, 3, 3], .float32, [key% "model_ema.output_blocks21convweight"], true⟩,
  ⟨key% "model_ema.diffusion_modeloutput_blocks30emb_layers1bias", [1280], .float32, [key% "model_ema.output_blocks30emb_layers1bias"], true⟩,
  ⟨key% "model_ema.diffusion_modeloutput_blocks30emb_layers1weight", [1280, 1280], .float32, [key% "model_ema.output_blocks30emb_layers1weight"], true⟩,
  ⟨key% "model_ema.diffusion_modeloutput_blocks30in_layers0bias", [2560], .float32, [key% "model_ema.output_blocks30in_layers0bias"], true⟩,
  ⟨key% "model_ema.diffusion_modeloutput_blocks30in_layers0weight", [2560], .float32, [key% "model_ema.output_blocks30in_layers0weight"], true⟩,
  ⟨key% "model_ema.diffusion_modeloutput_blocks30in_layers2bias", [1280], .float32, [key% "model_ema.output_blocks30in_layers2bias"], true⟩,
  ⟨key% "model_ema.diffusion_modeloutput_blocks30in_layers2weight", [1280, 2560, 3, 3], .float32, [key% "model_ema.output_blocks30in_layers2weight"], true⟩,
  ⟨key% "model_ema.diffusion_modeloutput_blocks30out_layers0bias", [1280], .float32, [key% "model_ema.output_blocks30out_layers0bias"], true⟩,
  ⟨key% "model_ema.diffusion_modeloutput_blocks30out_layers0weight", [1280], .float32, [key% "model_ema.output_blocks30out_layers0weight"], true⟩,
  ⟨key% "model_ema.diffusion_modeloutput_blocks30out_layers3bias", [1280], .float32, [key% "model_ema.output_blocks30out_layers3bias"], true⟩,
  ⟨key% "model_ema.diffusion_modeloutput_blocks30out_layers3weight", [1280, 1280, 3, 3], .float32, [key% "model_ema.output_blocks30out_layers3weight"], true⟩,
  ⟨key% "model_ema.diffusion_modeloutput_blocks30skip_connectionbias", [1280], .float32, [key% "model_ema.output_blocks30skip_connectionbias"], true⟩,
  ⟨key% "model_ema.diffusion_modeloutput_blocks30skip_connectionweight", [1280, 2560, 1, 1], .float32, [key% "model_ema.output_blocks30skip_connectionweight"], true⟩,
  ⟨key% "model_ema.diffusion_modeloutput_blocks31normbias", [1280], .float32, [key% "model_ema.output_blocks31normbias"], true⟩,
  ⟨key% "model_ema.diffusion_modeloutput_blocks31normweight", [1280], .float32, [key% "model_ema.output_blocks31normweight"], true⟩,
  ⟨key% "model_ema.diffusion_modeloutput_blocks31proj_inbias", [1280], .float32, [key% "model_ema.output_blocks31proj_inbias"], true⟩,
  ⟨key% "model_ema.diffusion_modeloutput_blocks31proj_inweight", [1280, 1280, 1, 1], .float32, [key% "model_ema.output_blocks31proj_inweight"], true⟩,
  ⟨key% "model_ema.diffusion_modeloutput_blocks31proj_outbias", [1280], .float32, [key% "model_ema.output_blocks31proj_outbias"], true⟩,
  ⟨key% "model_ema.diffusion_modeloutput_blocks31proj_outweight", [1280, 1280, 1, 1], .float32, [key% "model_ema.output_blocks31proj_outweight"], true⟩,
  ⟨key% "model_ema.diffusion_modeloutput_blocks31transformer_blocks0attn1to_kweight", [1280, 1280], .float32, [key% "model_ema.output_blocks31transformer_blocks0attn1to_kweight"], true⟩,
  ⟨key% "model_ema.diffusion_modeloutput_blocks31transformer_blocks0attn1to_out0bias", [1280], .float32, [key% "model_ema.output_blocks31transformer_blocks0attn1to_out0bias"], true⟩,
  ⟨key% "model_ema.diffusion_modeloutput_blocks31transformer_blocks0attn1to_out0weight", [1280, 1280], .float32, [key% "model_ema.output_blocks31transformer_blocks0attn1to_out0weight"], true⟩,
  ⟨key% "model_ema.diffusion_modeloutput_blocks31transformer_blocks0attn1to_qweight", [1280, 1280], .float32, [key% "model_ema.output_blocks31transformer_blocks0attn1to_qweight"], true⟩,
  ⟨key% "model_ema.diffusion_modeloutput_blocks31transformer_blocks0attn1to_vweight", [1280, 1280], .float32, [key% "model_ema.output_blocks31transformer_blocks0attn1to_vweight"], true⟩,
  ⟨key% "model_ema.diffusion_modeloutput_blocks31transformer_blocks0attn2to_kweight", [1280, 768], .float32, [key% "model_ema.output_blocks31transformer_blocks0attn2to_kweight"], true⟩,
  ⟨key% "model_ema.diffusion_modeloutput_blocks31transformer_blocks0attn2to_out0bias", [1280], .float32, [key% "model_ema.output_blocks31transformer_blocks0attn2to_out0bias"], true⟩,
  ⟨key% "model_ema.diffusion_modeloutput_blocks31transformer_blocks0attn2to_out0weight", [1280, 1280], .float32, [key% "model_ema.output_blocks31transformer_blocks0attn2to_out0weight"], true⟩,
  ⟨key% "model_ema.diffusion_modeloutput_blocks31transformer_blocks0attn2to_qweight", [1280, 1280], .float32, [key% "model_ema.output_blocks31transformer_blocks0attn2to_qweight"], true⟩,
  ⟨key% "model_ema.diffusion_modeloutput_blocks31transformer_blocks0attn2to_vweight", [1280, 768], .float32, [key% "model_ema.output_blocks31transformer_blocks0attn2to_vweight"], true⟩,
  ⟨key% "model_ema.diffusion_modeloutput_blocks31transformer_blocks0ffnet0projbias", [10240], .float32, [key% "model_ema.output_blocks31transformer_blocks0ffnet0projbias"], true⟩,
  ⟨key% "model_ema.diffusion_modeloutput_blocks31transformer_blocks0ffnet0projweight", [10240, 1280], .float32, [key% "model_ema.output_blocks31transformer_blocks0ffnet0projweight"], true⟩,
  ⟨key% "model_ema.diffusion_modeloutput_blocks31transformer_blocks0ffnet2bias", [1280], .float32, [key% "model_ema.output_blocks31transformer_blocks0ffnet2bias"], true⟩,
  ⟨key% "model_ema.diffusion_modeloutput_blocks31transformer_blocks0ffnet2weight", [1280, 5120], .float32, [key% "model_ema.output_blocks31transformer_blocks0ffnet2weight"], true⟩,
  ⟨key% "model_ema.diffusion_modeloutput_blocks31transformer_blocks0norm1bias", [1280], .float32, [key% "model_ema.output_blocks31transformer_blocks0norm1bias"], true⟩,
  ⟨key% "model_ema.diffusion_modeloutput_blocks31transformer_blocks0norm1weight", [1280], .float32, [key% "model_ema.output_blocks31transformer_blocks0norm1weight"], true⟩,
  ⟨key% "model_ema.diffusion_modeloutput_blocks31transformer_blocks0norm2bias", [1280], .float32, [key% "model_ema.output_blocks31transformer_blocks0norm2bias"], true⟩,
  ⟨key% "model_ema.diffusion_modeloutput_blocks31transformer_blocks0norm2weight", [1280], .float32, [key% "model_ema.output_blocks31transformer_blocks0norm2weight"], true⟩,
  ⟨key% "model_ema.diffusion_modeloutput_blocks31transformer_blocks0norm3bias", [1280], .float32, [key% "model_ema.output_blocks31transformer_blocks0norm3bias"], true⟩,
  ⟨key% "model_ema.diffusion_modeloutput_blocks31transformer_blocks0norm3weight", [1280], .float32, [key% "model_ema.output_blocks31transformer_blocks0norm3weight"], true⟩,
  ⟨key% "model_ema.diffusion_modeloutput_blocks40emb_layers1bias", [1280], .float32, [key% "model_ema.output_blocks40emb_layers1bias"], true⟩,
  ⟨key% "model_ema.diffusion_modeloutput_blocks40emb_layers1weight", [1280, 1280], .float32, [key% "model_ema.output_blocks40emb_layers1weight"], true⟩,
  ⟨key% "model_ema.diffusion_modeloutput_blocks40in_layers0bias", [2560], .float32, [key% "model_ema.output_blocks40in_layers0bias"], true⟩,
  ⟨key% "model_ema.diffusion_modeloutput_blocks40in_layers0weight", [2560], .float32, [key% "model_ema.output_blocks40in_layers0weight"], true⟩,
  ⟨key% "model_ema.diffusion_modeloutput_blocks40in_layers2bias", [1280], .float32, [key% "model_ema.output_blocks40in_layers2bias"], true⟩,
  ⟨key% "model_ema.diffusion_modeloutput_blocks40in_layers2weight", [1280, 2560, 3, 3], .float32, [key% "model_ema.output_blocks40in_layers2weight"], true⟩,
  ⟨key% "model_ema.diffusion_modeloutput_blocks40out_layers0bias", [1280], .float32, [key% "model_ema.output_blocks40out_layers0bias"], true⟩,
  ⟨key% "model_ema.diffusion_modeloutput_blocks40out_layers0weight", [1280], .float32, [key% "model_ema.output_blocks40out_layers0weight"], true⟩,
  ⟨key% "model_ema.diffusion_modeloutput_blocks40out_layers3bias", [1280], .float32, [key% "model_ema.output_blocks40out_layers3bias"], true⟩,
  ⟨key% "model_ema.diffusion_modeloutput_blocks40out_layers3weight", [1280, 1280, 3, 3], .float32, [key% "model_ema.output_blocks40out_layers3weight"], true⟩,
  ⟨key% "model_ema.diffusion_modeloutput_blocks40skip_connectionbias", [1280], .float32, [key% "model_ema.output_blocks40skip_connectionbias"], true⟩,
  ⟨key% "model_ema.diffusion_modeloutput_blocks40skip_connectionweight", [1280, 2560, 1, 1], .float32, [key% "model_ema.output_blocks40skip_connectionweight"], true⟩,
  ⟨key% "model_ema.diffusion_modeloutput_blocks41normbias", [1280], .float32, [key% "model_ema.output_blocks41normbias"], true⟩,
  ⟨key% "model_ema.diffusion_modeloutput_blocks41normweight", [1280], .float32, [key% "model_ema.output_blocks41normweight"], true⟩,
  ⟨key% "model_ema.diffusion_modeloutput_blocks41proj_inbias", [1280], .float32, [key% "model_ema.output_blocks41proj_inbias"], true⟩,
  ⟨key% "model_ema.diffusion_modeloutput_blocks41proj_inweight", [1280, 1280, 1, 1], .float32, [key% "model_ema.output_blocks41proj_inweight"], true⟩,
  ⟨key% "model_ema.diffusion_modeloutput_blocks41proj_outbias", [1280], .float32, [key% "model_ema.output_blocks41proj_outbias"], true⟩,
  ⟨key% "model_ema.diffusion_modeloutput_blocks41proj_outweight", [1280, 1280, 1, 1], .float32, [key% "model_ema.output_blocks41proj_outweight"], true⟩,
  ⟨key% "model_ema.diffusion_modeloutput_blocks41transformer_blocks0attn1to_kweight", [1280, 1280], .float32, [key% "model_ema.output_blocks41transformer_blocks0attn1to_kweight"], true⟩,
  ⟨key% "model_ema.diffusion_modeloutput_blocks41transformer_blocks0attn1to_out0bias", [1280], .float32, [key% "model_ema.output_blocks41transformer_blocks0attn1to_out0bias"], true⟩,
  ⟨key% "model_ema.diffusion_modeloutput_blocks41transformer_blocks0attn1to_out0weight", [1280, 1280], .float32, [key% "model_ema.output_blocks41transformer_blocks0attn1to_out0weight"], true⟩,
  ⟨key% "model_ema.diffusion_modeloutput_blocks41transformer_blocks0attn1to_qweight", [1280, 1280], .float32, [key% "model_ema.output_blocks41transformer_blocks0attn1to_qweight"], true⟩,
  ⟨key% "model_ema.diffusion_modeloutput_blocks41transformer_blocks0attn1to_vweight", [1280, 1280], .float32, [key% "model_ema.output_blocks41transformer_blocks0attn1to_vweight"], true⟩,
  ⟨key% "model_ema.diffusion_modeloutput_blocks41transformer_blocks0attn2to_kweight", [1280, 768], .float32, [key% "model_ema.output_blocks41transformer_blocks0attn2to_kweight"], true⟩,
  ⟨key% "model_ema.diffusion_modeloutput_blocks41transformer_blocks0attn2to_out0bias", [1280], .float32, [key% "model_ema.output_blocks41transformer_blocks0attn2to_out0bias"], true⟩,
  ⟨key% "model_ema.diffusion_modeloutput_blocks41transformer_blocks0attn2to_out0weight", [1280, 1280], .float32, [key% "model_ema.output_blocks41transformer_blocks0attn2to_out0weight"], true⟩,
  ⟨key% "model_ema.diffusion_modeloutput_blocks41transformer_blocks0attn2to_qweight", [1280, 1280], .float32, [key% "model_ema.output_blocks41transformer_blocks0attn2to_qweight"], true⟩,
  ⟨key% "model_ema.diffusion_modeloutput_blocks41transformer_blocks0attn2to_vweight", [1280, 768], .float32, [key% "model_ema.output_blocks41transformer_blocks0attn2to_vweight"], true⟩,
  ⟨key% "model_ema.diffusion_modeloutput_blocks41transformer_blocks0ffnet0projbias", [10240], .float32, [key% "model_ema.output_blocks41transformer_blocks0ffnet0projbias"], true⟩,
  ⟨key% "model_ema.diffusion_modeloutput_blocks41transformer_blocks0ffnet0projweight", [10240, 1280], .float32, [key% "model_ema.output_blocks41transformer_blocks0ffnet0projweight"], true⟩,
  ⟨key% "model_ema.diffusion_modeloutput_blocks41transformer_blocks0ffnet2bias", [1280], .float32, [key% "model_ema.output_blocks41transformer_blocks0ffnet2bias"], true⟩,
  ⟨key% "model_ema.diffusion_modeloutput_blocks41transformer_blocks0ffnet2weight", [1280, 5120], .float32, [key% "model_ema.output_blocks41transformer_blocks0ffnet2weight"], true⟩,
  ⟨key% "model_ema.diffusion_modeloutput_blocks41transformer_blocks0norm1bias", [1280], .float32, [key% "model_ema.output_blocks41transformer_blocks0norm1bias"], true⟩,
  ⟨key% "model_ema.diffusion_modeloutput_blocks41transformer_blocks0norm1weight", [1280], .float32, [key% "model_ema.output_blocks41transformer_blocks0norm1weight"], true⟩,
  ⟨key% "model_ema.diffusion_modeloutput_blocks41transformer_blocks0norm2bias", [1280], .float32, [key% "model_ema.output_blocks41transformer_blocks0norm2bias"], true⟩,
  ⟨key% "model_ema.diffusion_modeloutput_blocks41transformer_blocks0norm2weight", [1280], .float32, [key% "model_ema.output_blocks41transformer_blocks0norm2weight"], true⟩,
  ⟨key% "model_ema.diffusion_modeloutput_blocks41transformer_blocks0norm3bias", [1280], .float32, [key% "model_ema.output_blocks41transformer_blocks0norm3bias"], true⟩,
  ⟨key% "model_ema.diffusion_modeloutput_blocks41transformer_blocks0norm3weight", [1280], .float32, [key% "model_ema.output_blocks41transformer_blocks0norm3weight"], true⟩,
  ⟨key% "model_ema.diffusion_modeloutput_blocks50emb_layers1bias", [1280], .float32, [key% "model_ema.output_blocks50emb_layers1bias"], true⟩,
  ⟨key% "model_ema.diffusion_modeloutput_blocks50emb_layers1weight", [1280, 1280], .float32, [key% "model_ema.output_blocks50emb_layers1weight"], true⟩,
  ⟨key% "model_ema.diffusion_modeloutput_blocks50in_layers0bias", [1920], .float32, [key% "model_ema.output_blocks50in_layers0bias"], true⟩,
  ⟨key% "model_ema.diffusion_modeloutput_blocks50in_layers0weight", [1920], .float32, [key% "model_ema.output_blocks50in_layers0weight"], true⟩,
  ⟨key% "model_ema.diffusion_modeloutput_blocks50in_layers2bias", [1280], .float32, [key% "model_ema.output_blocks50in_layers2bias"], true⟩,
  ⟨key% "model_ema.diffusion_modeloutput_blocks50in_layers2weight", [1280, 1920, 3, 3], .float32, [key% "model_ema.output_blocks50in_layers2weight"], true⟩,
  ⟨key% "model_ema.diffusion_modeloutput_blocks50out_layers0bias", [1280], .float32, [key% "model_ema.output_blocks50out_layers0bias"], true⟩,
  ⟨key% "model_ema.diffusion_modeloutput_blocks50out_layers0weight", [1280], .float32, [key% "model_ema.output_blocks50out_layers0weight"], true⟩,
  ⟨key% "model_ema.diffusion_modeloutput_blocks50out_layers3bias", [1280], .float32, [key% "model_ema.output_blocks50out_layers3bias"], true⟩,
  ⟨key% "model_ema.diffusion_modeloutput_blocks50out_layers3weight", [1280, 1280, 3, 3], .float32, [key% "model_ema.output_blocks50out_layers3weight"], true⟩]
noncomputable def ema5 : List Entry := [
  ⟨key% "model_ema.diffusion_modeloutput_blocks50skip_connectionbias", [1280], .float32, [key% "model_ema.output_blocks50skip_connectionbias"], true⟩,
  ⟨key% "model_ema.diffusion_modeloutput_blocks50skip_connectionweight", [1280, 1920, 1, 1], .float32, [key% "model_ema.output_blocks50skip_connectionweight"], true⟩,
  ⟨key% "model_ema.diffusion_modeloutput_blocks51normbias", [1280], .float32, [key% "model_ema.output_blocks51normbias"], true⟩,
  ⟨key% "model_ema.diffusion_modeloutput_blocks51normweight", [1280], .float32, [key% "model_ema.output_blocks51normweight"], true⟩,
  ⟨key% "model_ema.diffusion_modeloutput_blocks51proj_inbias", [1280], .float32, [key% "model_ema.output_blocks51proj_inbias"], true⟩,
  ⟨key% "model_ema.diffusion_modeloutput_blocks51proj_inweight", [1280, 1280, 1, 1], .float32, [key% "model_ema.output_blocks51proj_inweight"], true⟩,
  ⟨key% "model_ema.diffusion_modeloutput_blocks51proj_outbias", [1280], .float32, [key% "model_ema.output_blocks51proj_outbias"], true⟩,
  ⟨key% "model_ema.diffusion_modeloutput_blocks51proj_outweight", [1280, 1280, 1, 1], .float32, [key% "model_ema.output_blocks51proj_outweight"], true⟩,
  ⟨key% "model_ema.diffusion_modeloutput_blocks51transformer_blocks0attn1to_kweight", [1280, 1280], .float32, [key% "model_ema.output_blocks51transformer_blocks0attn1to_kweight"], true⟩,
  ⟨key% "model_ema.diffusion_modeloutput_blocks51transformer_blocks0attn1to_out0bias", [1280], .float32, [key% "model_ema.output_blocks51transformer_blocks0attn1to_out0bias"], true⟩,
  ⟨key% "model_ema.diffusion_modeloutput_blocks51transformer_blocks0attn1to_out0weight", [1280, 1280], .float32, [key% "model_ema.output_blocks51transformer_blocks0attn1to_out0weight"], true⟩,
  ⟨key% "model_ema.diffusion_modeloutput_blocks51transformer_blocks0attn1to_qweight", [1280, 1280], .float32, [key% "model_ema.output_blocks51transformer_blocks0attn1to_qweight"], true⟩,
  ⟨key% "model_ema.diffusion_modeloutput_blocks51transformer_blocks0attn1to_vweight", [1280, 1280], .float32, [key% "model_ema.output_blocks51transformer_blocks0attn1to_vweight"], true⟩,
  ⟨key% "model_ema.diffusion_modeloutput_blocks51transformer_blocks0attn2to_kweight", [1280, 768], .float32, [key% "model_ema.output_blocks51transformer_blocks0attn2to_kweight"], true⟩,
  ⟨key% "model_ema.diffusion_modeloutput_blocks51transformer_blocks0attn2to_out0bias", [1280], .float32, [key% "model_ema.output_blocks51transformer_blocks0attn2to_out0bias"], true⟩,
  ⟨key% "model_ema.diffusion_modeloutput_blocks51transformer_blocks0attn2to_out0weight", [1280, 1280], .float32, [key% "model_ema.output_blocks51transformer_blocks0attn2to_out0weight"], true⟩,
  ⟨key% "model_ema.diffusion_modeloutput_blocks51transformer_blocks0attn2to_qweight", [1280, 1280], .float32, [key% "model_ema.output_blocks51transformer_blocks0attn2to_qweight"], true⟩,
  ⟨key% "model_ema.diffusion_modeloutput_blocks51transformer_blocks0attn2to_vweight", [1280, 768], .float32, [key% "model_ema.output_blocks51transformer_blocks0attn2to_vweight"], true⟩,
  ⟨key% "model_ema.diffusion_modeloutput_blocks51transformer_blocks0ffnet0projbias", [10240], .float32, [key% "model_ema.output_blocks51transformer_blocks0ffnet0projbias"], true⟩,
  ⟨key% "model_ema.diffusion_modeloutput_blocks51transformer_blocks0ffnet0projweight", [10240, 1280], .float32, [key% "model_ema.output_blocks51transformer_blocks0ffnet0projweight"], true⟩,
  ⟨key% "model_ema.diffusion_modeloutput_blocks51transformer_blocks0ffnet2bias", [1280], .float32, [key% "model_ema.output_blocks51transformer_blocks0ffnet2bias"], true⟩,
  ⟨key% "model_ema.diffusion_modeloutput_blocks51transformer_blocks0ffnet2weight", [1280, 5120], .float32, [key% "model_ema.output_blocks51transformer_blocks0ffnet2weight"], true⟩,
  ⟨key% "model_ema.diffusion_modeloutput_blocks51transformer_blocks0norm1bias", [1280], .float32, [key% "model_ema.output_blocks51transformer_blocks0norm1bias"], true⟩,
  ⟨key% "model_ema.diffusion_modeloutput_blocks51transformer_blocks0norm1weight", [1280], .float32, [key% "model_ema.output_blocks51transformer_blocks0norm1weight"], true⟩,
  ⟨key% "model_ema.diffusion_modeloutput_blocks51transformer_blocks0norm2bias", [1280], .float32, [key% "model_ema.output_blocks51transformer_blocks0norm2bias"], true⟩,
  ⟨key% "model_ema.diffusion_modeloutput_blocks51transformer_blocks0norm2weight", [1280], .float32, [key% "model_ema.output_blocks51transformer_blocks0norm2weight"], true⟩,
  ⟨key% "model_ema.diffusion_modeloutput_blocks51transformer_blocks0norm3bias", [1280], .float32, [key% "model_ema.output_blocks51transformer_blocks0norm3bias"], true⟩,
  ⟨key% "model_ema.diffusion_modeloutput_blocks51transformer_blocks0norm3weight", [1280], .float32, [key% "model_ema.output_blocks51transformer_blocks0norm3weight"], true⟩,
  ⟨key% "model_ema.diffusion_modeloutput_blocks52convbias", [1280], .float32, [key% "model_ema.output_blocks52convbias"], true⟩,
  ⟨key% "model_ema.diffusion_modeloutput_blocks52convweight", [1280, 1280, 3, 3], .float32, [key% "model_ema.output_blocks52convweight"], true⟩,
  ⟨key% "model_ema.diffusion_modeloutput_blocks60emb_layers1bias", [640], .float32, [key% "model_ema.output_blocks60emb_layers1bias"], true⟩,
  ⟨key% "model_ema.diffusion_modeloutput_blocks60emb_layers1weight", [640, 1280], .float32, [key% "model_ema.output_blocks60emb_layers1weight"], true⟩,
  ⟨key% "model_ema.diffusion_modeloutput_blocks60in_layers0bias", [1920], .float32, [key% "model_ema.output_blocks60in_layers0bias"], true⟩,
  ⟨key% "model_ema.diffusion_modeloutput_blocks60in_layers0weight", [1920], .float32, [key% "model_ema.output_blocks60in_layers0weight"], true⟩,
  ⟨key% "model_ema.diffusion_modeloutput_blocks60in_layers2bias", [640], .float32, [key% "model_ema.output_blocks60in_layers2bias"], true⟩,
  ⟨key% "model_ema.diffusion_modeloutput_blocks60in_layers2weight", [640, 1920, 3, 3], .float32, [key% "model_ema.output_blocks60in_layers2weight"], true⟩,
  ⟨key% "model_ema.diffusion_modeloutput_blocks60out_layers0bias", [640], .float32, [key% "model_ema.output_blocks60out_layers0bias"], true⟩,
  ⟨key% "model_ema.diffusion_modeloutput_blocks60out_layers0weight", [640], .float32, [key% "model_ema.output_blocks60out_layers0weight"], true⟩,
  ⟨key% "model_ema.diffusion_modeloutput_blocks60out_layers3bias", [640], .float32, [key% "model_ema.output_blocks60out_layers3bias"], true⟩,
  ⟨key% "model_ema.diffusion_modeloutput_blocks60out_layers3weight", [640, 640, 3, 3], .float32, [key% "model_ema.output_blocks60out_layers3weight"], true⟩,
  ⟨key% "model_ema.diffusion_modeloutput_blocks60skip_connectionbias", [640], .float32, [key% "model_ema.output_blocks60skip_connectionbias"], true⟩,
  ⟨key% "model_ema.diffusion_modeloutput_blocks60skip_connectionweight", [640, 1920, 1, 1], .float32, [key% "model_ema.output_blocks60skip_connectionweight"], true⟩,
  ⟨key% "model_ema.diffusion_modeloutput_blocks61normbias", [640], .float32, [key% "model_ema.output_blocks61normbias"], true⟩,
  ⟨key% "model_ema.diffusion_modeloutput_blocks61normweight", [640], .float32, [key% "model_ema.output_blocks61normweight"], true⟩,
  ⟨key% "model_ema.diffusion_modeloutput_blocks61proj_inbias", [640], .float32, [key% "model_ema.output_blocks61proj_inbias"], true⟩,
  ⟨key% "model_ema.diffusion_modeloutput_blocks61proj_inweight", [640, 640, 1, 1], .float32, [key% "model_ema.output_blocks61proj_inweight"], true⟩,
  ⟨key% "model_ema.diffusion_modeloutput_blocks61proj_outbias", [640], .float32, [key% "model_ema.output_blocks61proj_outbias"], true⟩,
  ⟨key% "model_ema.diffusion_modeloutput_blocks61proj_outweight", [640, 640, 1, 1], .float32, [key% "model_ema.output_blocks61proj_outweight"], true⟩,
  ⟨key% "model_ema.diffusion_modeloutput_blocks61transformer_blocks0attn1to_kweight", [640, 640], .float32, [key% "model_ema.output_blocks61transformer_blocks0attn1to_kweight"], true⟩,
  ⟨key% "model_ema.diffusion_modeloutput_blocks61transformer_blocks0attn1to_out0bias", [640], .float32, [key% "model_ema.output_blocks61transformer_blocks0attn1to_out0bias"], true⟩,
  ⟨key% "model_ema.diffusion_modeloutput_blocks61transformer_blocks0attn1to_out0weight", [640, 640], .float32, [key% "model_ema.output_blocks61transformer_blocks0attn1to_out0weight"], true⟩,
  ⟨key% "model_ema.diffusion_modeloutput_blocks61transformer_blocks0attn1to_qweight", [640, 640], .float32, [key% "model_ema.output_blocks61transformer_blocks0attn1to_qweight"], true⟩,
  ⟨key% "model_ema.diffusion_modeloutput_blocks61transformer_blocks0attn1to_vweight", [640, 640], .float32, [key% "model_ema.output_blocks61transformer_blocks0attn1to_vweight"], true⟩,
  ⟨key% "model_ema.diffusion_modeloutput_blocks61transformer_blocks0attn2to_kweight", [640, 768], .float32, [key% "model_ema.output_blocks61transformer_blocks0attn2to_kweight"], true⟩,
  ⟨key% "model_ema.diffusion_modeloutput_blocks61transformer_blocks0attn2to_out0bias", [640], .float32, [key% "model_ema.output_blocks61transformer_blocks0attn2to_out0bias"], true⟩,
  ⟨key% "model_ema.diffusion_modeloutput_blocks61transformer_blocks0attn2to_out0weight", [640, 640], .float32, [key% "model_ema.output_blocks61transformer_blocks0attn2to_out0weight"], true⟩,
  ⟨key% "model_ema.diffusion_modeloutput_blocks61transformer_blocks0attn2to_qweight", [640, 640], .float32, [key% "model_ema.output_blocks61transformer_blocks0attn2to_qweight"], true⟩,
  ⟨key% "model_ema.diffusion_modeloutput_blocks61transformer_blocks0attn2to_vweight", [640, 768], .float32, [key% "model_ema.output_blocks61transformer_blocks0attn2to_vweight"], true⟩,
  ⟨key% "model_ema.diffusion_modeloutput_blocks61transformer_blocks0ffnet0projbias", [5120], .float32, [key% "model_ema.output_blocks61transformer_blocks0ffnet0projbias"], true⟩,
  ⟨key% "model_ema.diffusion_modeloutput_blocks61transformer_blocks0ffnet0projweight", [5120, 640], .float32, [key% "model_ema.output_blocks61transformer_blocks0ffnet0projweight"], true⟩,
  ⟨key% "model_ema.diffusion_modeloutput_blocks61transformer_blocks0ffnet2bias", [640], .float32, [key% "model_ema.output_blocks61transformer_blocks0ffnet2bias"], true⟩,
  ⟨key% "model_ema.diffusion_modeloutput_blocks61transformer_blocks0ffnet2weight", [640, 2560], .float32, [key% "model_ema.output_blocks61transformer_blocks0ffnet2weight"], true⟩,
  ⟨key% "model_ema.diffusion_modeloutput_blocks61transformer_blocks0norm1bias", [640], .float32, [key% "model_ema.output_blocks61transformer_blocks0norm1bias"], true⟩,
  ⟨key% "model_ema.diffusion_modeloutput_blocks61transformer_blocks0norm1weight", [640], .float32, [key% "model_ema.output_blocks61transformer_blocks0norm1weight"], true⟩,
  ⟨key% "model_ema.diffusion_modeloutput_blocks61transformer_blocks0norm2bias", [640], .float32, [key% "model_ema.output_blocks61transformer_blocks0norm2bias"], true⟩,
  ⟨key% "model_ema.diffusion_modeloutput_blocks61transformer_blocks0norm2weight", [640], .float32, [key% "model_ema.output_blocks61transformer_blocks0norm2weight"], true⟩,
  ⟨key% "model_ema.diffusion_modeloutput_blocks61transformer_blocks0norm3bias", [640], .float32, [key% "model_ema.output_blocks61transformer_blocks0norm3bias"], true⟩,
  ⟨key% "model_ema.diffusion_modeloutput_blocks61transformer_blocks0norm3weight", [640], .float32, [key% "model_ema.output_blocks61transformer_blocks0norm3weight"], true⟩,
  ⟨key% "model_ema.diffusion_modeloutput_blocks70emb_layers1bias", [640], .float32, [key% "model_ema.output_blocks70emb_layers1bias"], true⟩,
  ⟨key% "model_ema.diffusion_modeloutput_blocks70emb_layers1weight", [640, 1280], .float32, [key% "model_ema.output_blocks70emb_layers1weight"], true⟩,
  ⟨key% "model_ema.diffusion_modeloutput_blocks70in_layers0bias", [1280], .float32, [key% "model_ema.output_blocks70in_layers0bias"], true⟩,
  ⟨key% "model_ema.diffusion_modeloutput_blocks70in_layers0weight", [1280], .float32, [key% "model_ema.output_blocks70in_layers0weight"], true⟩,
  ⟨key% "model_ema.diffusion_modeloutput_blocks70in_layers2bias", [640], .float32, [key% "model_ema.output_blocks70in_layers2bias"], true⟩,
  ⟨key% "model_ema.diffusion_modeloutput_blocks70in_layers2weight", [640, 1280, 3, 3], .float32, [key% "model_ema.output_blocks70in_layers2weight"], true⟩,
  ⟨key% "model_ema.diffusion_modeloutput_blocks70out_layers0bias", [640], .float32, [key% "model_ema.output_blocks70out_layers0bias"], true⟩,
  ⟨key% "model_ema.diffusion_modeloutput_blocks70out_layers0weight", [640], .float32, [key% "model_ema.output_blocks70out_layers0weight"], true⟩,
  ⟨key% "model_ema.diffusion_modeloutput_blocks70out_layers3bias", [640], .float32, [key% "model_ema.output_blocks70out_layers3bias"], true⟩,
  ⟨key% "model_ema.diffusion_modeloutput_blocks70out_layers3weight", [640, 640, 3, 3], .float32, [key% "model_ema.output_blocks70out_layers3weight"], true⟩,
  ⟨key% "model_ema.diffusion_modeloutput_blocks70skip_connectionbias", [640], .float32, [key% "model_ema.output_blocks70skip_connectionbias"], true⟩,
  ⟨key% "model_ema.diffusion_modeloutput_blocks70skip_connectionweight", [640, 1280, 1, 1], .float32, [key% "model_ema.output_blocks70skip_connectionweight"], true⟩,
  ⟨key% "model_ema.diffusion_modeloutput_blocks71normbias", [640], .float32, [key% "model_ema.output_blocks71normbias"], true⟩,
  ⟨key% "model_ema.diffusion_modeloutput_blocks71normweight", [640], .float32, [key% "model_ema.output_blocks71normweight"], true⟩,
  ⟨key% "model_ema.diffusion_modeloutput_blocks71proj_inbias", [640], .float32, [key% "model_ema.output_blocks71proj_inbias"], true⟩,
  ⟨key% "model_ema.diffusion_modeloutput_blocks71proj_inweight", [640, 640, 1, 1], .float32, [key% "model_ema.output_blocks71proj_inweight"], true⟩,
  ⟨key% "model_ema.diffusion_modeloutput_blocks71proj_outbias", [640], .float32, [key% "model_ema.output_blocks71proj_outbias"], true⟩,
  ⟨key% "model_ema.diffusion_modeloutput_blocks71proj_outweight", [640, 640, 1, 1], .float32, [key% "model_ema.output_blocks71proj_outweight"], true⟩,
  ⟨key% "model_ema.diffusion_modeloutput_blocks71transformer_blocks0attn1to_kweight", [640, 640], .float32, [key% "model_ema.output_blocks71transformer_blocks0attn1to_kweight"], true⟩,
  ⟨key% "model_ema.diffusion_modeloutput_blocks71transformer_blocks0attn1to_out0bias", [640], .float32, [key% "model_ema.output_blocks71transformer_blocks0attn1to_out0bias"], true⟩,
  ⟨key% "model_ema.diffusion_modeloutput_blocks71transformer_blocks0attn1to_out0weight", [640, 640], .float32, [key% "model_ema.output_blocks71transformer_blocks0attn1to_out0weight"], true⟩,
  ⟨key% "model_ema.diffusion_modeloutput_blocks71transformer_blocks0attn1to_qweight", [640, 640], .float32, [key% "model_ema.output_blocks71transformer_blocks0attn1to_qweight"], true⟩,
  ⟨key% "model_ema.diffusion_modeloutput_blocks71transformer_blocks0attn1to_vweight", [640, 640], .float32, [key% "model_ema.output_blocks71transformer_blocks0attn1to_vweight"], true⟩,
  ⟨key% "model_ema.diffusion_modeloutput_blocks71transformer_blocks0attn2to_kweight", [640, 768], .float32, [key% "model_ema.output_blocks71transformer_blocks0attn2to_kweight"], true⟩,
  ⟨key% "model_ema.diffusion_modeloutput_blocks71transformer_blocks0attn2to_out0bias", [640], .float32, [key% "model_ema.output_blocks71transformer_blocks0attn2to_out0bias"], true⟩,
  ⟨key% "model_ema.diffusion_modeloutput_blocks71transformer_blocks0attn2to_out0weight", [640, 640], .float32, [key% "model_ema.output_blocks71transformer_blocks0attn2to_out0weight"], true⟩,
  ⟨key% "model_ema.diffusion_modeloutput_blocks71transformer_blocks0attn2to_qweight", [640, 640], .float32, [key% "model_ema.output_blocks71transformer_blocks0attn2to_qweight"], true⟩,
  ⟨key% "model_ema.diffusion_modeloutput_blocks71transformer_blocks0attn2to_vweight", [640, 768], .float32, [key% "model_ema.output_blocks71transformer_blocks0attn2to_vweight"], true⟩,
  ⟨key% "model_ema.diffusion_modeloutput_blocks71transformer_blocks0ffnet0projbias", [5120], .float32, [key% "model_ema.output_blocks71transformer_blocks0ffnet0projbias"], true⟩,
  ⟨key% "model_ema.diffusion_modeloutput_blocks71transformer_blocks0ffnet0projweight", [5120, 640], .float32, [key% "model_ema.output_blocks71transformer_blocks0ffnet0projweight"], true⟩,
  ⟨key% "model_ema.diffusion_modeloutput_blocks71transformer_blocks0ffnet2bias", [640], .float32, [key% "model_ema.output_blocks71transformer_blocks0ffnet2bias"], true⟩,
  ⟨key% "model_ema.diffusion_modeloutput_blocks71transformer_blocks0ffnet2weight", [640, 2560], .float32, [key% "model_ema.output_blocks71transformer_blocks0ffnet2weight"], true⟩]
noncomputable def ema6 : List Entry := [
  ⟨key% "model_ema.diffusion_modeloutput_blocks71transformer_blocks0norm1bias", [640], .float32, [key% "model_ema.output_blocks71transformer_blocks0norm1bias"], true⟩,
  ⟨key% "model_ema.diffusion_modeloutput_blocks71transformer_blocks0norm1weight", [640], .float32, [key% "model_ema.output_blocks71transformer_blocks0norm1weight"], true⟩,
  ⟨key% "model_ema.diffusion_modeloutput_blocks71transformer_blocks0norm2bias", [640], .float32, [key% "model_ema.output_blocks71transformer_blocks0norm2bias"], true⟩,
  ⟨key% "model_ema.diffusion_modeloutput_blocks71transformer_blocks0norm2weight", [640], .float32, [key% "model_ema.output_blocks71transformer_blocks0norm2weight"], true⟩,
  ⟨key% "model_ema.diffusion_modeloutput_blocks71transformer_blocks0norm3bias", [640], .float32, [key% "model_ema.output_blocks71transformer_blocks0norm3bias"], true⟩,
  ⟨key% "model_ema.diffusion_modeloutput_blocks71transformer_blocks0norm3weight", [640], .float32, [key% "model_ema.output_blocks71transformer_blocks0norm3weight"], true⟩,
  ⟨key% "model_ema.diffusion_modeloutput_blocks80emb_layers1bias", [640], .float32, [key% "model_ema.output_blocks80emb_layers1bias"], true⟩,
  ⟨key% "model_ema.diffusion_modeloutput_blocks80emb_layers1weight", [640, 1280], .float32, [key% "model_ema.output_blocks80emb_layers1weight"], true⟩,
  ⟨key% "model_ema.diffusion_modeloutput_blocks80in_layers0bias", [960], .float32, [key% "model_ema.output_blocks80in_layers0bias"], true⟩,
  ⟨key% "model_ema.diffusion_modeloutput_blocks80in_layers0weight", [960], .float32, [key% "model_ema.output_blocks80in_layers0weight"], true⟩,
  ⟨key% "model_ema.diffusion_modeloutput_blocks80in_layers2bias", [640], .float32, [key% "model_ema.output_blocks80in_layers2bias"], true⟩,
  ⟨key% "model_ema.diffusion_modeloutput_blocks80in_layers2weight", [640, 960, 3, 3], .float32, [key% "model_ema.output_blocks80in_layers2weight"], true⟩,
  ⟨key% "model_ema.diffusion_modeloutput_blocks80out_layers0bias", [640], .float32, [key% "model_ema.output_blocks80out_layers0bias"], true⟩,
  ⟨key% "model_ema.diffusion_modeloutput_blocks80out_layers0weight", [640], .float32, [key% "model_ema.output_blocks80out_layers0weight"], true⟩,
  ⟨key% "model_ema.diffusion_modeloutput_blocks80out_layers3bias", [640], .float32, [key% "model_ema.output_blocks80out_layers3bias"], true⟩,
  ⟨key% "model_ema.diffusion_modeloutput_blocks80out_layers3weight", [640, 640, 3, 3], .float32, [key% "model_ema.output_blocks80out_layers3weight"], true⟩,
  ⟨key% "model_ema.diffusion_modeloutput_blocks80skip_connectionbias", [640], .float32, [key% "model_ema.output_blocks80skip_connectionbias"], true⟩,
  ⟨key% "model_ema.diffusion_modeloutput_blocks80skip_connectionweight", [640, 960, 1, 1], .float32, [key% "model_ema.output_blocks80skip_connectionweight"], true⟩,
  ⟨key% "model_ema.diffusion_modeloutput_blocks81normbias", [640], .float32, [key% "model_ema.output_blocks81normbias"], true⟩,
  ⟨key% "model_ema.diffusion_modeloutput_blocks81normweight", [640], .float32, [key% "model_ema.output_blocks81normweight"], true⟩,
  ⟨key% "model_ema.diffusion_modeloutput_blocks81proj_inbias", [640], .float32, [key% "model_ema.output_blocks81proj_inbias"], true⟩,
  ⟨key% "model_ema.diffusion_modeloutput_blocks81proj_inweight", [640, 640, 1, 1], .float32, [key% "model_ema.output_blocks81proj_inweight"], true⟩,
  ⟨key% "model_ema.diffusion_modeloutput_blocks81proj_outbias", [640], .float32, [key% "model_ema.output_blocks81proj_outbias"], true⟩,
  ⟨key% "model_ema.diffusion_modeloutput_blocks81proj_outweight", [640, 640, 1, 1], .float32, [key% "model_ema.output_blocks81proj_outweight"], true⟩,
  ⟨key% "model_ema.diffusion_modeloutput_blocks81transformer_blocks0attn1to_kweight", [640, 640], .float32, [key% "model_ema.output_blocks81transformer_blocks0attn1to_kweight"], true⟩,
  ⟨key% "model_ema.diffusion_modeloutput_blocks81transformer_blocks0attn1to_out0bias", [640], .float32, [key% "model_ema.output_blocks81transformer_blocks0attn1to_out0bias"], true⟩,
  ⟨key% "model_ema.diffusion_modeloutput_blocks81transformer_blocks0attn1to_out0weight", [640, 640], .float32, [key% "model_ema.output_blocks81transformer_blocks0attn1to_out0weight"], true⟩,
  ⟨key% "model_ema.diffusion_modeloutput_blocks81transformer_blocks0attn1to_qweight", [640, 640], .float32, [key% "model_ema.output_blocks81transformer_blocks0attn1to_qweight"], true⟩,
  ⟨key% "model_ema.diffusion_modeloutput_blocks81transformer_blocks0attn1to_vweight", [640, 640], .float32, [key% "model_ema.output_blocks81transformer_blocks0attn1to_vweight"], true⟩,
  ⟨key% "model_ema.diffusion_modeloutput_blocks81transformer_blocks0attn2to_kweight", [640, 768], .float32, [key% "model_ema.output_blocks81transformer_blocks0attn2to_kweight"], true⟩,
  ⟨key% "model_ema.diffusion_modeloutput_blocks81transformer_blocks0attn2to_out0bias", [640], .float32, [key% "model_ema.output_blocks81transformer_blocks0attn2to_out0bias"], true⟩,
  ⟨key% "model_ema.diffusion_modeloutput_blocks81transformer_blocks0attn2to_out0weight", [640, 640], .float32, [key% "model_ema.output_blocks81transformer_blocks0attn2to_out0weight"], true⟩,
  ⟨key% "model_ema.diffusion_modeloutput_blocks81transformer_blocks0attn2to_qweight", [640, 640], .float32, [key% "model_ema.output_blocks81transformer_blocks0attn2to_qweight"], true⟩,
  ⟨key% "model_ema.diffusion_modeloutput_blocks81transformer_blocks0attn2to_vweight", [640, 768], .float32, [key% "model_ema.output_blocks81transformer_blocks0attn2to_vweight"], true⟩,
  ⟨key% "model_ema.diffusion_modeloutput_blocks81transformer_blocks0ffnet0projbias", [5120], .float32, [key% "model_ema.output_blocks81transformer_blocks0ffnet0projbias"], true⟩,
  ⟨key% "model_ema.diffusion_modeloutput_blocks81transformer_blocks0ffnet0projweight", [5120, 640], .float32, [key% "model_ema.output_blocks81transformer_blocks0ffnet0projweight"], true⟩,
  ⟨key% "model_ema.diffusion_modeloutput_blocks81transformer_blocks0ffnet2bias", [640], .float32, [key% "model_ema.output_blocks81transformer_blocks0ffnet2bias"], true⟩,
  ⟨key% "model_ema.diffusion_modeloutput_blocks81transformer_blocks0ffnet2weight", [640, 2560], .float32, [key% "model_ema.output_blocks81transformer_blocks0ffnet2weight"], true⟩,
  ⟨key% "model_ema.diffusion_modeloutput_blocks81transformer_blocks0norm1bias", [640], .float32, [key% "model_ema.output_blocks81transformer_blocks0norm1bias"], true⟩,
  ⟨key% "model_ema.diffusion_modeloutput_blocks81transformer_blocks0norm1weight", [640], .float32, [key% "model_ema.output_blocks81transformer_blocks0norm1weight"], true⟩,
  ⟨key% "model_ema.diffusion_modeloutput_blocks81transformer_blocks0norm2bias", [640], .float32, [key% "model_ema.output_blocks81transformer_blocks0norm2bias"], true⟩,
  ⟨key% "model_ema.diffusion_modeloutput_blocks81transformer_blocks0norm2weight", [640], .float32, [key% "model_ema.output_blocks81transformer_blocks0norm2weight"], true⟩,
  ⟨key% "model_ema.diffusion_modeloutput_blocks81transformer_blocks0norm3bias", [640], .float32, [key% "model_ema.output_blocks81transformer_blocks0norm3bias"], true⟩,
  ⟨key% "model_ema.diffusion_modeloutput_blocks81transformer_blocks0norm3weight", [640], .float32, [key% "model_ema.output_blocks81transformer_blocks0norm3weight"], true⟩,
  ⟨key% "model_ema.diffusion_modeloutput_blocks82convbias", [640], .float32, [key% "model_ema.output_blocks82convbias"], true⟩,
  ⟨key% "model_ema.diffusion_modeloutput_blocks82convweight", [640, 640, 3, 3], .float32, [key% "model_ema.output_blocks82convweight"], true⟩,
  ⟨key% "model_ema.diffusion_modeloutput_blocks90emb_layers1bias", [320], .float32, [key% "model_ema.output_blocks90emb_layers1bias"], true⟩,
  ⟨key% "model_ema.diffusion_modeloutput_blocks90emb_layers1weight", [320, 1280], .float32, [key% "model_ema.output_blocks90emb_layers1weight"], true⟩,
  ⟨key% "model_ema.diffusion_modeloutput_blocks90in_layers0bias", [960], .float32, [key% "model_ema.output_blocks90in_layers0bias"], true⟩,
  ⟨key% "model_ema.diffusion_modeloutput_blocks90in_layers0weight", [960], .float32, [key% "model_ema.output_blocks90in_layers0weight"], true⟩,
  ⟨key% "model_ema.diffusion_modeloutput_blocks90in_layers2bias", [320], .float32, [key% "model_ema.output_blocks90in_layers2bias"], true⟩,
  ⟨key% "model_ema.diffusion_modeloutput_blocks90in_layers2weight", [320, 960, 3, 3], .float32, [key% "model_ema.output_blocks90in_layers2weight"], true⟩,
  ⟨key% "model_ema.diffusion_modeloutput_blocks90out_layers0bias", [320], .float32, [key% "model_ema.output_blocks90out_layers0bias"], true⟩,
  ⟨key% "model_ema.diffusion_modeloutput_blocks90out_layers0weight", [320], .float32, [key% "model_ema.output_blocks90out_layers0weight"], true⟩,
  ⟨key% "model_ema.diffusion_modeloutput_blocks90out_layers3bias", [320], .float32, [key% "model_ema.output_blocks90out_layers3bias"], true⟩,
  ⟨key% "model_ema.diffusion_modeloutput_blocks90out_layers3weight", [320, 320, 3, 3], .float32, [key% "model_ema.output_blocks90out_layers3weight"], true⟩,
  ⟨key% "model_ema.diffusion_modeloutput_blocks90skip_connectionbias", [320], .float32, [key% "model_ema.output_blocks90skip_connectionbias"], true⟩,
  ⟨key% "model_ema.diffusion_modeloutput_blocks90skip_connectionweight", [320, 960, 1, 1], .float32, [key% "model_ema.output_blocks90skip_connectionweight"], true⟩,
  ⟨key% "model_ema.diffusion_modeloutput_blocks91normbias", [320], .float32, [key% "model_ema.output_blocks91normbias"], true⟩,
  ⟨key% "model_ema.diffusion_modeloutput_blocks91normweight", [320], .float32, [key% "model_ema.output_blocks91normweight"], true⟩,
  ⟨key% "model_ema.diffusion_modeloutput_blocks91proj_inbias", [320], .float32, [key% "model_ema.output_blocks91proj_inbias"], true⟩,
  ⟨key% "model_ema.diffusion_modeloutput_blocks91proj_inweight", [320, 320, 1, 1], .float32, [key% "model_ema.output_blocks91proj_inweight"], true⟩,
  ⟨key% "model_ema.diffusion_modeloutput_blocks91proj_outbias", [320], .float32, [key% "model_ema.output_blocks91proj_outbias"], true⟩,
  ⟨key% "model_ema.diffusion_modeloutput_blocks91proj_outweight", [320, 320, 1, 1], .float32, [key% "model_ema.output_blocks91proj_outweight"], true⟩,
  ⟨key% "model_ema.diffusion_modeloutput_blocks91transformer_blocks0attn1to_kweight", [320, 320], .float32, [key% "model_ema.output_blocks91transformer_blocks0attn1to_kweight"], true⟩,
  ⟨key% "model_ema.diffusion_modeloutput_blocks91transformer_blocks0attn1to_out0bias", [320], .float32, [key% "model_ema.output_blocks91transformer_blocks0attn1to_out0bias"], true⟩,
  ⟨key% "model_ema.diffusion_modeloutput_blocks91transformer_blocks0attn1to_out0weight", [320, 320], .float32, [key% "model_ema.output_blocks91transformer_blocks0attn1to_out0weight"], true⟩,
  ⟨key% "model_ema.diffusion_modeloutput_blocks91transformer_blocks0attn1to_qweight", [320, 320], .float32, [key% "model_ema.output_blocks91transformer_blocks0attn1to_qweight"], true⟩,
  ⟨key% "model_ema.diffusion_modeloutput_blocks91transformer_blocks0attn1to_vweight", [320, 320], .float32, [key% "model_ema.output_blocks91transformer_blocks0attn1to_vweight"], true⟩,
  ⟨key% "model_ema.diffusion_modeloutput_blocks91transformer_blocks0attn2to_kweight", [320, 768], .float32, [key% "model_ema.output_blocks91transformer_blocks0attn2to_kweight"], true⟩,
  ⟨key% "model_ema.diffusion_modeloutput_blocks91transformer_blocks0attn2to_out0bias", [320], .float32, [key% "model_ema.output_blocks91transformer_blocks0attn2to_out0bias"], true⟩,
  ⟨key% "model_ema.diffusion_modeloutput_blocks91transformer_blocks0attn2to_out0weight", [320, 320], .float32, [key% "model_ema.output_blocks91transformer_blocks0attn2to_out0weight"], true⟩,
  ⟨key% "model_ema.diffusion_modeloutput_blocks91transformer_blocks0attn2to_qweight", [320, 320], .float32, [key% "model_ema.output_blocks91transformer_blocks0attn2to_qweight"], true⟩,
  ⟨key% "model_ema.diffusion_modeloutput_blocks91transformer_blocks0attn2to_vweight", [320, 768], .float32, [key% "model_ema.output_blocks91transformer_blocks0attn2to_vweight"], true⟩,
  ⟨key% "model_ema.diffusion_modeloutput_blocks91transformer_blocks0ffnet0projbias", [2560], .float32, [key% "model_ema.output_blocks91transformer_blocks0ffnet0projbias"], true⟩,
  ⟨key% "model_ema.diffusion_modeloutput_blocks91transformer_blocks0ffnet0projweight", [2560, 320], .float32, [key% "model_ema.output_blocks91transformer_blocks0ffnet0projweight"], true⟩,
  ⟨key% "model_ema.diffusion_modeloutput_blocks91transformer_blocks0ffnet2bias", [320], .float32, [key% "model_ema.output_blocks91transformer_blocks0ffnet2bias"], true⟩,
  ⟨key% "model_ema.diffusion_modeloutput_blocks91transformer_blocks0ffnet2weight", [320, 1280], .float32, [key% "model_ema.output_blocks91transformer_blocks0ffnet2weight"], true⟩,
  ⟨key% "model_ema.diffusion_modeloutput_blocks91transformer_blocks0norm1bias", [320], .float32, [key% "model_ema.output_blocks91transformer_blocks0norm1bias"], true⟩,
  ⟨key% "model_ema.diffusion_modeloutput_blocks91transformer_blocks0norm1weight", [320], .float32, [key% "model_ema.output_blocks91transformer_blocks0norm1weight"], true⟩,
  ⟨key% "model_ema.diffusion_modeloutput_blocks91transformer_blocks0norm2bias", [320], .float32, [key% "model_ema.output_blocks91transformer_blocks0norm2bias"], true⟩,
  ⟨key% "model_ema.diffusion_modeloutput_blocks91transformer_blocks0norm2weight", [320], .float32, [key% "model_ema.output_blocks91transformer_blocks0norm2weight"], true⟩,
  ⟨key% "model_ema.diffusion_modeloutput_blocks91transformer_blocks0norm3bias", [320], .float32, [key% "model_ema.output_blocks91transformer_blocks0norm3bias"], true⟩,
  ⟨key% "model_ema.diffusion_modeloutput_blocks91transformer_blocks0norm3weight", [320], .float32, [key% "model_ema.output_blocks91transformer_blocks0norm3weight"], true⟩,
  ⟨key% "model_ema.diffusion_modeltime_embed0bias", [1280], .float32, [key% "model_ema.time_embed0bias"], true⟩,
  ⟨key% "model_ema.diffusion_modeltime_embed0weight", [1280, 320], .float32, [key% "model_ema.time_embed0weight"], true⟩,
  ⟨key% "model_ema.diffusion_modeltime_embed2bias", [1280], .float32, [key% "model_ema.time_embed2bias"], true⟩,
  ⟨key% "model_ema.diffusion_modeltime_embed2weight", [1280, 1280], .float32, [key% "model_ema.time_embed2weight"], true⟩]
/-- Component `ema`: 688 keys -/
noncomputable def ema : List Entry := ema0 ++ ema1 ++ ema2 ++ ema3 ++ ema4 ++ ema5 ++ ema6

noncomputable def scheduler0 : List Entry := [
  ⟨key% "alphas_cumprod", [1000], .float32, [], true⟩,
  ⟨key% "alphas_cumprod_prev", [1000], .float32, [], true⟩,
  ⟨key% "betas", [1000], .float32, [], true⟩,
  ⟨key% "log_one_minus_alphas_cumprod", [1000], .float32, [], true⟩,
  ⟨key% "posterior_log_variance_clipped", [1000], .float32, [], true⟩,
  ⟨key% "posterior_mean_coef1", [1000], .float32, [], true⟩,
  ⟨key% "posterior_mean_coef2", [1000], .float32, [], true⟩,
  ⟨key% "posterior_variance", [1000], .float32, [], true⟩,
  ⟨key% "sqrt_alphas_cumprod", [1000], .float32, [], true⟩,
  ⟨key% "sqrt_one_minus_alphas_cumprod", [1000], .float32, [], true⟩,
  ⟨key% "sqrt_recip_alphas_cumprod", [1000], .float32, [], true⟩,
  ⟨key% "sqrt_recipm1_alphas_cumprod", [1000], .float32, [], true⟩]
/-- Component `scheduler`: 12 keys -/
noncomputable def scheduler : List Entry := scheduler0

/-- The config as written in the file: its identifier and its components -/
noncomputable def table : Table := ⟨key% "sd1-ldm", [(key% "clip_l", clip_l), (key% "vae", vae), (key% "diffuser", diffuser), (key% "ema", ema), (key% "scheduler", scheduler)]⟩

end Verif.Data.Sd1Ldm
