import Verif.Data.Entry

/-!
# Keys of `sd1-kohya.yaml`

Generated by tools/gen_tables.py from sd_mecha/extensions/builtin/model_configs/sd1-kohya.yaml.
-/
namespace Verif.Data.Sd1Kohya


noncomputable def clip_l0 : List Entry := [
  ⟨key% "te.text_model.embeddings.position_embedding.weight", [77, 768], .float32, [], false⟩,
  ⟨key% "te.text_model.embeddings.token_embedding.weight", [49408, 768], .float32, [], false⟩,
  ⟨key% "te.text_model.encoder.layers.0.layer_norm1.bias", [768], .float32, [], false⟩,
  ⟨key% "te.text_model.encoder.layers.0.layer_norm1.weight", [768], .float32, [], false⟩,
  ⟨key% "te.text_model.encoder.layers.0.layer_norm2.bias", [768], .float32, [], false⟩,
  ⟨key% "te.text_model.encoder.layers.0.layer_norm2.weight", [768], .float32, [], false⟩,
  ⟨key% "te.text_model.encoder.layers.0.mlp.fc1.bias", [3072], .float32, [], false⟩,
  ⟨key% "te.text_model.encoder.layers.0.mlp.fc1.weight", [3072, 768], .float32, [], false⟩,
  ⟨key% "te.text_model.encoder.layers.0.mlp.fc2.bias", [768], .float32, [], false⟩,
  ⟨key% "te.text_model.encoder.layers.0.mlp.fc2.weight", [768, 3072], .float32, [], false⟩,
  ⟨key% "te.text_model.encoder.layers.0.self_attn.k_proj.bias", [768], .float32, [], false⟩,
  ⟨key% "te.text_model.encoder.layers.0.self_attn.k_proj.weight", [768, 768], .float32, [], false⟩,
  ⟨key% "te.text_model.encoder.layers.0.self_attn.out_proj.bias", [768], .float32, [], false⟩,
  ⟨key% "te.text_model.encoder.layers.0.self_attn.out_proj.weight", [768, 768], .float32, [], false⟩,
  ⟨key% "te.text_model.encoder.layers.0.self_attn.q_proj.bias", [768], .float32, [], false⟩,
  ⟨key% "te.text_model.encoder.layers.0.self_attn.q_proj.weight", [768, 768], .float32, [], false⟩,
  ⟨key% "te.text_model.encoder.layers.0.self_attn.v_proj.bias", [768], .float32, [], false⟩,
  ⟨key% "te.text_model.encoder.layers.0.self_attn.v_proj.weight", [768, 768], .float32, [], false⟩,
  ⟨key% "te.text_model.encoder.layers.1.layer_norm1.bias", [768], .float32, [], false⟩,
  ⟨key% "te.text_model.encoder.layers.1.layer_norm1.weight", [768], .float32, [], false⟩,
  ⟨key% "te.text_model.encoder.layers.1.layer_norm2.bias", [768], .float32, [], false⟩,
  ⟨key% "te.text_model.encoder.layers.1.layer_norm2.weight", [768], .float32, [], false⟩,
  ⟨key% "te.text_model.encoder.layers.1.mlp.fc1.bias", [3072], .float32, [], false⟩,
  ⟨key% "te.text_model.encoder.layers.1.mlp.fc1.weight", [3072, 768], .float32, [], false⟩,
  ⟨key% "te.text_model.encoder.layers.1.mlp.fc2.bias", [768], .float32, [], false⟩,
  ⟨key% "te.text_model.encoder.layers.1.mlp.fc2.weight", [768, 3072], .float32, [], false⟩,
  ⟨key% "te.text_model.encoder.layers.1.self_attn.k_proj.bias", [768], .float32, [], false⟩,
  ⟨key% "te.text_model.encoder.layers.1.self_attn.k_proj.weight", [768, 768], .float32, [], false⟩,
  ⟨key% "te.text_model.encoder.layers.1.self_attn.out_proj.bias", [768], .float32, [], false⟩,
  ⟨key% "te.text_model.encoder.layers.1.self_attn.out_proj.weight", [768, 768], .float32, [], false⟩,
  ⟨key% "te.text_model.encoder.layers.1.self_attn.q_proj.bias", [768], .float32, [], false⟩,
  ⟨key% "te.text_model.encoder.layers.1.self_attn.q_proj.weight", [768, 768], .float32, [], false⟩,
  ⟨key% "te.text_model.encoder.layers.1.self_attn.v_proj.bias", [768], .float32, [], false⟩,
  ⟨key% "te.text_model.encoder.layers.1.self_attn.v_proj.weight", [768, 768], .float32, [], false⟩,
  ⟨key% "te.text_model.encoder.layers.10.layer_norm1.bias", [768], .float32, [], false⟩,
  ⟨key% "te.text_model.encoder.layers.10.layer_norm1.weight", [768], .float32, [], false⟩,
  ⟨key% "te.text_model.encoder.layers.10.layer_norm2.bias", [768], .float32, [], false⟩,
  ⟨key% "te.text_model.encoder.layers.10.layer_norm2.weight", [768], .float32, [], false⟩,
  ⟨key% "te.text_model.encoder.layers.10.mlp.fc1.bias", [3072], .float32, [], false⟩,
  ⟨key% "te.text_model.encoder.layers.10.mlp.fc1.weight", [3072, 768], .float32, [], false⟩,
  ⟨key% "te.text_model.encoder.layers.10.mlp.fc2.bias", [768], .float32, [], false⟩,
  ⟨key% "te.text_model.encoder.layers.10.mlp.fc2.weight", [768, 3072], .float32, [], false⟩,
  ⟨key% "te.text_model.encoder.layers.10.self_attn.k_proj.bias", [768], .float32, [], false⟩,
  ⟨key% "te.text_model.encoder.layers.10.self_attn.k_proj.weight", [768, 768], .float32, [], false⟩,
  ⟨key% "te.text_model.encoder.layers.10.self_attn.out_proj.bias", [768], .float32, [], false⟩,
  ⟨key% "te.text_model.encoder.layers.10.self_attn.out_proj.weight", [768, 768], .float32, [], false⟩,
  ⟨key% "te.text_model.encoder.layers.10.self_attn.q_proj.bias", [768], .float32, [], false⟩,
  ⟨key% "te.text_model.encoder.layers.10.self_attn.q_proj.weight", [768, 768], .float32, [], false⟩,
  ⟨key% "te.text_model.encoder.layers.10.self_attn.v_proj.bias", [768], .float32, [], false⟩,
  ⟨key% "te.text_model.encoder.layers.10.self_attn.v_proj.weight", [768, 768], .float32, [], false⟩,
  ⟨key% "te.text_model.encoder.layers.11.layer_norm1.bias", [768], .float32, [], false⟩,
  ⟨key% "te.text_model.encoder.layers.11.layer_norm1.weight", [768], .float32, [], false⟩,
  ⟨key% "te.text_model.encoder.layers.11.layer_norm2.bias", [768], .float32, [], false⟩,
  ⟨key% "te.text_model.encoder.layers.11.layer_norm2.weight", [768], .float32, [], false⟩,
  ⟨key% "te.text_model.encoder.layers.11.mlp.fc1.bias", [3072], .float32, [], false⟩,
  ⟨key% "te.text_model.encoder.layers.11.mlp.fc1.weight", [3072, 768], .float32, [], false⟩,
  ⟨key% "te.text_model.encoder.layers.11.mlp.fc2.bias", [768], .float32, [], false⟩,
  ⟨key% "te.text_model.encoder.layers.11.mlp.fc2.weight", [768, 3072], .float32, [], false⟩,
  ⟨key% "te.text_model.encoder.layers.11.self_attn.k_proj.bias", [768], .float32, [], false⟩,
  ⟨key% "te.text_model.encoder.layers.11.self_attn.k_proj.weight", [768, 768], .float32, [], false⟩,
  ⟨key% "te.text_model.encoder.layers.11.self_attn.out_proj.bias", [768], .float32, [], false⟩,
  ⟨key% "te.text_model.encoder.layers.11.self_attn.out_proj.weight", [768, 768], .float32, [], false⟩,
  ⟨key% "te.text_model.encoder.layers.11.self_attn.q_proj.bias", [768], .float32, [], false⟩,
  ⟨key% "te.text_model.encoder.layers.11.self_attn.q_proj.weight", [768, 768], .float32, [], false⟩,
  ⟨key% "te.text_model.encoder.layers.11.self_attn.v_proj.bias", [768], .float32, [], false⟩,
  ⟨key% "te.text_model.encoder.layers.11.self_attn.v_proj.weight", [768, 768], .float32, [], false⟩,
  ⟨key% "te.text_model.encoder.layers.2.layer_norm1.bias", [768], .float32, [], false⟩,
  ⟨key% "te.text_model.encoder.layers.2.layer_norm1.weight", [768], .float32, [], false⟩,
  ⟨key% "te.text_model.encoder.layers.2.layer_norm2.bias", [768], .float32, [], false⟩,
  ⟨key% "te.text_model.encoder.layers.2.layer_norm2.weight", [768], .float32, [], false⟩,
  ⟨key% "te.text_model.encoder.layers.2.mlp.fc1.bias", [3072], .float32, [], false⟩,
  ⟨key% "te.text_model.encoder.layers.2.mlp.fc1.weight", [3072, 768], .float32, [], false⟩,
  ⟨key% "te.text_model.encoder.layers.2.mlp.fc2.bias", [768], .float32, [], false⟩,
  ⟨key% "te.text_model.encoder.layers.2.mlp.fc2.weight", [768, 3072], .float32, [], false⟩,
  ⟨key% "te.text_model.encoder.layers.2.self_attn.k_proj.bias", [768], .float32, [], false⟩,
  ⟨key% "te.text_model.encoder.layers.2.self_attn.k_proj.weight", [768, 768], .float32, [], false⟩,
  ⟨key% "te.text_model.encoder.layers.2.self_attn.out_proj.bias", [768], .float32, [], false⟩,
  ⟨key% "te.text_model.encoder.layers.2.self_attn.out_proj.weight", [768, 768], .float32, [], false⟩,
  ⟨key% "te.text_model.encoder.layers.2.self_attn.q_proj.bias", [768], .float32, [], false⟩,
  ⟨key% "te.text_model.encoder.layers.2.self_attn.q_proj.weight", [768, 768], .float32, [], false⟩,
  ⟨key% "te.text_model.encoder.layers.2.self_attn.v_proj.bias", [768], .float32, [], false⟩,
  ⟨key% "te.text_model.encoder.layers.2.self_attn.v_proj.weight", [768, 768], .float32, [], false⟩,
  ⟨key% "te.text_model.encoder.layers.3.layer_norm1.bias", [768], .float32, [], false⟩,
  ⟨key% "te.text_model.encoder.layers.3.layer_norm1.weight", [768], .float32, [], false⟩,
  ⟨key% "te.text_model.encoder.layers.3.layer_norm2.bias", [768], .float32, [], false⟩,
  ⟨key% "te.text_model.encoder.layers.3.layer_norm2.weight", [768], .float32, [], false⟩,
  ⟨key% "te.text_model.encoder.layers.3.mlp.fc1.bias", [3072], .float32, [], false⟩,
  ⟨key% "te.text_model.encoder.layers.3.mlp.fc1.weight", [3072, 768], .float32, [], false⟩,
  ⟨key% "te.text_model.encoder.layers.3.mlp.fc2.bias", [768], .float32, [], false⟩,
  ⟨key% "te.text_model.encoder.layers.3.mlp.fc2.weight", [768, 3072], .float32, [], false⟩,
  ⟨key% "te.text_model.encoder.layers.3.self_attn.k_proj.bias", [768], .float32, [], false⟩,
  ⟨key% "te.text_model.encoder.layers.3.self_attn.k_proj.weight", [768, 768], .float32, [], false⟩,
  ⟨key% "te.text_model.encoder.layers.3.self_attn.out_proj.bias", [768], .float32, [], false⟩,
  ⟨key% "te.text_model.encoder.layers.3.self_attn.out_proj.weight", [768, 768], .float32, [], false⟩,
  ⟨key% "te.text_model.encoder.layers.3.self_attn.q_proj.bias", [768], .float32, [], false⟩,
  ⟨key% "te.text_model.encoder.layers.3.self_attn.q_proj.weight", [768, 768], .float32, [], false⟩,
  ⟨key% "te.text_model.encoder.layers.3.self_attn.v_proj.bias", [768], .float32, [], false⟩,
  ⟨key% "te.text_model.encoder.layers.3.self_attn.v_proj.weight", [768, 768], .float32, [], false⟩,
  ⟨key% "te.text_model.encoder.layers.4.layer_norm1.bias", [768], .float32, [], false⟩,
  ⟨key% "te.text_model.encoder.layers.4.layer_norm1.weight", [768], .float32, [], false⟩]
noncomputable def clip_l1 : List Entry := [
  ⟨key% "te.text_model.encoder.layers.4.layer_norm2.bias", [768], .float32, [], false⟩,
  ⟨key% "te.text_model.encoder.layers.4.layer_norm2.weight", [768], .float32, [], false⟩,
  ⟨key% "te.text_model.encoder.layers.4.mlp.fc1.bias", [3072], .float32, [], false⟩,
  ⟨key% "te.text_model.encoder.layers.4.mlp.fc1.weight", [3072, 768], .float32, [], false⟩,
  ⟨key% "te.text_model.encoder.layers.4.mlp.fc2.bias", [768], .float32, [], false⟩,
  ⟨key% "te.text_model.encoder.layers.4.mlp.fc2.weight", [768, 3072], .float32, [], false⟩,
  ⟨key% "te.text_model.encoder.layers.4.self_attn.k_proj.bias", [768], .float32, [], false⟩,
  ⟨key% "te.text_model.encoder.layers.4.self_attn.k_proj.weight", [768, 768], .float32, [], false⟩,
  ⟨key% "te.text_model.encoder.layers.4.self_attn.out_proj.bias", [768], .float32, [], false⟩,
  ⟨key% "te.text_model.encoder.layers.4.self_attn.out_proj.weight", [768, 768], .float32, [], false⟩,
  ⟨key% "te.text_model.encoder.layers.4.self_attn.q_proj.bias", [768], .float32, [], false⟩,
  ⟨key% "te.text_model.encoder.layers.4.self_attn.q_proj.weight", [768, 768], .float32, [], false⟩,
  ⟨key% "te.text_model.encoder.layers.4.self_attn.v_proj.bias", [768], .float32, [], false⟩,
  ⟨key% "te.text_model.encoder.layers.4.self_attn.v_proj.weight", [768, 768], .float32, [], false⟩,
  ⟨key% "te.text_model.encoder.layers.5.layer_norm1.bias", [768], .float32, [], false⟩,
  ⟨key% "te.text_model.encoder.layers.5.layer_norm1.weight", [768], .float32, [], false⟩,
  ⟨key% "te.text_model.encoder.layers.5.layer_norm2.bias", [768], .float32, [], false⟩,
  ⟨key% "te.text_model.encoder.layers.5.layer_norm2.weight", [768], .float32, [], false⟩,
  ⟨key% "te.text_model.encoder.layers.5.mlp.fc1.bias", [3072], .float32, [], false⟩,
  ⟨key% "te.text_model.encoder.layers.5.mlp.fc1.weight", [3072, 768], .float32, [], false⟩,
  ⟨key% "te.text_model.encoder.layers.5.mlp.fc2.bias", [768], .float32, [], false⟩,
  ⟨key% "te.text_model.encoder.layers.5.mlp.fc2.weight", [768, 3072], .float32, [], false⟩,
  ⟨key% "te.text_model.encoder.layers.5.self_attn.k_proj.bias", [768], .float32, [], false⟩,
  ⟨key% "te.text_model.encoder.layers.5.self_attn.k_proj.weight", [768, 768], .float32, [], false⟩,
  ⟨key% "te.text_model.encoder.layers.5.self_attn.out_proj.bias", [768], .float32, [], false⟩,
  ⟨key% "te.text_model.encoder.layers.5.self_attn.out_proj.weight", [768, 768], .float32, [], false⟩,
  ⟨key% "te.text_model.encoder.layers.5.self_attn.q_proj.bias", [768], .float32, [], false⟩,
  ⟨key% "te.text_model.encoder.layers.5.self_attn.q_proj.weight", [768, 768], .float32, [], false⟩,
  ⟨key% "te.text_model.encoder.layers.5.self_attn.v_proj.bias", [768], .float32, [], false⟩,
  ⟨key% "te.text_model.encoder.layers.5.self_attn.v_proj.weight", [768, 768], .float32, [], false⟩,
  ⟨key% "te.text_model.encoder.layers.6.layer_norm1.bias", [768], .float32, [], false⟩,
  ⟨key% "te.text_model.encoder.layers.6.layer_norm1.weight", [768], .float32, [], false⟩,
  ⟨key% "te.text_model.encoder.layers.6.layer_norm2.bias", [768], .float32, [], false⟩,
  ⟨key% "te.text_model.encoder.layers.6.layer_norm2.weight", [768], .float32, [], false⟩,
  ⟨key% "te.text_model.encoder.layers.6.mlp.fc1.bias", [3072], .float32, [], false⟩,
  ⟨key% "te.text_model.encoder.layers.6.mlp.fc1.weight", [3072, 768], .float32, [], false⟩,
  ⟨key% "te.text_model.encoder.layers.6.mlp.fc2.bias", [768], .float32, [], false⟩,
  ⟨key% "te.text_model.encoder.layers.6.mlp.fc2.weight", [768, 3072], .float32, [], false⟩,
  ⟨key% "te.text_model.encoder.layers.6.self_attn.k_proj.bias", [768], .float32, [], false⟩,
  ⟨key% "te.text_model.encoder.layers.6.self_attn.k_proj.weight", [768, 768], .float32, [], false⟩,
  ⟨key% "te.text_model.encoder.layers.6.self_attn.out_proj.bias", [768], .float32, [], false⟩,
  ⟨key% "te.text_model.encoder.layers.6.self_attn.out_proj.weight", [768, 768], .float32, [], false⟩,
  ⟨key% "te.text_model.encoder.layers.6.self_attn.q_proj.bias", [768], .float32, [], false⟩,
  ⟨key% "te.text_model.encoder.layers.6.self_attn.q_proj.weight", [768, 768], .float32, [], false⟩,
  ⟨key% "te.text_model.encoder.layers.6.self_attn.v_proj.bias", [768], .float32, [], false⟩,
  ⟨key% "te.text_model.encoder.layers.6.self_attn.v_proj.weight", [768, 768], .float32, [], false⟩,
  ⟨key% "te.text_model.encoder.layers.7.layer_norm1.bias", [768], .float32, [], false⟩,
  ⟨key% "te.text_model.encoder.layers.7.layer_norm1.weight", [768], .float32, [], false⟩,
  ⟨key% "te.text_model.encoder.layers.7.layer_norm2.bias", [768], .float32, [], false⟩,
  ⟨key% "te.text_model.encoder.layers.7.layer_norm2.weight", [768], .float32, [], false⟩,
  ⟨key% "te.text_model.encoder.layers.7.mlp.fc1.bias", [3072], .float32, [], false⟩,
  ⟨key% "te.text_model.encoder.layers.7.mlp.fc1.weight", [3072, 768], .float32, [], false⟩,
  ⟨key% "te.text_model.encoder.layers.7.mlp.fc2.bias", [768], .float32, [], false⟩,
  ⟨key% "te.text_model.encoder.layers.7.mlp.fc2.weight", [768, 3072], .float32, [], false⟩,
  ⟨key% "te.text_model.encoder.layers.7.self_attn.k_proj.bias", [768], .float32, [], false⟩,
  ⟨key% "te.text_model.encoder.layers.7.self_attn.k_proj.weight", [768, 768], .float32, [], false⟩,
  ⟨key% "te.text_model.encoder.layers.7.self_attn.out_proj.bias", [768], .float32, [], false⟩,
  ⟨key% "te.text_model.encoder.layers.7.self_attn.out_proj.weight", [768, 768], .float32, [], false⟩,
  ⟨key% "te.text_model.encoder.layers.7.self_attn.q_proj.bias", [768], .float32, [], false⟩,
  ⟨key% "te.text_model.encoder.layers.7.self_attn.q_proj.weight", [768, 768], .float32, [], false⟩,
  ⟨key% "te.text_model.encoder.layers.7.self_attn.v_proj.bias", [768], .float32, [], false⟩,
  ⟨key% "te.text_model.encoder.layers.7.self_attn.v_proj.weight", [768, 768], .float32, [], false⟩,
  ⟨key% "te.text_model.encoder.layers.8.layer_norm1.bias", [768], .float32, [], false⟩,
  ⟨key% "te.text_model.encoder.layers.8.layer_norm1.weight", [768], .float32, [], false⟩,
  ⟨key% "te.text_model.encoder.layers.8.layer_norm2.bias", [768], .float32, [], false⟩,
  ⟨key% "te.text_model.encoder.layers.8.layer_norm2.weight", [768], .float32, [], false⟩,
  ⟨key% "te.text_model.encoder.layers.8.mlp.fc1.bias", [3072], .float32, [], false⟩,
  ⟨key% "te.text_model.encoder.layers.8.mlp.fc1.weight", [3072, 768], .float32, [], false⟩,
  ⟨key% "te.text_model.encoder.layers.8.mlp.fc2.bias", [768], .float32, [], false⟩,
  ⟨key% "te.text_model.encoder.layers.8.mlp.fc2.weight", [768, 3072], .float32, [], false⟩,
  ⟨key% "te.text_model.encoder.layers.8.self_attn.k_proj.bias", [768], .float32, [], false⟩,
  ⟨key% "te.text_model.encoder.layers.8.self_attn.k_proj.weight", [768, 768], .float32, [], false⟩,
  ⟨key% "te.text_model.encoder.layers.8.self_attn.out_proj.bias", [768], .float32, [], false⟩,
  ⟨key% "te.text_model.encoder.layers.8.self_attn.out_proj.weight", [768, 768], .float32, [], false⟩,
  ⟨key% "te.text_model.encoder.layers.8.self_attn.q_proj.bias", [768], .float32, [], false⟩,
  ⟨key% "te.text_model.encoder.layers.8.self_attn.q_proj.weight", [768, 768], .float32, [], false⟩,
  ⟨key% "te.text_model.encoder.layers.8.self_attn.v_proj.bias", [768], .float32, [], false⟩,
  ⟨key% "te.text_model.encoder.layers.8.self_attn.v_proj.weight", [768, 768], .float32, [], false⟩,
  ⟨key% "te.text_model.encoder.layers.9.layer_norm1.bias", [768], .float32, [], false⟩,
  ⟨key% "te.text_model.encoder.layers.9.layer_norm1.weight", [768], .float32, [], false⟩,
  ⟨key% "te.text_model.encoder.layers.9.layer_norm2.bias", [768], .float32, [], false⟩,
  ⟨key% "te.text_model.encoder.layers.9.layer_norm2.weight", [768], .float32, [], false⟩,
  ⟨key% "te.text_model.encoder.layers.9.mlp.fc1.bias", [3072], .float32, [], false⟩,
  ⟨key% "te.text_model.encoder.layers.9.mlp.fc1.weight", [3072, 768], .float32, [], false⟩,
  ⟨key% "te.text_model.encoder.layers.9.mlp.fc2.bias", [768], .float32, [], false⟩,
  ⟨key% "te.text_model.encoder.layers.9.mlp.fc2.weight", [768, 3072], .float32, [], false⟩,
  ⟨key% "te.text_model.encoder.layers.9.self_attn.k_proj.bias", [768], .float32, [], false⟩,
  ⟨key% "te.text_model.encoder.layers.9.self_attn.k_proj.weight", [768, 768], .float32, [], false⟩,
  ⟨key% "te.text_model.encoder.layers.9.self_attn.out_proj.bias", [768], .float32, [], false⟩,
  ⟨key% "te.text_model.encoder.layers.9.self_attn.out_proj.weight", [768, 768], .float32, [], false⟩,
  ⟨key% "te.text_model.encoder.layers.9.self_attn.q_proj.bias", [768], .float32, [], false⟩,
  ⟨key% "te.text_model.encoder.layers.9.self_attn.q_proj.weight", [768, 768], .float32, [], false⟩,
  ⟨key% "te.text_model.encoder.layers.9.self_attn.v_proj.bias", [768], .float32, [], false⟩,
  ⟨key% "te.text_model.encoder.layers.9.self_attn.v_proj.weight", [768, 768], .float32, [], false⟩,
  ⟨key% "te.text_model.final_layer_norm.bias", [768], .float32, [], false⟩,
  ⟨key% "te.text_model.final_layer_norm.weight", [768], .float32, [], false⟩]
/-- Component `clip_l`: 196 keys -/
noncomputable def clip_l : List Entry := clip_l0 ++ clip_l1

noncomputable def diffuser0 : List Entry := [
  ⟨key% "unet.conv_in.bias", [320], .float32, [], false⟩,
  ⟨key% "unet.conv_in.weight", [320, 4, 3, 3], .float32, [], false⟩,
  ⟨key% "unet.conv_norm_out.bias", [320], .float32, [], false⟩,
  ⟨key% "unet.conv_norm_out.weight", [320], .float32, [], false⟩,
  ⟨key% "unet.conv_out.bias", [4], .float32, [], false⟩,
  ⟨key% "unet.conv_out.weight", [4, 320, 3, 3], .float32, [], false⟩,
  ⟨key% "unet.down_blocks.0.attentions.0.norm.bias", [320], .float32, [], false⟩,
  ⟨key% "unet.down_blocks.0.attentions.0.norm.weight", [320], .float32, [], false⟩,
  ⟨key% "unet.down_blocks.0.attentions.0.proj_in.bias", [320], .float32, [], false⟩,
  ⟨key% "unet.down_blocks.0.attentions.0.proj_in.weight", [320, 320, 1, 1], .float32, [], false⟩,
  ⟨key% "unet.down_blocks.0.attentions.0.proj_out.bias", [320], .float32, [], false⟩,
  ⟨key% "unet.down_blocks.0.attentions.0.proj_out.weight", [320, 320, 1, 1], .float32, [], false⟩,
  ⟨key% "unet.down_blocks.0.attentions.0.transformer_blocks.0.attn1.to_k.weight", [320, 320], .float32, [], false⟩,
  ⟨key% "unet.down_blocks.0.attentions.0.transformer_blocks.0.attn1.to_out.0.bias", [320], .float32, [], false⟩,
  ⟨key% "unet.down_blocks.0.attentions.0.transformer_blocks.0.attn1.to_out.0.weight", [320, 320], .float32, [], false⟩,
  ⟨key% "unet.down_blocks.0.attentions.0.transformer_blocks.0.attn1.to_q.weight", [320, 320], .float32, [], false⟩,
  ⟨key% "unet.down_blocks.0.attentions.0.transformer_blocks.0.attn1.to_v.weight", [320, 320], .float32, [], false⟩,
  ⟨key% "unet.down_blocks.0.attentions.0.transformer_blocks.0.attn2.to_k.weight", [320, 768], .float32, [], false⟩,
  ⟨key% "unet.down_blocks.0.attentions.0.transformer_blocks.0.attn2.to_out.0.bias", [320], .float32, [], false⟩,
  ⟨key% "unet.down_blocks.0.attentions.0.transformer_blocks.0.attn2.to_out.0.weight", [320, 320], .float32, [], false⟩,
  ⟨key% "unet.down_blocks.0.attentions.0.transformer_blocks.0.attn2.to_q.weight", [320, 320], .float32, [], false⟩,
  ⟨key% "unet.down_blocks.0.attentions.0.transformer_blocks.0.attn2.to_v.weight", [320, 768], .float32, [], false⟩,
  ⟨key% "unet.down_blocks.0.attentions.0.transformer_blocks.0.ff.net.0.proj.bias", [2560], .float32, [], false⟩,
  ⟨key% "unet.down_blocks.0.attentions.0.transformer_blocks.0.ff.net.0.proj.weight", [2560, 320], .float32, [], false⟩,
  ⟨key% "unet.down_blocks.0.attentions.0.transformer_blocks.0.ff.net.2.bias", [320], .float32, [], false⟩,
  ⟨key% "unet.down_blocks.0.attentions.0.transformer_blocks.0.ff.net.2.weight", [320, 1280], .float32, [], false⟩,
  ⟨key% "unet.down_blocks.0.attentions.0.transformer_blocks.0.norm1.bias", [320], .float32, [], false⟩,
  ⟨key% "unet.down_blocks.0.attentions.0.transformer_blocks.0.norm1.weight", [320], .float32, [], false⟩,
  ⟨key% "unet.down_blocks.0.attentions.0.transformer_blocks.0.norm2.bias", [320], .float32, [], false⟩,
  ⟨key% "unet.down_blocks.0.attentions.0.transformer_blocks.0.norm2.weight", [320], .float32, [], false⟩,
  ⟨key% "unet.down_blocks.0.attentions.0.transformer_blocks.0.norm3.bias", [320], .float32, [], false⟩,
  ⟨key% "unet.down_blocks.0.attentions.0.transformer_blocks.0.norm3.weight", [320], .float32, [], false⟩,
  ⟨key% "unet.down_blocks.0.attentions.1.norm.bias", [320], .float32, [], false⟩,
  ⟨key% "unet.down_blocks.0.attentions.1.norm.weight", [320], .float32, [], false⟩,
  ⟨key% "unet.down_blocks.0.attentions.1.proj_in.bias", [320], .float32, [], false⟩,
  ⟨key% "unet.down_blocks.0.attentions.1.proj_in.weight", [320, 320, 1, 1], .float32, [], false⟩,
  ⟨key% "unet.down_blocks.0.attentions.1.proj_out.bias", [320], .float32, [], false⟩,
  ⟨key% "unet.down_blocks.0.attentions.1.proj_out.weight", [320, 320, 1, 1], .float32, [], false⟩,
  ⟨key% "unet.down_blocks.0.attentions.1.transformer_blocks.0.attn1.to_k.weight", [320, 320], .float32, [], false⟩,
  ⟨key% "unet.down_blocks.0.attentions.1.transformer_blocks.0.attn1.to_out.0.bias", [320], .float32, [], false⟩,
  ⟨key% "unet.down_blocks.0.attentions.1.transformer_blocks.0.attn1.to_out.0.weight", [320, 320], .float32, [], false⟩,
  ⟨key% "unet.down_blocks.0.attentions.1.transformer_blocks.0.attn1.to_q.weight", [320, 320], .float32, [], false⟩,
  ⟨key% "unet.down_blocks.0.attentions.1.transformer_blocks.0.attn1.to_v.weight", [320, 320], .float32, [], false⟩,
  ⟨key% "unet.down_blocks.0.attentions.1.transformer_blocks.0.attn2.to_k.weight", [320, 768], .float32, [], false⟩,
  ⟨key% "unet.down_blocks.0.attentions.1.transformer_blocks.0.attn2.to_out.0.bias", [320], .float32, [], false⟩,
  ⟨key% "unet.down_blocks.0.attentions.1.transformer_blocks.0.attn2.to_out.0.weight", [320, 320], .float32, [], false⟩,
  ⟨key% "unet.down_blocks.0.attentions.1.transformer_blocks.0.attn2.to_q.weight", [320, 320], .float32, [], false⟩,
  ⟨key% "unet.down_blocks.0.attentions.1.transformer_blocks.0.attn2.to_v.weight", [320, 768], .float32, [], false⟩,
  ⟨key% "unet.down_blocks.0.attentions.1.transformer_blocks.0.ff.net.0.proj.bias", [2560], .float32, [], false⟩,
  ⟨key% "unet.down_blocks.0.attentions.1.transformer_blocks.0.ff.net.0.proj.weight", [2560, 320], .float32, [], false⟩,
  ⟨key% "unet.down_blocks.0.attentions.1.transformer_blocks.0.ff.net.2.bias", [320], .float32, [], false⟩,
  ⟨key% "unet.down_blocks.0.attentions.1.transformer_blocks.0.ff.net.2.weight", [320, 1280], .float32, [], false⟩,
  ⟨key% "unet.down_blocks.0.attentions.1.transformer_blocks.0.norm1.bias", [320], .float32, [], false⟩,
  ⟨key% "unet.down_blocks.0.attentions.1.transformer_blocks.0.norm1.weight", [320], .float32, [], false⟩,
  ⟨key% "unet.down_blocks.0.attentions.1.transformer_blocks.0.norm2.bias", [320], .float32, [], false⟩,
  ⟨key% "unet.down_blocks.0.attentions.1.transformer_blocks.0.norm2.weight", [320], .float32, [], false⟩,
  ⟨key% "unet.down_blocks.0.attentions.1.transformer_blocks.0.norm3.bias", [320], .float32, [], false⟩,
  ⟨key% "unet.down_blocks.0.attentions.1.transformer_blocks.0.norm3.weight", [320], .float32, [], false⟩,
  ⟨key% "unet.down_blocks.0.downsamplers.0.conv.bias", [320], .float32, [], false⟩,
  ⟨key% "unet.down_blocks.0.downsamplers.0.conv.weight", [320, 320, 3, 3], .float32, [], false⟩,
  ⟨key% "unet.down_blocks.0.resnets.0.conv1.bias", [320], .float32, [], false⟩,
  ⟨key% "unet.down_blocks.0.resnets.0.conv1.weight", [320, 320, 3, 3], .float32, [], false⟩,
  ⟨key% "unet.down_blocks.0.resnets.0.conv2.bias", [320], .float32, [], false⟩,
  ⟨key% "unet.down_blocks.0.resnets.0.conv2.weight", [320, 320, 3, 3], .float32, [], false⟩,
  ⟨key% "unet.down_blocks.0.resnets.0.norm1.bias", [320], .float32, [], false⟩,
  ⟨key% "unet.down_blocks.0.resnets.0.norm1.weight", [320], .float32, [], false⟩,
  ⟨key% "unet.down_blocks.0.resnets.0.norm2.bias", [320], .float32, [], false⟩,
  ⟨key% "unet.down_blocks.0.resnets.0.norm2.weight", [320], .float32, [], false⟩,
  ⟨key% "unet.down_blocks.0.resnets.0.time_emb_proj.bias", [320], .float32, [], false⟩,
  ⟨key% "unet.down_blocks.0.resnets.0.time_emb_proj.weight", [320, 1280], .float32, [], false⟩,
  ⟨key% "unet.down_blocks.0.resnets.1.conv1.bias", [320], .float32, [], false⟩,
  ⟨key% "unet.down_blocks.0.resnets.1.conv1.weight", [320, 320, 3, 3], .float32, [], false⟩,
  ⟨key% "unet.down_blocks.0.resnets.1.conv2.bias", [320], .float32, [], false⟩,
  ⟨key% "unet.down_blocks.0.resnets.1.conv2.weight", [320, 320, 3, 3], .float32, [], false⟩,
  ⟨key% "unet.down_blocks.0.resnets.1.norm1.bias", [320], .float32, [], false⟩,
  ⟨key% "unet.down_blocks.0.resnets.1.norm1.weight", [320], .float32, [], false⟩,
  ⟨key% "unet.down_blocks.0.resnets.1.norm2.bias", [320], .float32, [], false⟩,
  ⟨key% "unet.down_blocks.0.resnets.1.norm2.weight", [320], .float32, [], false⟩,
  ⟨key% "unet.down_blocks.0.resnets.1.time_emb_proj.bias", [320], .float32, [], false⟩,
  ⟨key% "unet.down_blocks.0.resnets.1.time_emb_proj.weight", [320, 1280], .float32, [], false⟩,
  ⟨key% "unet.down_blocks.1.attentions.0.norm.bias", [640], .float32, [], false⟩,
  ⟨key% "unet.down_blocks.1.attentions.0.norm.weight", [640], .float32, [], false⟩,
  ⟨key% "unet.down_blocks.1.attentions.0.proj_in.bias", [640], .float32, [], false⟩,
  ⟨key% "unet.down_blocks.1.attentions.0.proj_in.weight", [640, 640, 1, 1], .float32, [], false⟩,
  ⟨key% "unet.down_blocks.1.attentions.0.proj_out.bias", [640], .float32, [], false⟩,
  ⟨key% "unet.down_blocks.1.attentions.0.proj_out.weight", [640, 640, 1, 1], .float32, [], false⟩,
  ⟨key% "unet.down_blocks.1.attentions.0.transformer_blocks.0.attn1.to_k.weight", [640, 640], .float32, [], false⟩,
  ⟨key% "unet.down_blocks.1.attentions.0.transformer_blocks.0.attn1.to_out.0.bias", [640], .float32, [], false⟩,
  ⟨key% "unet.down_blocks.1.attentions.0.transformer_blocks.0.attn1.to_out.0.weight", [640, 640], .float32, [], false⟩,
  ⟨key% "unet.down_blocks.1.attentions.0.transformer_blocks.0.attn1.to_q.weight", [640, 640], .float32, [], false⟩,
  ⟨key% "unet.down_blocks.1.attentions.0.transformer_blocks.0.attn1.to_v.weight", [640, 640], .float32, [], false⟩,
  ⟨key% "unet.down_blocks.1.attentions.0.transformer_blocks.0.attn2.to_k.weight", [640, 768], .float32, [], false⟩,
  ⟨key% "unet.down_blocks.1.attentions.0.transformer_blocks.0.attn2.to_out.0.bias", [640], .float32, [], false⟩,
  ⟨key% "unet.down_blocks.1.attentions.0.transformer_blocks.0.attn2.to_out.0.weight", [640, 640], .float32, [], false⟩,
  ⟨key% "unet.down_blocks.1.attentions.0.transformer_blocks.0.attn2.to_q.weight", [640, 640], .float32, [], false⟩,
  ⟨key% "unet.down_blocks.1.attentions.0.transformer_blocks.0.attn2.to_v.weight", [640, 768], .float32, [], false⟩,
  ⟨key% "unet.down_blocks.1.attentions.0.transformer_blocks.0.ff.net.0.proj.bias", [5120], .float32, [], false⟩,
  ⟨key% "unet.down_blocks.1.attentions.0.transformer_blocks.0.ff.net.0.proj.weight", [5120, 640], .float32, [], false⟩,
  ⟨key% "unet.down_blocks.1.attentions.0.transformer_blocks.0.ff.net.2.bias", [640], .float32, [], false⟩,
  ⟨key% "unet.down_blocks.1.attentions.0.transformer_blocks.0.ff.net.2.weight", [640, 2560], .float32, [], false⟩]
noncomputable def diffuser1 : List Entry := [
  ⟨key% "unet.down_blocks.1.attentions.0.transformer_blocks.0.norm1.bias", [640], .float32, [], false⟩,
  ⟨key% "unet.down_blocks.1.attentions.0.transformer_blocks.0.norm1.weight", [640], .float32, [], false⟩,
  ⟨key% "unet.down_blocks.1.attentions.0.transformer_blocks.0.norm2.bias", [640], .float32, [], false⟩,
  ⟨key% "unet.down_blocks.1.attentions.0.transformer_blocks.0.norm2.weight", [640], .float32, [], false⟩,
  ⟨key% "unet.down_blocks.1.attentions.0.transformer_blocks.0.norm3.bias", [640], .float32, [], false⟩,
  ⟨key% "unet.down_blocks.1.attentions.0.transformer_blocks.0.norm3.weight", [640], .float32, [], false⟩,
  ⟨key% "unet.down_blocks.1.attentions.1.norm.bias", [640], .float32, [], false⟩,
  ⟨key% "unet.down_blocks.1.attentions.1.norm.weight", [640], .float32, [], false⟩,
  ⟨key% "unet.down_blocks.1.attentions.1.proj_in.bias", [640], .float32, [], false⟩,
  ⟨key% "unet.down_blocks.1.attentions.1.proj_in.weight", [640, 640, 1, 1], .float32, [], false⟩,
  ⟨key% "unet.down_blocks.1.attentions.1.proj_out.bias", [640], .float32, [], false⟩,
  ⟨key% "unet.down_blocks.1.attentions.1.proj_out.weight", [640, 640, 1, 1], .float32, [], false⟩,
  ⟨key% "unet.down_blocks.1.attentions.1.transformer_blocks.0.attn1.to_k.weight", [640, 640], .float32, [], false⟩,
  ⟨key% "unet.down_blocks.1.attentions.1.transformer_blocks.0.attn1.to_out.0.bias", [640], .float32, [], false⟩,
  ⟨key% "unet.down_blocks.1.attentions.1.transformer_blocks.0.attn1.to_out.0.weight", [640, 640], .float32, [], false⟩,
  ⟨key% "unet.down_blocks.1.attentions.1.transformer_blocks.0.attn1.to_q.weight", [640, 640], .float32, [], false⟩,
  ⟨key% "unet.down_blocks.1.attentions.1.transformer_blocks.0.attn1.to_v.weight", [640, 640], .float32, [], false⟩,
  ⟨key% "unet.down_blocks.1.attentions.1.transformer_blocks.0.attn2.to_k.weight", [640, 768], .float32, [], false⟩,
  ⟨key% "unet.down_blocks.1.attentions.1.transformer_blocks.0.attn2.to_out.0.bias", [640], .float32, [], false⟩,
  ⟨key% "unet.down_blocks.1.attentions.1.transformer_blocks.0.attn2.to_out.0.weight", [640, 640], .float32, [], false⟩,
  ⟨key% "unet.down_blocks.1.attentions.1.transformer_blocks.0.attn2.to_q.weight", [640, 640], .float32, [], false⟩,
  ⟨key% "unet.down_blocks.1.attentions.1.transformer_blocks.0.attn2.to_v.weight", [640, 768], .float32, [], false⟩,
  ⟨key% "unet.down_blocks.1.attentions.1.transformer_blocks.0.ff.net.0.proj.bias", [5120], .float32, [], false⟩,
  ⟨key% "unet.down_blocks.1.attentions.1.transformer_blocks.0.ff.net.0.proj.weight", [5120, 640], .float32, [], false⟩,
  ⟨key% "unet.down_blocks.1.attentions.1.transformer_blocks.0.ff.net.2.bias", [640], .float32, [], false⟩,
  ⟨key% "unet.down_blocks.1.attentions.1.transformer_blocks.0.ff.net.2.weight", [640, 2560], .float32, [], false⟩,
  ⟨key% "unet.down_blocks.1.attentions.1.transformer_blocks.0.norm1.bias", [640], .float32, [], false⟩,
  ⟨key% "unet.down_blocks.1.attentions.1.transformer_blocks.0.norm1.weight", [640], .float32, [], false⟩,
  ⟨key% "unet.down_blocks.1.attentions.1.transformer_blocks.0.norm2.bias", [640], .float32, [], false⟩,
  ⟨key% "unet.down_blocks.1.attentions.1.transformer_blocks.0.norm2.weight", [640], .float32, [], false⟩,
  ⟨key% "unet.down_blocks.1.attentions.1.transformer_blocks.0.norm3.bias", [640], .float32, [], false⟩,
  ⟨key% "unet.down_blocks.1.attentions.1.transformer_blocks.0.norm3.weight", [640], .float32, [], false⟩,
  ⟨key% "unet.down_blocks.1.downsamplers.0.conv.bias", [640], .float32, [], false⟩,
  ⟨key% "unet.down_blocks.1.downsamplers.0.conv.weight", [640, 640, 3, 3], .float32, [], false⟩,
  ⟨key% "unet.down_blocks.1.resnets.0.conv1.bias", [640], .float32, [], false⟩,
  ⟨key% "unet.down_blocks.1.resnets.0.conv1.weight", [640, 320, 3, 3], .float32, [], false⟩,
  ⟨key% "unet.down_blocks.1.resnets.0.conv2.bias", [640], .float32, [], false⟩,
  ⟨key% "unet.down_blocks.1.resnets.0.conv2.weight", [640, 640, 3, 3], .float32, [], false⟩,
  ⟨key% "unet.down_blocks.1.resnets.0.conv_shortcut.bias", [640], .float32, [], false⟩,
  ⟨key% "unet.down_blocks.1.resnets.0.conv_shortcut.weight", [640, 320, 1, 1], .float32, [], false⟩,
  ⟨key% "unet.down_blocks.1.resnets.0.norm1.bias", [320], .float32, [], false⟩,
  ⟨key% "unet.down_blocks.1.resnets.0.norm1.weight", [320], .float32, [], false⟩,
  ⟨key% "unet.down_blocks.1.resnets.0.norm2.bias", [640], .float32, [], false⟩,
  ⟨key% "unet.down_blocks.1.resnets.0.norm2.weight", [640], .float32, [], false⟩,
  ⟨key% "unet.down_blocks.1.resnets.0.time_emb_proj.bias", [640], .float32, [], false⟩,
  ⟨key% "unet.down_blocks.1.resnets.0.time_emb_proj.weight", [640, 1280], .float32, [], false⟩,
  ⟨key% "unet.down_blocks.1.resnets.1.conv1.bias", [640], .float32, [], false⟩,
  ⟨key% "unet.down_blocks.1.resnets.1.conv1.weight", [640, 640, 3, 3], .float32, [], false⟩,
  ⟨key% "unet.down_blocks.1.resnets.1.conv2.bias", [640], .float32, [], false⟩,
  ⟨key% "unet.down_blocks.1.resnets.1.conv2.weight", [640, 640, 3, 3], .float32, [], false⟩,
  ⟨key% "unet.down_blocks.1.resnets.1.norm1.bias", [640], .float32, [], false⟩,
  ⟨key% "unet.down_blocks.1.resnets.1.norm1.weight", [640], .float32, [], false⟩,
  ⟨key% "unet.down_blocks.1.resnets.1.norm2.bias", [640], .float32, [], false⟩,
  ⟨key% "unet.down_blocks.1.resnets.1.norm2.weight", [640], .float32, [], false⟩,
  ⟨key% "unet.down_blocks.1.resnets.1.time_emb_proj.bias", [640], .float32, [], false⟩,
  ⟨key% "unet.down_blocks.1.resnets.1.time_emb_proj.weight", [640, 1280], .float32, [], false⟩,
  ⟨key% "unet.down_blocks.2.attentions.0.norm.bias", [1280], .float32, [], false⟩,
  ⟨key% "unet.down_blocks.2.attentions.0.norm.weight", [1280], .float32, [], false⟩,
  ⟨key% "unet.down_blocks.2.attentions.0.proj_in.bias", [1280], .float32, [], false⟩,
  ⟨key% "unet.down_blocks.2.attentions.0.proj_in.weight", [1280, 1280, 1, 1], .float32, [], false⟩,
  ⟨key% "unet.down_blocks.2.attentions.0.proj_out.bias", [1280], .float32, [], false⟩,
  ⟨key% "unet.down_blocks.2.attentions.0.proj_out.weight", [1280, 1280, 1, 1], .float32, [], false⟩,
  ⟨key% "unet.down_blocks.2.attentions.0.transformer_blocks.0.attn1.to_k.weight", [1280, 1280], .float32, [], false⟩,
  ⟨key% "unet.down_blocks.2.attentions.0.transformer_blocks.0.attn1.to_out.0.bias", [1280], .float32, [], false⟩,
  ⟨key% "unet.down_blocks.2.attentions.0.transformer_blocks.0.attn1.to_out.0.weight", [1280, 1280], .float32, [], false⟩,
  ⟨key% "unet.down_blocks.2.attentions.0.transformer_blocks.0.attn1.to_q.weight", [1280, 1280], .float32, [], false⟩,
  ⟨key% "unet.down_blocks.2.attentions.0.transformer_blocks.0.attn1.to_v.weight", [1280, 1280], .float32, [], false⟩,
  ⟨key% "unet.down_blocks.2.attentions.0.transformer_blocks.0.attn2.to_k.weight", [1280, 768], .float32, [], false⟩,
  ⟨key% "unet.down_blocks.2.attentions.0.transformer_blocks.0.attn2.to_out.0.bias", [1280], .float32, [], false⟩,
  ⟨key% "unet.down_blocks.2.attentions.0.transformer_blocks.0.attn2.to_out.0.weight", [1280, 1280], .float32, [], false⟩,
  ⟨key% "unet.down_blocks.2.attentions.0.transformer_blocks.0.attn2.to_q.weight", [1280, 1280], .float32, [], false⟩,
  ⟨key% "unet.down_blocks.2.attentions.0.transformer_blocks.0.attn2.to_v.weight", [1280, 768], .float32, [], false⟩,
  ⟨key% "unet.down_blocks.2.attentions.0.transformer_blocks.0.ff.net.0.proj.bias", [10240], .float32, [], false⟩,
  ⟨key% "unet.down_blocks.2.attentions.0.transformer_blocks.0.ff.net.0.proj.weight", [10240, 1280], .float32, [], false⟩,
  ⟨key% "unet.down_blocks.2.attentions.0.transformer_blocks.0.ff.net.2.bias", [1280], .float32, [], false⟩,
  ⟨key% "unet.down_blocks.2.attentions.0.transformer_blocks.0.ff.net.2.weight", [1280, 5120], .float32, [], false⟩,
  ⟨key% "unet.down_blocks.2.attentions.0.transformer_blocks.0.norm1.bias", [1280], .float32, [], false⟩,
  ⟨key% "unet.down_blocks.2.attentions.0.transformer_blocks.0.norm1.weight", [1280], .float32, [], false⟩,
  ⟨key% "unet.down_blocks.2.attentions.0.transformer_blocks.0.norm2.bias", [1280], .float32, [], false⟩,
  ⟨key% "unet.down_blocks.2.attentions.0.transformer_blocks.0.norm2.weight", [1280], .float32, [], false⟩,
  ⟨key% "unet.down_blocks.2.attentions.0.transformer_blocks.0.norm3.bias", [1280], .float32, [], false⟩,
  ⟨key% "unet.down_blocks.2.attentions.0.transformer_blocks.0.norm3.weight", [1280], .float32, [], false⟩,
  ⟨key% "unet.down_blocks.2.attentions.1.norm.bias", [1280], .float32, [], false⟩,
  ⟨key% "unet.down_blocks.2.attentions.1.norm.weight", [1280], .float32, [], false⟩,
  ⟨key% "unet.down_blocks.2.attentions.1.proj_in.bias", [1280], .float32, [], false⟩,
  ⟨key% "unet.down_blocks.2.attentions.1.proj_in.weight", [1280, 1280, 1, 1], .float32, [], false⟩,
  ⟨key% "unet.down_blocks.2.attentions.1.proj_out.bias", [1280], .float32, [], false⟩,
  ⟨key% "unet.down_blocks.2.attentions.1.proj_out.weight", [1280, 1280, 1, 1], .float32, [], false⟩,
  ⟨key% "unet.down_blocks.2.attentions.1.transformer_blocks.0.attn1.to_k.weight", [1280, 1280], .float32, [], false⟩,
  ⟨key% "unet.down_blocks.2.attentions.1.transformer_blocks.0.attn1.to_out.0.bias", [1280], .float32, [], false⟩,
  ⟨key% "unet.down_blocks.2.attentions.1.transformer_blocks.0.attn1.to_out.0.weight", [1280, 1280], .float32, [], false⟩,
  ⟨key% "unet.down_blocks.2.attentions.1.transformer_blocks.0.attn1.to_q.weight", [1280, 1280], .float32, [], false⟩,
  ⟨key% "unet.down_blocks.2.attentions.1.transformer_blocks.0.attn1.to_v.weight", [1280, 1280], .float32, [], false⟩,
  ⟨key% "unet.down_blocks.2.attentions.1.transformer_blocks.0.attn2.to_k.weight", [1280, 768], .float32, [], false⟩,
  ⟨key% "unet.down_blocks.2.attentions.1.transformer_blocks.0.attn2.to_out.0.bias", [1280], .float32, [], false⟩,
  ⟨key% "unet.down_blocks.2.attentions.1.transformer_blocks.0.attn2.to_out.0.weight", [1280, 1280], .float32, [], false⟩,
  ⟨key% "unet.down_blocks.2.attentions.1.transformer_blocks.0.attn2.to_q.weight", [1280, 1280], .float32, [], false⟩,
  ⟨key% "unet.down_blocks.2.attentions.1.transformer_blocks.0.attn2.to_v.weight", [1280, 768], .float32, [], false⟩,
  ⟨key% "unet.down_blocks.2.attentions.1.transformer_blocks.0.ff.net.0.proj.bias", [10240], .float32, [], false⟩,
  ⟨key% "unet.down_blocks.2.attentions.1.transformer_blocks.0.ff.net.0.proj.weight", [10240, 1280], .float32, [], false⟩]
noncomputable def diffuser2 : List Entry := [
  ⟨key% "unet.down_blocks.2.attentions.1.transformer_blocks.0.ff.net.2.bias", [1280], .float32, [], false⟩,
  ⟨key% "unet.down_blocks.2.attentions.1.transformer_blocks.0.ff.net.2.weight", [1280, 5120], .float32, [], false⟩,
  ⟨key% "unet.down_blocks.2.attentions.1.transformer_blocks.0.norm1.bias", [1280], .float32, [], false⟩,
  ⟨key% "unet.down_blocks.2.attentions.1.transformer_blocks.0.norm1.weight", [1280], .float32, [], false⟩,
  ⟨key% "unet.down_blocks.2.attentions.1.transformer_blocks.0.norm2.bias", [1280], .float32, [], false⟩,
  ⟨key% "unet.down_blocks.2.attentions.1.transformer_blocks.0.norm2.weight", [1280], .float32, [], false⟩,
  ⟨key% "unet.down_blocks.2.attentions.1.transformer_blocks.0.norm3.bias", [1280], .float32, [], false⟩,
  ⟨key% "unet.down_blocks.2.attentions.1.transformer_blocks.0.norm3.weight", [1280], .float32, [], false⟩,
  ⟨key% "unet.down_blocks.2.downsamplers.0.conv.bias", [1280], .float32, [], false⟩,
  ⟨key% "unet.down_blocks.2.downsamplers.0.conv.weight", [1280, 1280, 3, 3], .float32, [], false⟩,
  ⟨key% "unet.down_blocks.2.resnets.0.conv1.bias", [1280], .float32, [], false⟩,
  ⟨key% "unet.down_blocks.2.resnets.0.conv1.weight", [1280, 640, 3, 3], .float32, [], false⟩,
  ⟨key% "unet.down_blocks.2.resnets.0.conv2.bias", [1280], .float32, [], false⟩,
  ⟨key% "unet.down_blocks.2.resnets.0.conv2.weight", [1280, 1280, 3, 3], .float32, [], false⟩,
  ⟨key% "unet.down_blocks.2.resnets.0.conv_shortcut.bias", [1280], .float32, [], false⟩,
  ⟨key% "unet.down_blocks.2.resnets.0.conv_shortcut.weight", [1280, 640, 1, 1], .float32, [], false⟩,
  ⟨key% "unet.down_blocks.2.resnets.0.norm1.bias", [640], .float32, [], false⟩,
  ⟨key% "unet.down_blocks.2.resnets.0.norm1.weight", [640], .float32, [], false⟩,
  ⟨key% "unet.down_blocks.2.resnets.0.norm2.bias", [1280], .float32, [], false⟩,
  ⟨key% "unet.down_blocks.2.resnets.0.norm2.weight", [1280], .float32, [], false⟩,
  ⟨key% "unet.down_blocks.2.resnets.0.time_emb_proj.bias", [1280], .float32, [], false⟩,
  ⟨key% "unet.down_blocks.2.resnets.0.time_emb_proj.weight", [1280, 1280], .float32, [], false⟩,
  ⟨key% "unet.down_blocks.2.resnets.1.conv1.bias", [1280], .float32, [], false⟩,
  ⟨key% "unet.down_blocks.2.resnets.1.conv1.weight", [1280, 1280, 3, 3], .float32, [], false⟩,
  ⟨key% "unet.down_blocks.2.resnets.1.conv2.bias", [1280], .float32, [], false⟩,
  ⟨key% "unet.down_blocks.2.resnets.1.conv2.weight", [1280, 1280, 3, 3], .float32, [], false⟩,
  ⟨key% "unet.down_blocks.2.resnets.1.norm1.bias", [1280], .float32, [], false⟩,
  ⟨key% "unet.down_blocks.2.resnets.1.norm1.weight", [1280], .float32, [], false⟩,
  ⟨key% "unet.down_blocks.2.resnets.1.norm2.bias", [1280], .float32, [], false⟩,
  ⟨key% "unet.down_blocks.2.resnets.1.norm2.weight", [1280], .float32, [], false⟩,
  ⟨key% "unet.down_blocks.2.resnets.1.time_emb_proj.bias", [1280], .float32, [], false⟩,
  ⟨key% "unet.down_blocks.2.resnets.1.time_emb_proj.weight", [1280, 1280], .float32, [], false⟩,
  ⟨key% "unet.down_blocks.3.resnets.0.conv1.bias", [1280], .float32, [], false⟩,
  ⟨key% "unet.down_blocks.3.resnets.0.conv1.weight", [1280, 1280, 3, 3], .float32, [], false⟩,
  ⟨key% "unet.down_blocks.3.resnets.0.conv2.bias", [1280], .float32, [], false⟩,
  ⟨key% "unet.down_blocks.3.resnets.0.conv2.weight", [1280, 1280, 3, 3], .float32, [], false⟩,
  ⟨key% "unet.down_blocks.3.resnets.0.norm1.bias", [1280], .float32, [], false⟩,
  ⟨key% "unet.down_blocks.3.resnets.0.norm1.weight", [1280], .float32, [], false⟩,
  ⟨key% "unet.down_blocks.3.resnets.0.norm2.bias", [1280], .float32, [], false⟩,
  ⟨key% "unet.down_blocks.3.resnets.0.norm2.weight", [1280], .float32, [], false⟩,
  ⟨key% "unet.down_blocks.3.resnets.0.time_emb_proj.bias", [1280], .float32, [], false⟩,
  ⟨key% "unet.down_blocks.3.resnets.0.time_emb_proj.weight", [1280, 1280], .float32, [], false⟩,
  ⟨key% "unet.down_blocks.3.resnets.1.conv1.bias", [1280], .float32, [], false⟩,
  ⟨key% "unet.down_blocks.3.resnets.1.conv1.weight", [1280, 1280, 3, 3], .float32, [], false⟩,
  ⟨key% "unet.down_blocks.3.resnets.1.conv2.bias", [1280], .float32, [], false⟩,
  ⟨key% "unet.down_blocks.3.resnets.1.conv2.weight", [1280, 1280, 3, 3], .float32, [], false⟩,
  ⟨key% "unet.down_blocks.3.resnets.1.norm1.bias", [1280], .float32, [], false⟩,
  ⟨key% "unet.down_blocks.3.resnets.1.norm1.weight", [1280], .float32, [], false⟩,
  ⟨key% "unet.down_blocks.3.resnets.1.norm2.bias", [1280], .float32, [], false⟩,
  ⟨key% "unet.down_blocks.3.resnets.1.norm2.weight", [1280], .float32, [], false⟩,
  ⟨key% "unet.down_blocks.3.resnets.1.time_emb_proj.bias", [1280], .float32, [], false⟩,
  ⟨key% "unet.down_blocks.3.resnets.1.time_emb_proj.weight", [1280, 1280], .float32, [], false⟩,
  ⟨key% "unet.mid_block.attentions.0.norm.bias", [1280], .float32, [], false⟩,
  ⟨key% "unet.mid_block.attentions.0.norm.weight", [1280], .float32, [], false⟩,
  ⟨key% "unet.mid_block.attentions.0.proj_in.bias", [1280], .float32, [], false⟩,
  ⟨key% "unet.mid_block.attentions.0.proj_in.weight", [1280, 1280, 1, 1], .float32, [], false⟩,
  ⟨key% "unet.mid_block.attentions.0.proj_out.bias", [1280], .float32, [], false⟩,
  ⟨key% "unet.mid_block.attentions.0.proj_out.weight", [1280, 1280, 1, 1], .float32, [], false⟩,
  ⟨key% "unet.mid_block.attentions.0.transformer_blocks.0.attn1.to_k.weight", [1280, 1280], .float32, [], false⟩,
  ⟨key% "unet.mid_block.attentions.0.transformer_blocks.0.attn1.to_out.0.bias", [1280], .float32, [], false⟩,
  ⟨key% "unet.mid_block.attentions.0.transformer_blocks.0.attn1.to_out.0.weight", [1280, 1280], .float32, [], false⟩,
  ⟨key% "unet.mid_block.attentions.0.transformer_blocks.0.attn1.to_q.weight", [1280, 1280], .float32, [], false⟩,
  ⟨key% "unet.mid_block.attentions.0.transformer_blocks.0.attn1.to_v.weight", [1280, 1280], .float32, [], false⟩,
  ⟨key% "unet.mid_block.attentions.0.transformer_blocks.0.attn2.to_k.weight", [1280, 768], .float32, [], false⟩,
  ⟨key% "unet.mid_block.attentions.0.transformer_blocks.0.attn2.to_out.0.bias", [1280], .float32, [], false⟩,
  ⟨key% "unet.mid_block.attentions.0.transformer_blocks.0.attn2.to_out.0.weight", [1280, 1280], .float32, [], false⟩,
  ⟨key% "unet.mid_block.attentions.0.transformer_blocks.0.attn2.to_q.weight", [1280, 1280], .float32, [], false⟩,
  ⟨key% "unet.mid_block.attentions.0.transformer_blocks.0.attn2.to_v.weight", [1280, 768], .float32, [], false⟩,
  ⟨key% "unet.mid_block.attentions.0.transformer_blocks.0.ff.net.0.proj.bias", [10240], .float32, [], false⟩,
  ⟨key% "unet.mid_block.attentions.0.transformer_blocks.0.ff.net.0.proj.weight", [10240, 1280], .float32, [], false⟩,
  ⟨key% "unet.mid_block.attentions.0.transformer_blocks.0.ff.net.2.bias", [1280], .float32, [], false⟩,
  ⟨key% "unet.mid_block.attentions.0.transformer_blocks.0.ff.net.2.weight", [1280, 5120], .float32, [], false⟩,
  ⟨key% "unet.mid_block.attentions.0.transformer_blocks.0.norm1.bias", [1280], .float32, [], false⟩,
  ⟨key% "unet.mid_block.attentions.0.transformer_blocks.0.norm1.weight", [1280], .float32, [], false⟩,
  ⟨key% "unet.mid_block.attentions.0.transformer_blocks.0.norm2.bias", [1280], .float32, [], false⟩,
  ⟨key% "unet.mid_block.attentions.0.transformer_blocks.0.norm2.weight", [1280], .float32, [], false⟩,
  ⟨key% "unet.mid_block.attentions.0.transformer_blocks.0.norm3.bias", [1280], .float32, [], false⟩,
  ⟨key% "unet.mid_block.attentions.0.transformer_blocks.0.norm3.weight", [1280], .float32, [], false⟩,
  ⟨key% "unet.mid_block.resnets.0.conv1.bias", [1280], .float32, [], false⟩,
  ⟨key% "unet.mid_block.resnets.0.conv1.weight", [1280, 1280, 3, 3], .float32, [], false⟩,
  ⟨key% "unet.mid_block.resnets.0.conv2.bias", [1280], .float32, [], false⟩,
  ⟨key% "unet.mid_block.resnets.0.conv2.weight", [1280, 1280, 3, 3], .float32, [], false⟩,
  ⟨key% "unet.mid_block.resnets.0.norm1.bias", [1280], .float32, [], false⟩,
  ⟨key% "unet.mid_block.resnets.0.norm1.weight", [1280], .float32, [], false⟩,
  ⟨key% "unet.mid_block.resnets.0.norm2.bias", [1280], .float32, [], false⟩,
  ⟨key% "unet.mid_block.resnets.0.norm2.weight", [1280], .float32, [], false⟩,
  ⟨key% "unet.mid_block.resnets.0.time_emb_proj.bias", [1280], .float32, [], false⟩,
  ⟨key% "unet.mid_block.resnets.0.time_emb_proj.weight", [1280, 1280], .float32, [], false⟩,
  ⟨key% "unet.mid_block.resnets.1.conv1.bias", [1280], .float32, [], false⟩,
  ⟨key% "unet.mid_block.resnets.1.conv1.weight", [1280, 1280, 3, 3], .float32, [], false⟩,
  ⟨key% "unet.mid_block.resnets.1.conv2.bias", [1280], .float32, [], false⟩,
  ⟨key% "unet.mid_block.resnets.1.conv2.weight", [1280, 1280, 3, 3], .float32, [], false⟩,
  ⟨key% "unet.mid_block.resnets.1.norm1.bias", [1280], .float32, [], false⟩,
  ⟨key% "unet.mid_block.resnets.1.norm1.weight", [1280], .float32, [], false⟩,
  ⟨key% "unet.mid_block.resnets.1.norm2.bias", [1280], .float32, [], false⟩,
  ⟨key% "unet.mid_block.resnets.1.norm2.weight", [1280], .float32, [], false⟩,
  ⟨key% "unet.mid_block.resnets.1.time_emb_proj.bias", [1280], .float32, [], false⟩,
  ⟨key% "unet.mid_block.resnets.1.time_emb_proj.weight", [1280, 1280], .float32, [], false⟩,
  ⟨key% "unet.time_embedding.linear_1.bias", [1280], .float32, [], false⟩,
  ⟨key% "unet.time_embedding.linear_1.weight", [1280, 320], .float32, [], false⟩]
noncomputable def diffuser3 : List Entry := [
  ⟨key% "unet.time_embedding.linear_2.bias", [1280], .float32, [], false⟩,
  ⟨key% "unet.time_embedding.linear_2.weight", [1280, 1280], .float32, [], false⟩,
  ⟨key% "unet.up_blocks.0.resnets.0.conv1.bias", [1280], .float32, [], false⟩,
  ⟨key% "unet.up_blocks.0.resnets.0.conv1.weight", [1280, 2560, 3, 3], .float32, [], false⟩,
  ⟨key% "unet.up_blocks.0.resnets.0.conv2.bias", [1280], .float32, [], false⟩,
  ⟨key% "unet.up_blocks.0.resnets.0.conv2.weight", [1280, 1280, 3, 3], .float32, [], false⟩,
  ⟨key% "unet.up_blocks.0.resnets.0.conv_shortcut.bias", [1280], .float32, [], false⟩,
  ⟨key% "unet.up_blocks.0.resnets.0.conv_shortcut.weight", [1280, 2560, 1, 1], .float32, [], false⟩,
  ⟨key% "unet.up_blocks.0.resnets.0.norm1.bias", [2560], .float32, [], false⟩,
  ⟨key% "unet.up_blocks.0.resnets.0.norm1.weight", [2560], .float32, [], false⟩,
  ⟨key% "unet.up_blocks.0.resnets.0.norm2.bias", [1280], .float32, [], false⟩,
  ⟨key% "unet.up_blocks.0.resnets.0.norm2.weight", [1280], .float32, [], false⟩,
  ⟨key% "unet.up_blocks.0.resnets.0.time_emb_proj.bias", [1280], .float32, [], false⟩,
  ⟨key% "unet.up_blocks.0.resnets.0.time_emb_proj.weight", [1280, 1280], .float32, [], false⟩,
  ⟨key% "unet.up_blocks.0.resnets.1.conv1.bias", [1280], .float32, [], false⟩,
  ⟨key% "unet.up_blocks.0.resnets.1.conv1.weight", [1280, 2560, 3, 3], .float32, [], false⟩,
  ⟨key% "unet.up_blocks.0.resnets.1.conv2.bias", [1280], .float32, [], false⟩,
  ⟨key% "unet.up_blocks.0.resnets.1.conv2.weight", [1280, 1280, 3, 3], .float32, [], false⟩,
  ⟨key% "unet.up_blocks.0.resnets.1.conv_shortcut.bias", [1280], .float32, [], false⟩,
  ⟨key% "unet.up_blocks.0.resnets.1.conv_shortcut.weight", [1280, 2560, 1, 1], .float32, [], false⟩,
  ⟨key% "unet.up_blocks.0.resnets.1.norm1.bias", [2560], .float32, [], false⟩,
  ⟨key% "unet.up_blocks.0.resnets.1.norm1.weight", [2560], .float32, [], false⟩,
  ⟨key% "unet.up_blocks.0.resnets.1.norm2.bias", [1280], .float32, [], false⟩,
  ⟨key% "unet.up_blocks.0.resnets.1.norm2.weight", [1280], .float32, [], false⟩,
  ⟨key% "unet.up_blocks.0.resnets.1.time_emb_proj.bias", [1280], .float32, [], false⟩,
  ⟨key% "unet.up_blocks.0.resnets.1.time_emb_proj.weight", [1280, 1280], .float32, [], false⟩,
  ⟨key% "unet.up_blocks.0.resnets.2.conv1.bias", [1280], .float32, [], false⟩,
  ⟨key% "unet.up_blocks.0.resnets.2.conv1.weight", [1280, 2560, 3, 3], .float32, [], false⟩,
  ⟨key% "unet.up_blocks.0.resnets.2.conv2.bias", [1280], .float32, [], false⟩,
  ⟨key% "unet.up_blocks.0.resnets.2.conv2.weight", [1280, 1280, 3, 3], .float32, [], false⟩,
  ⟨key% "unet.up_blocks.0.resnets.2.conv_shortcut.bias", [1280], .float32, [], false⟩,
  ⟨key% "unet.up_blocks.0.resnets.2.conv_shortcut.weight", [1280, 2560, 1, 1], .float32, [], false⟩,
  ⟨key% "unet.up_blocks.0.resnets.2.norm1.bias", [2560], .float32, [], false⟩,
  ⟨key% "unet.up_blocks.0.resnets.2.norm1.weight", [2560], .float32, [], false⟩,
  ⟨key% "unet.up_blocks.0.resnets.2.norm2.bias", [1280], .float32, [], false⟩,
  ⟨key% "unet.up_blocks.0.resnets.2.norm2.weight", [1280], .float32, [], false⟩,
  ⟨key% "unet.up_blocks.0.resnets.2.time_emb_proj.bias", [1280], .float32, [], false⟩,
  ⟨key% "unet.up_blocks.0.resnets.2.time_emb_proj.weight", [1280, 1280], .float32, [], false⟩,
  ⟨key% "unet.up_blocks.0.upsamplers.0.conv.bias", [1280], .float32, [], false⟩,
  ⟨key% "unet.up_blocks.0.upsamplers.0.conv.weight", [1280, 1280, 3, 3], .float32, [], false⟩,
  ⟨key% "unet.up_blocks.1.attentions.0.norm.bias", [1280], .float32, [], false⟩,
  ⟨key% "unet.up_blocks.1.attentions.0.norm.weight", [1280], .float32, [], false⟩,
  ⟨key% "unet.up_blocks.1.attentions.0.proj_in.bias", [1280], .float32, [], false⟩,
  ⟨key% "unet.up_blocks.1.attentions.0.proj_in.weight", [1280, 1280, 1, 1], .float32, [], false⟩,
  ⟨key% "unet.up_blocks.1.attentions.0.proj_out.bias", [1280], .float32, [], false⟩,
  ⟨key% "unet.up_blocks.1.attentions.0.proj_out.weight", [1280, 1280, 1, 1], .float32, [], false⟩,
  ⟨key% "unet.up_blocks.1.attentions.0.transformer_blocks.0.attn1.to_k.weight", [1280, 1280], .float32, [], false⟩,
  ⟨key% "unet.up_blocks.1.attentions.0.transformer_blocks.0.attn1.to_out.0.bias", [1280], .float32, [], false⟩,
  ⟨key% "unet.up_blocks.1.attentions.0.transformer_blocks.0.attn1.to_out.0.weight", [1280, 1280], .float32, [], false⟩,
  ⟨key% "unet.up_blocks.1.attentions.0.transformer_blocks.0.attn1.to_q.weight", [1280, 1280], .float32, [], false⟩,
  ⟨key% "unet.up_blocks.1.attentions.0.transformer_blocks.0.attn1.to_v.weight", [1280, 1280], .float32, [], false⟩,
  ⟨key% "unet.up_blocks.1.attentions.0.transformer_blocks.0.attn2.to_k.weight", [1280, 768], .float32, [], false⟩,
  ⟨key% "unet.up_blocks.1.attentions.0.transformer_blocks.0.attn2.to_out.0.bias", [1280], .float32, [], false⟩,
  ⟨key% "unet.up_blocks.1.attentions.0.transformer_blocks.0.attn2.to_out.0.weight", [1280, 1280], .float32, [], false⟩,
  ⟨key% "unet.up_blocks.1.attentions.0.transformer_blocks.0.attn2.to_q.weight", [1280, 1280], .float32, [], false⟩,
  ⟨key% "unet.up_blocks.1.attentions.0.transformer_blocks.0.attn2.to_v.weight", [1280, 768], .float32, [], false⟩,
  ⟨key% "unet.up_blocks.1.attentions.0.transformer_blocks.0.ff.net.0.proj.bias", [10240], .float32, [], false⟩,
  ⟨key% "unet.up_blocks.1.attentions.0.transformer_blocks.0.ff.net.0.proj.weight", [10240, 1280], .float32, [], false⟩,
  ⟨key% "unet.up_blocks.1.attentions.0.transformer_blocks.0.ff.net.2.bias", [1280], .float32, [], false⟩,
  ⟨key% "unet.up_blocks.1.attentions.0.transformer_blocks.0.ff.net.2.weight", [1280, 5120], .float32, [], false⟩,
  ⟨key% "unet.up_blocks.1.attentions.0.transformer_blocks.0.norm1.bias", [1280], .float32, [], false⟩,
  ⟨key% "unet.up_blocks.1.attentions.0.transformer_blocks.0.norm1.weight", [1280], .float32, [], false⟩,
  ⟨key% "unet.up_blocks.1.attentions.0.transformer_blocks.0.norm2.bias", [1280], .float32, [], false⟩,
  ⟨key% "unet.up_blocks.1.attentions.0.transformer_blocks.0.norm2.weight", [1280], .float32, [], false⟩,
  ⟨key% "unet.up_blocks.1.attentions.0.transformer_blocks.0.norm3.bias", [1280], .float32, [], false⟩,
  ⟨key% "unet.up_blocks.1.attentions.0.transformer_blocks.0.norm3.weight", [1280], .float32, [], false⟩,
  ⟨key% "unet.up_blocks.1.attentions.1.norm.bias", [1280], .float32, [], false⟩,
  ⟨key% "unet.up_blocks.1.attentions.1.norm.weight", [1280], .float32, [], false⟩,
  ⟨key% "unet.up_blocks.1.attentions.1.proj_in.bias", [1280], .float32, [], false⟩,
  ⟨key% "unet.up_blocks.1.attentions.1.proj_in.weight", [1280, 1280, 1, 1], .float32, [], false⟩,
  ⟨key% "unet.up_blocks.1.attentions.1.proj_out.bias", [1280], .float32, [], false⟩,
  ⟨key% "unet.up_blocks.1.attentions.1.proj_out.weight", [1280, 1280, 1, 1], .float32, [], false⟩,
  ⟨key% "unet.up_blocks.1.attentions.1.transformer_blocks.0.attn1.to_k.weight", [1280, 1280], .float32, [], false⟩,
  ⟨key% "unet.up_blocks.1.attentions.1.transformer_blocks.0.attn1.to_out.0.bias", [1280], .float32, [], false⟩,
  ⟨key% "unet.up_blocks.1.attentions.1.transformer_blocks.0.attn1.to_out.0.weight", [1280, 1280], .float32, [], false⟩,
  ⟨key% "unet.up_blocks.1.attentions.1.transformer_blocks.0.attn1.to_q.weight", [1280, 1280], .float32, [], false⟩,
  ⟨key% "unet.up_blocks.1.attentions.1.transformer_blocks.0.attn1.to_v.weight", [1280, 1280], .float32, [], false⟩,
  ⟨key% "unet.up_blocks.1.attentions.1.transformer_blocks.0.attn2.to_k.weight", [1280, 768], .float32, [], false⟩,
  ⟨key% "unet.up_blocks.1.attentions.1.transformer_blocks.0.attn2.to_out.0.bias", [1280], .float32, [], false⟩,
  ⟨key% "unet.up_blocks.1.attentions.1.transformer_blocks.0.attn2.to_out.0.weight", [1280, 1280], .float32, [], false⟩,
  ⟨key% "unet.up_blocks.1.attentions.1.transformer_blocks.0.attn2.to_q.weight", [1280, 1280], .float32, [], false⟩,
  ⟨key% "unet.up_blocks.1.attentions.1.transformer_blocks.0.attn2.to_v.weight", [1280, 768], .float32, [], false⟩,
  ⟨key% "unet.up_blocks.1.attentions.1.transformer_blocks.0.ff.net.0.proj.bias", [10240], .float32, [], false⟩,
  ⟨key% "unet.up_blocks.1.attentions.1.transformer_blocks.0.ff.net.0.proj.weight", [10240, 1280], .float32, [], false⟩,
  ⟨key% "unet.up_blocks.1.attentions.1.transformer_blocks.0.ff.net.2.bias", [1280], .float32, [], false⟩,
  ⟨key% "unet.up_blocks.1.attentions.1.transformer_blocks.0.ff.net.2.weight", [1280, 5120], .float32, [], false⟩,
  ⟨key% "unet.up_blocks.1.attentions.1.transformer_blocks.0.norm1.bias", [1280], .float32, [], false⟩,
  ⟨key% "unet.up_blocks.1.attentions.1.transformer_blocks.0.norm1.weight", [1280], .float32, [], false⟩,
  ⟨key% "unet.up_blocks.1.attentions.1.transformer_blocks.0.norm2.bias", [1280], .float32, [], false⟩,
  ⟨key% "unet.up_blocks.1.attentions.1.transformer_blocks.0.norm2.weight", [1280], .float32, [], false⟩,
  ⟨key% "unet.up_blocks.1.attentions.1.transformer_blocks.0.norm3.bias", [1280], .float32, [], false⟩,
  ⟨key% "unet.up_blocks.1.attentions.1.transformer_blocks.0.norm3.weight", [1280], .float32, [], false⟩,
  ⟨key% "unet.up_blocks.1.attentions.2.norm.bias", [1280], .float32, [], false⟩,
  ⟨key% "unet.up_blocks.1.attentions.2.norm.weight", [1280], .float32, [], false⟩,
  ⟨key% "unet.up_blocks.1.attentions.2.proj_in.bias", [1280], .float32, [], false⟩,
  ⟨key% "unet.up_blocks.1.attentions.2.proj_in.weight", [1280, 1280, 1, 1], .float32, [], false⟩,
  ⟨key% "unet.up_blocks.1.attentions.2.proj_out.bias", [1280], .float32, [], false⟩,
  ⟨key% "unet.up_blocks.1.attentions.2.proj_out.weight", [1280, 1280, 1, 1], .float32, [], false⟩,
  ⟨key% "unet.up_blocks.1.attentions.2.transformer_blocks.0.attn1.to_k.weight", [1280, 1280], .float32, [], false⟩,
  ⟨key% "unet.up_blocks.1.attentions.2.transformer_blocks.0.attn1.to_out.0.bias", [1280], .float32, [], false⟩]
noncomputable def diffuser4 : List Entry := [
  ⟨key% "unet.up_blocks.1.attentions.2.transformer_blocks.0.attn1.to_out.0.weight", [1280, 1280], .float32, [], false⟩,
  ⟨key% "unet.up_blocks.1.attentions.2.transformer_blocks.0.attn1.to_q.weight", [1280, 1280], .float32, [], false⟩,
  ⟨key% "unet.up_blocks.1.attentions.2.transformer_blocks.0.attn1.to_v.weight", [1280, 1280], .float32, [], false⟩,
  ⟨key% "unet.up_blocks.1.attentions.2.transformer_blocks.0.attn2.to_k.weight", [1280, 768], .float32, [], false⟩,
  ⟨key% "unet.up_blocks.1.attentions.2.transformer_blocks.0.attn2.to_out.0.bias", [1280], .float32, [], false⟩,
  ⟨key% "unet.up_blocks.1.attentions.2.transformer_blocks.0.attn2.to_out.0.weight", [1280, 1280], .float32, [], false⟩,
  ⟨key% "unet.up_blocks.1.attentions.2.transformer_blocks.0.attn2.to_q.weight", [1280, 1280], .float32, [], false⟩,
  ⟨key% "unet.up_blocks.1.attentions.2.transformer_blocks.0.attn2.to_v.weight", [1280, 768], .float32, [], false⟩,
  ⟨key% "unet.up_blocks.1.attentions.2.transformer_blocks.0.ff.net.0.proj.bias", [10240], .float32, [], false⟩,
  ⟨key% "unet.up_blocks.1.attentions.2.transformer_blocks.0.ff.net.0.proj.weight", [10240, 1280], .float32, [], false⟩,
  ⟨key% "unet.up_blocks.1.attentions.2.transformer_blocks.0.ff.net.2.bias", [1280], .float32, [], false⟩,
  ⟨key% "unet.up_blocks.1.attentions.2.transformer_blocks.0.ff.net.2.weight", [1280, 5120], .float32, [], false⟩,
  ⟨key% "unet.up_blocks.1.attentions.2.transformer_blocks.0.norm1.bias", [1280], .float32, [], false⟩,
  ⟨key% "unet.up_blocks.1.attentions.2.transformer_blocks.0.norm1.weight", [1280], .float32, [], false⟩,
  ⟨key% "unet.up_blocks.1.attentions.2.transformer_blocks.0.norm2.bias", [1280], .float32, [], false⟩,
  ⟨key% "unet.up_blocks.1.attentions.2.transformer_blocks.0.norm2.weight", [1280], .float32, [], false⟩,
  ⟨key% "unet.up_blocks.1.attentions.2.transformer_blocks.0.norm3.bias", [1280], .float32, [], false⟩,
  ⟨key% "unet.up_blocks.1.attentions.2.transformer_blocks.0.norm3.weight", [1280], .float32, [], false⟩,
  ⟨key% "unet.up_blocks.1.resnets.0.conv1.bias", [1280], .float32, [], false⟩,
  ⟨key% "unet.up_blocks.1.resnets.0.conv1.weight", [1280, 2560, 3, 3], .float32, [], false⟩,
  ⟨key% "unet.up_blocks.1.resnets.0.conv2.bias", [1280], .float32, [], false⟩,
  ⟨key% "unet.up_blocks.1.resnets.0.conv2.weight", [1280, 1280, 3, 3], .float32, [], false⟩,
  ⟨key% "unet.up_blocks.1.resnets.0.conv_shortcut.bias", [1280], .float32, [], false⟩,
  ⟨key% "unet.up_blocks.1.resnets.0.conv_shortcut.weight", [1280, 2560, 1, 1], .float32, [], false⟩,
  ⟨key% "unet.up_blocks.1.resnets.0.norm1.bias", [2560], .float32, [], false⟩,
  ⟨key% "unet.up_blocks.1.resnets.0.norm1.weight", [2560], .float32, [], false⟩,
  ⟨key% "unet.up_blocks.1.resnets.0.norm2.bias", [1280], .float32, [], false⟩,
  ⟨key% "unet.up_blocks.1.resnets.0.norm2.weight", [1280], .float32, [], false⟩,
  ⟨key% "unet.up_blocks.1.resnets.0.time_emb_proj.bias", [1280], .float32, [], false⟩,
  ⟨key% "unet.up_blocks.1.resnets.0.time_emb_proj.weight", [1280, 1280], .float32, [], false⟩,
  ⟨key% "unet.up_blocks.1.resnets.1.conv1.bias", [1280], .float32, [], false⟩,
  ⟨key% "unet.up_blocks.1.resnets.1.conv1.weight", [1280, 2560, 3, 3], .float32, [], false⟩,
  ⟨key% "unet.up_blocks.1.resnets.1.conv2.bias", [1280], .float32, [], false⟩,
  ⟨key% "unet.up_blocks.1.resnets.1.conv2.weight", [1280, 1280, 3, 3], .float32, [], false⟩,
  ⟨key% "unet.up_blocks.1.resnets.1.conv_shortcut.bias", [1280], .float32, [], false⟩,
  ⟨key% "unet.up_blocks.1.resnets.1.conv_shortcut.weight", [1280, 2560, 1, 1], .float32, [], false⟩,
  ⟨key% "unet.up_blocks.1.resnets.1.norm1.bias", [2560], .float32, [], false⟩,
  ⟨key% "unet.up_blocks.1.resnets.1.norm1.weight", [2560], .float32, [], false⟩,
  ⟨key% "unet.up_blocks.1.resnets.1.norm2.bias", [1280], .float32, [], false⟩,
  ⟨key% "unet.up_blocks.1.resnets.1.norm2.weight", [1280], .float32, [], false⟩,
  ⟨key% "unet.up_blocks.1.resnets.1.time_emb_proj.bias", [1280], .float32, [], false⟩,
  ⟨key% "unet.up_blocks.1.resnets.1.time_emb_proj.weight", [1280, 1280], .float32, [], false⟩,
  ⟨key% "unet.up_blocks.1.resnets.2.conv1.bias", [1280], .float32, [], false⟩,
  ⟨key% "unet.up_blocks.1.resnets.2.conv1.weight", [1280, 1920, 3, 3], .float32, [], false⟩,
  ⟨key% "unet.up_blocks.1.resnets.2.conv2.bias", [1280], .float32, [], false⟩,
  ⟨key% "unet.up_blocks.1.resnets.2.conv2.weight", [1280, 1280, 3, 3], .float32, [], false⟩,
  ⟨key% "unet.up_blocks.1.resnets.2.conv_shortcut.bias", [1280], .float32, [], false⟩,
  ⟨key% "unet.up_blocks.1.resnets.2.conv_shortcut.weight", [1280, 1920, 1, 1], .float32, [], false⟩,
  ⟨key% "unet.up_blocks.1.resnets.2.norm1.bias", [1920], .float32, [], false⟩,
  ⟨key% "unet.up_blocks.1.resnets.2.norm1.weight", [1920], .float32, [], false⟩,
  ⟨key% "unet.up_blocks.1.resnets.2.norm2.bias", [1280], .float32, [], false⟩,
  ⟨key% "unet.up_blocks.1.resnets.2.norm2.weight", [1280], .float32, [], false⟩,
  ⟨key% "unet.up_blocks.1.resnets.2.time_emb_proj.bias", [1280], .float32, [], false⟩,
  ⟨key% "unet.up_blocks.1.resnets.2.time_emb_proj.weight", [1280, 1280], .float32, [], false⟩,
  ⟨key% "unet.up_blocks.1.upsamplers.0.conv.bias", [1280], .float32, [], false⟩,
  ⟨key% "unet.up_blocks.1.upsamplers.0.conv.weight", [1280, 1280, 3, 3], .float32, [], false⟩,
  ⟨key% "unet.up_blocks.2.attentions.0.norm.bias", [640], .float32, [], false⟩,
  ⟨key% "unet.up_blocks.2.attentions.0.norm.weight", [640], .float32, [], false⟩,
  ⟨key% "unet.up_blocks.2.attentions.0.proj_in.bias", [640], .float32, [], false⟩,
  ⟨key% "unet.up_blocks.2.attentions.0.proj_in.weight", [640, 640, 1, 1], .float32, [], false⟩,
  ⟨key% "unet.up_blocks.2.attentions.0.proj_out.bias", [640], .float32, [], false⟩,
  ⟨key% "unet.up_blocks.2.attentions.0.proj_out.weight", [640, 640, 1, 1], .float32, [], false⟩,
  ⟨key% "unet.up_blocks.2.attentions.0.transformer_blocks.0.attn1.to_k.weight", [640, 640], .float32, [], false⟩,
  ⟨key% "unet.up_blocks.2.attentions.0.transformer_blocks.0.attn1.to_out.0.bias", [640], .float32, [], false⟩,
  ⟨key% "unet.up_blocks.2.attentions.0.transformer_blocks.0.attn1.to_out.0.weight", [640, 640], .float32, [], false⟩,
  ⟨key% "unet.up_blocks.2.attentions.0.transformer_blocks.0.attn1.to_q.weight", [640, 640], .float32, [], false⟩,
  ⟨key% "unet.up_blocks.2.attentions.0.transformer_blocks.0.attn1.to_v.weight", [640, 640], .float32, [], false⟩,
  ⟨key% "unet.up_blocks.2.attentions.0.transformer_blocks.0.attn2.to_k.weight", [640, 768], .float32, [], false⟩,
  ⟨key% "unet.up_blocks.2.attentions.0.transformer_blocks.0.attn2.to_out.0.bias", [640], .float32, [], false⟩,
  ⟨key% "unet.up_blocks.2.attentions.0.transformer_blocks.0.attn2.to_out.0.weight", [640, 640], .float32, [], false⟩,
  ⟨key% "unet.up_blocks.2.attentions.0.transformer_blocks.0.attn2.to_q.weight", [640, 640], .float32, [], false⟩,
  ⟨key% "unet.up_blocks.2.attentions.0.transformer_blocks.0.attn2.to_v.weight", [640, 768], .float32, [], false⟩,
  ⟨key% "unet.up_blocks.2.attentions.0.transformer_blocks.0.ff.net.0.proj.bias", [5120], .float32, [], false⟩,
  ⟨key% "unet.up_blocks.2.attentions.0.transformer_blocks.0.ff.net.0.proj.weight", [5120, 640], .float32, [], false⟩,
  ⟨key% "unet.up_blocks.2.attentions.0.transformer_blocks.0.ff.net.2.bias", [640], .float32, [], false⟩,
  ⟨key% "unet.up_blocks.2.attentions.0.transformer_blocks.0.ff.net.2.weight", [640, 2560], .float32, [], false⟩,
  ⟨key% "unet.up_blocks.2.attentions.0.transformer_blocks.0.norm1.bias", [640], .float32, [], false⟩,
  ⟨key% "unet.up_blocks.2.attentions.0.transformer_blocks.0.norm1.weight", [640], .float32, [], false⟩,
  ⟨key% "unet.up_blocks.2.attentions.0.transformer_blocks.0.norm2.bias", [640], .float32, [], false⟩,
  ⟨key% "unet.up_blocks.2.attentions.0.transformer_blocks.0.norm2.weight", [640], .float32, [], false⟩,
  ⟨key% "unet.up_blocks.2.attentions.0.transformer_blocks.0.norm3.bias", [640], .float32, [], false⟩,
  ⟨key% "unet.up_blocks.2.attentions.0.transformer_blocks.0.norm3.weight", [640], .float32, [], false⟩,
  ⟨key% "unet.up_blocks.2.attentions.1.norm.bias", [640], .float32, [], false⟩,
  ⟨key% "unet.up_blocks.2.attentions.1.norm.weight", [640], .float32, [], false⟩,
  ⟨key% "unet.up_blocks.2.attentions.1.proj_in.bias", [640], .float32, [], false⟩,
  ⟨key% "unet.up_blocks.2.attentions.1.proj_in.weight", [640, 640, 1, 1], .float32, [], false⟩,
  ⟨key% "unet.up_blocks.2.attentions.1.proj_out.bias", [640], .float32, [], false⟩,
  ⟨key% "unet.up_blocks.2.attentions.1.proj_out.weight", [640, 640, 1, 1], .float32, [], false⟩,
  ⟨key% "unet.up_blocks.2.attentions.1.transformer_blocks.0.attn1.to_k.weight", [640, 640], .float32, [], false⟩,
  ⟨key% "unet.up_blocks.2.attentions.1.transformer_blocks.0.attn1.to_out.0.bias", [640], .float32, [], false⟩,
  ⟨key% "unet.up_blocks.2.attentions.1.transformer_blocks.0.attn1.to_out.0.weight", [640, 640], .float32, [], false⟩,
  ⟨key% "unet.up_blocks.2.attentions.1.transformer_blocks.0.attn1.to_q.weight", [640, 640], .float32, [], false⟩,
  ⟨key% "unet.up_blocks.2.attentions.1.transformer_blocks.0.attn1.to_v.weight", [640, 640], .float32, [], false⟩,
  ⟨key% "unet.up_blocks.2.attentions.1.transformer_blocks.0.attn2.to_k.weight", [640, 768], .float32, [], false⟩,
  ⟨key% "unet.up_blocks.2.attentions.1.transformer_blocks.0.attn2.to_out.0.bias", [640], .float32, [], false⟩,
  ⟨key% "unet.up_blocks.2.attentions.1.transformer_blocks.0.attn2.to_out.0.weight", [640, 640], .float32, [], false⟩,
  ⟨key% "unet.up_blocks.2.attentions.1.transformer_blocks.0.attn2.to_q.weight", [640, 640], .float32, [], false⟩,
  ⟨key% "unet.up_blocks.2.attentions.1.transformer_blocks.0.attn2.to_v.weight", [640, 768], .float32, [], false⟩,
  ⟨key% "unet.up_blocks.2.attentions.1.transformer_blocks.0.ff.net.0.proj.bias", [5120], .float32, [], false⟩,
  ⟨key% "unet.up_blocks.2.attentions.1.transformer_blocks.0.ff.net.0.proj.weight", [5120, 640], .float32, [], false⟩]
noncomputable def diffuser5 : List Entry := [
  ⟨key% "unet.up_blocks.2.attentions.1.transformer_blocks.0.ff.net.2.bias", [640], .float32, [], false⟩,
  ⟨key% "unet.up_blocks.2.attentions.1.transformer_blocks.0.ff.net.2.weight", [640, 2560], .float32, [], false⟩,
  ⟨key% "unet.up_blocks.2.attentions.1.transformer_blocks.0.norm1.bias", [640], .float32, [], false⟩,
  ⟨key% "unet.up_blocks.2.attentions.1.transformer_blocks.0.norm1.weight", [640], .float32, [], false⟩,
  ⟨key% "unet.up_blocks.2.attentions.1.transformer_blocks.0.norm2.bias", [640], .float32, [], false⟩,
  ⟨key% "unet.up_blocks.2.attentions.1.transformer_blocks.0.norm2.weight", [640], .float32, [], false⟩,
  ⟨key% "unet.up_blocks.2.attentions.1.transformer_blocks.0.norm3.bias", [640], .float32, [], false⟩,
  ⟨key% "unet.up_blocks.2.attentions.1.transformer_blocks.0.norm3.weight", [640], .float32, [], false⟩,
  ⟨key% "unet.up_blocks.2.attentions.2.norm.bias", [640], .float32, [], false⟩,
  ⟨key% "unet.up_blocks.2.attentions.2.norm.weight", [640], .float32, [], false⟩,
  ⟨key% "unet.up_blocks.2.attentions.2.proj_in.bias", [640], .float32, [], false⟩,
  ⟨key% "unet.up_blocks.2.attentions.2.proj_in.weight", [640, 640, 1, 1], .float32, [], false⟩,
  ⟨key% "unet.up_blocks.2.attentions.2.proj_out.bias", [640], .float32, [], false⟩,
  ⟨key% "unet.up_blocks.2.attentions.2.proj_out.weight", [640, 640, 1, 1], .float32, [], false⟩,
  ⟨key% "unet.up_blocks.2.attentions.2.transformer_blocks.0.attn1.to_k.weight", [640, 640], .float32, [], false⟩,
  ⟨key% "unet.up_blocks.2.attentions.2.transformer_blocks.0.attn1.to_out.0.bias", [640], .float32, [], false⟩,
  ⟨key% "unet.up_blocks.2.attentions.2.transformer_blocks.0.attn1.to_out.0.weight", [640, 640], .float32, [], false⟩,
  ⟨key% "unet.up_blocks.2.attentions.2.transformer_blocks.0.attn1.to_q.weight", [640, 640], .float32, [], false⟩,
  ⟨key% "unet.up_blocks.2.attentions.2.transformer_blocks.0.attn1.to_v.weight", [640, 640], .float32, [], false⟩,
  ⟨key% "unet.up_blocks.2.attentions.2.transformer_blocks.0.attn2.to_k.weight", [640, 768], .float32, [], false⟩,
  ⟨key% "unet.up_blocks.2.attentions.2.transformer_blocks.0.attn2.to_out.0.bias", [640], .float32, [], false⟩,
  ⟨key% "unet.up_blocks.2.attentions.2.transformer_blocks.0.attn2.to_out.0.weight", [640, 640], .float32, [], false⟩,
  ⟨key% "unet.up_blocks.2.attentions.2.transformer_blocks.0.attn2.to_q.weight", [640, 640], .float32, [], false⟩,
  ⟨key% "unet.up_blocks.2.attentions.2.transformer_blocks.0.attn2.to_v.weight", [640, 768], .float32, [], false⟩,
  ⟨key% "unet.up_blocks.2.attentions.2.transformer_blocks.0.ff.net.0.proj.bias", [5120], .float32, [], false⟩,
  ⟨key% "unet.up_blocks.2.attentions.2.transformer_blocks.0.ff.net.0.proj.weight", [5120, 640], .float32, [], false⟩,
  ⟨key% "unet.up_blocks.2.attentions.2.transformer_blocks.0.ff.net.2.bias", [640], .float32, [], false⟩,
  ⟨key% "unet.up_blocks.2.attentions.2.transformer_blocks.0.ff.net.2.weight", [640, 2560], .float32, [], false⟩,
  ⟨key% "unet.up_blocks.2.attentions.2.transformer_blocks.0.norm1.bias", [640], .float32, [], false⟩,
  ⟨key% "unet.up_blocks.2.attentions.2.transformer_blocks.0.norm1.weight", [640], .float32, [], false⟩,
  ⟨key% "unet.up_blocks.2.attentions.2.transformer_blocks.0.norm2.bias", [640], .float32, [], false⟩,
  ⟨key% "unet.up_blocks.2.attentions.2.transformer_blocks.0.norm2.weight", [640], .float32, [], false⟩,
  ⟨key% "unet.up_blocks.2.attentions.2.transformer_blocks.0.norm3.bias", [640], .float32, [], false⟩,
  ⟨key% "unet.up_blocks.2.attentions.2.transformer_blocks.0.norm3.weight", [640], .float32, [], false⟩,
  ⟨key% "unet.up_blocks.2.resnets.0.conv1.bias", [640], .float32, [], false⟩,
  ⟨key% "unet.up_blocks.2.resnets.0.conv1.weight", [640, 1920, 3, 3], .float32, [], false⟩,
  ⟨key% "unet.up_blocks.2.resnets.0.conv2.bias", [640], .float32, [], false⟩,
  ⟨key% "unet.up_blocks.2.resnets.0.conv2.weight", [640, 640, 3, 3], .float32, [], false⟩,
  ⟨key% "unet.up_blocks.2.resnets.0.conv_shortcut.bias", [640], .float32, [], false⟩,
  ⟨key% "unet.up_blocks.2.resnets.0.conv_shortcut.weight", [640, 1920, 1, 1], .float32, [], false⟩,
  ⟨key% "unet.up_blocks.2.resnets.0.norm1.bias", [1920], .float32, [], false⟩,
  ⟨key% "unet.up_blocks.2.resnets.0.norm1.weight", [1920], .float32, [], false⟩,
  ⟨key% "unet.up_blocks.2.resnets.0.norm2.bias", [640], .float32, [], false⟩,
  ⟨key% "unet.up_blocks.2.resnets.0.norm2.weight", [640], .float32, [], false⟩,
  ⟨key% "unet.up_blocks.2.resnets.0.time_emb_proj.bias", [640], .float32, [], false⟩,
  ⟨key% "unet.up_blocks.2.resnets.0.time_emb_proj.weight", [640, 1280], .float32, [], false⟩,
  ⟨key% "unet.up_blocks.2.resnets.1.conv1.bias", [640], .float32, [], false⟩,
  ⟨key% "unet.up_blocks.2.resnets.1.conv1.weight", [640, 1280, 3, 3], .float32, [], false⟩,
  ⟨key% "unet.up_blocks.2.resnets.1.conv2.bias", [640], .float32, [], false⟩,
  ⟨key% "unet.up_blocks.2.resnets.1.conv2.weight", [640, 640, 3, 3], .float32, [], false⟩,
  ⟨key% "unet.up_blocks.2.resnets.1.conv_shortcut.bias", [640], .float32, [], false⟩,
  ⟨key% "unet.up_blocks.2.resnets.1.conv_shortcut.weight", [640, 1280, 1, 1], .float32, [], false⟩,
  ⟨key% "unet.up_blocks.2.resnets.1.norm1.bias", [1280], .float32, [], false⟩,
  ⟨key% "unet.up_blocks.2.resnets.1.norm1.weight", [1280], .float32, [], false⟩,
  ⟨key% "unet.up_blocks.2.resnets.1.norm2.bias", [640], .float32, [], false⟩,
  ⟨key% "unet.up_blocks.2.resnets.1.norm2.weight", [640], .float32, [], false⟩,
  ⟨key% "unet.up_blocks.2.resnets.1.time_emb_proj.bias", [640], .float32, [], false⟩,
  ⟨key% "unet.up_blocks.2.resnets.1.time_emb_proj.weight", [640, 1280], .float32, [], false⟩,
  ⟨key% "unet.up_blocks.2.resnets.2.conv1.bias", [640], .float32, [], false⟩,
  ⟨key% "unet.up_blocks.2.resnets.2.conv1.weight", [640, 960, 3, 3], .float32, [], false⟩,
  ⟨key% "unet.up_blocks.2.resnets.2.conv2.bias", [640], .float32, [], false⟩,
  ⟨key% "unet.up_blocks.2.resnets.2.conv2.weight", [640, 640, 3, 3], .float32, [], false⟩,
  ⟨key% "unet.up_blocks.2.resnets.2.conv_shortcut.bias", [640], .float32, [], false⟩,
  ⟨key% "unet.up_blocks.2.resnets.2.conv_shortcut.weight", [640, 960, 1, 1], .float32, [], false⟩,
  ⟨key% "unet.up_blocks.2.resnets.2.norm1.bias", [960], .float32, [], false⟩,
  ⟨key% "unet.up_blocks.2.resnets.2.norm1.weight", [960], .float32, [], false⟩,
  ⟨key% "unet.up_blocks.2.resnets.2.norm2.bias", [640], .float32, [], false⟩,
  ⟨key% "unet.up_blocks.2.resnets.2.norm2.weight", [640], .float32, [], false⟩,
  ⟨key% "unet.up_blocks.2.resnets.2.time_emb_proj.bias", [640], .float32, [], false⟩,
  ⟨key% "unet.up_blocks.2.resnets.2.time_emb_proj.weight", [640, 1280], .float32, [], false⟩,
  ⟨key% "unet.up_blocks.2.upsamplers.0.conv.bias", [640], .float32, [], false⟩,
  ⟨key% "unet.up_blocks.2.upsamplers.0.conv.weight", [640, 640, 3, 3], .float32, [], false⟩,
  ⟨key% "unet.up_blocks.3.attentions.0.norm.bias", [320], .float32, [], false⟩,
  ⟨key% "unet.up_blocks.3.attentions.0.norm.weight", [320], .float32, [], false⟩,
  ⟨key% "unet.up_blocks.3.attentions.0.proj_in.bias", [320], .float32, [], false⟩,
  ⟨key% "unet.up_blocks.3.attentions.0.proj_in.weight", [320, 320, 1, 1], .float32, [], false⟩,
  ⟨key% "unet.up_blocks.3.attentions.0.proj_out.bias", [320], .float32, [], false⟩,
  ⟨key% "unet.up_blocks.3.attentions.0.proj_out.weight", [320, 320, 1, 1], .float32, [], false⟩,
  ⟨key% "unet.up_blocks.3.attentions.0.transformer_blocks.0.attn1.to_k.weight", [320, 320], .float32, [], false⟩,
  ⟨key% "unet.up_blocks.3.attentions.0.transformer_blocks.0.attn1.to_out.0.bias", [320], .float32, [], false⟩,
  ⟨key% "unet.up_blocks.3.attentions.0.transformer_blocks.0.attn1.to_out.0.weight", [320, 320], .float32, [], false⟩,
  ⟨key% "unet.up_blocks.3.attentions.0.transformer_blocks.0.attn1.to_q.weight", [320, 320], .float32, [], false⟩,
  ⟨key% "unet.up_blocks.3.attentions.0.transformer_blocks.0.attn1.to_v.weight", [320, 320], .float32, [], false⟩,
  ⟨key% "unet.up_blocks.3.attentions.0.transformer_blocks.0.attn2.to_k.weight", [320, 768], .float32, [], false⟩,
  ⟨key% "unet.up_blocks.3.attentions.0.transformer_blocks.0.attn2.to_out.0.bias", [320], .float32, [], false⟩,
  ⟨key% "unet.up_blocks.3.attentions.0.transformer_blocks.0.attn2.to_out.0.weight", [320, 320], .float32, [], false⟩,
  ⟨key% "unet.up_blocks.3.attentions.0.transformer_blocks.0.attn2.to_q.weight", [320, 320], .float32, [], false⟩,
  ⟨key% "unet.up_blocks.3.attentions.0.transformer_blocks.0.attn2.to_v.weight", [320, 768], .float32, [], false⟩,
  ⟨key% "unet.up_blocks.3.attentions.0.transformer_blocks.0.ff.net.0.proj.bias", [2560], .float32, [], false⟩,
  ⟨key% "unet.up_blocks.3.attentions.0.transformer_blocks.0.ff.net.0.proj.weight", [2560, 320], .float32, [], false⟩,
  ⟨key% "unet.up_blocks.3.attentions.0.transformer_blocks.0.ff.net.2.bias", [320], .float32, [], false⟩,
  ⟨key% "unet.up_blocks.3.attentions.0.transformer_blocks.0.ff.net.2.weight", [320, 1280], .float32, [], false⟩,
  ⟨key% "unet.up_blocks.3.attentions.0.transformer_blocks.0.norm1.bias", [320], .float32, [], false⟩,
  ⟨key% "unet.up_blocks.3.attentions.0.transformer_blocks.0.norm1.weight", [320], .float32, [], false⟩,
  ⟨key% "unet.up_blocks.3.attentions.0.transformer_blocks.0.norm2.bias", [320], .float32, [], false⟩,
  ⟨key% "unet.up_blocks.3.attentions.0.transformer_blocks.0.norm2.weight", [320], .float32, [], false⟩,
  ⟨key% "unet.up_blocks.3.attentions.0.transformer_blocks.0.norm3.bias", [320], .float32, [], false⟩,
  ⟨key% "unet.up_blocks.3.attentions.0.transformer_blocks.0.norm3.weight", [320], .float32, [], false⟩,
  ⟨key% "unet.up_blocks.3.attentions.1.norm.bias", [320], .float32, [], false⟩,
  ⟨key% "unet.up_blocks.3.attentions.1.norm.weight", [320], .float32, [], false⟩]
noncomputable def diffuser6 : List Entry := [
  ⟨key% "unet.up_blocks.3.attentions.1.proj_in.bias", [320], .float32, [], false⟩,
  ⟨key% "unet.up_blocks.3.attentions.1.proj_in.weight", [320, 320, 1, 1], .float32, [], false⟩,
  ⟨key% "unet.up_blocks.3.attentions.1.proj_out.bias", [320], .float32, [], false⟩,
  ⟨key% "unet.up_blocks.3.attentions.1.proj_out.weight", [320, 320, 1, 1], .float32, [], false⟩,
  ⟨key% "unet.up_blocks.3.attentions.1.transformer_blocks.0.attn1.to_k.weight", [320, 320], .float32, [], false⟩,
  ⟨key% "unet.up_blocks.3.attentions.1.transformer_blocks.0.attn1.to_out.0.bias", [320], .float32, [], false⟩,
  ⟨key% "unet.up_blocks.3.attentions.1.transformer_blocks.0.attn1.to_out.0.weight", [320, 320], .float32, [], false⟩,
  ⟨key% "unet.up_blocks.3.attentions.1.transformer_blocks.0.attn1.to_q.weight", [320, 320], .float32, [], false⟩,
  ⟨key% "unet.up_blocks.3.attentions.1.transformer_blocks.0.attn1.to_v.weight", [320, 320], .float32, [], false⟩,
  ⟨key% "unet.up_blocks.3.attentions.1.transformer_blocks.0.attn2.to_k.weight", [320, 768], .float32, [], false⟩,
  ⟨key% "unet.up_blocks.3.attentions.1.transformer_blocks.0.attn2.to_out.0.bias", [320], .float32, [], false⟩,
  ⟨key% "unet.up_blocks.3.attentions.1.transformer_blocks.0.attn2.to_out.0.weight", [320, 320], .float32, [], false⟩,
  ⟨key% "unet.up_blocks.3.attentions.1.transformer_blocks.0.attn2.to_q.weight", [320, 320], .float32, [], false⟩,
  ⟨key% "unet.up_blocks.3.attentions.1.transformer_blocks.0.attn2.to_v.weight", [320, 768], .float32, [], false⟩,
  ⟨key% "unet.up_blocks.3.attentions.1.transformer_blocks.0.ff.net.0.proj.bias", [2560], .float32, [], false⟩,
  ⟨key% "unet.up_blocks.3.attentions.1.transformer_blocks.0.ff.net.0.proj.weight", [2560, 320], .float32, [], false⟩,
  ⟨key% "unet.up_blocks.3.attentions.1.transformer_blocks.0.ff.net.2.bias", [320], .float32, [], false⟩,
  ⟨key% "unet.up_blocks.3.attentions.1.transformer_blocks.0.ff.net.2.weight", [320, 1280], .float32, [], false⟩,
  ⟨key% "unet.up_blocks.3.attentions.1.transformer_blocks.0.norm1.bias", [320], .float32, [], false⟩,
  ⟨key% "unet.up_blocks.3.attentions.1.transformer_blocks.0.norm1.weight", [320], .float32, [], false⟩,
  ⟨key% "unet.up_blocks.3.attentions.1.transformer_blocks.0.norm2.bias", [320], .float32, [], false⟩,
  ⟨key% "unet.up_blocks.3.attentions.1.transformer_blocks.0.norm2.weight", [320], .float32, [], false⟩,
  ⟨key% "unet.up_blocks.3.attentions.1.transformer_blocks.0.norm3.bias", [320], .float32, [], false⟩,
  ⟨key% "unet.up_blocks.3.attentions.1.transformer_blocks.0.norm3.weight", [320], .float32, [], false⟩,
  ⟨key% "unet.up_blocks.3.attentions.2.norm.bias", [320], .float32, [], false⟩,
  ⟨key% "unet.up_blocks.3.attentions.2.norm.weight", [320], .float32, [], false⟩,
  ⟨key% "unet.up_blocks.3.attentions.2.proj_in.bias", [320], .float32, [], false⟩,
  ⟨key% "unet.up_blocks.3.attentions.2.proj_in.weight", [320, 320, 1, 1], .float32, [], false⟩,
  ⟨key% "unet.up_blocks.3.attentions.2.proj_out.bias", [320], .float32, [], false⟩,
  ⟨key% "unet.up_blocks.3.attentions.2.proj_out.weight", [320, 320, 1, 1], .float32, [], false⟩,
  ⟨key% "unet.up_blocks.3.attentions.2.transformer_blocks.0.attn1.to_k.weight", [320, 320], .float32, [], false⟩,
  ⟨key% "unet.up_blocks.3.attentions.2.transformer_blocks.0.attn1.to_out.0.bias", [320], .float32, [], false⟩,
  ⟨key% "unet.up_blocks.3.attentions.2.transformer_blocks.0.attn1.to_out.0.weight", [320, 320], .float32, [], false⟩,
  ⟨key% "unet.up_blocks.3.attentions.2.transformer_blocks.0.attn1.to_q.weight", [320, 320], .float32, [], false⟩,
  ⟨key% "unet.up_blocks.3.attentions.2.transformer_blocks.0.attn1.to_v.weight", [320, 320], .float32, [], false⟩,
  ⟨key% "unet.up_blocks.3.attentions.2.transformer_blocks.0.attn2.to_k.weight", [320, 768], .float32, [], false⟩,
  ⟨key% "unet.up_blocks.3.attentions.2.transformer_blocks.0.attn2.to_out.0.bias", [320], .float32, [], false⟩,
  ⟨key% "unet.up_blocks.3.attentions.2.transformer_blocks.0.attn2.to_out.0.weight", [320, 320], .float32, [], false⟩,
  ⟨key% "unet.up_blocks.3.attentions.2.transformer_blocks.0.attn2.to_q.weight", [320, 320], .float32, [], false⟩,
  ⟨key% "unet.up_blocks.3.attentions.2.transformer_blocks.0.attn2.to_v.weight", [320, 768], .float32, [], false⟩,
  ⟨key% "unet.up_blocks.3.attentions.2.transformer_blocks.0.ff.net.0.proj.bias", [2560], .float32, [], false⟩,
  ⟨key% "unet.up_blocks.3.attentions.2.transformer_blocks.0.ff.net.0.proj.weight", [2560, 320], .float32, [], false⟩,
  ⟨key% "unet.up_blocks.3.attentions.2.transformer_blocks.0.ff.net.2.bias", [320], .float32, [], false⟩,
  ⟨key% "unet.up_blocks.3.attentions.2.transformer_blocks.0.ff.net.2.weight", [320, 1280], .float32, [], false⟩,
  ⟨key% "unet.up_blocks.3.attentions.2.transformer_blocks.0.norm1.bias", [320], .float32, [], false⟩,
  ⟨key% "unet.up_blocks.3.attentions.2.transformer_blocks.0.norm1.weight", [320], .float32, [], false⟩,
  ⟨key% "unet.up_blocks.3.attentions.2.transformer_blocks.0.norm2.bias", [320], .float32, [], false⟩,
  ⟨key% "unet.up_blocks.3.attentions.2.transformer_blocks.0.norm2.weight", [320], .float32, [], false⟩,
  ⟨key% "unet.up_blocks.3.attentions.2.transformer_blocks.0.norm3.bias", [320], .float32, [], false⟩,
  ⟨key% "unet.up_blocks.3.attentions.2.transformer_blocks.0.norm3.weight", [320], .float32, [], false⟩,
  ⟨key% "unet.up_blocks.3.resnets.0.conv1.bias", [320], .float32, [], false⟩,
  ⟨key% "unet.up_blocks.3.resnets.0.conv1.weight", [320, 960, 3, 3], .float32, [], false⟩,
  ⟨key% "unet.up_blocks.3.resnets.0.conv2.bias", [320], .float32, [], false⟩,
  ⟨key% "unet.up_blocks.3.resnets.0.conv2.weight", [320, 320, 3, 3], .float32, [], false⟩,
  ⟨key% "unet.up_blocks.3.resnets.0.conv_shortcut.bias", [320], .float32, [], false⟩,
  ⟨key% "unet.up_blocks.3.resnets.0.conv_shortcut.weight", [320, 960, 1, 1], .float32, [], false⟩,
  ⟨key% "unet.up_blocks.3.resnets.0.norm1.bias", [960], .float32, [], false⟩,
  ⟨key% "unet.up_blocks.3.resnets.0.norm1.weight", [960], .float32, [], false⟩,
  ⟨key% "unet.up_blocks.3.resnets.0.norm2.bias", [320], .float32, [], false⟩,
  ⟨key% "unet.up_blocks.3.resnets.0.norm2.weight", [320], .float32, [], false⟩,
  ⟨key% "unet.up_blocks.3.resnets.0.time_emb_proj.bias", [320], .float32, [], false⟩,
  ⟨key% "unet.up_blocks.3.resnets.0.time_emb_proj.weight", [320, 1280], .float32, [], false⟩,
  ⟨key% "unet.up_blocks.3.resnets.1.conv1.bias", [320], .float32, [], false⟩,
  ⟨key% "unet.up_blocks.3.resnets.1.conv1.weight", [320, 640, 3, 3], .float32, [], false⟩,
  ⟨key% "unet.up_blocks.3.resnets.1.conv2.bias", [320], .float32, [], false⟩,
  ⟨key% "unet.up_blocks.3.resnets.1.conv2.weight", [320, 320, 3, 3], .float32, [], false⟩,
  ⟨key% "unet.up_blocks.3.resnets.1.conv_shortcut.bias", [320], .float32, [], false⟩,
  ⟨key% "unet.up_blocks.3.resnets.1.conv_shortcut.weight", [320, 640, 1, 1], .float32, [], false⟩,
  ⟨key% "unet.up_blocks.3.resnets.1.norm1.bias", [640], .float32, [], false⟩,
  ⟨key% "unet.up_blocks.3.resnets.1.norm1.weight", [640], .float32, [], false⟩,
  ⟨key% "unet.up_blocks.3.resnets.1.norm2.bias", [320], .float32, [], false⟩,
  ⟨key% "unet.up_blocks.3.resnets.1.norm2.weight", [320], .float32, [], false⟩,
  ⟨key% "unet.up_blocks.3.resnets.1.time_emb_proj.bias", [320], .float32, [], false⟩,
  ⟨key% "unet.up_blocks.3.resnets.1.time_emb_proj.weight", [320, 1280], .float32, [], false⟩,
  ⟨key% "unet.up_blocks.3.resnets.2.conv1.bias", [320], .float32, [], false⟩,
  ⟨key% "unet.up_blocks.3.resnets.2.conv1.weight", [320, 640, 3, 3], .float32, [], false⟩,
  ⟨key% "unet.up_blocks.3.resnets.2.conv2.bias", [320], .float32, [], false⟩,
  ⟨key% "unet.up_blocks.3.resnets.2.conv2.weight", [320, 320, 3, 3], .float32, [], false⟩,
  ⟨key% "unet.up_blocks.3.resnets.2.conv_shortcut.bias", [320], .float32, [], false⟩,
  ⟨key% "unet.up_blocks.3.resnets.2.conv_shortcut.weight", [320, 640, 1, 1], .float32, [], false⟩,
  ⟨key% "unet.up_blocks.3.resnets.2.norm1.bias", [640], .float32, [], false⟩,
  ⟨key% "unet.up_blocks.3.resnets.2.norm1.weight", [640], .float32, [], false⟩,
  ⟨key% "unet.up_blocks.3.resnets.2.norm2.bias", [320], .float32, [], false⟩,
  ⟨key% "unet.up_blocks.3.resnets.2.norm2.weight", [320], .float32, [], false⟩,
  ⟨key% "unet.up_blocks.3.resnets.2.time_emb_proj.bias", [320], .float32, [], false⟩,
  ⟨key% "unet.up_blocks.3.resnets.2.time_emb_proj.weight", [320, 1280], .float32, [], false⟩]
/-- Component `diffuser`: 686 keys -/
noncomputable def diffuser : List Entry := diffuser0 ++ diffuser1 ++ diffuser2 ++ diffuser3 ++ diffuser4 ++ diffuser5 ++ diffuser6

noncomputable def vae0 : List Entry := [
  ⟨key% "vae.decoder.conv_in.bias", [512], .float32, [], false⟩,
  ⟨key% "vae.decoder.conv_in.weight", [512, 4, 3, 3], .float32, [], false⟩,
  ⟨key% "vae.decoder.conv_norm_out.bias", [128], .float32, [], false⟩,
  ⟨key% "vae.decoder.conv_norm_out.weight", [128], .float32, [], false⟩,
  ⟨key% "vae.decoder.conv_out.bias", [3], .float32, [], false⟩,
  ⟨key% "vae.decoder.conv_out.weight", [3, 128, 3, 3], .float32, [], false⟩,
  ⟨key% "vae.decoder.mid_block.attentions.0.group_norm.bias", [512], .float32, [], false⟩,
  ⟨key% "vae.decoder.mid_block.attentions.0.group_norm.weight", [512], .float32, [], false⟩,
  ⟨key% "vae.decoder.mid_block.attentions.0.to_k.bias", [512], .float32, [], false⟩,
  ⟨key% "vae.decoder.mid_block.attentions.0.to_k.weight", [512, 512], .float32, [], false⟩,
  ⟨key% "vae.decoder.mid_block.attentions.0.to_out.0.bias", [512], .float32, [], false⟩,
  ⟨key% "vae.decoder.mid_block.attentions.0.to_out.0.weight", [512, 512], .float32, [], false⟩,
  ⟨key% "vae.decoder.mid_block.attentions.0.to_q.bias", [512], .float32, [], false⟩,
  ⟨key% "vae.decoder.mid_block.attentions.0.to_q.weight", [512, 512], .float32, [], false⟩,
  ⟨key% "vae.decoder.mid_block.attentions.0.to_v.bias", [512], .float32, [], false⟩,
  ⟨key% "vae.decoder.mid_block.attentions.0.to_v.weight", [512, 512], .float32, [], false⟩,
  ⟨key% "vae.decoder.mid_block.resnets.0.conv1.bias", [512], .float32, [], false⟩,
  ⟨key% "vae.decoder.mid_block.resnets.0.conv1.weight", [512, 512, 3, 3], .float32, [], false⟩,
  ⟨key% "vae.decoder.mid_block.resnets.0.conv2.bias", [512], .float32, [], false⟩,
  ⟨key% "vae.decoder.mid_block.resnets.0.conv2.weight", [512, 512, 3, 3], .float32, [], false⟩,
  ⟨key% "vae.decoder.mid_block.resnets.0.norm1.bias", [512], .float32, [], false⟩,
  ⟨key% "vae.decoder.mid_block.resnets.0.norm1.weight", [512], .float32, [], false⟩,
  ⟨key% "vae.decoder.mid_block.resnets.0.norm2.bias", [512], .float32, [], false⟩,
  ⟨key% "vae.decoder.mid_block.resnets.0.norm2.weight", [512], .float32, [], false⟩,
  ⟨key% "vae.decoder.mid_block.resnets.1.conv1.bias", [512], .float32, [], false⟩,
  ⟨key% "vae.decoder.mid_block.resnets.1.conv1.weight", [512, 512, 3, 3], .float32, [], false⟩,
  ⟨key% "vae.decoder.mid_block.resnets.1.conv2.bias", [512], .float32, [], false⟩,
  ⟨key% "vae.decoder.mid_block.resnets.1.conv2.weight", [512, 512, 3, 3], .float32, [], false⟩,
  ⟨key% "vae.decoder.mid_block.resnets.1.norm1.bias", [512], .float32, [], false⟩,
  ⟨key% "vae.decoder.mid_block.resnets.1.norm1.weight", [512], .float32, [], false⟩,
  ⟨key% "vae.decoder.mid_block.resnets.1.norm2.bias", [512], .float32, [], false⟩,
  ⟨key% "vae.decoder.mid_block.resnets.1.norm2.weight", [512], .float32, [], false⟩,
  ⟨key% "vae.decoder.up_blocks.0.resnets.0.conv1.bias", [512], .float32, [], false⟩,
  ⟨key% "vae.decoder.up_blocks.0.resnets.0.conv1.weight", [512, 512, 3, 3], .float32, [], false⟩,
  ⟨key% "vae.decoder.up_blocks.0.resnets.0.conv2.bias", [512], .float32, [], false⟩,
  ⟨key% "vae.decoder.up_blocks.0.resnets.0.conv2.weight", [512, 512, 3, 3], .float32, [], false⟩,
  ⟨key% "vae.decoder.up_blocks.0.resnets.0.norm1.bias", [512], .float32, [], false⟩,
  ⟨key% "vae.decoder.up_blocks.0.resnets.0.norm1.weight", [512], .float32, [], false⟩,
  ⟨key% "vae.decoder.up_blocks.0.resnets.0.norm2.bias", [512], .float32, [], false⟩,
  ⟨key% "vae.decoder.up_blocks.0.resnets.0.norm2.weight", [512], .float32, [], false⟩,
  ⟨key% "vae.decoder.up_blocks.0.resnets.1.conv1.bias", [512], .float32, [], false⟩,
  ⟨key% "vae.decoder.up_blocks.0.resnets.1.conv1.weight", [512, 512, 3, 3], .float32, [], false⟩,
  ⟨key% "vae.decoder.up_blocks.0.resnets.1.conv2.bias", [512], .float32, [], false⟩,
  ⟨key% "vae.decoder.up_blocks.0.resnets.1.conv2.weight", [512, 512, 3, 3], .float32, [], false⟩,
  ⟨key% "vae.decoder.up_blocks.0.resnets.1.norm1.bias", [512], .float32, [], false⟩,
  ⟨key% "vae.decoder.up_blocks.0.resnets.1.norm1.weight", [512], .float32, [], false⟩,
  ⟨key% "vae.decoder.up_blocks.0.resnets.1.norm2.bias", [512], .float32, [], false⟩,
  ⟨key% "vae.decoder.up_blocks.0.resnets.1.norm2.weight", [512], .float32, [], false⟩,
  ⟨key% "vae.decoder.up_blocks.0.resnets.2.conv1.bias", [512], .float32, [], false⟩,
  ⟨key% "vae.decoder.up_blocks.0.resnets.2.conv1.weight", [512, 512, 3, 3], .float32, [], false⟩,
  ⟨key% "vae.decoder.up_blocks.0.resnets.2.conv2.bias", [512], .float32, [], false⟩,
  ⟨key% "vae.decoder.up_blocks.0.resnets.2.conv2.weight", [512, 512, 3, 3], .float32, [], false⟩,
  ⟨key% "vae.decoder.up_blocks.0.resnets.2.norm1.bias", [512], .float32, [], false⟩,
  ⟨key% "vae.decoder.up_blocks.0.resnets.2.norm1.weight", [512], .float32, [], false⟩,
  ⟨key% "vae.decoder.up_blocks.0.resnets.2.norm2.bias", [512], .float32, [], false⟩,
  ⟨key% "vae.decoder.up_blocks.0.resnets.2.norm2.weight", [512], .float32, [], false⟩,
  ⟨key% "vae.decoder.up_blocks.0.upsamplers.0.conv.bias", [512], .float32, [], false⟩,
  ⟨key% "vae.decoder.up_blocks.0.upsamplers.0.conv.weight", [512, 512, 3, 3], .float32, [], false⟩,
  ⟨key% "vae.decoder.up_blocks.1.resnets.0.conv1.bias", [512], .float32, [], false⟩,
  ⟨key% "vae.decoder.up_blocks.1.resnets.0.conv1.weight", [512, 512, 3, 3], .float32, [], false⟩,
  ⟨key% "vae.decoder.up_blocks.1.resnets.0.conv2.bias", [512], .float32, [], false⟩,
  ⟨key% "vae.decoder.up_blocks.1.resnets.0.conv2.weight", [512, 512, 3, 3], .float32, [], false⟩,
  ⟨key% "vae.decoder.up_blocks.1.resnets.0.norm1.bias", [512], .float32, [], false⟩,
  ⟨key% "vae.decoder.up_blocks.1.resnets.0.norm1.weight", [512], .float32, [], false⟩,
  ⟨key% "vae.decoder.up_blocks.1.resnets.0.norm2.bias", [512], .float32, [], false⟩,
  ⟨key% "vae.decoder.up_blocks.1.resnets.0.norm2.weight", [512], .float32, [], false⟩,
  ⟨key% "vae.decoder.up_blocks.1.resnets.1.conv1.bias", [512], .float32, [], false⟩,
  ⟨key% "vae.decoder.up_blocks.1.resnets.1.conv1.weight", [512, 512, 3, 3], .float32, [], false⟩,
  ⟨key% "vae.decoder.up_blocks.1.resnets.1.conv2.bias", [512], .float32, [], false⟩,
  ⟨key% "vae.decoder.up_blocks.1.resnets.1.conv2.weight", [512, 512, 3, 3], .float32, [], false⟩,
  ⟨key% "vae.decoder.up_blocks.1.resnets.1.norm1.bias", [512], .float32, [], false⟩,
  ⟨key% "vae.decoder.up_blocks.1.resnets.1.norm1.weight", [512], .float32, [], false⟩,
  ⟨key% "vae.decoder.up_blocks.1.resnets.1.norm2.bias", [512], .float32, [], false⟩,
  ⟨key% "vae.decoder.up_blocks.1.resnets.1.norm2.weight", [512], .float32, [], false⟩,
  ⟨key% "vae.decoder.up_blocks.1.resnets.2.conv1.bias", [512], .float32, [], false⟩,
  ⟨key% "vae.decoder.up_blocks.1.resnets.2.conv1.weight", [512, 512, 3, 3], .float32, [], false⟩,
  ⟨key% "vae.decoder.up_blocks.1.resnets.2.conv2.bias", [512], .float32, [], false⟩,
  ⟨key% "vae.decoder.up_blocks.1.resnets.2.conv2.weight", [512, 512, 3, 3], .float32, [], false⟩,
  ⟨key% "vae.decoder.up_blocks.1.resnets.2.norm1.bias", [512], .float32, [], false⟩,
  ⟨key% "vae.decoder.up_blocks.1.resnets.2.norm1.weight", [512], .float32, [], false⟩,
  ⟨key% "vae.decoder.up_blocks.1.resnets.2.norm2.bias", [512], .float32, [], false⟩,
  ⟨key% "vae.decoder.up_blocks.1.resnets.2.norm2.weight", [512], .float32, [], false⟩,
  ⟨key% "vae.decoder.up_blocks.1.upsamplers.0.conv.bias", [512], .float32, [], false⟩,
  ⟨key% "vae.decoder.up_blocks.1.upsamplers.0.conv.weight", [512, 512, 3, 3], .float32, [], false⟩,
  ⟨key% "vae.decoder.up_blocks.2.resnets.0.conv1.bias", [256], .float32, [], false⟩,
  ⟨key% "vae.decoder.up_blocks.2.resnets.0.conv1.weight", [256, 512, 3, 3], .float32, [], false⟩,
  ⟨key% "vae.decoder.up_blocks.2.resnets.0.conv2.bias", [256], .float32, [], false⟩,
  ⟨key% "vae.decoder.up_blocks.2.resnets.0.conv2.weight", [256, 256, 3, 3], .float32, [], false⟩,
  ⟨key% "vae.decoder.up_blocks.2.resnets.0.conv_shortcut.bias", [256], .float32, [], false⟩,
  ⟨key% "vae.decoder.up_blocks.2.resnets.0.conv_shortcut.weight", [256, 512, 1, 1], .float32, [], false⟩,
  ⟨key% "vae.decoder.up_blocks.2.resnets.0.norm1.bias", [512], .float32, [], false⟩,
  ⟨key% "vae.decoder.up_blocks.2.resnets.0.norm1.weight", [512], .float32, [], false⟩,
  ⟨key% "vae.decoder.up_blocks.2.resnets.0.norm2.bias", [256], .float32, [], false⟩,
  ⟨key% "vae.decoder.up_blocks.2.resnets.0.norm2.weight", [256], .float32, [], false⟩,
  ⟨key% "vae.decoder.up_blocks.2.resnets.1.conv1.bias", [256], .float32, [], false⟩,
  ⟨key% "vae.decoder.up_blocks.2.resnets.1.conv1.weight", [256, 256, 3, 3], .float32, [], false⟩,
  ⟨key% "vae.decoder.up_blocks.2.resnets.1.conv2.bias", [256], .float32, [], false⟩,
  ⟨key% "vae.decoder.up_blocks.2.resnets.1.conv2.weight", [256, 256, 3, 3], .float32, [], false⟩,
  ⟨key% "vae.decoder.up_blocks.2.resnets.1.norm1.bias", [256], .float32, [], false⟩,
  ⟨key% "vae.decoder.up_blocks.2.resnets.1.norm1.weight", [256], .float32, [], false⟩]
noncomputable def vae1 : List Entry := [
  ⟨key% "vae.decoder.up_blocks.2.resnets.1.norm2.bias", [256], .float32, [], false⟩,
  ⟨key% "vae.decoder.up_blocks.2.resnets.1.norm2.weight", [256], .float32, [], false⟩,
  ⟨key% "vae.decoder.up_blocks.2.resnets.2.conv1.bias", [256], .float32, [], false⟩,
  ⟨key% "vae.decoder.up_blocks.2.resnets.2.conv1.weight", [256, 256, 3, 3], .float32, [], false⟩,
  ⟨key% "vae.decoder.up_blocks.2.resnets.2.conv2.bias", [256], .float32, [], false⟩,
  ⟨key% "vae.decoder.up_blocks.2.resnets.2.conv2.weight", [256, 256, 3, 3], .float32, [], false⟩,
  ⟨key% "vae.decoder.up_blocks.2.resnets.2.norm1.bias", [256], .float32, [], false⟩,
  ⟨key% "vae.decoder.up_blocks.2.resnets.2.norm1.weight", [256], .float32, [], false⟩,
  ⟨key% "vae.decoder.up_blocks.2.resnets.2.norm2.bias", [256], .float32, [], false⟩,
  ⟨key% "vae.decoder.up_blocks.2.resnets.2.norm2.weight", [256], .float32, [], false⟩,
  ⟨key% "vae.decoder.up_blocks.2.upsamplers.0.conv.bias", [256], .float32, [], false⟩,
  ⟨key% "vae.decoder.up_blocks.2.upsamplers.0.conv.weight", [256, 256, 3, 3], .float32, [], false⟩,
  ⟨key% "vae.decoder.up_blocks.3.resnets.0.conv1.bias", [128], .float32, [], false⟩,
  ⟨key% "vae.decoder.up_blocks.3.resnets.0.conv1.weight", [128, 256, 3, 3], .float32, [], false⟩,
  ⟨key% "vae.decoder.up_blocks.3.resnets.0.conv2.bias", [128], .float32, [], false⟩,
  ⟨key% "vae.decoder.up_blocks.3.resnets.0.conv2.weight", [128, 128, 3, 3], .float32, [], false⟩,
  ⟨key% "vae.decoder.up_blocks.3.resnets.0.conv_shortcut.bias", [128], .float32, [], false⟩,
  ⟨key% "vae.decoder.up_blocks.3.resnets.0.conv_shortcut.weight", [128, 256, 1, 1], .float32, [], false⟩,
  ⟨key% "vae.decoder.up_blocks.3.resnets.0.norm1.bias", [256], .float32, [], false⟩,
  ⟨key% "vae.decoder.up_blocks.3.resnets.0.norm1.weight", [256], .float32, [], false⟩,
  ⟨key% "vae.decoder.up_blocks.3.resnets.0.norm2.bias", [128], .float32, [], false⟩,
  ⟨key% "vae.decoder.up_blocks.3.resnets.0.norm2.weight", [128], .float32, [], false⟩,
  ⟨key% "vae.decoder.up_blocks.3.resnets.1.conv1.bias", [128], .float32, [], false⟩,
  ⟨key% "vae.decoder.up_blocks.3.resnets.1.conv1.weight", [128, 128, 3, 3], .float32, [], false⟩,
  ⟨key% "vae.decoder.up_blocks.3.resnets.1.conv2.bias", [128], .float32, [], false⟩,
  ⟨key% "vae.decoder.up_blocks.3.resnets.1.conv2.weight", [128, 128, 3, 3], .float32, [], false⟩,
  ⟨key% "vae.decoder.up_blocks.3.resnets.1.norm1.bias", [128], .float32, [], false⟩,
  ⟨key% "vae.decoder.up_blocks.3.resnets.1.norm1.weight", [128], .float32, [], false⟩,
  ⟨key% "vae.decoder.up_blocks.3.resnets.1.norm2.bias", [128], .float32, [], false⟩,
  ⟨key% "vae.decoder.up_blocks.3.resnets.1.norm2.weight", [128], .float32, [], false⟩,
  ⟨key% "vae.decoder.up_blocks.3.resnets.2.conv1.bias", [128], .float32, [], false⟩,
  ⟨key% "vae.decoder.up_blocks.3.resnets.2.conv1.weight", [128, 128, 3, 3], .float32, [], false⟩,
  ⟨key% "vae.decoder.up_blocks.3.resnets.2.conv2.bias", [128], .float32, [], false⟩,
  ⟨key% "vae.decoder.up_blocks.3.resnets.2.conv2.weight", [128, 128, 3, 3], .float32, [], false⟩,
  ⟨key% "vae.decoder.up_blocks.3.resnets.2.norm1.bias", [128], .float32, [], false⟩,
  ⟨key% "vae.decoder.up_blocks.3.resnets.2.norm1.weight", [128], .float32, [], false⟩,
  ⟨key% "vae.decoder.up_blocks.3.resnets.2.norm2.bias", [128], .float32, [], false⟩,
  ⟨key% "vae.decoder.up_blocks.3.resnets.2.norm2.weight", [128], .float32, [], false⟩,
  ⟨key% "vae.encoder.conv_in.bias", [128], .float32, [], false⟩,
  ⟨key% "vae.encoder.conv_in.weight", [128, 3, 3, 3], .float32, [], false⟩,
  ⟨key% "vae.encoder.conv_norm_out.bias", [512], .float32, [], false⟩,
  ⟨key% "vae.encoder.conv_norm_out.weight", [512], .float32, [], false⟩,
  ⟨key% "vae.encoder.conv_out.bias", [8], .float32, [], false⟩,
  ⟨key% "vae.encoder.conv_out.weight", [8, 512, 3, 3], .float32, [], false⟩,
  ⟨key% "vae.encoder.down_blocks.0.downsamplers.0.conv.bias", [128], .float32, [], false⟩,
  ⟨key% "vae.encoder.down_blocks.0.downsamplers.0.conv.weight", [128, 128, 3, 3], .float32, [], false⟩,
  ⟨key% "vae.encoder.down_blocks.0.resnets.0.conv1.bias", [128], .float32, [], false⟩,
  ⟨key% "vae.encoder.down_blocks.0.resnets.0.conv1.weight", [128, 128, 3, 3], .float32, [], false⟩,
  ⟨key% "vae.encoder.down_blocks.0.resnets.0.conv2.bias", [128], .float32, [], false⟩,
  ⟨key% "vae.encoder.down_blocks.0.resnets.0.conv2.weight", [128, 128, 3, 3], .float32, [], false⟩,
  ⟨key% "vae.encoder.down_blocks.0.resnets.0.norm1.bias", [128], .float32, [], false⟩,
  ⟨key% "vae.encoder.down_blocks.0.resnets.0.norm1.weight", [128], .float32, [], false⟩,
  ⟨key% "vae.encoder.down_blocks.0.resnets.0.norm2.bias", [128], .float32, [], false⟩,
  ⟨key% "vae.encoder.down_blocks.0.resnets.0.norm2.weight", [128], .float32, [], false⟩,
  ⟨key% "vae.encoder.down_blocks.0.resnets.1.conv1.bias", [128], .float32, [], false⟩,
  ⟨key% "vae.encoder.down_blocks.0.resnets.1.conv1.weight", [128, 128, 3, 3], .float32, [], false⟩,
  ⟨key% "vae.encoder.down_blocks.0.resnets.1.conv2.bias", [128], .float32, [], false⟩,
  ⟨key% "vae.encoder.down_blocks.0.resnets.1.conv2.weight", [128, 128, 3, 3], .float32, [], false⟩,
  ⟨key% "vae.encoder.down_blocks.0.resnets.1.norm1.bias", [128], .float32, [], false⟩,
  ⟨key% "vae.encoder.down_blocks.0.resnets.1.norm1.weight", [128], .float32, [], false⟩,
  ⟨key% "vae.encoder.down_blocks.0.resnets.1.norm2.bias", [128], .float32, [], false⟩,
  ⟨key% "vae.encoder.down_blocks.0.resnets.1.norm2.weight", [128], .float32, [], false⟩,
  ⟨key% "vae.encoder.down_blocks.1.downsamplers.0.conv.bias", [256], .float32, [], false⟩,
  ⟨key% "vae.encoder.down_blocks.1.downsamplers.0.conv.weight", [256, 256, 3, 3], .float32, [], false⟩,
  ⟨key% "vae.encoder.down_blocks.1.resnets.0.conv1.bias", [256], .float32, [], false⟩,
  ⟨key% "vae.encoder.down_blocks.1.resnets.0.conv1.weight", [256, 128, 3, 3], .float32, [], false⟩,
  ⟨key% "vae.encoder.down_blocks.1.resnets.0.conv2.bias", [256], .float32, [], false⟩,
  ⟨key% "vae.encoder.down_blocks.1.resnets.0.conv2.weight", [256, 256, 3, 3], .float32, [], false⟩,
  ⟨key% "vae.encoder.down_blocks.1.resnets.0.conv_shortcut.bias", [256], .float32, [], false⟩,
  ⟨key% "vae.encoder.down_blocks.1.resnets.0.conv_shortcut.weight", [256, 128, 1, 1], .float32, [], false⟩,
  ⟨key% "vae.encoder.down_blocks.1.resnets.0.norm1.bias", [128], .float32, [], false⟩,
  ⟨key% "vae.encoder.down_blocks.1.resnets.0.norm1.weight", [128], .float32, [], false⟩,
  ⟨key% "vae.encoder.down_blocks.1.resnets.0.norm2.bias", [256], .float32, [], false⟩,
  ⟨key% "vae.encoder.down_blocks.1.resnets.0.norm2.weight", [256], .float32, [], false⟩,
  ⟨key% "vae.encoder.down_blocks.1.resnets.1.conv1.bias", [256], .float32, [], false⟩,
  ⟨key% "vae.encoder.down_blocks.1.resnets.1.conv1.weight", [256, 256, 3, 3], .float32, [], false⟩,
  ⟨key% "vae.encoder.down_blocks.1.resnets.1.conv2.bias", [256], .float32, [], false⟩,
  ⟨key% "vae.encoder.down_blocks.1.resnets.1.conv2.weight", [256, 256, 3, 3], .float32, [], false⟩,
  ⟨key% "vae.encoder.down_blocks.1.resnets.1.norm1.bias", [256], .float32, [], false⟩,
  ⟨key% "vae.encoder.down_blocks.1.resnets.1.norm1.weight", [256], .float32, [], false⟩,
  ⟨key% "vae.encoder.down_blocks.1.resnets.1.norm2.bias", [256], .float32, [], false⟩,
  ⟨key% "vae.encoder.down_blocks.1.resnets.1.norm2.weight", [256], .float32, [], false⟩,
  ⟨key% "vae.encoder.down_blocks.2.downsamplers.0.conv.bias", [512], .float32, [], false⟩,
  ⟨key% "vae.encoder.down_blocks.2.downsamplers.0.conv.weight", [512, 512, 3, 3], .float32, [], false⟩,
  ⟨key% "vae.encoder.down_blocks.2.resnets.0.conv1.bias", [512], .float32, [], false⟩,
  ⟨key% "vae.encoder.down_blocks.2.resnets.0.conv1.weight", [512, 256, 3, 3], .float32, [], false⟩,
  ⟨key% "vae.encoder.down_blocks.2.resnets.0.conv2.bias", [512], .float32, [], false⟩,
  ⟨key% "vae.encoder.down_blocks.2.resnets.0.conv2.weight", [512, 512, 3, 3], .float32, [], false⟩,
  ⟨key% "vae.encoder.down_blocks.2.resnets.0.conv_shortcut.bias", [512], .float32, [], false⟩,
  ⟨key% "vae.encoder.down_blocks.2.resnets.0.conv_shortcut.weight", [512, 256, 1, 1], .float32, [], false⟩,
  ⟨key% "vae.encoder.down_blocks.2.resnets.0.norm1.bias", [256], .float32, [], false⟩,
  ⟨key% "vae.encoder.down_blocks.2.resnets.0.norm1.weight", [256], .float32, [], false⟩,
  ⟨key% "vae.encoder.down_blocks.2.resnets.0.norm2.bias", [512], .float32, [], false⟩,
  ⟨key% "vae.encoder.down_blocks.2.resnets.0.norm2.weight", [512], .float32, [], false⟩,
  ⟨key% "vae.encoder.down_blocks.2.resnets.1.conv1.bias", [512], .float32, [], false⟩,
  ⟨key% "vae.encoder.down_blocks.2.resnets.1.conv1.weight", [512, 512, 3, 3], .float32, [], false⟩,
  ⟨key% "vae.encoder.down_blocks.2.resnets.1.conv2.bias", [512], .float32, [], false⟩,
  ⟨key% "vae.encoder.down_blocks.2.resnets.1.conv2.weight", [512, 512, 3, 3], .float32, [], false⟩,
  ⟨key% "vae.encoder.down_blocks.2.resnets.1.norm1.bias", [512], .float32, [], false⟩,
  ⟨key% "vae.encoder.down_blocks.2.resnets.1.norm1.weight", [512], .float32, [], false⟩]
noncomputable def vae2 : List Entry := [
  ⟨key% "vae.encoder.down_blocks.2.resnets.1.norm2.bias", [512], .float32, [], false⟩,
  ⟨key% "vae.encoder.down_blocks.2.resnets.1.norm2.weight", [512], .float32, [], false⟩,
  ⟨key% "vae.encoder.down_blocks.3.resnets.0.conv1.bias", [512], .float32, [], false⟩,
  ⟨key% "vae.encoder.down_blocks.3.resnets.0.conv1.weight", [512, 512, 3, 3], .float32, [], false⟩,
  ⟨key% "vae.encoder.down_blocks.3.resnets.0.conv2.bias", [512], .float32, [], false⟩,
  ⟨key% "vae.encoder.down_blocks.3.resnets.0.conv2.weight", [512, 512, 3, 3], .float32, [], false⟩,
  ⟨key% "vae.encoder.down_blocks.3.resnets.0.norm1.bias", [512], .float32, [], false⟩,
  ⟨key% "vae.encoder.down_blocks.3.resnets.0.norm1.weight", [512], .float32, [], false⟩,
  ⟨key% "vae.encoder.down_blocks.3.resnets.0.norm2.bias", [512], .float32, [], false⟩,
  ⟨key% "vae.encoder.down_blocks.3.resnets.0.norm2.weight", [512], .float32, [], false⟩,
  ⟨key% "vae.encoder.down_blocks.3.resnets.1.conv1.bias", [512], .float32, [], false⟩,
  ⟨key% "vae.encoder.down_blocks.3.resnets.1.conv1.weight", [512, 512, 3, 3], .float32, [], false⟩,
  ⟨key% "vae.encoder.down_blocks.3.resnets.1.conv2.bias", [512], .float32, [], false⟩,
  ⟨key% "vae.encoder.down_blocks.3.resnets.1.conv2.weight", [512, 512, 3, 3], .float32, [], false⟩,
  ⟨key% "vae.encoder.down_blocks.3.resnets.1.norm1.bias", [512], .float32, [], false⟩,
  ⟨key% "vae.encoder.down_blocks.3.resnets.1.norm1.weight", [512], .float32, [], false⟩,
  ⟨key% "vae.encoder.down_blocks.3.resnets.1.norm2.bias", [512], .float32, [], false⟩,
  ⟨key% "vae.encoder.down_blocks.3.resnets.1.norm2.weight", [512], .float32, [], false⟩,
  ⟨key% "vae.encoder.mid_block.attentions.0.group_norm.bias", [512], .float32, [], false⟩,
  ⟨key% "vae.encoder.mid_block.attentions.0.group_norm.weight", [512], .float32, [], false⟩,
  ⟨key% "vae.encoder.mid_block.attentions.0.to_k.bias", [512], .float32, [], false⟩,
  ⟨key% "vae.encoder.mid_block.attentions.0.to_k.weight", [512, 512], .float32, [], false⟩,
  ⟨key% "vae.encoder.mid_block.attentions.0.to_out.0.bias", [512], .float32, [], false⟩,
  ⟨key% "vae.encoder.mid_block.attentions.0.to_out.0.weight", [512, 512], .float32, [], false⟩,
  ⟨key% "vae.encoder.mid_block.attentions.0.to_q.bias", [512], .float32, [], false⟩,
  ⟨key% "vae.encoder.mid_block.attentions.0.to_q.weight", [512, 512], .float32, [], false⟩,
  ⟨key% "vae.encoder.mid_block.attentions.0.to_v.bias", [512], .float32, [], false⟩,
  ⟨key% "vae.encoder.mid_block.attentions.0.to_v.weight", [512, 512], .float32, [], false⟩,
  ⟨key% "vae.encoder.mid_block.resnets.0.conv1.bias", [512], .float32, [], false⟩,
  ⟨key% "vae.encoder.mid_block.resnets.0.conv1.weight", [512, 512, 3, 3], .float32, [], false⟩,
  ⟨key% "vae.encoder.mid_block.resnets.0.conv2.bias", [512], .float32, [], false⟩,
  ⟨key% "vae.encoder.mid_block.resnets.0.conv2.weight", [512, 512, 3, 3], .float32, [], false⟩,
  ⟨key% "vae.encoder.mid_block.resnets.0.norm1.bias", [512], .float32, [], false⟩,
  ⟨key% "vae.encoder.mid_block.resnets.0.norm1.weight", [512], .float32, [], false⟩,
  ⟨key% "vae.encoder.mid_block.resnets.0.norm2.bias", [512], .float32, [], false⟩,
  ⟨key% "vae.encoder.mid_block.resnets.0.norm2.weight", [512], .float32, [], false⟩,
  ⟨key% "vae.encoder.mid_block.resnets.1.conv1.bias", [512], .float32, [], false⟩,
  ⟨key% "vae.encoder.mid_block.resnets.1.conv1.weight", [512, 512, 3, 3], .float32, [], false⟩,
  ⟨key% "vae.encoder.mid_block.resnets.1.conv2.bias", [512], .float32, [], false⟩,
  ⟨key% "vae.encoder.mid_block.resnets.1.conv2.weight", [512, 512, 3, 3], .float32, [], false⟩,
  ⟨key% "vae.encoder.mid_block.resnets.1.norm1.bias", [512], .float32, [], false⟩,
  ⟨key% "vae.encoder.mid_block.resnets.1.norm1.weight", [512], .float32, [], false⟩,
  ⟨key% "vae.encoder.mid_block.resnets.1.norm2.bias", [512], .float32, [], false⟩,
  ⟨key% "vae.encoder.mid_block.resnets.1.norm2.weight", [512], .float32, [], false⟩,
  ⟨key% "vae.post_quant_conv.bias", [4], .float32, [], false⟩,
  ⟨key% "vae.post_quant_conv.weight", [4, 4, 1, 1], .float32, [], false⟩,
  ⟨key% "vae.quant_conv.bias", [8], .float32, [], false⟩,
  ⟨key% "vae.quant_conv.weight", [8, 8, 1, 1], .float32, [], false⟩]
/-- Component `vae`: 248 keys -/
noncomputable def vae : List Entry := vae0 ++ vae1 ++ vae2

/-- The config as written in the file: its identifier and its components -/
noncomputable def table : Table := ⟨key% "sd1-kohya", [(key% "clip_l", clip_l), (key% "diffuser", diffuser), (key% "vae", vae)]⟩

end Verif.Data.Sd1Kohya
