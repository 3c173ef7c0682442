import Verif.Data.Entry

/-!
# Keys of `sdxl-diffusers_unet_only.yaml`

Generated by tools/gen_tables.py from sd_mecha/extensions/builtin/model_configs/sdxl-diffusers_unet_only.yaml.
-/
namespace Verif.Data.SdxlDiffusersUnetOnly


noncomputable def diffuser0 : List Entry := [
  ⟨key% "add_embedding.linear_1.bias", [1280], .float16, [], false⟩,
  ⟨key% "add_embedding.linear_1.weight", [1280, 2816], .float16, [], false⟩,
  ⟨key% "add_embedding.linear_2.bias", [1280], .float16, [], false⟩,
  ⟨key% "add_embedding.linear_2.weight", [1280, 1280], .float16, [], false⟩,
  ⟨key% "conv_in.bias", [320], .float16, [], false⟩,
  ⟨key% "conv_in.weight", [320, 4, 3, 3], .float16, [], false⟩,
  ⟨key% "conv_norm_out.bias", [320], .float16, [], false⟩,
  ⟨key% "conv_norm_out.weight", [320], .float16, [], false⟩,
  ⟨key% "conv_out.bias", [4], .float16, [], false⟩,
  ⟨key% "conv_out.weight", [4, 320, 3, 3], .float16, [], false⟩,
  ⟨key% "down_blocks.0.downsamplers.0.conv.bias", [320], .float16, [], false⟩,
  ⟨key% "down_blocks.0.downsamplers.0.conv.weight", [320, 320, 3, 3], .float16, [], false⟩,
  ⟨key% "down_blocks.0.resnets.0.conv1.bias", [320], .float16, [], false⟩,
  ⟨key% "down_blocks.0.resnets.0.conv1.weight", [320, 320, 3, 3], .float16, [], false⟩,
  ⟨key% "down_blocks.0.resnets.0.conv2.bias", [320], .float16, [], false⟩,
  ⟨key% "down_blocks.0.resnets.0.conv2.weight", [320, 320, 3, 3], .float16, [], false⟩,
  ⟨key% "down_blocks.0.resnets.0.norm1.bias", [320], .float16, [], false⟩,
  ⟨key% "down_blocks.0.resnets.0.norm1.weight", [320], .float16, [], false⟩,
  ⟨key% "down_blocks.0.resnets.0.norm2.bias", [320], .float16, [], false⟩,
  ⟨key% "down_blocks.0.resnets.0.norm2.weight", [320], .float16, [], false⟩,
  ⟨key% "down_blocks.0.resnets.0.time_emb_proj.bias", [320], .float16, [], false⟩,
  ⟨key% "down_blocks.0.resnets.0.time_emb_proj.weight", [320, 1280], .float16, [], false⟩,
  ⟨key% "down_blocks.0.resnets.1.conv1.bias", [320], .float16, [], false⟩,
  ⟨key% "down_blocks.0.resnets.1.conv1.weight", [320, 320, 3, 3], .float16, [], false⟩,
  ⟨key% "down_blocks.0.resnets.1.conv2.bias", [320], .float16, [], false⟩,
  ⟨key% "down_blocks.0.resnets.1.conv2.weight", [320, 320, 3, 3], .float16, [], false⟩,
  ⟨key% "down_blocks.0.resnets.1.norm1.bias", [320], .float16, [], false⟩,
  ⟨key% "down_blocks.0.resnets.1.norm1.weight", [320], .float16, [], false⟩,
  ⟨key% "down_blocks.0.resnets.1.norm2.bias", [320], .float16, [], false⟩,
  ⟨key% "down_blocks.0.resnets.1.norm2.weight", [320], .float16, [], false⟩,
  ⟨key% "down_blocks.0.resnets.1.time_emb_proj.bias", [320], .float16, [], false⟩,
  ⟨key% "down_blocks.0.resnets.1.time_emb_proj.weight", [320, 1280], .float16, [], false⟩,
  ⟨key% "down_blocks.1.attentions.0.norm.bias", [640], .float16, [], false⟩,
  ⟨key% "down_blocks.1.attentions.0.norm.weight", [640], .float16, [], false⟩,
  ⟨key% "down_blocks.1.attentions.0.proj_in.bias", [640], .float16, [], false⟩,
  ⟨key% "down_blocks.1.attentions.0.proj_in.weight", [640, 640], .float16, [], false⟩,
  ⟨key% "down_blocks.1.attentions.0.proj_out.bias", [640], .float16, [], false⟩,
  ⟨key% "down_blocks.1.attentions.0.proj_out.weight", [640, 640], .float16, [], false⟩,
  ⟨key% "down_blocks.1.attentions.0.transformer_blocks.0.attn1.to_k.weight", [640, 640], .float16, [], false⟩,
  ⟨key% "down_blocks.1.attentions.0.transformer_blocks.0.attn1.to_out.0.bias", [640], .float16, [], false⟩,
  ⟨key% "down_blocks.1.attentions.0.transformer_blocks.0.attn1.to_out.0.weight", [640, 640], .float16, [], false⟩,
  ⟨key% "down_blocks.1.attentions.0.transformer_blocks.0.attn1.to_q.weight", [640, 640], .float16, [], false⟩,
  ⟨key% "down_blocks.1.attentions.0.transformer_blocks.0.attn1.to_v.weight", [640, 640], .float16, [], false⟩,
  ⟨key% "down_blocks.1.attentions.0.transformer_blocks.0.attn2.to_k.weight", [640, 2048], .float16, [], false⟩,
  ⟨key% "down_blocks.1.attentions.0.transformer_blocks.0.attn2.to_out.0.bias", [640], .float16, [], false⟩,
  ⟨key% "down_blocks.1.attentions.0.transformer_blocks.0.attn2.to_out.0.weight", [640, 640], .float16, [], false⟩,
  ⟨key% "down_blocks.1.attentions.0.transformer_blocks.0.attn2.to_q.weight", [640, 640], .float16, [], false⟩,
  ⟨key% "down_blocks.1.attentions.0.transformer_blocks.0.attn2.to_v.weight", [640, 2048], .float16, [], false⟩,
  ⟨key% "down_blocks.1.attentions.0.transformer_blocks.0.ff.net.0.proj.bias", [5120], .float16, [], false⟩,
  ⟨key% "down_blocks.1.attentions.0.transformer_blocks.0.ff.net.0.proj.weight", [5120, 640], .float16, [], false⟩,
  ⟨key% "down_blocks.1.attentions.0.transformer_blocks.0.ff.net.2.bias", [640], .float16, [], false⟩,
  ⟨key% "down_blocks.1.attentions.0.transformer_blocks.0.ff.net.2.weight", [640, 2560], .float16, [], false⟩,
  ⟨key% "down_blocks.1.attentions.0.transformer_blocks.0.norm1.bias", [640], .float16, [], false⟩,
  ⟨key% "down_blocks.1.attentions.0.transformer_blocks.0.norm1.weight", [640], .float16, [], false⟩,
  ⟨key% "down_blocks.1.attentions.0.transformer_blocks.0.norm2.bias", [640], .float16, [], false⟩,
  ⟨key% "down_blocks.1.attentions.0.transformer_blocks.0.norm2.weight", [640], .float16, [], false⟩,
  ⟨key% "down_blocks.1.attentions.0.transformer_blocks.0.norm3.bias", [640], .float16, [], false⟩,
  ⟨key% "down_blocks.1.attentions.0.transformer_blocks.0.norm3.weight", [640], .float16, [], false⟩,
  ⟨key% "down_blocks.1.attentions.0.transformer_blocks.1.attn1.to_k.weight", [640, 640], .float16, [], false⟩,
  ⟨key% "down_blocks.1.attentions.0.transformer_blocks.1.attn1.to_out.0.bias", [640], .float16, [], false⟩,
  ⟨key% "down_blocks.1.attentions.0.transformer_blocks.1.attn1.to_out.0.weight", [640, 640], .float16, [], false⟩,
  ⟨key% "down_blocks.1.attentions.0.transformer_blocks.1.attn1.to_q.weight", [640, 640], .float16, [], false⟩,
  ⟨key% "down_blocks.1.attentions.0.transformer_blocks.1.attn1.to_v.weight", [640, 640], .float16, [], false⟩,
  ⟨key% "down_blocks.1.attentions.0.transformer_blocks.1.attn2.to_k.weight", [640, 2048], .float16, [], false⟩,
  ⟨key% "down_blocks.1.attentions.0.transformer_blocks.1.attn2.to_out.0.bias", [640], .float16, [], false⟩,
  ⟨key% "down_blocks.1.attentions.0.transformer_blocks.1.attn2.to_out.0.weight", [640, 640], .float16, [], false⟩,
  ⟨key% "down_blocks.1.attentions.0.transformer_blocks.1.attn2.to_q.weight", [640, 640], .float16, [], false⟩,
  ⟨key% "down_blocks.1.attentions.0.transformer_blocks.1.attn2.to_v.weight", [640, 2048], .float16, [], false⟩,
  ⟨key% "down_blocks.1.attentions.0.transformer_blocks.1.ff.net.0.proj.bias", [5120], .float16, [], false⟩,
  ⟨key% "down_blocks.1.attentions.0.transformer_blocks.1.ff.net.0.proj.weight", [5120, 640], .float16, [], false⟩,
  ⟨key% "down_blocks.1.attentions.0.transformer_blocks.1.ff.net.2.bias", [640], .float16, [], false⟩,
  ⟨key% "down_blocks.1.attentions.0.transformer_blocks.1.ff.net.2.weight", [640, 2560], .float16, [], false⟩,
  ⟨key% "down_blocks.1.attentions.0.transformer_blocks.1.norm1.bias", [640], .float16, [], false⟩,
  ⟨key% "down_blocks.1.attentions.0.transformer_blocks.1.norm1.weight", [640], .float16, [], false⟩,
  ⟨key% "down_blocks.1.attentions.0.transformer_blocks.1.norm2.bias", [640], .float16, [], false⟩,
  ⟨key% "down_blocks.1.attentions.0.transformer_blocks.1.norm2.weight", [640], .float16, [], false⟩,
  ⟨key% "down_blocks.1.attentions.0.transformer_blocks.1.norm3.bias", [640], .float16, [], false⟩,
  ⟨key% "down_blocks.1.attentions.0.transformer_blocks.1.norm3.weight", [640], .float16, [], false⟩,
  ⟨key% "down_blocks.1.attentions.1.norm.bias", [640], .float16, [], false⟩,
  ⟨key% "down_blocks.1.attentions.1.norm.weight", [640], .float16, [], false⟩,
  ⟨key% "down_blocks.1.attentions.1.proj_in.bias", [640], .float16, [], false⟩,
  ⟨key% "down_blocks.1.attentions.1.proj_in.weight", [640, 640], .float16, [], false⟩,
  ⟨key% "down_blocks.1.attentions.1.proj_out.bias", [640], .float16, [], false⟩,
  ⟨key% "down_blocks.1.attentions.1.proj_out.weight", [640, 640], .float16, [], false⟩,
  ⟨key% "down_blocks.1.attentions.1.transformer_blocks.0.attn1.to_k.weight", [640, 640], .float16, [], false⟩,
  ⟨key% "down_blocks.1.attentions.1.transformer_blocks.0.attn1.to_out.0.bias", [640], .float16, [], false⟩,
  ⟨key% "down_blocks.1.attentions.1.transformer_blocks.0.attn1.to_out.0.weight", [640, 640], .float16, [], false⟩,
  ⟨key% "down_blocks.1.attentions.1.transformer_blocks.0.attn1.to_q.weight", [640, 640], .float16, [], false⟩,
  ⟨key% "down_blocks.1.attentions.1.transformer_blocks.0.attn1.to_v.weight", [640, 640], .float16, [], false⟩,
  ⟨key% "down_blocks.1.attentions.1.transformer_blocks.0.attn2.to_k.weight", [640, 2048], .float16, [], false⟩,
  ⟨key% "down_blocks.1.attentions.1.transformer_blocks.0.attn2.to_out.0.bias", [640], .float16, [], false⟩,
  ⟨key% "down_blocks.1.attentions.1.transformer_blocks.0.attn2.to_out.0.weight", [640, 640], .float16, [], false⟩,
  ⟨key% "down_blocks.1.attentions.1.transformer_blocks.0.attn2.to_q.weight", [640, 640], .float16, [], false⟩,
  ⟨key% "down_blocks.1.attentions.1.transformer_blocks.0.attn2.to_v.weight", [640, 2048], .float16, [], false⟩,
  ⟨key% "down_blocks.1.attentions.1.transformer_blocks.0.ff.net.0.proj.bias", [5120], .float16, [], false⟩,
  ⟨key% "down_blocks.1.attentions.1.transformer_blocks.0.ff.net.0.proj.weight", [5120, 640], .float16, [], false⟩,
  ⟨key% "down_blocks.1.attentions.1.transformer_blocks.0.ff.net.2.bias", [640], .float16, [], false⟩,
  ⟨key% "down_blocks.1.attentions.1.transformer_blocks.0.ff.net.2.weight", [640, 2560], .float16, [], false⟩,
  ⟨key% "down_blocks.1.attentions.1.transformer_blocks.0.norm1.bias", [640], .float16, [], false⟩,
  ⟨key% "down_blocks.1.attentions.1.transformer_blocks.0.norm1.weight", [640], .float16, [], false⟩]
noncomputable def diffuser1 : List Entry := [
  ⟨key% "down_blocks.1.attentions.1.transformer_blocks.0.norm2.bias", [640], .float16, [], false⟩,
  ⟨key% "down_blocks.1.attentions.1.transformer_blocks.0.norm2.weight", [640], .float16, [], false⟩,
  ⟨key% "down_blocks.1.attentions.1.transformer_blocks.0.norm3.bias", [640], .float16, [], false⟩,
  ⟨key% "down_blocks.1.attentions.1.transformer_blocks.0.norm3.weight", [640], .float16, [], false⟩,
  ⟨key% "down_blocks.1.attentions.1.transformer_blocks.1.attn1.to_k.weight", [640, 640], .float16, [], false⟩,
  ⟨key% "down_blocks.1.attentions.1.transformer_blocks.1.attn1.to_out.0.bias", [640], .float16, [], false⟩,
  ⟨key% "down_blocks.1.attentions.1.transformer_blocks.1.attn1.to_out.0.weight", [640, 640], .float16, [], false⟩,
  ⟨key% "down_blocks.1.attentions.1.transformer_blocks.1.attn1.to_q.weight", [640, 640], .float16, [], false⟩,
  ⟨key% "down_blocks.1.attentions.1.transformer_blocks.1.attn1.to_v.weight", [640, 640], .float16, [], false⟩,
  ⟨key% "down_blocks.1.attentions.1.transformer_blocks.1.attn2.to_k.weight", [640, 2048], .float16, [], false⟩,
  ⟨key% "down_blocks.1.attentions.1.transformer_blocks.1.attn2.to_out.0.bias", [640], .float16, [], false⟩,
  ⟨key% "down_blocks.1.attentions.1.transformer_blocks.1.attn2.to_out.0.weight", [640, 640], .float16, [], false⟩,
  ⟨key% "down_blocks.1.attentions.1.transformer_blocks.1.attn2.to_q.weight", [640, 640], .float16, [], false⟩,
  ⟨key% "down_blocks.1.attentions.1.transformer_blocks.1.attn2.to_v.weight", [640, 2048], .float16, [], false⟩,
  ⟨key% "down_blocks.1.attentions.1.transformer_blocks.1.ff.net.0.proj.bias", [5120], .float16, [], false⟩,
  ⟨key% "down_blocks.1.attentions.1.transformer_blocks.1.ff.net.0.proj.weight", [5120, 640], .float16, [], false⟩,
  ⟨key% "down_blocks.1.attentions.1.transformer_blocks.1.ff.net.2.bias", [640], .float16, [], false⟩,
  ⟨key% "down_blocks.1.attentions.1.transformer_blocks.1.ff.net.2.weight", [640, 2560], .float16, [], false⟩,
  ⟨key% "down_blocks.1.attentions.1.transformer_blocks.1.norm1.bias", [640], .float16, [], false⟩,
  ⟨key% "down_blocks.1.attentions.1.transformer_blocks.1.norm1.weight", [640], .float16, [], false⟩,
  ⟨key% "down_blocks.1.attentions.1.transformer_blocks.1.norm2.bias", [640], .float16, [], false⟩,
  ⟨key% "down_blocks.1.attentions.1.transformer_blocks.1.norm2.weight", [640], .float16, [], false⟩,
  ⟨key% "down_blocks.1.attentions.1.transformer_blocks.1.norm3.bias", [640], .float16, [], false⟩,
  ⟨key% "down_blocks.1.attentions.1.transformer_blocks.1.norm3.weight", [640], .float16, [], false⟩,
  ⟨key% "down_blocks.1.downsamplers.0.conv.bias", [640], .float16, [], false⟩,
  ⟨key% "down_blocks.1.downsamplers.0.conv.weight", [640, 640, 3, 3], .float16, [], false⟩,
  ⟨key% "down_blocks.1.resnets.0.conv1.bias", [640], .float16, [], false⟩,
  ⟨key% "down_blocks.1.resnets.0.conv1.weight", [640, 320, 3, 3], .float16, [], false⟩,
  ⟨key% "down_blocks.1.resnets.0.conv2.bias", [640], .float16, [], false⟩,
  ⟨key% "down_blocks.1.resnets.0.conv2.weight", [640, 640, 3, 3], .float16, [], false⟩,
  ⟨key% "down_blocks.1.resnets.0.conv_shortcut.bias", [640], .float16, [], false⟩,
  ⟨key% "down_blocks.1.resnets.0.conv_shortcut.weight", [640, 320, 1, 1], .float16, [], false⟩,
  ⟨key% "down_blocks.1.resnets.0.norm1.bias", [320], .float16, [], false⟩,
  ⟨key% "down_blocks.1.resnets.0.norm1.weight", [320], .float16, [], false⟩,
  ⟨key% "down_blocks.1.resnets.0.norm2.bias", [640], .float16, [], false⟩,
  ⟨key% "down_blocks.1.resnets.0.norm2.weight", [640], .float16, [], false⟩,
  ⟨key% "down_blocks.1.resnets.0.time_emb_proj.bias", [640], .float16, [], false⟩,
  ⟨key% "down_blocks.1.resnets.0.time_emb_proj.weight", [640, 1280], .float16, [], false⟩,
  ⟨key% "down_blocks.1.resnets.1.conv1.bias", [640], .float16, [], false⟩,
  ⟨key% "down_blocks.1.resnets.1.conv1.weight", [640, 640, 3, 3], .float16, [], false⟩,
  ⟨key% "down_blocks.1.resnets.1.conv2.bias", [640], .float16, [], false⟩,
  ⟨key% "down_blocks.1.resnets.1.conv2.weight", [640, 640, 3, 3], .float16, [], false⟩,
  ⟨key% "down_blocks.1.resnets.1.norm1.bias", [640], .float16, [], false⟩,
  ⟨key% "down_blocks.1.resnets.1.norm1.weight", [640], .float16, [], false⟩,
  ⟨key% "down_blocks.1.resnets.1.norm2.bias", [640], .float16, [], false⟩,
  ⟨key% "down_blocks.1.resnets.1.norm2.weight", [640], .float16, [], false⟩,
  ⟨key% "down_blocks.1.resnets.1.time_emb_proj.bias", [640], .float16, [], false⟩,
  ⟨key% "down_blocks.1.resnets.1.time_emb_proj.weight", [640, 1280], .float16, [], false⟩,
  ⟨key% "down_blocks.2.attentions.0.norm.bias", [1280], .float16, [], false⟩,
  ⟨key% "down_blocks.2.attentions.0.norm.weight", [1280], .float16, [], false⟩,
  ⟨key% "down_blocks.2.attentions.0.proj_in.bias", [1280], .float16, [], false⟩,
  ⟨key% "down_blocks.2.attentions.0.proj_in.weight", [1280, 1280], .float16, [], false⟩,
  ⟨key% "down_blocks.2.attentions.0.proj_out.bias", [1280], .float16, [], false⟩,
  ⟨key% "down_blocks.2.attentions.0.proj_out.weight", [1280, 1280], .float16, [], false⟩,
  ⟨key% "down_blocks.2.attentions.0.transformer_blocks.0.attn1.to_k.weight", [1280, 1280], .float16, [], false⟩,
  ⟨key% "down_blocks.2.attentions.0.transformer_blocks.0.attn1.to_out.0.bias", [1280], .float16, [], false⟩,
  ⟨key% "down_blocks.2.attentions.0.transformer_blocks.0.attn1.to_out.0.weight", [1280, 1280], .float16, [], false⟩,
  ⟨key% "down_blocks.2.attentions.0.transformer_blocks.0.attn1.to_q.weight", [1280, 1280], .float16, [], false⟩,
  ⟨key% "down_blocks.2.attentions.0.transformer_blocks.0.attn1.to_v.weight", [1280, 1280], .float16, [], false⟩,
  ⟨key% "down_blocks.2.attentions.0.transformer_blocks.0.attn2.to_k.weight", [1280, 2048], .float16, [], false⟩,
  ⟨key% "down_blocks.2.attentions.0.transformer_blocks.0.attn2.to_out.0.bias", [1280], .float16, [], false⟩,
  ⟨key% "down_blocks.2.attentions.0.transformer_blocks.0.attn2.to_out.0.weight", [1280, 1280], .float16, [], false⟩,
  ⟨key% "down_blocks.2.attentions.0.transformer_blocks.0.attn2.to_q.weight", [1280, 1280], .float16, [], false⟩,
  ⟨key% "down_blocks.2.attentions.0.transformer_blocks.0.attn2.to_v.weight", [1280, 2048], .float16, [], false⟩,
  ⟨key% "down_blocks.2.attentions.0.transformer_blocks.0.ff.net.0.proj.bias", [10240], .float16, [], false⟩,
  ⟨key% "down_blocks.2.attentions.0.transformer_blocks.0.ff.net.0.proj.weight", [10240, 1280], .float16, [], false⟩,
  ⟨key% "down_blocks.2.attentions.0.transformer_blocks.0.ff.net.2.bias", [1280], .float16, [], false⟩,
  ⟨key% "down_blocks.2.attentions.0.transformer_blocks.0.ff.net.2.weight", [1280, 5120], .float16, [], false⟩,
  ⟨key% "down_blocks.2.attentions.0.transformer_blocks.0.norm1.bias", [1280], .float16, [], false⟩,
  ⟨key% "down_blocks.2.attentions.0.transformer_blocks.0.norm1.weight", [1280], .float16, [], false⟩,
  ⟨key% "down_blocks.2.attentions.0.transformer_blocks.0.norm2.bias", [1280], .float16, [], false⟩,
  ⟨key% "down_blocks.2.attentions.0.transformer_blocks.0.norm2.weight", [1280], .float16, [], false⟩,
  ⟨key% "down_blocks.2.attentions.0.transformer_blocks.0.norm3.bias", [1280], .float16, [], false⟩,
  ⟨key% "down_blocks.2.attentions.0.transformer_blocks.0.norm3.weight", [1280], .float16, [], false⟩,
  ⟨key% "down_blocks.2.attentions.0.transformer_blocks.1.attn1.to_k.weight", [1280, 1280], .float16, [], false⟩,
  ⟨key% "down_blocks.2.attentions.0.transformer_blocks.1.attn1.to_out.0.bias", [1280], .float16, [], false⟩,
  ⟨key% "down_blocks.2.attentions.0.transformer_blocks.1.attn1.to_out.0.weight", [1280, 1280], .float16, [], false⟩,
  ⟨key% "down_blocks.2.attentions.0.transformer_blocks.1.attn1.to_q.weight", [1280, 1280], .float16, [], false⟩,
  ⟨key% "down_blocks.2.attentions.0.transformer_blocks.1.attn1.to_v.weight", [1280, 1280], .float16, [], false⟩,
  ⟨key% "down_blocks.2.attentions.0.transformer_blocks.1.attn2.to_k.weight", [1280, 2048], .float16, [], false⟩,
  ⟨key% "down_blocks.2.attentions.0.transformer_blocks.1.attn2.to_out.0.bias", [1280], .float16, [], false⟩,
  ⟨key% "down_blocks.2.attentions.0.transformer_blocks.1.attn2.to_out.0.weight", [1280, 1280], .float16, [], false⟩,
  ⟨key% "down_blocks.2.attentions.0.transformer_blocks.1.attn2.to_q.weight", [1280, 1280], .float16, [], false⟩,
  ⟨key% "down_blocks.2.attentions.0.transformer_blocks.1.attn2.to_v.weight", [1280, 2048], .float16, [], false⟩,
  ⟨key% "down_blocks.2.attentions.0.transformer_blocks.1.ff.net.0.proj.bias", [10240], .float16, [], false⟩,
  ⟨key% "down_blocks.2.attentions.0.transformer_blocks.1.ff.net.0.proj.weight", [10240, 1280], .float16, [], false⟩,
  ⟨key% "down_blocks.2.attentions.0.transformer_blocks.1.ff.net.2.bias", [1280], .float16, [], false⟩,
  ⟨key% "down_blocks.2.attentions.0.transformer_blocks.1.ff.net.2.weight", [1280, 5120], .float16, [], false⟩,
  ⟨key% "down_blocks.2.attentions.0.transformer_blocks.1.norm1.bias", [1280], .float16, [], false⟩,
  ⟨key% "down_blocks.2.attentions.0.transformer_blocks.1.norm1.weight", [1280], .float16, [], false⟩,
  ⟨key% "down_blocks.2.attentions.0.transformer_blocks.1.norm2.bias", [1280], .float16, [], false⟩,
  ⟨key% "down_blocks.2.attentions.0.transformer_blocks.1.norm2.weight", [1280], .float16, [], false⟩,
  ⟨key% "down_blocks.2.attentions.0.transformer_blocks.1.norm3.bias", [1280], .float16, [], false⟩,
  ⟨key% "down_blocks.2.attentions.0.transformer_blocks.1.norm3.weight", [1280], .float16, [], false⟩,
  ⟨key% "down_blocks.2.attentions.0.transformer_blocks.2.attn1.to_k.weight", [1280, 1280], .float16, [], false⟩,
  ⟨key% "down_blocks.2.attentions.0.transformer_blocks.2.attn1.to_out.0.bias", [1280], .float16, [], false⟩,
  ⟨key% "down_blocks.2.attentions.0.transformer_blocks.2.attn1.to_out.0.weight", [1280, 1280], .float16, [], false⟩,
  ⟨key% "down_blocks.2.attentions.0.transformer_blocks.2.attn1.to_q.weight", [1280, 1280], .float16, [], false⟩,
  ⟨key% "down_blocks.2.attentions.0.transformer_blocks.2.attn1.to_v.weight", [1280, 1280], .float16, [], false⟩,
  ⟨key% "down_blocks.2.attentions.0.transformer_blocks.2.attn2.to_k.weight", [1280, 2048], .float16, [], false⟩]
noncomputable def diffuser2 : List Entry := [
  ⟨key% "down_blocks.2.attentions.0.transformer_blocks.2.attn2.to_out.0.bias", [1280], .float16, [], false⟩,
  ⟨key% "down_blocks.2.attentions.0.transformer_blocks.2.attn2.to_out.0.weight", [1280, 1280], .float16, [], false⟩,
  ⟨key% "down_blocks.2.attentions.0.transformer_blocks.2.attn2.to_q.weight", [1280, 1280], .float16, [], false⟩,
  ⟨key% "down_blocks.2.attentions.0.transformer_blocks.2.attn2.to_v.weight", [1280, 2048], .float16, [], false⟩,
  ⟨key% "down_blocks.2.attentions.0.transformer_blocks.2.ff.net.0.proj.bias", [10240], .float16, [], false⟩,
  ⟨key% "down_blocks.2.attentions.0.transformer_blocks.2.ff.net.0.proj.weight", [10240, 1280], .float16, [], false⟩,
  ⟨key% "down_blocks.2.attentions.0.transformer_blocks.2.ff.net.2.bias", [1280], .float16, [], false⟩,
  ⟨key% "down_blocks.2.attentions.0.transformer_blocks.2.ff.net.2.weight", [1280, 5120], .float16, [], false⟩,
  ⟨key% "down_blocks.2.attentions.0.transformer_blocks.2.norm1.bias", [1280], .float16, [], false⟩,
  ⟨key% "down_blocks.2.attentions.0.transformer_blocks.2.norm1.weight", [1280], .float16, [], false⟩,
  ⟨key% "down_blocks.2.attentions.0.transformer_blocks.2.norm2.bias", [1280], .float16, [], false⟩,
  ⟨key% "down_blocks.2.attentions.0.transformer_blocks.2.norm2.weight", [1280], .float16, [], false⟩,
  ⟨key% "down_blocks.2.attentions.0.transformer_blocks.2.norm3.bias", [1280], .float16, [], false⟩,
  ⟨key% "down_blocks.2.attentions.0.transformer_blocks.2.norm3.weight", [1280], .float16, [], false⟩,
  ⟨key% "down_blocks.2.attentions.0.transformer_blocks.3.attn1.to_k.weight", [1280, 1280], .float16, [], false⟩,
  ⟨key% "down_blocks.2.attentions.0.transformer_blocks.3.attn1.to_out.0.bias", [1280], .float16, [], false⟩,
  ⟨key% "down_blocks.2.attentions.0.transformer_blocks.3.attn1.to_out.0.weight", [1280, 1280], .float16, [], false⟩,
  ⟨key% "down_blocks.2.attentions.0.transformer_blocks.3.attn1.to_q.weight", [1280, 1280], .float16, [], false⟩,
  ⟨key% "down_blocks.2.attentions.0.transformer_blocks.3.attn1.to_v.weight", [1280, 1280], .float16, [], false⟩,
  ⟨key% "down_blocks.2.attentions.0.transformer_blocks.3.attn2.to_k.weight", [1280, 2048], .float16, [], false⟩,
  ⟨key% "down_blocks.2.attentions.0.transformer_blocks.3.attn2.to_out.0.bias", [1280], .float16, [], false⟩,
  ⟨key% "down_blocks.2.attentions.0.transformer_blocks.3.attn2.to_out.0.weight", [1280, 1280], .float16, [], false⟩,
  ⟨key% "down_blocks.2.attentions.0.transformer_blocks.3.attn2.to_q.weight", [1280, 1280], .float16, [], false⟩,
  ⟨key% "down_blocks.2.attentions.0.transformer_blocks.3.attn2.to_v.weight", [1280, 2048], .float16, [], false⟩,
  ⟨key% "down_blocks.2.attentions.0.transformer_blocks.3.ff.net.0.proj.bias", [10240], .float16, [], false⟩,
  ⟨key% "down_blocks.2.attentions.0.transformer_blocks.3.ff.net.0.proj.weight", [10240, 1280], .float16, [], false⟩,
  ⟨key% "down_blocks.2.attentions.0.transformer_blocks.3.ff.net.2.bias", [1280], .float16, [], false⟩,
  ⟨key% "down_blocks.2.attentions.0.transformer_blocks.3.ff.net.2.weight", [1280, 5120], .float16, [], false⟩,
  ⟨key% "down_blocks.2.attentions.0.transformer_blocks.3.norm1.bias", [1280], .float16, [], false⟩,
  ⟨key% "down_blocks.2.attentions.0.transformer_blocks.3.norm1.weight", [1280], .float16, [], false⟩,
  ⟨key% "down_blocks.2.attentions.0.transformer_blocks.3.norm2.bias", [1280], .float16, [], false⟩,
  ⟨key% "down_blocks.2.attentions.0.transformer_blocks.3.norm2.weight", [1280], .float16, [], false⟩,
  ⟨key% "down_blocks.2.attentions.0.transformer_blocks.3.norm3.bias", [1280], .float16, [], false⟩,
  ⟨key% "down_blocks.2.attentions.0.transformer_blocks.3.norm3.weight", [1280], .float16, [], false⟩,
  ⟨key% "down_blocks.2.attentions.0.transformer_blocks.4.attn1.to_k.weight", [1280, 1280], .float16, [], false⟩,
  ⟨key% "down_blocks.2.attentions.0.transformer_blocks.4.attn1.to_out.0.bias", [1280], .float16, [], false⟩,
  ⟨key% "down_blocks.2.attentions.0.transformer_blocks.4.attn1.to_out.0.weight", [1280, 1280], .float16, [], false⟩,
  ⟨key% "down_blocks.2.attentions.0.transformer_blocks.4.attn1.to_q.weight", [1280, 1280], .float16, [], false⟩,
  ⟨key% "down_blocks.2.attentions.0.transformer_blocks.4.attn1.to_v.weight", [1280, 1280], .float16, [], false⟩,
  ⟨key% "down_blocks.2.attentions.0.transformer_blocks.4.attn2.to_k.weight", [1280, 2048], .float16, [], false⟩,
  ⟨key% "down_blocks.2.attentions.0.transformer_blocks.4.attn2.to_out.0.bias", [1280], .float16, [], false⟩,
  ⟨key% "down_blocks.2.attentions.0.transformer_blocks.4.attn2.to_out.0.weight", [1280, 1280], .float16, [], false⟩,
  ⟨key% "down_blocks.2.attentions.0.transformer_blocks.4.attn2.to_q.weight", [1280, 1280], .float16, [], false⟩,
  ⟨key% "down_blocks.2.attentions.0.transformer_blocks.4.attn2.to_v.weight", [1280, 2048], .float16, [], false⟩,
  ⟨key% "down_blocks.2.attentions.0.transformer_blocks.4.ff.net.0.proj.bias", [10240], .float16, [], false⟩,
  ⟨key% "down_blocks.2.attentions.0.transformer_blocks.4.ff.net.0.proj.weight", [10240, 1280], .float16, [], false⟩,
  ⟨key% "down_blocks.2.attentions.0.transformer_blocks.4.ff.net.2.bias", [1280], .float16, [], false⟩,
  ⟨key% "down_blocks.2.attentions.0.transformer_blocks.4.ff.net.2.weight", [1280, 5120], .float16, [], false⟩,
  ⟨key% "down_blocks.2.attentions.0.transformer_blocks.4.norm1.bias", [1280], .float16, [], false⟩,
  ⟨key% "down_blocks.2.attentions.0.transformer_blocks.4.norm1.weight", [1280], .float16, [], false⟩,
  ⟨key% "down_blocks.2.attentions.0.transformer_blocks.4.norm2.bias", [1280], .float16, [], false⟩,
  ⟨key% "down_blocks.2.attentions.0.transformer_blocks.4.norm2.weight", [1280], .float16, [], false⟩,
  ⟨key% "down_blocks.2.attentions.0.transformer_blocks.4.norm3.bias", [1280], .float16, [], false⟩,
  ⟨key% "down_blocks.2.attentions.0.transformer_blocks.4.norm3.weight", [1280], .float16, [], false⟩,
  ⟨key% "down_blocks.2.attentions.0.transformer_blocks.5.attn1.to_k.weight", [1280, 1280], .float16, [], false⟩,
  ⟨key% "down_blocks.2.attentions.0.transformer_blocks.5.attn1.to_out.0.bias", [1280], .float16, [], false⟩,
  ⟨key% "down_blocks.2.attentions.0.transformer_blocks.5.attn1.to_out.0.weight", [1280, 1280], .float16, [], false⟩,
  ⟨key% "down_blocks.2.attentions.0.transformer_blocks.5.attn1.to_q.weight", [1280, 1280], .float16, [], false⟩,
  ⟨key% "down_blocks.2.attentions.0.transformer_blocks.5.attn1.to_v.weight", [1280, 1280], .float16, [], false⟩,
  ⟨key% "down_blocks.2.attentions.0.transformer_blocks.5.attn2.to_k.weight", [1280, 2048], .float16, [], false⟩,
  ⟨key% "down_blocks.2.attentions.0.transformer_blocks.5.attn2.to_out.0.bias", [1280], .float16, [], false⟩,
  ⟨key% "down_blocks.2.attentions.0.transformer_blocks.5.attn2.to_out.0.weight", [1280, 1280], .float16, [], false⟩,
  ⟨key% "down_blocks.2.attentions.0.transformer_blocks.5.attn2.to_q.weight", [1280, 1280], .float16, [], false⟩,
  ⟨key% "down_blocks.2.attentions.0.transformer_blocks.5.attn2.to_v.weight", [1280, 2048], .float16, [], false⟩,
  ⟨key% "down_blocks.2.attentions.0.transformer_blocks.5.ff.net.0.proj.bias", [10240], .float16, [], false⟩,
  ⟨key% "down_blocks.2.attentions.0.transformer_blocks.5.ff.net.0.proj.weight", [10240, 1280], .float16, [], false⟩,
  ⟨key% "down_blocks.2.attentions.0.transformer_blocks.5.ff.net.2.bias", [1280], .float16, [], false⟩,
  ⟨key% "down_blocks.2.attentions.0.transformer_blocks.5.ff.net.2.weight", [1280, 5120], .float16, [], false⟩,
  ⟨key% "down_blocks.2.attentions.0.transformer_blocks.5.norm1.bias", [1280], .float16, [], false⟩,
  ⟨key% "down_blocks.2.attentions.0.transformer_blocks.5.norm1.weight", [1280], .float16, [], false⟩,
  ⟨key% "down_blocks.2.attentions.0.transformer_blocks.5.norm2.bias", [1280], .float16, [], false⟩,
  ⟨key% "down_blocks.2.attentions.0.transformer_blocks.5.norm2.weight", [1280], .float16, [], false⟩,
  ⟨key% "down_blocks.2.attentions.0.transformer_blocks.5.norm3.bias", [1280], .float16, [], false⟩,
  ⟨key% "down_blocks.2.attentions.0.transformer_blocks.5.norm3.weight", [1280], .float16, [], false⟩,
  ⟨key% "down_blocks.2.attentions.0.transformer_blocks.6.attn1.to_k.weight", [1280, 1280], .float16, [], false⟩,
  ⟨key% "down_blocks.2.attentions.0.transformer_blocks.6.attn1.to_out.0.bias", [1280], .float16, [], false⟩,
  ⟨key% "down_blocks.2.attentions.0.transformer_blocks.6.attn1.to_out.0.weight", [1280, 1280], .float16, [], false⟩,
  ⟨key% "down_blocks.2.attentions.0.transformer_blocks.6.attn1.to_q.weight", [1280, 1280], .float16, [], false⟩,
  ⟨key% "down_blocks.2.attentions.0.transformer_blocks.6.attn1.to_v.weight", [1280, 1280], .float16, [], false⟩,
  ⟨key% "down_blocks.2.attentions.0.transformer_blocks.6.attn2.to_k.weight", [1280, 2048], .float16, [], false⟩,
  ⟨key% "down_blocks.2.attentions.0.transformer_blocks.6.attn2.to_out.0.bias", [1280], .float16, [], false⟩,
  ⟨key% "down_blocks.2.attentions.0.transformer_blocks.6.attn2.to_out.0.weight", [1280, 1280], .float16, [], false⟩,
  ⟨key% "down_blocks.2.attentions.0.transformer_blocks.6.attn2.to_q.weight", [1280, 1280], .float16, [], false⟩,
  ⟨key% "down_blocks.2.attentions.0.transformer_blocks.6.attn2.to_v.weight", [1280, 2048], .float16, [], false⟩,
  ⟨key% "down_blocks.2.attentions.0.transformer_blocks.6.ff.net.0.proj.bias", [10240], .float16, [], false⟩,
  ⟨key% "down_blocks.2.attentions.0.transformer_blocks.6.ff.net.0.proj.weight", [10240, 1280], .float16, [], false⟩,
  ⟨key% "down_blocks.2.attentions.0.transformer_blocks.6.ff.net.2.bias", [1280], .float16, [], false⟩,
  ⟨key% "down_blocks.2.attentions.0.transformer_blocks.6.ff.net.2.weight", [1280, 5120], .float16, [], false⟩,
  ⟨key% "down_blocks.2.attentions.0.transformer_blocks.6.norm1.bias", [1280], .float16, [], false⟩,
  ⟨key% "down_blocks.2.attentions.0.transformer_blocks.6.norm1.weight", [1280], .float16, [], false⟩,
  ⟨key% "down_blocks.2.attentions.0.transformer_blocks.6.norm2.bias", [1280], .float16, [], false⟩,
  ⟨key% "down_blocks.2.attentions.0.transformer_blocks.6.norm2.weight", [1280], .float16, [], false⟩,
  ⟨key% "down_blocks.2.attentions.0.transformer_blocks.6.norm3.bias", [1280], .float16, [], false⟩,
  ⟨key% "down_blocks.2.attentions.0.transformer_blocks.6.norm3.weight", [1280], .float16, [], false⟩,
  ⟨key% "down_blocks.2.attentions.0.transformer_blocks.7.attn1.to_k.weight", [1280, 1280], .float16, [], false⟩,
  ⟨key% "down_blocks.2.attentions.0.transformer_blocks.7.attn1.to_out.0.bias", [1280], .float16, [], false⟩,
  ⟨key% "down_blocks.2.attentions.0.transformer_blocks.7.attn1.to_out.0.weight", [1280, 1280], .float16, [], false⟩,
  ⟨key% "down_blocks.2.attentions.0.transformer_blocks.7.attn1.to_q.weight", [1280, 1280], .float16, [], false⟩,
  ⟨key% "down_blocks.2.attentions.0.transformer_blocks.7.attn1.to_v.weight", [1280, 1280], .float16, [], false⟩,
  ⟨key% "down_blocks.2.attentions.0.transformer_blocks.7.attn2.to_k.weight", [1280, 2048], .float16, [], false⟩]
noncomputable def diffuser3 : List Entry := [
  ⟨key% "down_blocks.2.attentions.0.transformer_blocks.7.attn2.to_out.0.bias", [1280], .float16, [], false⟩,
  ⟨key% "down_blocks.2.attentions.0.transformer_blocks.7.attn2.to_out.0.weight", [1280, 1280], .float16, [], false⟩,
  ⟨key% "down_blocks.2.attentions.0.transformer_blocks.7.attn2.to_q.weight", [1280, 1280], .float16, [], false⟩,
  ⟨key% "down_blocks.2.attentions.0.transformer_blocks.7.attn2.to_v.weight", [1280, 2048], .float16, [], false⟩,
  ⟨key% "down_blocks.2.attentions.0.transformer_blocks.7.ff.net.0.proj.bias", [10240], .float16, [], false⟩,
  ⟨key% "down_blocks.2.attentions.0.transformer_blocks.7.ff.net.0.proj.weight", [10240, 1280], .float16, [], false⟩,
  ⟨key% "down_blocks.2.attentions.0.transformer_blocks.7.ff.net.2.bias", [1280], .float16, [], false⟩,
  ⟨key% "down_blocks.2.attentions.0.transformer_blocks.7.ff.net.2.weight", [1280, 5120], .float16, [], false⟩,
  ⟨key% "down_blocks.2.attentions.0.transformer_blocks.7.norm1.bias", [1280], .float16, [], false⟩,
  ⟨key% "down_blocks.2.attentions.0.transformer_blocks.7.norm1.weight", [1280], .float16, [], false⟩,
  ⟨key% "down_blocks.2.attentions.0.transformer_blocks.7.norm2.bias", [1280], .float16, [], false⟩,
  ⟨key% "down_blocks.2.attentions.0.transformer_blocks.7.norm2.weight", [1280], .float16, [], false⟩,
  ⟨key% "down_blocks.2.attentions.0.transformer_blocks.7.norm3.bias", [1280], .float16, [], false⟩,
  ⟨key% "down_blocks.2.attentions.0.transformer_blocks.7.norm3.weight", [1280], .float16, [], false⟩,
  ⟨key% "down_blocks.2.attentions.0.transformer_blocks.8.attn1.to_k.weight", [1280, 1280], .float16, [], false⟩,
  ⟨key% "down_blocks.2.attentions.0.transformer_blocks.8.attn1.to_out.0.bias", [1280], .float16, [], false⟩,
  ⟨key% "down_blocks.2.attentions.0.transformer_blocks.8.attn1.to_out.0.weight", [1280, 1280], .float16, [], false⟩,
  ⟨key% "down_blocks.2.attentions.0.transformer_blocks.8.attn1.to_q.weight", [1280, 1280], .float16, [], false⟩,
  ⟨key% "down_blocks.2.attentions.0.transformer_blocks.8.attn1.to_v.weight", [1280, 1280], .float16, [], false⟩,
  ⟨key% "down_blocks.2.attentions.0.transformer_blocks.8.attn2.to_k.weight", [1280, 2048], .float16, [], false⟩,
  ⟨key% "down_blocks.2.attentions.0.transformer_blocks.8.attn2.to_out.0.bias", [1280], .float16, [], false⟩,
  ⟨key% "down_blocks.2.attentions.0.transformer_blocks.8.attn2.to_out.0.weight", [1280, 1280], .float16, [], false⟩,
  ⟨key% "down_blocks.2.attentions.0.transformer_blocks.8.attn2.to_q.weight", [1280, 1280], .float16, [], false⟩,
  ⟨key% "down_blocks.2.attentions.0.transformer_blocks.8.attn2.to_v.weight", [1280, 2048], .float16, [], false⟩,
  ⟨key% "down_blocks.2.attentions.0.transformer_blocks.8.ff.net.0.proj.bias", [10240], .float16, [], false⟩,
  ⟨key% "down_blocks.2.attentions.0.transformer_blocks.8.ff.net.0.proj.weight", [10240, 1280], .float16, [], false⟩,
  ⟨key% "down_blocks.2.attentions.0.transformer_blocks.8.ff.net.2.bias", [1280], .float16, [], false⟩,
  ⟨key% "down_blocks.2.attentions.0.transformer_blocks.8.ff.net.2.weight", [1280, 5120], .float16, [], false⟩,
  ⟨key% "down_blocks.2.attentions.0.transformer_blocks.8.norm1.bias", [1280], .float16, [], false⟩,
  ⟨key% "down_blocks.2.attentions.0.transformer_blocks.8.norm1.weight", [1280], .float16, [], false⟩,
  ⟨key% "down_blocks.2.attentions.0.transformer_blocks.8.norm2.bias", [1280], .float16, [], false⟩,
  ⟨key% "down_blocks.2.attentions.0.transformer_blocks.8.norm2.weight", [1280], .float16, [], false⟩,
  ⟨key% "down_blocks.2.attentions.0.transformer_blocks.8.norm3.bias", [1280], .float16, [], false⟩,
  ⟨key% "down_blocks.2.attentions.0.transformer_blocks.8.norm3.weight", [1280], .float16, [], false⟩,
  ⟨key% "down_blocks.2.attentions.0.transformer_blocks.9.attn1.to_k.weight", [1280, 1280], .float16, [], false⟩,
  ⟨key% "down_blocks.2.attentions.0.transformer_blocks.9.attn1.to_out.0.bias", [1280], .float16, [], false⟩,
  ⟨key% "down_blocks.2.attentions.0.transformer_blocks.9.attn1.to_out.0.weight", [1280, 1280], .float16, [], false⟩,
  ⟨key% "down_blocks.2.attentions.0.transformer_blocks.9.attn1.to_q.weight", [1280, 1280], .float16, [], false⟩,
  ⟨key% "down_blocks.2.attentions.0.transformer_blocks.9.attn1.to_v.weight", [1280, 1280], .float16, [], false⟩,
  ⟨key% "down_blocks.2.attentions.0.transformer_blocks.9.attn2.to_k.weight", [1280, 2048], .float16, [], false⟩,
  ⟨key% "down_blocks.2.attentions.0.transformer_blocks.9.attn2.to_out.0.bias", [1280], .float16, [], false⟩,
  ⟨key% "down_blocks.2.attentions.0.transformer_blocks.9.attn2.to_out.0.weight", [1280, 1280], .float16, [], false⟩,
  ⟨key% "down_blocks.2.attentions.0.transformer_blocks.9.attn2.to_q.weight", [1280, 1280], .float16, [], false⟩,
  ⟨key% "down_blocks.2.attentions.0.transformer_blocks.9.attn2.to_v.weight", [1280, 2048], .float16, [], false⟩,
  ⟨key% "down_blocks.2.attentions.0.transformer_blocks.9.ff.net.0.proj.bias", [10240], .float16, [], false⟩,
  ⟨key% "down_blocks.2.attentions.0.transformer_blocks.9.ff.net.0.proj.weight", [10240, 1280], .float16, [], false⟩,
  ⟨key% "down_blocks.2.attentions.0.transformer_blocks.9.ff.net.2.bias", [1280], .float16, [], false⟩,
  ⟨key% "down_blocks.2.attentions.0.transformer_blocks.9.ff.net.2.weight", [1280, 5120], .float16, [], false⟩,
  ⟨key% "down_blocks.2.attentions.0.transformer_blocks.9.norm1.bias", [1280], .float16, [], false⟩,
  ⟨key% "down_blocks.2.attentions.0.transformer_blocks.9.norm1.weight", [1280], .float16, [], false⟩,
  ⟨key% "down_blocks.2.attentions.0.transformer_blocks.9.norm2.bias", [1280], .float16, [], false⟩,
  ⟨key% "down_blocks.2.attentions.0.transformer_blocks.9.norm2.weight", [1280], .float16, [], false⟩,
  ⟨key% "down_blocks.2.attentions.0.transformer_blocks.9.norm3.bias", [1280], .float16, [], false⟩,
  ⟨key% "down_blocks.2.attentions.0.transformer_blocks.9.norm3.weight", [1280], .float16, [], false⟩,
  ⟨key% "down_blocks.2.attentions.1.norm.bias", [1280], .float16, [], false⟩,
  ⟨key% "down_blocks.2.attentions.1.norm.weight", [1280], .float16, [], false⟩,
  ⟨key% "down_blocks.2.attentions.1.proj_in.bias", [1280], .float16, [], false⟩,
  ⟨key% "down_blocks.2.attentions.1.proj_in.weight", [1280, 1280], .float16, [], false⟩,
  ⟨key% "down_blocks.2.attentions.1.proj_out.bias", [1280], .float16, [], false⟩,
  ⟨key% "down_blocks.2.attentions.1.proj_out.weight", [1280, 1280], .float16, [], false⟩,
  ⟨key% "down_blocks.2.attentions.1.transformer_blocks.0.attn1.to_k.weight", [1280, 1280], .float16, [], false⟩,
  ⟨key% "down_blocks.2.attentions.1.transformer_blocks.0.attn1.to_out.0.bias", [1280], .float16, [], false⟩,
  ⟨key% "down_blocks.2.attentions.1.transformer_blocks.0.attn1.to_out.0.weight", [1280, 1280], .float16, [], false⟩,
  ⟨key% "down_blocks.2.attentions.1.transformer_blocks.0.attn1.to_q.weight", [1280, 1280], .float16, [], false⟩,
  ⟨key% "down_blocks.2.attentions.1.transformer_blocks.0.attn1.to_v.weight", [1280, 1280], .float16, [], false⟩,
  ⟨key% "down_blocks.2.attentions.1.transformer_blocks.0.attn2.to_k.weight", [1280, 2048], .float16, [], false⟩,
  ⟨key% "down_blocks.2.attentions.1.transformer_blocks.0.attn2.to_out.0.bias", [1280], .float16, [], false⟩,
  ⟨key% "down_blocks.2.attentions.1.transformer_blocks.0.attn2.to_out.0.weight", [1280, 1280], .float16, [], false⟩,
  ⟨key% "down_blocks.2.attentions.1.transformer_blocks.0.attn2.to_q.weight", [1280, 1280], .float16, [], false⟩,
  ⟨key% "down_blocks.2.attentions.1.transformer_blocks.0.attn2.to_v.weight", [1280, 2048], .float16, [], false⟩,
  ⟨key% "down_blocks.2.attentions.1.transformer_blocks.0.ff.net.0.proj.bias", [10240], .float16, [], false⟩,
  ⟨key% "down_blocks.2.attentions.1.transformer_blocks.0.ff.net.0.proj.weight", [10240, 1280], .float16, [], false⟩,
  ⟨key% "down_blocks.2.attentions.1.transformer_blocks.0.ff.net.2.bias", [1280], .float16, [], false⟩,
  ⟨key% "down_blocks.2.attentions.1.transformer_blocks.0.ff.net.2.weight", [1280, 5120], .float16, [], false⟩,
  ⟨key% "down_blocks.2.attentions.1.transformer_blocks.0.norm1.bias", [1280], .float16, [], false⟩,
  ⟨key% "down_blocks.2.attentions.1.transformer_blocks.0.norm1.weight", [1280], .float16, [], false⟩,
  ⟨key% "down_blocks.2.attentions.1.transformer_blocks.0.norm2.bias", [1280], .float16, [], false⟩,
  ⟨key% "down_blocks.2.attentions.1.transformer_blocks.0.norm2.weight", [1280], .float16, [], false⟩,
  ⟨key% "down_blocks.2.attentions.1.transformer_blocks.0.norm3.bias", [1280], .float16, [], false⟩,
  ⟨key% "down_blocks.2.attentions.1.transformer_blocks.0.norm3.weight", [1280], .float16, [], false⟩,
  ⟨key% "down_blocks.2.attentions.1.transformer_blocks.1.attn1.to_k.weight", [1280, 1280], .float16, [], false⟩,
  ⟨key% "down_blocks.2.attentions.1.transformer_blocks.1.attn1.to_out.0.bias", [1280], .float16, [], false⟩,
  ⟨key% "down_blocks.2.attentions.1.transformer_blocks.1.attn1.to_out.0.weight", [1280, 1280], .float16, [], false⟩,
  ⟨key% "down_blocks.2.attentions.1.transformer_blocks.1.attn1.to_q.weight", [1280, 1280], .float16, [], false⟩,
  ⟨key% "down_blocks.2.attentions.1.transformer_blocks.1.attn1.to_v.weight", [1280, 1280], .float16, [], false⟩,
  ⟨key% "down_blocks.2.attentions.1.transformer_blocks.1.attn2.to_k.weight", [1280, 2048], .float16, [], false⟩,
  ⟨key% "down_blocks.2.attentions.1.transformer_blocks.1.attn2.to_out.0.bias", [1280], .float16, [], false⟩,
  ⟨key% "down_blocks.2.attentions.1.transformer_blocks.1.attn2.to_out.0.weight", [1280, 1280], .float16, [], false⟩,
  ⟨key% "down_blocks.2.attentions.1.transformer_blocks.1.attn2.to_q.weight", [1280, 1280], .float16, [], false⟩,
  ⟨key% "down_blocks.2.attentions.1.transformer_blocks.1.attn2.to_v.weight", [1280, 2048], .float16, [], false⟩,
  ⟨key% "down_blocks.2.attentions.1.transformer_blocks.1.ff.net.0.proj.bias", [10240], .float16, [], false⟩,
  ⟨key% "down_blocks.2.attentions.1.transformer_blocks.1.ff.net.0.proj.weight", [10240, 1280], .float16, [], false⟩,
  ⟨key% "down_blocks.2.attentions.1.transformer_blocks.1.ff.net.2.bias", [1280], .float16, [], false⟩,
  ⟨key% "down_blocks.2.attentions.1.transformer_blocks.1.ff.net.2.weight", [1280, 5120], .float16, [], false⟩,
  ⟨key% "down_blocks.2.attentions.1.transformer_blocks.1.norm1.bias", [1280], .float16, [], false⟩,
  ⟨key% "down_blocks.2.attentions.1.transformer_blocks.1.norm1.weight", [1280], .float16, [], false⟩,
  ⟨key% "down_blocks.2.attentions.1.transformer_blocks.1.norm2.bias", [1280], .float16, [], false⟩,
  ⟨key% "down_blocks.2.attentions.1.transformer_blocks.1.norm2.weight", [1280], .float16, [], false⟩,
  ⟨key% "down_blocks.2.attentions.1.transformer_blocks.1.norm3.bias", [1280], .float16, [], false⟩,
  ⟨key% "down_blocks.2.attentions.1.transformer_blocks.1.norm3.weight", [1280], .float16, [], false⟩]
noncomputable def diffuser4 : List Entry := [
  ⟨key% "down_blocks.2.attentions.1.transformer_blocks.2.attn1.to_k.weight", [1280, 1280], .float16, [], false⟩,
  ⟨key% "down_blocks.2.attentions.1.transformer_blocks.2.attn1.to_out.0.bias", [1280], .float16, [], false⟩,
  ⟨key% "down_blocks.2.attentions.1.transformer_blocks.2.attn1.to_out.0.weight", [1280, 1280], .float16, [], false⟩,
  ⟨key% "down_blocks.2.attentions.1.transformer_blocks.2.attn1.to_q.weight", [1280, 1280], .float16, [], false⟩,
  ⟨key% "down_blocks.2.attentions.1.transformer_blocks.2.attn1.to_v.weight", [1280, 1280], .float16, [], false⟩,
  ⟨key% "down_blocks.2.attentions.1.transformer_blocks.2.attn2.to_k.weight", [1280, 2048], .float16, [], false⟩,
  ⟨key% "down_blocks.2.attentions.1.transformer_blocks.2.attn2.to_out.0.bias", [1280], .float16, [], false⟩,
  ⟨key% "down_blocks.2.attentions.1.transformer_blocks.2.attn2.to_out.0.weight", [1280, 1280], .float16, [], false⟩,
  ⟨key% "down_blocks.2.attentions.1.transformer_blocks.2.attn2.to_q.weight", [1280, 1280], .float16, [], false⟩,
  ⟨key% "down_blocks.2.attentions.1.transformer_blocks.2.attn2.to_v.weight", [1280, 2048], .float16, [], false⟩,
  ⟨key% "down_blocks.2.attentions.1.transformer_blocks.2.ff.net.0.proj.bias", [10240], .float16, [], false⟩,
  ⟨key% "down_blocks.2.attentions.1.transformer_blocks.2.ff.net.0.proj.weight", [10240, 1280], .float16, [], false⟩,
  ⟨key% "down_blocks.2.attentions.1.transformer_blocks.2.ff.net.2.bias", [1280], .float16, [], false⟩,
  ⟨key% "down_blocks.2.attentions.1.transformer_blocks.2.ff.net.2.weight", [1280, 5120], .float16, [], false⟩,
  ⟨key% "down_blocks.2.attentions.1.transformer_blocks.2.norm1.bias", [1280], .float16, [], false⟩,
  ⟨key% "down_blocks.2.attentions.1.transformer_blocks.2.norm1.weight", [1280], .float16, [], false⟩,
  ⟨key% "down_blocks.2.attentions.1.transformer_blocks.2.norm2.bias", [1280], .float16, [], false⟩,
  ⟨key% "down_blocks.2.attentions.1.transformer_blocks.2.norm2.weight", [1280], .float16, [], false⟩,
  ⟨key% "down_blocks.2.attentions.1.transformer_blocks.2.norm3.bias", [1280], .float16, [], false⟩,
  ⟨key% "down_blocks.2.attentions.1.transformer_blocks.2.norm3.weight", [1280], .float16, [], false⟩,
  ⟨key% "down_blocks.2.attentions.1.transformer_blocks.3.attn1.to_k.weight", [1280, 1280], .float16, [], false⟩,
  ⟨key% "down_blocks.2.attentions.1.transformer_blocks.3.attn1.to_out.0.bias", [1280], .float16, [], false⟩,
  ⟨key% "down_blocks.2.attentions.1.transformer_blocks.3.attn1.to_out.0.weight", [1280, 1280], .float16, [], false⟩,
  ⟨key% "down_blocks.2.attentions.1.transformer_blocks.3.attn1.to_q.weight", [1280, 1280], .float16, [], false⟩,
  ⟨key% "down_blocks.2.attentions.1.transformer_blocks.3.attn1.to_v.weight", [1280, 1280], .float16, [], false⟩,
  ⟨key% "down_blocks.2.attentions.1.transformer_blocks.3.attn2.to_k.weight", [1280, 2048], .float16, [], false⟩,
  ⟨key% "down_blocks.2.attentions.1.transformer_blocks.3.attn2.to_out.0.bias", [1280], .float16, [], false⟩,
  ⟨key% "down_blocks.2.attentions.1.transformer_blocks.3.attn2.to_out.0.weight", [1280, 1280], .float16, [], false⟩,
  ⟨key% "down_blocks.2.attentions.1.transformer_blocks.3.attn2.to_q.weight", [1280, 1280], .float16, [], false⟩,
  ⟨key% "down_blocks.2.attentions.1.transformer_blocks.3.attn2.to_v.weight", [1280, 2048], .float16, [], false⟩,
  ⟨key% "down_blocks.2.attentions.1.transformer_blocks.3.ff.net.0.proj.bias", [10240], .float16, [], false⟩,
  ⟨key% "down_blocks.2.attentions.1.transformer_blocks.3.ff.net.0.proj.weight", [10240, 1280], .float16, [], false⟩,
  ⟨key% "down_blocks.2.attentions.1.transformer_blocks.3.ff.net.2.bias", [1280], .float16, [], false⟩,
  ⟨key% "down_blocks.2.attentions.1.transformer_blocks.3.ff.net.2.weight", [1280, 5120], .float16, [], false⟩,
  ⟨key% "down_blocks.2.attentions.1.transformer_blocks.3.norm1.bias", [1280], .float16, [], false⟩,
  ⟨key% "down_blocks.2.attentions.1.transformer_blocks.3.norm1.weight", [1280], .float16, [], false⟩,
  ⟨key% "down_blocks.2.attentions.1.transformer_blocks.3.norm2.bias", [1280], .float16, [], false⟩,
  ⟨key% "down_blocks.2.attentions.1.transformer_blocks.3.norm2.weight", [1280], .float16, [], false⟩,
  ⟨key% "down_blocks.2.attentions.1.transformer_blocks.3.norm3.bias", [1280], .float16, [], false⟩,
  ⟨key% "down_blocks.2.attentions.1.transformer_blocks.3.norm3.weight", [1280], .float16, [], false⟩,
  ⟨key% "down_blocks.2.attentions.1.transformer_blocks.4.attn1.to_k.weight", [1280, 1280], .float16, [], false⟩,
  ⟨key% "down_blocks.2.attentions.1.transformer_blocks.4.attn1.to_out.0.bias", [1280], .float16, [], false⟩,
  ⟨key% "down_blocks.2.attentions.1.transformer_blocks.4.attn1.to_out.0.weight", [1280, 1280], .float16, [], false⟩,
  ⟨key% "down_blocks.2.attentions.1.transformer_blocks.4.attn1.to_q.weight", [1280, 1280], .float16, [], false⟩,
  ⟨key% "down_blocks.2.attentions.1.transformer_blocks.4.attn1.to_v.weight", [1280, 1280], .float16, [], false⟩,
  ⟨key% "down_blocks.2.attentions.1.transformer_blocks.4.attn2.to_k.weight", [1280, 2048], .float16, [], false⟩,
  ⟨key% "down_blocks.2.attentions.1.transformer_blocks.4.attn2.to_out.0.bias", [1280], .float16, [], false⟩,
  ⟨key% "down_blocks.2.attentions.1.transformer_blocks.4.attn2.to_out.0.weight", [1280, 1280], .float16, [], false⟩,
  ⟨key% "down_blocks.2.attentions.1.transformer_blocks.4.attn2.to_q.weight", [1280, 1280], .float16, [], false⟩,
  ⟨key% "down_blocks.2.attentions.1.transformer_blocks.4.attn2.to_v.weight", [1280, 2048], .float16, [], false⟩,
  ⟨key% "down_blocks.2.attentions.1.transformer_blocks.4.ff.net.0.proj.bias", [10240], .float16, [], false⟩,
  ⟨key% "down_blocks.2.attentions.1.transformer_blocks.4.ff.net.0.proj.weight", [10240, 1280], .float16, [], false⟩,
  ⟨key% "down_blocks.2.attentions.1.transformer_blocks.4.ff.net.2.bias", [1280], .float16, [], false⟩,
  ⟨key% "down_blocks.2.attentions.1.transformer_blocks.4.ff.net.2.weight", [1280, 5120], .float16, [], false⟩,
  ⟨key% "down_blocks.2.attentions.1.transformer_blocks.4.norm1.bias", [1280], .float16, [], false⟩,
  ⟨key% "down_blocks.2.attentions.1.transformer_blocks.4.norm1.weight", [1280], .float16, [], false⟩,
  ⟨key% "down_blocks.2.attentions.1.transformer_blocks.4.norm2.bias", [1280], .float16, [], false⟩,
  ⟨key% "down_blocks.2.attentions.1.transformer_blocks.4.norm2.weight", [1280], .float16, [], false⟩,
  ⟨key% "down_blocks.2.attentions.1.transformer_blocks.4.norm3.bias", [1280], .float16, [], false⟩,
  ⟨key% "down_blocks.2.attentions.1.transformer_blocks.4.norm3.weight", [1280], .float16, [], false⟩,
  ⟨key% "down_blocks.2.attentions.1.transformer_blocks.5.attn1.to_k.weight", [1280, 1280], .float16, [], false⟩,
  ⟨key% "down_blocks.2.attentions.1.transformer_blocks.5.attn1.to_out.0.bias", [1280], .float16, [], false⟩,
  ⟨key% "down_blocks.2.attentions.1.transformer_blocks.5.attn1.to_out.0.weight", [1280, 1280], .float16, [], false⟩,
  ⟨key% "down_blocks.2.attentions.1.transformer_blocks.5.attn1.to_q.weight", [1280, 1280], .float16, [], false⟩,
  ⟨key% "down_blocks.2.attentions.1.transformer_blocks.5.attn1.to_v.weight", [1280, 1280], .float16, [], false⟩,
  ⟨key% "down_blocks.2.attentions.1.transformer_blocks.5.attn2.to_k.weight", [1280, 2048], .float16, [], false⟩,
  ⟨key% "down_blocks.2.attentions.1.transformer_blocks.5.attn2.to_out.0.bias", [1280], .float16, [], false⟩,
  ⟨key% "down_blocks.2.attentions.1.transformer_blocks.5.attn2.to_out.0.weight", [1280, 1280], .float16, [], false⟩,
  ⟨key% "down_blocks.2.attentions.1.transformer_blocks.5.attn2.to_q.weight", [1280, 1280], .float16, [], false⟩,
  ⟨key% "down_blocks.2.attentions.1.transformer_blocks.5.attn2.to_v.weight", [1280, 2048], .float16, [], false⟩,
  ⟨key% "down_blocks.2.attentions.1.transformer_blocks.5.ff.net.0.proj.bias", [10240], .float16, [], false⟩,
  ⟨key% "down_blocks.2.attentions.1.transformer_blocks.5.ff.net.0.proj.weight", [10240, 1280], .float16, [], false⟩,
  ⟨key% "down_blocks.2.attentions.1.transformer_blocks.5.ff.net.2.bias", [1280], .float16, [], false⟩,
  ⟨key% "down_blocks.2.attentions.1.transformer_blocks.5.ff.net.2.weight", [1280, 5120], .float16, [], false⟩,
  ⟨key% "down_blocks.2.attentions.1.transformer_blocks.5.norm1.bias", [1280], .float16, [], false⟩,
  ⟨key% "down_blocks.2.attentions.1.transformer_blocks.5.norm1.weight", [1280], .float16, [], false⟩,
  ⟨key% "down_blocks.2.attentions.1.transformer_blocks.5.norm2.bias", [1280], .float16, [], false⟩,
  ⟨key% "down_blocks.2.attentions.1.transformer_blocks.5.norm2.weight", [1280], .float16, [], false⟩,
  ⟨key% "down_blocks.2.attentions.1.transformer_blocks.5.norm3.bias", [1280], .float16, [], false⟩,
  ⟨key% "down_blocks.2.attentions.1.transformer_blocks.5.norm3.weight", [1280], .float16, [], false⟩,
  ⟨key% "down_blocks.2.attentions.1.transformer_blocks.6.attn1.to_k.weight", [1280, 1280], .float16, [], false⟩,
  ⟨key% "down_blocks.2.attentions.1.transformer_blocks.6.attn1.to_out.0.bias", [1280], .float16, [], false⟩,
  ⟨key% "down_blocks.2.attentions.1.transformer_blocks.6.attn1.to_out.0.weight", [1280, 1280], .float16, [], false⟩,
  ⟨key% "down_blocks.2.attentions.1.transformer_blocks.6.attn1.to_q.weight", [1280, 1280], .float16, [], false⟩,
  ⟨key% "down_blocks.2.attentions.1.transformer_blocks.6.attn1.to_v.weight", [1280, 1280], .float16, [], false⟩,
  ⟨key% "down_blocks.2.attentions.1.transformer_blocks.6.attn2.to_k.weight", [1280, 2048], .float16, [], false⟩,
  ⟨key% "down_blocks.2.attentions.1.transformer_blocks.6.attn2.to_out.0.bias", [1280], .float16, [], false⟩,
  ⟨key% "down_blocks.2.attentions.1.transformer_blocks.6.attn2.to_out.0.weight", [1280, 1280], .float16, [], false⟩,
  ⟨key% "down_blocks.2.attentions.1.transformer_blocks.6.attn2.to_q.weight", [1280, 1280], .float16, [], false⟩,
  ⟨key% "down_blocks.2.attentions.1.transformer_blocks.6.attn2.to_v.weight", [1280, 2048], .float16, [], false⟩,
  ⟨key% "down_blocks.2.attentions.1.transformer_blocks.6.ff.net.0.proj.bias", [10240], .float16, [], false⟩,
  ⟨key% "down_blocks.2.attentions.1.transformer_blocks.6.ff.net.0.proj.weight", [10240, 1280], .float16, [], false⟩,
  ⟨key% "down_blocks.2.attentions.1.transformer_blocks.6.ff.net.2.bias", [1280], .float16, [], false⟩,
  ⟨key% "down_blocks.2.attentions.1.transformer_blocks.6.ff.net.2.weight", [1280, 5120], .float16, [], false⟩,
  ⟨key% "down_blocks.2.attentions.1.transformer_blocks.6.norm1.bias", [1280], .float16, [], false⟩,
  ⟨key% "down_blocks.2.attentions.1.transformer_blocks.6.norm1.weight", [1280], .float16, [], false⟩,
  ⟨key% "down_blocks.2.attentions.1.transformer_blocks.6.norm2.bias", [1280], .float16, [], false⟩,
  ⟨key% "down_blocks.2.attentions.1.transformer_blocks.6.norm2.weight", [1280], .float16, [], false⟩,
  ⟨key% "down_blocks.2.attentions.1.transformer_blocks.6.norm3.bias", [1280], .float16, [], false⟩,
  ⟨key% "down_blocks.2.attentions.1.transformer_blocks.6.norm3.weight", [1280], .float16, [], false⟩]
noncomputable def diffuser5 : List Entry := [
  ⟨key% "down_blocks.2.attentions.1.transformer_blocks.7.attn1.to_k.weight", [1280, 1280], .float16, [], false⟩,
  ⟨key% "down_blocks.2.attentions.1.transformer_blocks.7.attn1.to_out.0.bias", [1280], .float16, [], false⟩,
  ⟨key% "down_blocks.2.attentions.1.transformer_blocks.7.attn1.to_out.0.weight", [1280, 1280], .float16, [], false⟩,
  ⟨key% "down_blocks.2.attentions.1.transformer_blocks.7.attn1.to_q.weight", [1280, 1280], .float16, [], false⟩,
  ⟨key% "down_blocks.2.attentions.1.transformer_blocks.7.attn1.to_v.weight", [1280, 1280], .float16, [], false⟩,
  ⟨key% "down_blocks.2.attentions.1.transformer_blocks.7.attn2.to_k.weight", [1280, 2048], .float16, [], false⟩,
  ⟨key% "down_blocks.2.attentions.1.transformer_blocks.7.attn2.to_out.0.bias", [1280], .float16, [], false⟩,
  ⟨key% "down_blocks.2.attentions.1.transformer_blocks.7.attn2.to_out.0.weight", [1280, 1280], .float16, [], false⟩,
  ⟨key% "down_blocks.2.attentions.1.transformer_blocks.7.attn2.to_q.weight", [1280, 1280], .float16, [], false⟩,
  ⟨key% "down_blocks.2.attentions.1.transformer_blocks.7.attn2.to_v.weight", [1280, 2048], .float16, [], false⟩,
  ⟨key% "down_blocks.2.attentions.1.transformer_blocks.7.ff.net.0.proj.bias", [10240], .float16, [], false⟩,
  ⟨key% "down_blocks.2.attentions.1.transformer_blocks.7.ff.net.0.proj.weight", [10240, 1280], .float16, [], false⟩,
  ⟨key% "down_blocks.2.attentions.1.transformer_blocks.7.ff.net.2.bias", [1280], .float16, [], false⟩,
  ⟨key% "down_blocks.2.attentions.1.transformer_blocks.7.ff.net.2.weight", [1280, 5120], .float16, [], false⟩,
  ⟨key% "down_blocks.2.attentions.1.transformer_blocks.7.norm1.bias", [1280], .float16, [], false⟩,
  ⟨key% "down_blocks.2.attentions.1.transformer_blocks.7.norm1.weight", [1280], .float16, [], false⟩,
  ⟨key% "down_blocks.2.attentions.1.transformer_blocks.7.norm2.bias", [1280], .float16, [], false⟩,
  ⟨key% "down_blocks.2.attentions.1.transformer_blocks.7.norm2.weight", [1280], .float16, [], false⟩,
  ⟨key% "down_blocks.2.attentions.1.transformer_blocks.7.norm3.bias", [1280], .float16, [], false⟩,
  ⟨key% "down_blocks.2.attentions.1.transformer_blocks.7.norm3.weight", [1280], .float16, [], false⟩,
  ⟨key% "down_blocks.2.attentions.1.transformer_blocks.8.attn1.to_k.weight", [1280, 1280], .float16, [], false⟩,
  ⟨key% "down_blocks.2.attentions.1.transformer_blocks.8.attn1.to_out.0.bias", [1280], .float16, [], false⟩,
  ⟨key% "down_blocks.2.attentions.1.transformer_blocks.8.attn1.to_out.0.weight", [1280, 1280], .float16, [], false⟩,
  ⟨key% "down_blocks.2.attentions.1.transformer_blocks.8.attn1.to_q.weight", [1280, 1280], .float16, [], false⟩,
  ⟨key% "down_blocks.2.attentions.1.transformer_blocks.8.attn1.to_v.weight", [1280, 1280], .float16, [], false⟩,
  ⟨key% "down_blocks.2.attentions.1.transformer_blocks.8.attn2.to_k.weight", [1280, 2048], .float16, [], false⟩,
  ⟨key% "down_blocks.2.attentions.1.transformer_blocks.8.attn2.to_out.0.bias", [1280], .float16, [], false⟩,
  ⟨key% "down_blocks.2.attentions.1.transformer_blocks.8.attn2.to_out.0.weight", [1280, 1280], .float16, [], false⟩,
  ⟨key% "down_blocks.2.attentions.1.transformer_blocks.8.attn2.to_q.weight", [1280, 1280], .float16, [], false⟩,
  ⟨key% "down_blocks.2.attentions.1.transformer_blocks.8.attn2.to_v.weight", [1280, 2048], .float16, [], false⟩,
  ⟨key% "down_blocks.2.attentions.1.transformer_blocks.8.ff.net.0.proj.bias", [10240], .float16, [], false⟩,
  ⟨key% "down_blocks.2.attentions.1.transformer_blocks.8.ff.net.0.proj.weight", [10240, 1280], .float16, [], false⟩,
  ⟨key% "down_blocks.2.attentions.1.transformer_blocks.8.ff.net.2.bias", [1280], .float16, [], false⟩,
  ⟨key% "down_blocks.2.attentions.1.transformer_blocks.8.ff.net.2.weight", [1280, 5120], .float16, [], false⟩,
  ⟨key% "down_blocks.2.attentions.1.transformer_blocks.8.norm1.bias", [1280], .float16, [], false⟩,
  ⟨key% "down_blocks.2.attentions.1.transformer_blocks.8.norm1.weight", [1280], .float16, [], false⟩,
  ⟨key% "down_blocks.2.attentions.1.transformer_blocks.8.norm2.bias", [1280], .float16, [], false⟩,
  ⟨key% "down_blocks.2.attentions.1.transformer_blocks.8.norm2.weight", [1280], .float16, [], false⟩,
  ⟨key% "down_blocks.2.attentions.1.transformer_blocks.8.norm3.bias", [1280], .float16, [], false⟩,
  ⟨key% "down_blocks.2.attentions.1.transformer_blocks.8.norm3.weight", [1280], .float16, [], false⟩,
  ⟨key% "down_blocks.2.attentions.1.transformer_blocks.9.attn1.to_k.weight", [1280, 1280], .float16, [], false⟩,
  ⟨key% "down_blocks.2.attentions.1.transformer_blocks.9.attn1.to_out.0.bias", [1280], .float16, [], false⟩,
  ⟨key% "down_blocks.2.attentions.1.transformer_blocks.9.attn1.to_out.0.weight", [1280, 1280], .float16, [], false⟩,
  ⟨key% "down_blocks.2.attentions.1.transformer_blocks.9.attn1.to_q.weight", [1280, 1280], .float16, [], false⟩,
  ⟨key% "down_blocks.2.attentions.1.transformer_blocks.9.attn1.to_v.weight", [1280, 1280], .float16, [], false⟩,
  ⟨key% "down_blocks.2.attentions.1.transformer_blocks.9.attn2.to_k.weight", [1280, 2048], .float16, [], false⟩,
  ⟨key% "down_blocks.2.attentions.1.transformer_blocks.9.attn2.to_out.0.bias", [1280], .float16, [], false⟩,
  ⟨key% "down_blocks.2.attentions.1.transformer_blocks.9.attn2.to_out.0.weight", [1280, 1280], .float16, [], false⟩,
  ⟨key% "down_blocks.2.attentions.1.transformer_blocks.9.attn2.to_q.weight", [1280, 1280], .float16, [], false⟩,
  ⟨key% "down_blocks.2.attentions.1.transformer_blocks.9.attn2.to_v.weight", [1280, 2048], .float16, [], false⟩,
  ⟨key% "down_blocks.2.attentions.1.transformer_blocks.9.ff.net.0.proj.bias", [10240], .float16, [], false⟩,
  ⟨key% "down_blocks.2.attentions.1.transformer_blocks.9.ff.net.0.proj.weight", [10240, 1280], .float16, [], false⟩,
  ⟨key% "down_blocks.2.attentions.1.transformer_blocks.9.ff.net.2.bias", [1280], .float16, [], false⟩,
  ⟨key% "down_blocks.2.attentions.1.transformer_blocks.9.ff.net.2.weight", [1280, 5120], .float16, [], false⟩,
  ⟨key% "down_blocks.2.attentions.1.transformer_blocks.9.norm1.bias", [1280], .float16, [], false⟩,
  ⟨key% "down_blocks.2.attentions.1.transformer_blocks.9.norm1.weight", [1280], .float16, [], false⟩,
  ⟨key% "down_blocks.2.attentions.1.transformer_blocks.9.norm2.bias", [1280], .float16, [], false⟩,
  ⟨key% "down_blocks.2.attentions.1.transformer_blocks.9.norm2.weight", [1280], .float16, [], false⟩,
  ⟨key% "down_blocks.2.attentions.1.transformer_blocks.9.norm3.bias", [1280], .float16, [], false⟩,
  ⟨key% "down_blocks.2.attentions.1.transformer_blocks.9.norm3.weight", [1280], .float16, [], false⟩,
  ⟨key% "down_blocks.2.resnets.0.conv1.bias", [1280], .float16, [], false⟩,
  ⟨key% "down_blocks.2.resnets.0.conv1.weight", [1280, 640, 3, 3], .float16, [], false⟩,
  ⟨key% "down_blocks.2.resnets.0.conv2.bias", [1280], .float16, [], false⟩,
  ⟨key% "down_blocks.2.resnets.0.conv2.weight", [1280, 1280, 3, 3], .float16, [], false⟩,
  ⟨key% "down_blocks.2.resnets.0.conv_shortcut.bias", [1280], .float16, [], false⟩,
  ⟨key% "down_blocks.2.resnets.0.conv_shortcut.weight", [1280, 640, 1, 1], .float16, [], false⟩,
  ⟨key% "down_blocks.2.resnets.0.norm1.bias", [640], .float16, [], false⟩,
  ⟨key% "down_blocks.2.resnets.0.norm1.weight", [640], .float16, [], false⟩,
  ⟨key% "down_blocks.2.resnets.0.norm2.bias", [1280], .float16, [], false⟩,
  ⟨key% "down_blocks.2.resnets.0.norm2.weight", [1280], .float16, [], false⟩,
  ⟨key% "down_blocks.2.resnets.0.time_emb_proj.bias", [1280], .float16, [], false⟩,
  ⟨key% "down_blocks.2.resnets.0.time_emb_proj.weight", [1280, 1280], .float16, [], false⟩,
  ⟨key% "down_blocks.2.resnets.1.conv1.bias", [1280], .float16, [], false⟩,
  ⟨key% "down_blocks.2.resnets.1.conv1.weight", [1280, 1280, 3, 3], .float16, [], false⟩,
  ⟨key% "down_blocks.2.resnets.1.conv2.bias", [1280], .float16, [], false⟩,
  ⟨key% "down_blocks.2.resnets.1.conv2.weight", [1280, 1280, 3, 3], .float16, [], false⟩,
  ⟨key% "down_blocks.2.resnets.1.norm1.bias", [1280], .float16, [], false⟩,
  ⟨key% "down_blocks.2.resnets.1.norm1.weight", [1280], .float16, [], false⟩,
  ⟨key% "down_blocks.2.resnets.1.norm2.bias", [1280], .float16, [], false⟩,
  ⟨key% "down_blocks.2.resnets.1.norm2.weight", [1280], .float16, [], false⟩,
  ⟨key% "down_blocks.2.resnets.1.time_emb_proj.bias", [1280], .float16, [], false⟩,
  ⟨key% "down_blocks.2.resnets.1.time_emb_proj.weight", [1280, 1280], .float16, [], false⟩,
  ⟨key% "mid_block.attentions.0.norm.bias", [1280], .float16, [], false⟩,
  ⟨key% "mid_block.attentions.0.norm.weight", [1280], .float16, [], false⟩,
  ⟨key% "mid_block.attentions.0.proj_in.bias", [1280], .float16, [], false⟩,
  ⟨key% "mid_block.attentions.0.proj_in.weight", [1280, 1280], .float16, [], false⟩,
  ⟨key% "mid_block.attentions.0.proj_out.bias", [1280], .float16, [], false⟩,
  ⟨key% "mid_block.attentions.0.proj_out.weight", [1280, 1280], .float16, [], false⟩,
  ⟨key% "mid_block.attentions.0.transformer_blocks.0.attn1.to_k.weight", [1280, 1280], .float16, [], false⟩,
  ⟨key% "mid_block.attentions.0.transformer_blocks.0.attn1.to_out.0.bias", [1280], .float16, [], false⟩,
  ⟨key% "mid_block.attentions.0.transformer_blocks.0.attn1.to_out.0.weight", [1280, 1280], .float16, [], false⟩,
  ⟨key% "mid_block.attentions.0.transformer_blocks.0.attn1.to_q.weight", [1280, 1280], .float16, [], false⟩,
  ⟨key% "mid_block.attentions.0.transformer_blocks.0.attn1.to_v.weight", [1280, 1280], .float16, [], false⟩,
  ⟨key% "mid_block.attentions.0.transformer_blocks.0.attn2.to_k.weight", [1280, 2048], .float16, [], false⟩,
  ⟨key% "mid_block.attentions.0.transformer_blocks.0.attn2.to_out.0.bias", [1280], .float16, [], false⟩,
  ⟨key% "mid_block.attentions.0.transformer_blocks.0.attn2.to_out.0.weight", [1280, 1280], .float16, [], false⟩,
  ⟨key% "mid_block.attentions.0.transformer_blocks.0.attn2.to_q.weight", [1280, 1280], .float16, [], false⟩,
  ⟨key% "mid_block.attentions.0.transformer_blocks.0.attn2.to_v.weight", [1280, 2048], .float16, [], false⟩,
  ⟨key% "mid_block.attentions.0.transformer_blocks.0.ff.net.0.proj.bias", [10240], .float16, [], false⟩,
  ⟨key% "mid_block.attentions.0.transformer_blocks.0.ff.net.0.proj.weight", [10240, 1280], .float16, [], false⟩]
noncomputable def diffuser6 : List Entry := [
  ⟨key% "mid_block.attentions.0.transformer_blocks.0.ff.net.2.bias", [1280], .float16, [], false⟩,
  ⟨key% "mid_block.attentions.0.transformer_blocks.0.ff.net.2.weight", [1280, 5120], .float16, [], false⟩,
  ⟨key% "mid_block.attentions.0.transformer_blocks.0.norm1.bias", [1280], .float16, [], false⟩,
  ⟨key% "mid_block.attentions.0.transformer_blocks.0.norm1.weight", [1280], .float16, [], false⟩,
  ⟨key% "mid_block.attentions.0.transformer_blocks.0.norm2.bias", [1280], .float16, [], false⟩,
  ⟨key% "mid_block.attentions.0.transformer_blocks.0.norm2.weight", [1280], .float16, [], false⟩,
  ⟨key% "mid_block.attentions.0.transformer_blocks.0.norm3.bias", [1280], .float16, [], false⟩,
  ⟨key% "mid_block.attentions.0.transformer_blocks.0.norm3.weight", [1280], .float16, [], false⟩,
  ⟨key% "mid_block.attentions.0.transformer_blocks.1.attn1.to_k.weight", [1280, 1280], .float16, [], false⟩,
  ⟨key% "mid_block.attentions.0.transformer_blocks.1.attn1.to_out.0.bias", [1280], .float16, [], false⟩,
  ⟨key% "mid_block.attentions.0.transformer_blocks.1.attn1.to_out.0.weight", [1280, 1280], .float16, [], false⟩,
  ⟨key% "mid_block.attentions.0.transformer_blocks.1.attn1.to_q.weight", [1280, 1280], .float16, [], false⟩,
  ⟨key% "mid_block.attentions.0.transformer_blocks.1.attn1.to_v.weight", [1280, 1280], .float16, [], false⟩,
  ⟨key% "mid_block.attentions.0.transformer_blocks.1.attn2.to_k.weight", [1280, 2048], .float16, [], false⟩,
  ⟨key% "mid_block.attentions.0.transformer_blocks.1.attn2.to_out.0.bias", [1280], .float16, [], false⟩,
  ⟨key% "mid_block.attentions.0.transformer_blocks.1.attn2.to_out.0.weight", [1280, 1280], .float16, [], false⟩,
  ⟨key% "mid_block.attentions.0.transformer_blocks.1.attn2.to_q.weight", [1280, 1280], .float16, [], false⟩,
  ⟨key% "mid_block.attentions.0.transformer_blocks.1.attn2.to_v.weight", [1280, 2048], .float16, [], false⟩,
  ⟨key% "mid_block.attentions.0.transformer_blocks.1.ff.net.0.proj.bias", [10240], .float16, [], false⟩,
  ⟨key% "mid_block.attentions.0.transformer_blocks.1.ff.net.0.proj.weight", [10240, 1280], .float16, [], false⟩,
  ⟨key% "mid_block.attentions.0.transformer_blocks.1.ff.net.2.bias", [1280], .float16, [], false⟩,
  ⟨key% "mid_block.attentions.0.transformer_blocks.1.ff.net.2.weight", [1280, 5120], .float16, [], false⟩,
  ⟨key% "mid_block.attentions.0.transformer_blocks.1.norm1.bias", [1280], .float16, [], false⟩,
  ⟨key% "mid_block.attentions.0.transformer_blocks.1.norm1.weight", [1280], .float16, [], false⟩,
  ⟨key% "mid_block.attentions.0.transformer_blocks.1.norm2.bias", [1280], .float16, [], false⟩,
  ⟨key% "mid_block.attentions.0.transformer_blocks.1.norm2.weight", [1280], .float16, [], false⟩,
  ⟨key% "mid_block.attentions.0.transformer_blocks.1.norm3.bias", [1280], .float16, [], false⟩,
  ⟨key% "mid_block.attentions.0.transformer_blocks.1.norm3.weight", [1280], .float16, [], false⟩,
  ⟨key% "mid_block.attentions.0.transformer_blocks.2.attn1.to_k.weight", [1280, 1280], .float16, [], false⟩,
  ⟨key% "mid_block.attentions.0.transformer_blocks.2.attn1.to_out.0.bias", [1280], .float16, [], false⟩,
  ⟨key% "mid_block.attentions.0.transformer_blocks.2.attn1.to_out.0.weight", [1280, 1280], .float16, [], false⟩,
  ⟨key% "mid_block.attentions.0.transformer_blocks.2.attn1.to_q.weight", [1280, 1280], .float16, [], false⟩,
  ⟨key% "mid_block.attentions.0.transformer_blocks.2.attn1.to_v.weight", [1280, 1280], .float16, [], false⟩,
  ⟨key% "mid_block.attentions.0.transformer_blocks.2.attn2.to_k.weight", [1280, 2048], .float16, [], false⟩,
  ⟨key% "mid_block.attentions.0.transformer_blocks.2.attn2.to_out.0.bias", [1280], .float16, [], false⟩,
  ⟨key% "mid_block.attentions.0.transformer_blocks.2.attn2.to_out.0.weight", [1280, 1280], .float16, [], false⟩,
  ⟨key% "mid_block.attentions.0.transformer_blocks.2.attn2.to_q.weight", [1280, 1280], .float16, [], false⟩,
  ⟨key% "mid_block.attentions.0.transformer_blocks.2.attn2.to_v.weight", [1280, 2048], .float16, [], false⟩,
  ⟨key% "mid_block.attentions.0.transformer_blocks.2.ff.net.0.proj.bias", [10240], .float16, [], false⟩,
  ⟨key% "mid_block.attentions.0.transformer_blocks.2.ff.net.0.proj.weight", [10240, 1280], .float16, [], false⟩,
  ⟨key% "mid_block.attentions.0.transformer_blocks.2.ff.net.2.bias", [1280], .float16, [], false⟩,
  ⟨key% "mid_block.attentions.0.transformer_blocks.2.ff.net.2.weight", [1280, 5120], .float16, [], false⟩,
  ⟨key% "mid_block.attentions.0.transformer_blocks.2.norm1.bias", [1280], .float16, [], false⟩,
  ⟨key% "mid_block.attentions.0.transformer_blocks.2.norm1.weight", [1280], .float16, [], false⟩,
  ⟨key% "mid_block.attentions.0.transformer_blocks.2.norm2.bias", [1280], .float16, [], false⟩,
  ⟨key% "mid_block.attentions.0.transformer_blocks.2.norm2.weight", [1280], .float16, [], false⟩,
  ⟨key% "mid_block.attentions.0.transformer_blocks.2.norm3.bias", [1280], .float16, [], false⟩,
  ⟨key% "mid_block.attentions.0.transformer_blocks.2.norm3.weight", [1280], .float16, [], false⟩,
  ⟨key% "mid_block.attentions.0.transformer_blocks.3.attn1.to_k.weight", [1280, 1280], .float16, [], false⟩,
  ⟨key% "mid_block.attentions.0.transformer_blocks.3.attn1.to_out.0.bias", [1280], .float16, [], false⟩,
  ⟨key% "mid_block.attentions.0.transformer_blocks.3.attn1.to_out.0.weight", [1280, 1280], .float16, [], false⟩,
  ⟨key% "mid_block.attentions.0.transformer_blocks.3.attn1.to_q.weight", [1280, 1280], .float16, [], false⟩,
  ⟨key% "mid_block.attentions.0.transformer_blocks.3.attn1.to_v.weight", [1280, 1280], .float16, [], false⟩,
  ⟨key% "mid_block.attentions.0.transformer_blocks.3.attn2.to_k.weight", [1280, 2048], .float16, [], false⟩,
  ⟨key% "mid_block.attentions.0.transformer_blocks.3.attn2.to_out.0.bias", [1280], .float16, [], false⟩,
  ⟨key% "mid_block.attentions.0.transformer_blocks.3.attn2.to_out.0.weight", [1280, 1280], .float16, [], false⟩,
  ⟨key% "mid_block.attentions.0.transformer_blocks.3.attn2.to_q.weight", [1280, 1280], .float16, [], false⟩,
  ⟨key% "mid_block.attentions.0.transformer_blocks.3.attn2.to_v.weight", [1280, 2048], .float16, [], false⟩,
  ⟨key% "mid_block.attentions.0.transformer_blocks.3.ff.net.0.proj.bias", [10240], .float16, [], false⟩,
  ⟨key% "mid_block.attentions.0.transformer_blocks.3.ff.net.0.proj.weight", [10240, 1280], .float16, [], false⟩,
  ⟨key% "mid_block.attentions.0.transformer_blocks.3.ff.net.2.bias", [1280], .float16, [], false⟩,
  ⟨key% "mid_block.attentions.0.transformer_blocks.3.ff.net.2.weight", [1280, 5120], .float16, [], false⟩,
  ⟨key% "mid_block.attentions.0.transformer_blocks.3.norm1.bias", [1280], .float16, [], false⟩,
  ⟨key% "mid_block.attentions.0.transformer_blocks.3.norm1.weight", [1280], .float16, [], false⟩,
  ⟨key% "mid_block.attentions.0.transformer_blocks.3.norm2.bias", [1280], .float16, [], false⟩,
  ⟨key% "mid_block.attentions.0.transformer_blocks.3.norm2.weight", [1280], .float16, [], false⟩,
  ⟨key% "mid_block.attentions.0.transformer_blocks.3.norm3.bias", [1280], .float16, [], false⟩,
  ⟨key% "mid_block.attentions.0.transformer_blocks.3.norm3.weight", [1280], .float16, [], false⟩,
  ⟨key% "mid_block.attentions.0.transformer_blocks.4.attn1.to_k.weight", [1280, 1280], .float16, [], false⟩,
  ⟨key% "mid_block.attentions.0.transformer_blocks.4.attn1.to_out.0.bias", [1280], .float16, [], false⟩,
  ⟨key% "mid_block.attentions.0.transformer_blocks.4.attn1.to_out.0.weight", [1280, 1280], .float16, [], false⟩,
  ⟨key% "mid_block.attentions.0.transformer_blocks.4.attn1.to_q.weight", [1280, 1280], .float16, [], false⟩,
  ⟨key% "mid_block.attentions.0.transformer_blocks.4.attn1.to_v.weight", [1280, 1280], .float16, [], false⟩,
  ⟨key% "mid_block.attentions.0.transformer_blocks.4.attn2.to_k.weight", [1280, 2048], .float16, [], false⟩,
  ⟨key% "mid_block.attentions.0.transformer_blocks.4.attn2.to_out.0.bias", [1280], .float16, [], false⟩,
  ⟨key% "mid_block.attentions.0.transformer_blocks.4.attn2.to_out.0.weight", [1280, 1280], .float16, [], false⟩,
  ⟨key% "mid_block.attentions.0.transformer_blocks.4.attn2.to_q.weight", [1280, 1280], .float16, [], false⟩,
  ⟨key% "mid_block.attentions.0.transformer_blocks.4.attn2.to_v.weight", [1280, 2048], .float16, [], false⟩,
  ⟨key% "mid_block.attentions.0.transformer_blocks.4.ff.net.0.proj.bias", [10240], .float16, [], false⟩,
  ⟨key% "mid_block.attentions.0.transformer_blocks.4.ff.net.0.proj.weight", [10240, 1280], .float16, [], false⟩,
  ⟨key% "mid_block.attentions.0.transformer_blocks.4.ff.net.2.bias", [1280], .float16, [], false⟩,
  ⟨key% "mid_block.attentions.0.transformer_blocks.4.ff.net.2.weight", [1280, 5120], .float16, [], false⟩,
  ⟨key% "mid_block.attentions.0.transformer_blocks.4.norm1.bias", [1280], .float16, [], false⟩,
  ⟨key% "mid_block.attentions.0.transformer_blocks.4.norm1.weight", [1280], .float16, [], false⟩,
  ⟨key% "mid_block.attentions.0.transformer_blocks.4.norm2.bias", [1280], .float16, [], false⟩,
  ⟨key% "mid_block.attentions.0.transformer_blocks.4.norm2.weight", [1280], .float16, [], false⟩,
  ⟨key% "mid_block.attentions.0.transformer_blocks.4.norm3.bias", [1280], .float16, [], false⟩,
  ⟨key% "mid_block.attentions.0.transformer_blocks.4.norm3.weight", [1280], .float16, [], false⟩,
  ⟨key% "mid_block.attentions.0.transformer_blocks.5.attn1.to_k.weight", [1280, 1280], .float16, [], false⟩,
  ⟨key% "mid_block.attentions.0.transformer_blocks.5.attn1.to_out.0.bias", [1280], .float16, [], false⟩,
  ⟨key% "mid_block.attentions.0.transformer_blocks.5.attn1.to_out.0.weight", [1280, 1280], .float16, [], false⟩,
  ⟨key% "mid_block.attentions.0.transformer_blocks.5.attn1.to_q.weight", [1280, 1280], .float16, [], false⟩,
  ⟨key% "mid_block.attentions.0.transformer_blocks.5.attn1.to_v.weight", [1280, 1280], .float16, [], false⟩,
  ⟨key% "mid_block.attentions.0.transformer_blocks.5.attn2.to_k.weight", [1280, 2048], .float16, [], false⟩,
  ⟨key% "mid_block.attentions.0.transformer_blocks.5.attn2.to_out.0.bias", [1280], .float16, [], false⟩,
  ⟨key% "mid_block.attentions.0.transformer_blocks.5.attn2.to_out.0.weight", [1280, 1280], .float16, [], false⟩,
  ⟨key% "mid_block.attentions.0.transformer_blocks.5.attn2.to_q.weight", [1280, 1280], .float16, [], false⟩,
  ⟨key% "mid_block.attentions.0.transformer_blocks.5.attn2.to_v.weight", [1280, 2048], .float16, [], false⟩,
  ⟨key% "mid_block.attentions.0.transformer_blocks.5.ff.net.0.proj.bias", [10240], .float16, [], false⟩,
  ⟨key% "mid_block.attentions.0.transformer_blocks.5.ff.net.0.proj.weight", [10240, 1280], .float16, [], false⟩]
noncomputable def diffuser7 : List Entry := [
  ⟨key% "mid_block.attentions.0.transformer_blocks.5.ff.net.2.bias", [1280], .float16, [], false⟩,
  ⟨key% "mid_block.attentions.0.transformer_blocks.5.ff.net.2.weight", [1280, 5120], .float16, [], false⟩,
  ⟨key% "mid_block.attentions.0.transformer_blocks.5.norm1.bias", [1280], .float16, [], false⟩,
  ⟨key% "mid_block.attentions.0.transformer_blocks.5.norm1.weight", [1280], .float16, [], false⟩,
  ⟨key% "mid_block.attentions.0.transformer_blocks.5.norm2.bias", [1280], .float16, [], false⟩,
  ⟨key% "mid_block.attentions.0.transformer_blocks.5.norm2.weight", [1280], .float16, [], false⟩,
  ⟨key% "mid_block.attentions.0.transformer_blocks.5.norm3.bias", [1280], .float16, [], false⟩,
  ⟨key% "mid_block.attentions.0.transformer_blocks.5.norm3.weight", [1280], .float16, [], false⟩,
  ⟨key% "mid_block.attentions.0.transformer_blocks.6.attn1.to_k.weight", [1280, 1280], .float16, [], false⟩,
  ⟨key% "mid_block.attentions.0.transformer_blocks.6.attn1.to_out.0.bias", [1280], .float16, [], false⟩,
  ⟨key% "mid_block.attentions.0.transformer_blocks.6.attn1.to_out.0.weight", [1280, 1280], .float16, [], false⟩,
  ⟨key% "mid_block.attentions.0.transformer_blocks.6.attn1.to_q.weight", [1280, 1280], .float16, [], false⟩,
  ⟨key% "mid_block.attentions.0.transformer_blocks.6.attn1.to_v.weight", [1280, 1280], .float16, [], false⟩,
  ⟨key% "mid_block.attentions.0.transformer_blocks.6.attn2.to_k.weight", [1280, 2048], .float16, [], false⟩,
  ⟨key% "mid_block.attentions.0.transformer_blocks.6.attn2.to_out.0.bias", [1280], .float16, [], false⟩,
  ⟨key% "mid_block.attentions.0.transformer_blocks.6.attn2.to_out.0.weight", [1280, 1280], .float16, [], false⟩,
  ⟨key% "mid_block.attentions.0.transformer_blocks.6.attn2.to_q.weight", [1280, 1280], .float16, [], false⟩,
  ⟨key% "mid_block.attentions.0.transformer_blocks.6.attn2.to_v.weight", [1280, 2048], .float16, [], false⟩,
  ⟨key% "mid_block.attentions.0.transformer_blocks.6.ff.net.0.proj.bias", [10240], .float16, [], false⟩,
  ⟨key% "mid_block.attentions.0.transformer_blocks.6.ff.net.0.proj.weight", [10240, 1280], .float16, [], false⟩,
  ⟨key% "mid_block.attentions.0.transformer_blocks.6.ff.net.2.bias", [1280], .float16, [], false⟩,
  ⟨key% "mid_block.attentions.0.transformer_blocks.6.ff.net.2.weight", [1280, 5120], .float16, [], false⟩,
  ⟨key% "mid_block.attentions.0.transformer_blocks.6.norm1.bias", [1280], .float16, [], false⟩,
  ⟨key% "mid_block.attentions.0.transformer_blocks.6.norm1.weight", [1280], .float16, [], false⟩,
  ⟨key% "mid_block.attentions.0.transformer_blocks.6.norm2.bias", [1280], .float16, [], false⟩,
  ⟨key% "mid_block.attentions.0.transformer_blocks.6.norm2.weight", [1280], .float16, [], false⟩,
  ⟨key% "mid_block.attentions.0.transformer_blocks.6.norm3.bias", [1280], .float16, [], false⟩,
  ⟨key% "mid_block.attentions.0.transformer_blocks.6.norm3.weight", [1280], .float16, [], false⟩,
  ⟨key% "mid_block.attentions.0.transformer_blocks.7.attn1.to_k.weight", [1280, 1280], .float16, [], false⟩,
  ⟨key% "mid_block.attentions.0.transformer_blocks.7.attn1.to_out.0.bias", [1280], .float16, [], false⟩,
  ⟨key% "mid_block.attentions.0.transformer_blocks.7.attn1.to_out.0.weight", [1280, 1280], .float16, [], false⟩,
  ⟨key% "mid_block.attentions.0.transformer_blocks.7.attn1.to_q.weight", [1280, 1280], .float16, [], false⟩,
  ⟨key% "mid_block.attentions.0.transformer_blocks.7.attn1.to_v.weight", [1280, 1280], .float16, [], false⟩,
  ⟨key% "mid_block.attentions.0.transformer_blocks.7.attn2.to_k.weight", [1280, 2048], .float16, [], false⟩,
  ⟨key% "mid_block.attentions.0.transformer_blocks.7.attn2.to_out.0.bias", [1280], .float16, [], false⟩,
  ⟨key% "mid_block.attentions.0.transformer_blocks.7.attn2.to_out.0.weight", [1280, 1280], .float16, [], false⟩,
  ⟨key% "mid_block.attentions.0.transformer_blocks.7.attn2.to_q.weight", [1280, 1280], .float16, [], false⟩,
  ⟨key% "mid_block.attentions.0.transformer_blocks.7.attn2.to_v.weight", [1280, 2048], .float16, [], false⟩,
  ⟨key% "mid_block.attentions.0.transformer_blocks.7.ff.net.0.proj.bias", [10240], .float16, [], false⟩,
  ⟨key% "mid_block.attentions.0.transformer_blocks.7.ff.net.0.proj.weight", [10240, 1280], .float16, [], false⟩,
  ⟨key% "mid_block.attentions.0.transformer_blocks.7.ff.net.2.bias", [1280], .float16, [], false⟩,
  ⟨key% "mid_block.attentions.0.transformer_blocks.7.ff.net.2.weight", [1280, 5120], .float16, [], false⟩,
  ⟨key% "mid_block.attentions.0.transformer_blocks.7.norm1.bias", [1280], .float16, [], false⟩,
  ⟨key% "mid_block.attentions.0.transformer_blocks.7.norm1.weight", [1280], .float16, [], false⟩,
  ⟨key% "mid_block.attentions.0.transformer_blocks.7.norm2.bias", [1280], .float16, [], false⟩,
  ⟨key% "mid_block.attentions.0.transformer_blocks.7.norm2.weight", [1280], .float16, [], false⟩,
  ⟨key% "mid_block.attentions.0.transformer_blocks.7.norm3.bias", [1280], .float16, [], false⟩,
  ⟨key% "mid_block.attentions.0.transformer_blocks.7.norm3.weight", [1280], .float16, [], false⟩,
  ⟨key% "mid_block.attentions.0.transformer_blocks.8.attn1.to_k.weight", [1280, 1280], .float16, [], false⟩,
  ⟨key% "mid_block.attentions.0.transformer_blocks.8.attn1.to_out.0.bias", [1280], .float16, [], false⟩,
  ⟨key% "mid_block.attentions.0.transformer_blocks.8.attn1.to_out.0.weight", [1280, 1280], .float16, [], false⟩,
  ⟨key% "mid_block.attentions.0.transformer_blocks.8.attn1.to_q.weight", [1280, 1280], .float16, [], false⟩,
  ⟨key% "mid_block.attentions.0.transformer_blocks.8.attn1.to_v.weight", [1280, 1280], .float16, [], false⟩,
  ⟨key% "mid_block.attentions.0.transformer_blocks.8.attn2.to_k.weight", [1280, 2048], .float16, [], false⟩,
  ⟨key% "mid_block.attentions.0.transformer_blocks.8.attn2.to_out.0.bias", [1280], .float16, [], false⟩,
  ⟨key% "mid_block.attentions.0.transformer_blocks.8.attn2.to_out.0.weight", [1280, 1280], .float16, [], false⟩,
  ⟨key% "mid_block.attentions.0.transformer_blocks.8.attn2.to_q.weight", [1280, 1280], .float16, [], false⟩,
  ⟨key% "mid_block.attentions.0.transformer_blocks.8.attn2.to_v.weight", [1280, 2048], .float16, [], false⟩,
  ⟨key% "mid_block.attentions.0.transformer_blocks.8.ff.net.0.proj.bias", [10240], .float16, [], false⟩,
  ⟨key% "mid_block.attentions.0.transformer_blocks.8.ff.net.0.proj.weight", [10240, 1280], .float16, [], false⟩,
  ⟨key% "mid_block.attentions.0.transformer_blocks.8.ff.net.2.bias", [1280], .float16, [], false⟩,
  ⟨key% "mid_block.attentions.0.transformer_blocks.8.ff.net.2.weight", [1280, 5120], .float16, [], false⟩,
  ⟨key% "mid_block.attentions.0.transformer_blocks.8.norm1.bias", [1280], .float16, [], false⟩,
  ⟨key% "mid_block.attentions.0.transformer_blocks.8.norm1.weight", [1280], .float16, [], false⟩,
  ⟨key% "mid_block.attentions.0.transformer_blocks.8.norm2.bias", [1280], .float16, [], false⟩,
  ⟨key% "mid_block.attentions.0.transformer_blocks.8.norm2.weight", [1280], .float16, [], false⟩,
  ⟨key% "mid_block.attentions.0.transformer_blocks.8.norm3.bias", [1280], .float16, [], false⟩,
  ⟨key% "mid_block.attentions.0.transformer_blocks.8.norm3.weight", [1280], .float16, [], false⟩,
  ⟨key% "mid_block.attentions.0.transformer_blocks.9.attn1.to_k.weight", [1280, 1280], .float16, [], false⟩,
  ⟨key% "mid_block.attentions.0.transformer_blocks.9.attn1.to_out.0.bias", [1280], .float16, [], false⟩,
  ⟨key% "mid_block.attentions.0.transformer_blocks.9.attn1.to_out.0.weight", [1280, 1280], .float16, [], false⟩,
  ⟨key% "mid_block.attentions.0.transformer_blocks.9.attn1.to_q.weight", [1280, 1280], .float16, [], false⟩,
  ⟨key% "mid_block.attentions.0.transformer_blocks.9.attn1.to_v.weight", [1280, 1280], .float16, [], false⟩,
  ⟨key% "mid_block.attentions.0.transformer_blocks.9.attn2.to_k.weight", [1280, 2048], .float16, [], false⟩,
  ⟨key% "mid_block.attentions.0.transformer_blocks.9.attn2.to_out.0.bias", [1280], .float16, [], false⟩,
  ⟨key% "mid_block.attentions.0.transformer_blocks.9.attn2.to_out.0.weight", [1280, 1280], .float16, [], false⟩,
  ⟨key% "mid_block.attentions.0.transformer_blocks.9.attn2.to_q.weight", [1280, 1280], .float16, [], false⟩,
  ⟨key% "mid_block.attentions.0.transformer_blocks.9.attn2.to_v.weight", [1280, 2048], .float16, [], false⟩,
  ⟨key% "mid_block.attentions.0.transformer_blocks.9.ff.net.0.proj.bias", [10240], .float16, [], false⟩,
  ⟨key% "mid_block.attentions.0.transformer_blocks.9.ff.net.0.proj.weight", [10240, 1280], .float16, [], false⟩,
  ⟨key% "mid_block.attentions.0.transformer_blocks.9.ff.net.2.bias", [1280], .float16, [], false⟩,
  ⟨key% "mid_block.attentions.0.transformer_blocks.9.ff.net.2.weight", [1280, 5120], .float16, [], false⟩,
  ⟨key% "mid_block.attentions.0.transformer_blocks.9.norm1.bias", [1280], .float16, [], false⟩,
  ⟨key% "mid_block.attentions.0.transformer_blocks.9.norm1.weight", [1280], .float16, [], false⟩,
  ⟨key% "mid_block.attentions.0.transformer_blocks.9.norm2.bias", [1280], .float16, [], false⟩,
  ⟨key% "mid_block.attentions.0.transformer_blocks.9.norm2.weight", [1280], .float16, [], false⟩,
  ⟨key% "mid_block.attentions.0.transformer_blocks.9.norm3.bias", [1280], .float16, [], false⟩,
  ⟨key% "mid_block.attentions.0.transformer_blocks.9.norm3.weight", [1280], .float16, [], false⟩,
  ⟨key% "mid_block.resnets.0.conv1.bias", [1280], .float16, [], false⟩,
  ⟨key% "mid_block.resnets.0.conv1.weight", [1280, 1280, 3, 3], .float16, [], false⟩,
  ⟨key% "mid_block.resnets.0.conv2.bias", [1280], .float16, [], false⟩,
  ⟨key% "mid_block.resnets.0.conv2.weight", [1280, 1280, 3, 3], .float16, [], false⟩,
  ⟨key% "mid_block.resnets.0.norm1.bias", [1280], .float16, [], false⟩,
  ⟨key% "mid_block.resnets.0.norm1.weight", [1280], .float16, [], false⟩,
  ⟨key% "mid_block.resnets.0.norm2.bias", [1280], .float16, [], false⟩,
  ⟨key% "mid_block.resnets.0.norm2.weight", [1280], .float16, [], false⟩,
  ⟨key% "mid_block.resnets.0.time_emb_proj.bias", [1280], .float16, [], false⟩,
  ⟨key% "mid_block.resnets.0.time_emb_proj.weight", [1280, 1280], .float16, [], false⟩,
  ⟨key% "mid_block.resnets.1.conv1.bias", [1280], .float16, [], false⟩,
  ⟨key% "mid_block.resnets.1.conv1.weight", [1280, 1280, 3, 3], .float16, [], false⟩]
noncomputable def diffuser8 : List Entry := [
  ⟨key% "mid_block.resnets.1.conv2.bias", [1280], .float16, [], false⟩,
  ⟨key% "mid_block.resnets.1.conv2.weight", [1280, 1280, 3, 3], .float16, [], false⟩,
  ⟨key% "mid_block.resnets.1.norm1.bias", [1280], .float16, [], false⟩,
  ⟨key% "mid_block.resnets.1.norm1.weight", [1280], .float16, [], false⟩,
  ⟨key% "mid_block.resnets.1.norm2.bias", [1280], .float16, [], false⟩,
  ⟨key% "mid_block.resnets.1.norm2.weight", [1280], .float16, [], false⟩,
  ⟨key% "mid_block.resnets.1.time_emb_proj.bias", [1280], .float16, [], false⟩,
  ⟨key% "mid_block.resnets.1.time_emb_proj.weight", [1280, 1280], .float16, [], false⟩,
  ⟨key% "time_embedding.linear_1.bias", [1280], .float16, [], false⟩,
  ⟨key% "time_embedding.linear_1.weight", [1280, 320], .float16, [], false⟩,
  ⟨key% "time_embedding.linear_2.bias", [1280], .float16, [], false⟩,
  ⟨key% "time_embedding.linear_2.weight", [1280, 1280], .float16, [], false⟩,
  ⟨key% "up_blocks.0.attentions.0.norm.bias", [1280], .float16, [], false⟩,
  ⟨key% "up_blocks.0.attentions.0.norm.weight", [1280], .float16, [], false⟩,
  ⟨key% "up_blocks.0.attentions.0.proj_in.bias", [1280], .float16, [], false⟩,
  ⟨key% "up_blocks.0.attentions.0.proj_in.weight", [1280, 1280], .float16, [], false⟩,
  ⟨key% "up_blocks.0.attentions.0.proj_out.bias", [1280], .float16, [], false⟩,
  ⟨key% "up_blocks.0.attentions.0.proj_out.weight", [1280, 1280], .float16, [], false⟩,
  ⟨key% "up_blocks.0.attentions.0.transformer_blocks.0.attn1.to_k.weight", [1280, 1280], .float16, [], false⟩,
  ⟨key% "up_blocks.0.attentions.0.transformer_blocks.0.attn1.to_out.0.bias", [1280], .float16, [], false⟩,
  ⟨key% "up_blocks.0.attentions.0.transformer_blocks.0.attn1.to_out.0.weight", [1280, 1280], .float16, [], false⟩,
  ⟨key% "up_blocks.0.attentions.0.transformer_blocks.0.attn1.to_q.weight", [1280, 1280], .float16, [], false⟩,
  ⟨key% "up_blocks.0.attentions.0.transformer_blocks.0.attn1.to_v.weight", [1280, 1280], .float16, [], false⟩,
  ⟨key% "up_blocks.0.attentions.0.transformer_blocks.0.attn2.to_k.weight", [1280, 2048], .float16, [], false⟩,
  ⟨key% "up_blocks.0.attentions.0.transformer_blocks.0.attn2.to_out.0.bias", [1280], .float16, [], false⟩,
  ⟨key% "up_blocks.0.attentions.0.transformer_blocks.0.attn2.to_out.0.weight", [1280, 1280], .float16, [], false⟩,
  ⟨key% "up_blocks.0.attentions.0.transformer_blocks.0.attn2.to_q.weight", [1280, 1280], .float16, [], false⟩,
  ⟨key% "up_blocks.0.attentions.0.transformer_blocks.0.attn2.to_v.weight", [1280, 2048], .float16, [], false⟩,
  ⟨key% "up_blocks.0.attentions.0.transformer_blocks.0.ff.net.0.proj.bias", [10240], .float16, [], false⟩,
  ⟨key% "up_blocks.0.attentions.0.transformer_blocks.0.ff.net.0.proj.weight", [10240, 1280], .float16, [], false⟩,
  ⟨key% "up_blocks.0.attentions.0.transformer_blocks.0.ff.net.2.bias", [1280], .float16, [], false⟩,
  ⟨key% "up_blocks.0.attentions.0.transformer_blocks.0.ff.net.2.weight", [1280, 5120], .float16, [], false⟩,
  ⟨key% "up_blocks.0.attentions.0.transformer_blocks.0.norm1.bias", [1280], .float16, [], false⟩,
  ⟨key% "up_blocks.0.attentions.0.transformer_blocks.0.norm1.weight", [1280], .float16, [], false⟩,
  ⟨key% "up_blocks.0.attentions.0.transformer_blocks.0.norm2.bias", [1280], .float16, [], false⟩,
  ⟨key% "up_blocks.0.attentions.0.transformer_blocks.0.norm2.weight", [1280], .float16, [], false⟩,
  ⟨key% "up_blocks.0.attentions.0.transformer_blocks.0.norm3.bias", [1280], .float16, [], false⟩,
  ⟨key% "up_blocks.0.attentions.0.transformer_blocks.0.norm3.weight", [1280], .float16, [], false⟩,
  ⟨key% "up_blocks.0.attentions.0.transformer_blocks.1.attn1.to_k.weight", [1280, 1280], .float16, [], false⟩,
  ⟨key% "up_blocks.0.attentions.0.transformer_blocks.1.attn1.to_out.0.bias", [1280], .float16, [], false⟩,
  ⟨key% "up_blocks.0.attentions.0.transformer_blocks.1.attn1.to_out.0.weight", [1280, 1280], .float16, [], false⟩,
  ⟨key% "up_blocks.0.attentions.0.transformer_blocks.1.attn1.to_q.weight", [1280, 1280], .float16, [], false⟩,
  ⟨key% "up_blocks.0.attentions.0.transformer_blocks.1.attn1.to_v.weight", [1280, 1280], .float16, [], false⟩,
  ⟨key% "up_blocks.0.attentions.0.transformer_blocks.1.attn2.to_k.weight", [1280, 2048], .float16, [], false⟩,
  ⟨key% "up_blocks.0.attentions.0.transformer_blocks.1.attn2.to_out.0.bias", [1280], .float16, [], false⟩,
  ⟨key% "up_blocks.0.attentions.0.transformer_blocks.1.attn2.to_out.0.weight", [1280, 1280], .float16, [], false⟩,
  ⟨key% "up_blocks.0.attentions.0.transformer_blocks.1.attn2.to_q.weight", [1280, 1280], .float16, [], false⟩,
  ⟨key% "up_blocks.0.attentions.0.transformer_blocks.1.attn2.to_v.weight", [1280, 2048], .float16, [], false⟩,
  ⟨key% "up_blocks.0.attentions.0.transformer_blocks.1.ff.net.0.proj.bias", [10240], .float16, [], false⟩,
  ⟨key% "up_blocks.0.attentions.0.transformer_blocks.1.ff.net.0.proj.weight", [10240, 1280], .float16, [], false⟩,
  ⟨key% "up_blocks.0.attentions.0.transformer_blocks.1.ff.net.2.bias", [1280], .float16, [], false⟩,
  ⟨key% "up_blocks.0.attentions.0.transformer_blocks.1.ff.net.2.weight", [1280, 5120], .float16, [], false⟩,
  ⟨key% "up_blocks.0.attentions.0.transformer_blocks.1.norm1.bias", [1280], .float16, [], false⟩,
  ⟨key% "up_blocks.0.attentions.0.transformer_blocks.1.norm1.weight", [1280], .float16, [], false⟩,
  ⟨key% "up_blocks.0.attentions.0.transformer_blocks.1.norm2.bias", [1280], .float16, [], false⟩,
  ⟨key% "up_blocks.0.attentions.0.transformer_blocks.1.norm2.weight", [1280], .float16, [], false⟩,
  ⟨key% "up_blocks.0.attentions.0.transformer_blocks.1.norm3.bias", [1280], .float16, [], false⟩,
  ⟨key% "up_blocks.0.attentions.0.transformer_blocks.1.norm3.weight", [1280], .float16, [], false⟩,
  ⟨key% "up_blocks.0.attentions.0.transformer_blocks.2.attn1.to_k.weight", [1280, 1280], .float16, [], false⟩,
  ⟨key% "up_blocks.0.attentions.0.transformer_blocks.2.attn1.to_out.0.bias", [1280], .float16, [], false⟩,
  ⟨key% "up_blocks.0.attentions.0.transformer_blocks.2.attn1.to_out.0.weight", [1280, 1280], .float16, [], false⟩,
  ⟨key% "up_blocks.0.attentions.0.transformer_blocks.2.attn1.to_q.weight", [1280, 1280], .float16, [], false⟩,
  ⟨key% "up_blocks.0.attentions.0.transformer_blocks.2.attn1.to_v.weight", [1280, 1280], .float16, [], false⟩,
  ⟨key% "up_blocks.0.attentions.0.transformer_blocks.2.attn2.to_k.weight", [1280, 2048], .float16, [], false⟩,
  ⟨key% "up_blocks.0.attentions.0.transformer_blocks.2.attn2.to_out.0.bias", [1280], .float16, [], false⟩,
  ⟨key% "up_blocks.0.attentions.0.transformer_blocks.2.attn2.to_out.0.weight", [1280, 1280], .float16, [], false⟩,
  ⟨key% "up_blocks.0.attentions.0.transformer_blocks.2.attn2.to_q.weight", [1280, 1280], .float16, [], false⟩,
  ⟨key% "up_blocks.0.attentions.0.transformer_blocks.2.attn2.to_v.weight", [1280, 2048], .float16, [], false⟩,
  ⟨key% "up_blocks.0.attentions.0.transformer_blocks.2.ff.net.0.proj.bias", [10240], .float16, [], false⟩,
  ⟨key% "up_blocks.0.attentions.0.transformer_blocks.2.ff.net.0.proj.weight", [10240, 1280], .float16, [], false⟩,
  ⟨key% "up_blocks.0.attentions.0.transformer_blocks.2.ff.net.2.bias", [1280], .float16, [], false⟩,
  ⟨key% "up_blocks.0.attentions.0.transformer_blocks.2.ff.net.2.weight", [1280, 5120], .float16, [], false⟩,
  ⟨key% "up_blocks.0.attentions.0.transformer_blocks.2.norm1.bias", [1280], .float16, [], false⟩,
  ⟨key% "up_blocks.0.attentions.0.transformer_blocks.2.norm1.weight", [1280], .float16, [], false⟩,
  ⟨key% "up_blocks.0.attentions.0.transformer_blocks.2.norm2.bias", [1280], .float16, [], false⟩,
  ⟨key% "up_blocks.0.attentions.0.transformer_blocks.2.norm2.weight", [1280], .float16, [], false⟩,
  ⟨key% "up_blocks.0.attentions.0.transformer_blocks.2.norm3.bias", [1280], .float16, [], false⟩,
  ⟨key% "up_blocks.0.attentions.0.transformer_blocks.2.norm3.weight", [1280], .float16, [], false⟩,
  ⟨key% "up_blocks.0.attentions.0.transformer_blocks.3.attn1.to_k.weight", [1280, 1280], .float16, [], false⟩,
  ⟨key% "up_blocks.0.attentions.0.transformer_blocks.3.attn1.to_out.0.bias", [1280], .float16, [], false⟩,
  ⟨key% "up_blocks.0.attentions.0.transformer_blocks.3.attn1.to_out.0.weight", [1280, 1280], .float16, [], false⟩,
  ⟨key% "up_blocks.0.attentions.0.transformer_blocks.3.attn1.to_q.weight", [1280, 1280], .float16, [], false⟩,
  ⟨key% "up_blocks.0.attentions.0.transformer_blocks.3.attn1.to_v.weight", [1280, 1280], .float16, [], false⟩,
  ⟨key% "up_blocks.0.attentions.0.transformer_blocks.3.attn2.to_k.weight", [1280, 2048], .float16, [], false⟩,
  ⟨key% "up_blocks.0.attentions.0.transformer_blocks.3.attn2.to_out.0.bias", [1280], .float16, [], false⟩,
  ⟨key% "up_blocks.0.attentions.0.transformer_blocks.3.attn2.to_out.0.weight", [1280, 1280], .float16, [], false⟩,
  ⟨key% "up_blocks.0.attentions.0.transformer_blocks.3.attn2.to_q.weight", [1280, 1280], .float16, [], false⟩,
  ⟨key% "up_blocks.0.attentions.0.transformer_blocks.3.attn2.to_v.weight", [1280, 2048], .float16, [], false⟩,
  ⟨key% "up_blocks.0.attentions.0.transformer_blocks.3.ff.net.0.proj.bias", [10240], .float16, [], false⟩,
  ⟨key% "up_blocks.0.attentions.0.transformer_blocks.3.ff.net.0.proj.weight", [10240, 1280], .float16, [], false⟩,
  ⟨key% "up_blocks.0.attentions.0.transformer_blocks.3.ff.net.2.bias", [1280], .float16, [], false⟩,
  ⟨key% "up_blocks.0.attentions.0.transformer_blocks.3.ff.net.2.weight", [1280, 5120], .float16, [], false⟩,
  ⟨key% "up_blocks.0.attentions.0.transformer_blocks.3.norm1.bias", [1280], .float16, [], false⟩,
  ⟨key% "up_blocks.0.attentions.0.transformer_blocks.3.norm1.weight", [1280], .float16, [], false⟩,
  ⟨key% "up_blocks.0.attentions.0.transformer_blocks.3.norm2.bias", [1280], .float16, [], false⟩,
  ⟨key% "up_blocks.0.attentions.0.transformer_blocks.3.norm2.weight", [1280], .float16, [], false⟩,
  ⟨key% "up_blocks.0.attentions.0.transformer_blocks.3.norm3.bias", [1280], .float16, [], false⟩,
  ⟨key% "up_blocks.0.attentions.0.transformer_blocks.3.norm3.weight", [1280], .float16, [], false⟩,
  ⟨key% "up_blocks.0.attentions.0.transformer_blocks.4.attn1.to_k.weight", [1280, 1280], .float16, [], false⟩,
  ⟨key% "up_blocks.0.attentions.0.transformer_blocks.4.attn1.to_out.0.bias", [1280], .float16, [], false⟩]
noncomputable def diffuser9 : List Entry := [
  ⟨key% "up_blocks.0.attentions.0.transformer_blocks.4.attn1.to_out.0.weight", [1280, 1280], .float16, [], false⟩,
  ⟨key% "up_blocks.0.attentions.0.transformer_blocks.4.attn1.to_q.weight", [1280, 1280], .float16, [], false⟩,
  ⟨key% "up_blocks.0.attentions.0.transformer_blocks.4.attn1.to_v.weight", [1280, 1280], .float16, [], false⟩,
  ⟨key% "up_blocks.0.attentions.0.transformer_blocks.4.attn2.to_k.weight", [1280, 2048], .float16, [], false⟩,
  ⟨key% "up_blocks.0.attentions.0.transformer_blocks.4.attn2.to_out.0.bias", [1280], .float16, [], false⟩,
  ⟨key% "up_blocks.0.attentions.0.transformer_blocks.4.attn2.to_out.0.weight", [1280, 1280], .float16, [], false⟩,
  ⟨key% "up_blocks.0.attentions.0.transformer_blocks.4.attn2.to_q.weight", [1280, 1280], .float16, [], false⟩,
  ⟨key% "up_blocks.0.attentions.0.transformer_blocks.4.attn2.to_v.weight", [1280, 2048], .float16, [], false⟩,
  ⟨key% "up_blocks.0.attentions.0.transformer_blocks.4.ff.net.0.proj.bias", [10240], .float16, [], false⟩,
  ⟨key% "up_blocks.0.attentions.0.transformer_blocks.4.ff.net.0.proj.weight", [10240, 1280], .float16, [], false⟩,
  ⟨key% "up_blocks.0.attentions.0.transformer_blocks.4.ff.net.2.bias", [1280], .float16, [], false⟩,
  ⟨key% "up_blocks.0.attentions.0.transformer_blocks.4.ff.net.2.weight", [1280, 5120], .float16, [], false⟩,
  ⟨key% "up_blocks.0.attentions.0.transformer_blocks.4.norm1.bias", [1280], .float16, [], false⟩,
  ⟨key% "up_blocks.0.attentions.0.transformer_blocks.4.norm1.weight", [1280], .float16, [], false⟩,
  ⟨key% "up_blocks.0.attentions.0.transformer_blocks.4.norm2.bias", [1280], .float16, [], false⟩,
  ⟨key% "up_blocks.0.attentions.0.transformer_blocks.4.norm2.weight", [1280], .float16, [], false⟩,
  ⟨key% "up_blocks.0.attentions.0.transformer_blocks.4.norm3.bias", [1280], .float16, [], false⟩,
  ⟨key% "up_blocks.0.attentions.0.transformer_blocks.4.norm3.weight", [1280], .float16, [], false⟩,
  ⟨key% "up_blocks.0.attentions.0.transformer_blocks.5.attn1.to_k.weight", [1280, 1280], .float16, [], false⟩,
  ⟨key% "up_blocks.0.attentions.0.transformer_blocks.5.attn1.to_out.0.bias", [1280], .float16, [], false⟩,
  ⟨key% "up_blocks.0.attentions.0.transformer_blocks.5.attn1.to_out.0.weight", [1280, 1280], .float16, [], false⟩,
  ⟨key% "up_blocks.0.attentions.0.transformer_blocks.5.attn1.to_q.weight", [1280, 1280], .float16, [], false⟩,
  ⟨key% "up_blocks.0.attentions.0.transformer_blocks.5.attn1.to_v.weight", [1280, 1280], .float16, [], false⟩,
  ⟨key% "up_blocks.0.attentions.0.transformer_blocks.5.attn2.to_k.weight", [1280, 2048], .float16, [], false⟩,
  ⟨key% "up_blocks.0.attentions.0.transformer_blocks.5.attn2.to_out.0.bias", [1280], .float16, [], false⟩,
  ⟨key% "up_blocks.0.attentions.0.transformer_blocks.5.attn2.to_out.0.weight", [1280, 1280], .float16, [], false⟩,
  ⟨key% "up_blocks.0.attentions.0.transformer_blocks.5.attn2.to_q.weight", [1280, 1280], .float16, [], false⟩,
  ⟨key% "up_blocks.0.attentions.0.transformer_blocks.5.attn2.to_v.weight", [1280, 2048], .float16, [], false⟩,
  ⟨key% "up_blocks.0.attentions.0.transformer_blocks.5.ff.net.0.proj.bias", [10240], .float16, [], false⟩,
  ⟨key% "up_blocks.0.attentions.0.transformer_blocks.5.ff.net.0.proj.weight", [10240, 1280], .float16, [], false⟩,
  ⟨key% "up_blocks.0.attentions.0.transformer_blocks.5.ff.net.2.bias", [1280], .float16, [], false⟩,
  ⟨key% "up_blocks.0.attentions.0.transformer_blocks.5.ff.net.2.weight", [1280, 5120], .float16, [], false⟩,
  ⟨key% "up_blocks.0.attentions.0.transformer_blocks.5.norm1.bias", [1280], .float16, [], false⟩,
  ⟨key% "up_blocks.0.attentions.0.transformer_blocks.5.norm1.weight", [1280], .float16, [], false⟩,
  ⟨key% "up_blocks.0.attentions.0.transformer_blocks.5.norm2.bias", [1280], .float16, [], false⟩,
  ⟨key% "up_blocks.0.attentions.0.transformer_blocks.5.norm2.weight", [1280], .float16, [], false⟩,
  ⟨key% "up_blocks.0.attentions.0.transformer_blocks.5.norm3.bias", [1280], .float16, [], false⟩,
  ⟨key% "up_blocks.0.attentions.0.transformer_blocks.5.norm3.weight", [1280], .float16, [], false⟩,
  ⟨key% "up_blocks.0.attentions.0.transformer_blocks.6.attn1.to_k.weight", [1280, 1280], .float16, [], false⟩,
  ⟨key% "up_blocks.0.attentions.0.transformer_blocks.6.attn1.to_out.0.bias", [1280], .float16, [], false⟩,
  ⟨key% "up_blocks.0.attentions.0.transformer_blocks.6.attn1.to_out.0.weight", [1280, 1280], .float16, [], false⟩,
  ⟨key% "up_blocks.0.attentions.0.transformer_blocks.6.attn1.to_q.weight", [1280, 1280], .float16, [], false⟩,
  ⟨key% "up_blocks.0.attentions.0.transformer_blocks.6.attn1.to_v.weight", [1280, 1280], .float16, [], false⟩,
  ⟨key% "up_blocks.0.attentions.0.transformer_blocks.6.attn2.to_k.weight", [1280, 2048], .float16, [], false⟩,
  ⟨key% "up_blocks.0.attentions.0.transformer_blocks.6.attn2.to_out.0.bias", [1280], .float16, [], false⟩,
  ⟨key% "up_blocks.0.attentions.0.transformer_blocks.6.attn2.to_out.0.weight", [1280, 1280], .float16, [], false⟩,
  ⟨key% "up_blocks.0.attentions.0.transformer_blocks.6.attn2.to_q.weight", [1280, 1280], .float16, [], false⟩,
  ⟨key% "up_blocks.0.attentions.0.transformer_blocks.6.attn2.to_v.weight", [1280, 2048], .float16, [], false⟩,
  ⟨key% "up_blocks.0.attentions.0.transformer_blocks.6.ff.net.0.proj.bias", [10240], .float16, [], false⟩,
  ⟨key% "up_blocks.0.attentions.0.transformer_blocks.6.ff.net.0.proj.weight", [10240, 1280], .float16, [], false⟩,
  ⟨key% "up_blocks.0.attentions.0.transformer_blocks.6.ff.net.2.bias", [1280], .float16, [], false⟩,
  ⟨key% "up_blocks.0.attentions.0.transformer_blocks.6.ff.net.2.weight", [1280, 5120], .float16, [], false⟩,
  ⟨key% "up_blocks.0.attentions.0.transformer_blocks.6.norm1.bias", [1280], .float16, [], false⟩,
  ⟨key% "up_blocks.0.attentions.0.transformer_blocks.6.norm1.weight", [1280], .float16, [], false⟩,
  ⟨key% "up_blocks.0.attentions.0.transformer_blocks.6.norm2.bias", [1280], .float16, [], false⟩,
  ⟨key% "up_blocks.0.attentions.0.transformer_blocks.6.norm2.weight", [1280], .float16, [], false⟩,
  ⟨key% "up_blocks.0.attentions.0.transformer_blocks.6.norm3.bias", [1280], .float16, [], false⟩,
  ⟨key% "up_blocks.0.attentions.0.transformer_blocks.6.norm3.weight", [1280], .float16, [], false⟩,
  ⟨key% "up_blocks.0.attentions.0.transformer_blocks.7.attn1.to_k.weight", [1280, 1280], .float16, [], false⟩,
  ⟨key% "up_blocks.0.attentions.0.transformer_blocks.7.attn1.to_out.0.bias", [1280], .float16, [], false⟩,
  ⟨key% "up_blocks.0.attentions.0.transformer_blocks.7.attn1.to_out.0.weight", [1280, 1280], .float16, [], false⟩,
  ⟨key% "up_blocks.0.attentions.0.transformer_blocks.7.attn1.to_q.weight", [1280, 1280], .float16, [], false⟩,
  ⟨key% "up_blocks.0.attentions.0.transformer_blocks.7.attn1.to_v.weight", [1280, 1280], .float16, [], false⟩,
  ⟨key% "up_blocks.0.attentions.0.transformer_blocks.7.attn2.to_k.weight", [1280, 2048], .float16, [], false⟩,
  ⟨key% "up_blocks.0.attentions.0.transformer_blocks.7.attn2.to_out.0.bias", [1280], .float16, [], false⟩,
  ⟨key% "up_blocks.0.attentions.0.transformer_blocks.7.attn2.to_out.0.weight", [1280, 1280], .float16, [], false⟩,
  ⟨key% "up_blocks.0.attentions.0.transformer_blocks.7.attn2.to_q.weight", [1280, 1280], .float16, [], false⟩,
  ⟨key% "up_blocks.0.attentions.0.transformer_blocks.7.attn2.to_v.weight", [1280, 2048], .float16, [], false⟩,
  ⟨key% "up_blocks.0.attentions.0.transformer_blocks.7.ff.net.0.proj.bias", [10240], .float16, [], false⟩,
  ⟨key% "up_blocks.0.attentions.0.transformer_blocks.7.ff.net.0.proj.weight", [10240, 1280], .float16, [], false⟩,
  ⟨key% "up_blocks.0.attentions.0.transformer_blocks.7.ff.net.2.bias", [1280], .float16, [], false⟩,
  ⟨key% "up_blocks.0.attentions.0.transformer_blocks.7.ff.net.2.weight", [1280, 5120], .float16, [], false⟩,
  ⟨key% "up_blocks.0.attentions.0.transformer_blocks.7.norm1.bias", [1280], .float16, [], false⟩,
  ⟨key% "up_blocks.0.attentions.0.transformer_blocks.7.norm1.weight", [1280], .float16, [], false⟩,
  ⟨key% "up_blocks.0.attentions.0.transformer_blocks.7.norm2.bias", [1280], .float16, [], false⟩,
  ⟨key% "up_blocks.0.attentions.0.transformer_blocks.7.norm2.weight", [1280], .float16, [], false⟩,
  ⟨key% "up_blocks.0.attentions.0.transformer_blocks.7.norm3.bias", [1280], .float16, [], false⟩,
  ⟨key% "up_blocks.0.attentions.0.transformer_blocks.7.norm3.weight", [1280], .float16, [], false⟩,
  ⟨key% "up_blocks.0.attentions.0.transformer_blocks.8.attn1.to_k.weight", [1280, 1280], .float16, [], false⟩,
  ⟨key% "up_blocks.0.attentions.0.transformer_blocks.8.attn1.to_out.0.bias", [1280], .float16, [], false⟩,
  ⟨key% "up_blocks.0.attentions.0.transformer_blocks.8.attn1.to_out.0.weight", [1280, 1280], .float16, [], false⟩,
  ⟨key% "up_blocks.0.attentions.0.transformer_blocks.8.attn1.to_q.weight", [1280, 1280], .float16, [], false⟩,
  ⟨key% "up_blocks.0.attentions.0.transformer_blocks.8.attn1.to_v.weight", [1280, 1280], .float16, [], false⟩,
  ⟨key% "up_blocks.0.attentions.0.transformer_blocks.8.attn2.to_k.weight", [1280, 2048], .float16, [], false⟩,
  ⟨key% "up_blocks.0.attentions.0.transformer_blocks.8.attn2.to_out.0.bias", [1280], .float16, [], false⟩,
  ⟨key% "up_blocks.0.attentions.0.transformer_blocks.8.attn2.to_out.0.weight", [1280, 1280], .float16, [], false⟩,
  ⟨key% "up_blocks.0.attentions.0.transformer_blocks.8.attn2.to_q.weight", [1280, 1280], .float16, [], false⟩,
  ⟨key% "up_blocks.0.attentions.0.transformer_blocks.8.attn2.to_v.weight", [1280, 2048], .float16, [], false⟩,
  ⟨key% "up_blocks.0.attentions.0.transformer_blocks.8.ff.net.0.proj.bias", [10240], .float16, [], false⟩,
  ⟨key% "up_blocks.0.attentions.0.transformer_blocks.8.ff.net.0.proj.weight", [10240, 1280], .float16, [], false⟩,
  ⟨key% "up_blocks.0.attentions.0.transformer_blocks.8.ff.net.2.bias", [1280], .float16, [], false⟩,
  ⟨key% "up_blocks.0.attentions.0.transformer_blocks.8.ff.net.2.weight", [1280, 5120], .float16, [], false⟩,
  ⟨key% "up_blocks.0.attentions.0.transformer_blocks.8.norm1.bias", [1280], .float16, [], false⟩,
  ⟨key% "up_blocks.0.attentions.0.transformer_blocks.8.norm1.weight", [1280], .float16, [], false⟩,
  ⟨key% "up_blocks.0.attentions.0.transformer_blocks.8.norm2.bias", [1280], .float16, [], false⟩,
  ⟨key% "up_blocks.0.attentions.0.transformer_blocks.8.norm2.weight", [1280], .float16, [], false⟩,
  ⟨key% "up_blocks.0.attentions.0.transformer_blocks.8.norm3.bias", [1280], .float16, [], false⟩,
  ⟨key% "up_blocks.0.attentions.0.transformer_blocks.8.norm3.weight", [1280], .float16, [], false⟩,
  ⟨key% "up_blocks.0.attentions.0.transformer_blocks.9.attn1.to_k.weight", [1280, 1280], .float16, [], false⟩,
  ⟨key% "up_blocks.0.attentions.0.transformer_blocks.9.attn1.to_out.0.bias", [1280], .float16, [], false⟩]
noncomputable def diffuser10 : List Entry := [
  ⟨key% "up_blocks.0.attentions.0.transformer_blocks.9.attn1.to_out.0.weight", [1280, 1280], .float16, [], false⟩,
  ⟨key% "up_blocks.0.attentions.0.transformer_blocks.9.attn1.to_q.weight", [1280, 1280], .float16, [], false⟩,
  ⟨key% "up_blocks.0.attentions.0.transformer_blocks.9.attn1.to_v.weight", [1280, 1280], .float16, [], false⟩,
  ⟨key% "up_blocks.0.attentions.0.transformer_blocks.9.attn2.to_k.weight", [1280, 2048], .float16, [], false⟩,
  ⟨key% "up_blocks.0.attentions.0.transformer_blocks.9.attn2.to_out.0.bias", [1280], .float16, [], false⟩,
  ⟨key% "up_blocks.0.attentions.0.transformer_blocks.9.attn2.to_out.0.weight", [1280, 1280], .float16, [], false⟩,
  ⟨key% "up_blocks.0.attentions.0.transformer_blocks.9.attn2.to_q.weight", [1280, 1280], .float16, [], false⟩,
  ⟨key% "up_blocks.0.attentions.0.transformer_blocks.9.attn2.to_v.weight", [1280, 2048], .float16, [], false⟩,
  ⟨key% "up_blocks.0.attentions.0.transformer_blocks.9.ff.net.0.proj.bias", [10240], .float16, [], false⟩,
  ⟨key% "up_blocks.0.attentions.0.transformer_blocks.9.ff.net.0.proj.weight", [10240, 1280], .float16, [], false⟩,
  ⟨key% "up_blocks.0.attentions.0.transformer_blocks.9.ff.net.2.bias", [1280], .float16, [], false⟩,
  ⟨key% "up_blocks.0.attentions.0.transformer_blocks.9.ff.net.2.weight", [1280, 5120], .float16, [], false⟩,
  ⟨key% "up_blocks.0.attentions.0.transformer_blocks.9.norm1.bias", [1280], .float16, [], false⟩,
  ⟨key% "up_blocks.0.attentions.0.transformer_blocks.9.norm1.weight", [1280], .float16, [], false⟩,
  ⟨key% "up_blocks.0.attentions.0.transformer_blocks.9.norm2.bias", [1280], .float16, [], false⟩,
  ⟨key% "up_blocks.0.attentions.0.transformer_blocks.9.norm2.weight", [1280], .float16, [], false⟩,
  ⟨key% "up_blocks.0.attentions.0.transformer_blocks.9.norm3.bias", [1280], .float16, [], false⟩,
  ⟨key% "up_blocks.0.attentions.0.transformer_blocks.9.norm3.weight", [1280], .float16, [], false⟩,
  ⟨key% "up_blocks.0.attentions.1.norm.bias", [1280], .float16, [], false⟩,
  ⟨key% "up_blocks.0.attentions.1.norm.weight", [1280], .float16, [], false⟩,
  ⟨key% "up_blocks.0.attentions.1.proj_in.bias", [1280], .float16, [], false⟩,
  ⟨key% "up_blocks.0.attentions.1.proj_in.weight", [1280, 1280], .float16, [], false⟩,
  ⟨key% "up_blocks.0.attentions.1.proj_out.bias", [1280], .float16, [], false⟩,
  ⟨key% "up_blocks.0.attentions.1.proj_out.weight", [1280, 1280], .float16, [], false⟩,
  ⟨key% "up_blocks.0.attentions.1.transformer_blocks.0.attn1.to_k.weight", [1280, 1280], .float16, [], false⟩,
  ⟨key% "up_blocks.0.attentions.1.transformer_blocks.0.attn1.to_out.0.bias", [1280], .float16, [], false⟩,
  ⟨key% "up_blocks.0.attentions.1.transformer_blocks.0.attn1.to_out.0.weight", [1280, 1280], .float16, [], false⟩,
  ⟨key% "up_blocks.0.attentions.1.transformer_blocks.0.attn1.to_q.weight", [1280, 1280], .float16, [], false⟩,
  ⟨key% "up_blocks.0.attentions.1.transformer_blocks.0.attn1.to_v.weight", [1280, 1280], .float16, [], false⟩,
  ⟨key% "up_blocks.0.attentions.1.transformer_blocks.0.attn2.to_k.weight", [1280, 2048], .float16, [], false⟩,
  ⟨key% "up_blocks.0.attentions.1.transformer_blocks.0.attn2.to_out.0.bias", [1280], .float16, [], false⟩,
  ⟨key% "up_blocks.0.attentions.1.transformer_blocks.0.attn2.to_out.0.weight", [1280, 1280], .float16, [], false⟩,
  ⟨key% "up_blocks.0.attentions.1.transformer_blocks.0.attn2.to_q.weight", [1280, 1280], .float16, [], false⟩,
  ⟨key% "up_blocks.0.attentions.1.transformer_blocks.0.attn2.to_v.weight", [1280, 2048], .float16, [], false⟩,
  ⟨key% "up_blocks.0.attentions.1.transformer_blocks.0.ff.net.0.proj.bias", [10240], .float16, [], false⟩,
  ⟨key% "up_blocks.0.attentions.1.transformer_blocks.0.ff.net.0.proj.weight", [10240, 1280], .float16, [], false⟩,
  ⟨key% "up_blocks.0.attentions.1.transformer_blocks.0.ff.net.2.bias", [1280], .float16, [], false⟩,
  ⟨key% "up_blocks.0.attentions.1.transformer_blocks.0.ff.net.2.weight", [1280, 5120], .float16, [], false⟩,
  ⟨key% "up_blocks.0.attentions.1.transformer_blocks.0.norm1.bias", [1280], .float16, [], false⟩,
  ⟨key% "up_blocks.0.attentions.1.transformer_blocks.0.norm1.weight", [1280], .float16, [], false⟩,
  ⟨key% "up_blocks.0.attentions.1.transformer_blocks.0.norm2.bias", [1280], .float16, [], false⟩,
  ⟨key% "up_blocks.0.attentions.1.transformer_blocks.0.norm2.weight", [1280], .float16, [], false⟩,
  ⟨key% "up_blocks.0.attentions.1.transformer_blocks.0.norm3.bias", [1280], .float16, [], false⟩,
  ⟨key% "up_blocks.0.attentions.1.transformer_blocks.0.norm3.weight", [1280], .float16, [], false⟩,
  ⟨key% "up_blocks.0.attentions.1.transformer_blocks.1.attn1.to_k.weight", [1280, 1280], .float16, [], false⟩,
  ⟨key% "up_blocks.0.attentions.1.transformer_blocks.1.attn1.to_out.0.bias", [1280], .float16, [], false⟩,
  ⟨key% "up_blocks.0.attentions.1.transformer_blocks.1.attn1.to_out.0.weight", [1280, 1280], .float16, [], false⟩,
  ⟨key% "up_blocks.0.attentions.1.transformer_blocks.1.attn1.to_q.weight", [1280, 1280], .float16, [], false⟩,
  ⟨key% "up_blocks.0.attentions.1.transformer_blocks.1.attn1.to_v.weight", [1280, 1280], .float16, [], false⟩,
  ⟨key% "up_blocks.0.attentions.1.transformer_blocks.1.attn2.to_k.weight", [1280, 2048], .float16, [], false⟩,
  ⟨key% "up_blocks.0.attentions.1.transformer_blocks.1.attn2.to_out.0.bias", [1280], .float16, [], false⟩,
  ⟨key% "up_blocks.0.attentions.1.transformer_blocks.1.attn2.to_out.0.weight", [1280, 1280], .float16, [], false⟩,
  ⟨key% "up_blocks.0.attentions.1.transformer_blocks.1.attn2.to_q.weight", [1280, 1280], .float16, [], false⟩,
  ⟨key% "up_blocks.0.attentions.1.transformer_blocks.1.attn2.to_v.weight", [1280, 2048], .float16, [], false⟩,
  ⟨key% "up_blocks.0.attentions.1.transformer_blocks.1.ff.net.0.proj.bias", [10240], .float16, [], false⟩,
  ⟨key% "up_blocks.0.attentions.1.transformer_blocks.1.ff.net.0.proj.weight", [10240, 1280], .float16, [], false⟩,
  ⟨key% "up_blocks.0.attentions.1.transformer_blocks.1.ff.net.2.bias", [1280], .float16, [], false⟩,
  ⟨key% "up_blocks.0.attentions.1.transformer_blocks.1.ff.net.2.weight", [1280, 5120], .float16, [], false⟩,
  ⟨key% "up_blocks.0.attentions.1.transformer_blocks.1.norm1.bias", [1280], .float16, [], false⟩,
  ⟨key% "up_blocks.0.attentions.1.transformer_blocks.1.norm1.weight", [1280], .float16, [], false⟩,
  ⟨key% "up_blocks.0.attentions.1.transformer_blocks.1.norm2.bias", [1280], .float16, [], false⟩,
  ⟨key% "up_blocks.0.attentions.1.transformer_blocks.1.norm2.weight", [1280], .float16, [], false⟩,
  ⟨key% "up_blocks.0.attentions.1.transformer_blocks.1.norm3.bias", [1280], .float16, [], false⟩,
  ⟨key% "up_blocks.0.attentions.1.transformer_blocks.1.norm3.weight", [1280], .float16, [], false⟩,
  ⟨key% "up_blocks.0.attentions.1.transformer_blocks.2.attn1.to_k.weight", [1280, 1280], .float16, [], false⟩,
  ⟨key% "up_blocks.0.attentions.1.transformer_blocks.2.attn1.to_out.0.bias", [1280], .float16, [], false⟩,
  ⟨key% "up_blocks.0.attentions.1.transformer_blocks.2.attn1.to_out.0.weight", [1280, 1280], .float16, [], false⟩,
  ⟨key% "up_blocks.0.attentions.1.transformer_blocks.2.attn1.to_q.weight", [1280, 1280], .float16, [], false⟩,
  ⟨key% "up_blocks.0.attentions.1.transformer_blocks.2.attn1.to_v.weight", [1280, 1280], .float16, [], false⟩,
  ⟨key% "up_blocks.0.attentions.1.transformer_blocks.2.attn2.to_k.weight", [1280, 2048], .float16, [], false⟩,
  ⟨key% "up_blocks.0.attentions.1.transformer_blocks.2.attn2.to_out.0.bias", [1280], .float16, [], false⟩,
  ⟨key% "up_blocks.0.attentions.1.transformer_blocks.2.attn2.to_out.0.weight", [1280, 1280], .float16, [], false⟩,
  ⟨key% "up_blocks.0.attentions.1.transformer_blocks.2.attn2.to_q.weight", [1280, 1280], .float16, [], false⟩,
  ⟨key% "up_blocks.0.attentions.1.transformer_blocks.2.attn2.to_v.weight", [1280, 2048], .float16, [], false⟩,
  ⟨key% "up_blocks.0.attentions.1.transformer_blocks.2.ff.net.0.proj.bias", [10240], .float16, [], false⟩,
  ⟨key% "up_blocks.0.attentions.1.transformer_blocks.2.ff.net.0.proj.weight", [10240, 1280], .float16, [], false⟩,
  ⟨key% "up_blocks.0.attentions.1.transformer_blocks.2.ff.net.2.bias", [1280], .float16, [], false⟩,
  ⟨key% "up_blocks.0.attentions.1.transformer_blocks.2.ff.net.2.weight", [1280, 5120], .float16, [], false⟩,
  ⟨key% "up_blocks.0.attentions.1.transformer_blocks.2.norm1.bias", [1280], .float16, [], false⟩,
  ⟨key% "up_blocks.0.attentions.1.transformer_blocks.2.norm1.weight", [1280], .float16, [], false⟩,
  ⟨key% "up_blocks.0.attentions.1.transformer_blocks.2.norm2.bias", [1280], .float16, [], false⟩,
  ⟨key% "up_blocks.0.attentions.1.transformer_blocks.2.norm2.weight", [1280], .float16, [], false⟩,
  ⟨key% "up_blocks.0.attentions.1.transformer_blocks.2.norm3.bias", [1280], .float16, [], false⟩,
  ⟨key% "up_blocks.0.attentions.1.transformer_blocks.2.norm3.weight", [1280], .float16, [], false⟩,
  ⟨key% "up_blocks.0.attentions.1.transformer_blocks.3.attn1.to_k.weight", [1280, 1280], .float16, [], false⟩,
  ⟨key% "up_blocks.0.attentions.1.transformer_blocks.3.attn1.to_out.0.bias", [1280], .float16, [], false⟩,
  ⟨key% "up_blocks.0.attentions.1.transformer_blocks.3.attn1.to_out.0.weight", [1280, 1280], .float16, [], false⟩,
  ⟨key% "up_blocks.0.attentions.1.transformer_blocks.3.attn1.to_q.weight", [1280, 1280], .float16, [], false⟩,
  ⟨key% "up_blocks.0.attentions.1.transformer_blocks.3.attn1.to_v.weight", [1280, 1280], .float16, [], false⟩,
  ⟨key% "up_blocks.0.attentions.1.transformer_blocks.3.attn2.to_k.weight", [1280, 2048], .float16, [], false⟩,
  ⟨key% "up_blocks.0.attentions.1.transformer_blocks.3.attn2.to_out.0.bias", [1280], .float16, [], false⟩,
  ⟨key% "up_blocks.0.attentions.1.transformer_blocks.3.attn2.to_out.0.weight", [1280, 1280], .float16, [], false⟩,
  ⟨key% "up_blocks.0.attentions.1.transformer_blocks.3.attn2.to_q.weight", [1280, 1280], .float16, [], false⟩,
  ⟨key% "up_blocks.0.attentions.1.transformer_blocks.3.attn2.to_v.weight", [1280, 2048], .float16, [], false⟩,
  ⟨key% "up_blocks.0.attentions.1.transformer_blocks.3.ff.net.0.proj.bias", [10240], .float16, [], false⟩,
  ⟨key% "up_blocks.0.attentions.1.transformer_blocks.3.ff.net.0.proj.weight", [10240, 1280], .float16, [], false⟩,
  ⟨key% "up_blocks.0.attentions.1.transformer_blocks.3.ff.net.2.bias", [1280], .float16, [], false⟩,
  ⟨key% "up_blocks.0.attentions.1.transformer_blocks.3.ff.net.2.weight", [1280, 5120], .float16, [], false⟩,
  ⟨key% "up_blocks.0.attentions.1.transformer_blocks.3.norm1.bias", [1280], .float16, [], false⟩,
  ⟨key% "up_blocks.0.attentions.1.transformer_blocks.3.norm1.weight", [1280], .float16, [], false⟩]
noncomputable def diffuser11 : List Entry := [
  ⟨key% "up_blocks.0.attentions.1.transformer_blocks.3.norm2.bias", [1280], .float16, [], false⟩,
  ⟨key% "up_blocks.0.attentions.1.transformer_blocks.3.norm2.weight", [1280], .float16, [], false⟩,
  ⟨key% "up_blocks.0.attentions.1.transformer_blocks.3.norm3.bias", [1280], .float16, [], false⟩,
  ⟨key% "up_blocks.0.attentions.1.transformer_blocks.3.norm3.weight", [1280], .float16, [], false⟩,
  ⟨key% "up_blocks.0.attentions.1.transformer_blocks.4.attn1.to_k.weight", [1280, 1280], .float16, [], false⟩,
  ⟨key% "up_blocks.0.attentions.1.transformer_blocks.4.attn1.to_out.0.bias", [1280], .float16, [], false⟩,
  ⟨key% "up_blocks.0.attentions.1.transformer_blocks.4.attn1.to_out.0.weight", [1280, 1280], .float16, [], false⟩,
  ⟨key% "up_blocks.0.attentions.1.transformer_blocks.4.attn1.to_q.weight", [1280, 1280], .float16, [], false⟩,
  ⟨key% "up_blocks.0.attentions.1.transformer_blocks.4.attn1.to_v.weight", [1280, 1280], .float16, [], false⟩,
  ⟨key% "up_blocks.0.attentions.1.transformer_blocks.4.attn2.to_k.weight", [1280, 2048], .float16, [], false⟩,
  ⟨key% "up_blocks.0.attentions.1.transformer_blocks.4.attn2.to_out.0.bias", [1280], .float16, [], false⟩,
  ⟨key% "up_blocks.0.attentions.1.transformer_blocks.4.attn2.to_out.0.weight", [1280, 1280], .float16, [], false⟩,
  ⟨key% "up_blocks.0.attentions.1.transformer_blocks.4.attn2.to_q.weight", [1280, 1280], .float16, [], false⟩,
  ⟨key% "up_blocks.0.attentions.1.transformer_blocks.4.attn2.to_v.weight", [1280, 2048], .float16, [], false⟩,
  ⟨key% "up_blocks.0.attentions.1.transformer_blocks.4.ff.net.0.proj.bias", [10240], .float16, [], false⟩,
  ⟨key% "up_blocks.0.attentions.1.transformer_blocks.4.ff.net.0.proj.weight", [10240, 1280], .float16, [], false⟩,
  ⟨key% "up_blocks.0.attentions.1.transformer_blocks.4.ff.net.2.bias", [1280], .float16, [], false⟩,
  ⟨key% "up_blocks.0.attentions.1.transformer_blocks.4.ff.net.2.weight", [1280, 5120], .float16, [], false⟩,
  ⟨key% "up_blocks.0.attentions.1.transformer_blocks.4.norm1.bias", [1280], .float16, [], false⟩,
  ⟨key% "up_blocks.0.attentions.1.transformer_blocks.4.norm1.weight", [1280], .float16, [], false⟩,
  ⟨key% "up_blocks.0.attentions.1.transformer_blocks.4.norm2.bias", [1280], .float16, [], false⟩,
  ⟨key% "up_blocks.0.attentions.1.transformer_blocks.4.norm2.weight", [1280], .float16, [], false⟩,
  ⟨key% "up_blocks.0.attentions.1.transformer_blocks.4.norm3.bias", [1280], .float16, [], false⟩,
  ⟨key% "up_blocks.0.attentions.1.transformer_blocks.4.norm3.weight", [1280], .float16, [], false⟩,
  ⟨key% "up_blocks.0.attentions.1.transformer_blocks.5.attn1.to_k.weight", [1280, 1280], .float16, [], false⟩,
  ⟨key% "up_blocks.0.attentions.1.transformer_blocks.5.attn1.to_out.0.bias", [1280], .float16, [], false⟩,
  ⟨key% "up_blocks.0.attentions.1.transformer_blocks.5.attn1.to_out.0.weight", [1280, 1280], .float16, [], false⟩,
  ⟨key% "up_blocks.0.attentions.1.transformer_blocks.5.attn1.to_q.weight", [1280, 1280], .float16, [], false⟩,
  ⟨key% "up_blocks.0.attentions.1.transformer_blocks.5.attn1.to_v.weight", [1280, 1280], .float16, [], false⟩,
  ⟨key% "up_blocks.0.attentions.1.transformer_blocks.5.attn2.to_k.weight", [1280, 2048], .float16, [], false⟩,
  ⟨key% "up_blocks.0.attentions.1.transformer_blocks.5.attn2.to_out.0.bias", [1280], .float16, [], false⟩,
  ⟨key% "up_blocks.0.attentions.1.transformer_blocks.5.attn2.to_out.0.weight", [1280, 1280], .float16, [], false⟩,
  ⟨key% "up_blocks.0.attentions.1.transformer_blocks.5.attn2.to_q.weight", [1280, 1280], .float16, [], false⟩,
  ⟨key% "up_blocks.0.attentions.1.transformer_blocks.5.attn2.to_v.weight", [1280, 2048], .float16, [], false⟩,
  ⟨key% "up_blocks.0.attentions.1.transformer_blocks.5.ff.net.0.proj.bias", [10240], .float16, [], false⟩,
  ⟨key% "up_blocks.0.attentions.1.transformer_blocks.5.ff.net.0.proj.weight", [10240, 1280], .float16, [], false⟩,
  ⟨key% "up_blocks.0.attentions.1.transformer_blocks.5.ff.net.2.bias", [1280], .float16, [], false⟩,
  ⟨key% "up_blocks.0.attentions.1.transformer_blocks.5.ff.net.2.weight", [1280, 5120], .float16, [], false⟩,
  ⟨key% "up_blocks.0.attentions.1.transformer_blocks.5.norm1.bias", [1280], .float16, [], false⟩,
  ⟨key% "up_blocks.0.attentions.1.transformer_blocks.5.norm1.weight", [1280], .float16, [], false⟩,
  ⟨key% "up_blocks.0.attentions.1.transformer_blocks.5.norm2.bias", [1280], .float16, [], false⟩,
  ⟨key% "up_blocks.0.attentions.1.transformer_blocks.5.norm2.weight", [1280], .float16, [], false⟩,
  ⟨key% "up_blocks.0.attentions.1.transformer_blocks.5.norm3.bias", [1280], .float16, [], false⟩,
  ⟨key% "up_blocks.0.attentions.1.transformer_blocks.5.norm3.weight", [1280], .float16, [], false⟩,
  ⟨key% "up_blocks.0.attentions.1.transformer_blocks.6.attn1.to_k.weight", [1280, 1280], .float16, [], false⟩,
  ⟨key% "up_blocks.0.attentions.1.transformer_blocks.6.attn1.to_out.0.bias", [1280], .float16, [], false⟩,
  ⟨key% "up_blocks.0.attentions.1.transformer_blocks.6.attn1.to_out.0.weight", [1280, 1280], .float16, [], false⟩,
  ⟨key% "up_blocks.0.attentions.1.transformer_blocks.6.attn1.to_q.weight", [1280, 1280], .float16, [], false⟩,
  ⟨key% "up_blocks.0.attentions.1.transformer_blocks.6.attn1.to_v.weight", [1280, 1280], .float16, [], false⟩,
  ⟨key% "up_blocks.0.attentions.1.transformer_blocks.6.attn2.to_k.weight", [1280, 2048], .float16, [], false⟩,
  ⟨key% "up_blocks.0.attentions.1.transformer_blocks.6.attn2.to_out.0.bias", [1280], .float16, [], false⟩,
  ⟨key% "up_blocks.0.attentions.1.transformer_blocks.6.attn2.to_out.0.weight", [1280, 1280], .float16, [], false⟩,
  ⟨key% "up_blocks.0.attentions.1.transformer_blocks.6.attn2.to_q.weight", [1280, 1280], .float16, [], false⟩,
  ⟨key% "up_blocks.0.attentions.1.transformer_blocks.6.attn2.to_v.weight", [1280, 2048], .float16, [], false⟩,
  ⟨key% "up_blocks.0.attentions.1.transformer_blocks.6.ff.net.0.proj.bias", [10240], .float16, [], false⟩,
  ⟨key% "up_blocks.0.attentions.1.transformer_blocks.6.ff.net.0.proj.weight", [10240, 1280], .float16, [], false⟩,
  ⟨key% "up_blocks.0.attentions.1.transformer_blocks.6.ff.net.2.bias", [1280], .float16, [], false⟩,
  ⟨key% "up_blocks.0.attentions.1.transformer_blocks.6.ff.net.2.weight", [1280, 5120], .float16, [], false⟩,
  ⟨key% "up_blocks.0.attentions.1.transformer_blocks.6.norm1.bias", [1280], .float16, [], false⟩,
  ⟨key% "up_blocks.0.attentions.1.transformer_blocks.6.norm1.weight", [1280], .float16, [], false⟩,
  ⟨key% "up_blocks.0.attentions.1.transformer_blocks.6.norm2.bias", [1280], .float16, [], false⟩,
  ⟨key% "up_blocks.0.attentions.1.transformer_blocks.6.norm2.weight", [1280], .float16, [], false⟩,
  ⟨key% "up_blocks.0.attentions.1.transformer_blocks.6.norm3.bias", [1280], .float16, [], false⟩,
  ⟨key% "up_blocks.0.attentions.1.transformer_blocks.6.norm3.weight", [1280], .float16, [], false⟩,
  ⟨key% "up_blocks.0.attentions.1.transformer_blocks.7.attn1.to_k.weight", [1280, 1280], .float16, [], false⟩,
  ⟨key% "up_blocks.0.attentions.1.transformer_blocks.7.attn1.to_out.0.bias", [1280], .float16, [], false⟩,
  ⟨key% "up_blocks.0.attentions.1.transformer_blocks.7.attn1.to_out.0.weight", [1280, 1280], .float16, [], false⟩,
  ⟨key% "up_blocks.0.attentions.1.transformer_blocks.7.attn1.to_q.weight", [1280, 1280], .float16, [], false⟩,
  ⟨key% "up_blocks.0.attentions.1.transformer_blocks.7.attn1.to_v.weight", [1280, 1280], .float16, [], false⟩,
  ⟨key% "up_blocks.0.attentions.1.transformer_blocks.7.attn2.to_k.weight", [1280, 2048], .float16, [], false⟩,
  ⟨key% "up_blocks.0.attentions.1.transformer_blocks.7.attn2.to_out.0.bias", [1280], .float16, [], false⟩,
  ⟨key% "up_blocks.0.attentions.1.transformer_blocks.7.attn2.to_out.0.weight", [1280, 1280], .float16, [], false⟩,
  ⟨key% "up_blocks.0.attentions.1.transformer_blocks.7.attn2.to_q.weight", [1280, 1280], .float16, [], false⟩,
  ⟨key% "up_blocks.0.attentions.1.transformer_blocks.7.attn2.to_v.weight", [1280, 2048], .float16, [], false⟩,
  ⟨key% "up_blocks.0.attentions.1.transformer_blocks.7.ff.net.0.proj.bias", [10240], .float16, [], false⟩,
  ⟨key% "up_blocks.0.attentions.1.transformer_blocks.7.ff.net.0.proj.weight", [10240, 1280], .float16, [], false⟩,
  ⟨key% "up_blocks.0.attentions.1.transformer_blocks.7.ff.net.2.bias", [1280], .float16, [], false⟩,
  ⟨key% "up_blocks.0.attentions.1.transformer_blocks.7.ff.net.2.weight", [1280, 5120], .float16, [], false⟩,
  ⟨key% "up_blocks.0.attentions.1.transformer_blocks.7.norm1.bias", [1280], .float16, [], false⟩,
  ⟨key% "up_blocks.0.attentions.1.transformer_blocks.7.norm1.weight", [1280], .float16, [], false⟩,
  ⟨key% "up_blocks.0.attentions.1.transformer_blocks.7.norm2.bias", [1280], .float16, [], false⟩,
  ⟨key% "up_blocks.0.attentions.1.transformer_blocks.7.norm2.weight", [1280], .float16, [], false⟩,
  ⟨key% "up_blocks.0.attentions.1.transformer_blocks.7.norm3.bias", [1280], .float16, [], false⟩,
  ⟨key% "up_blocks.0.attentions.1.transformer_blocks.7.norm3.weight", [1280], .float16, [], false⟩,
  ⟨key% "up_blocks.0.attentions.1.transformer_blocks.8.attn1.to_k.weight", [1280, 1280], .float16, [], false⟩,
  ⟨key% "up_blocks.0.attentions.1.transformer_blocks.8.attn1.to_out.0.bias", [1280], .float16, [], false⟩,
  ⟨key% "up_blocks.0.attentions.1.transformer_blocks.8.attn1.to_out.0.weight", [1280, 1280], .float16, [], false⟩,
  ⟨key% "up_blocks.0.attentions.1.transformer_blocks.8.attn1.to_q.weight", [1280, 1280], .float16, [], false⟩,
  ⟨key% "up_blocks.0.attentions.1.transformer_blocks.8.attn1.to_v.weight", [1280, 1280], .float16, [], false⟩,
  ⟨key% "up_blocks.0.attentions.1.transformer_blocks.8.attn2.to_k.weight", [1280, 2048], .float16, [], false⟩,
  ⟨key% "up_blocks.0.attentions.1.transformer_blocks.8.attn2.to_out.0.bias", [1280], .float16, [], false⟩,
  ⟨key% "up_blocks.0.attentions.1.transformer_blocks.8.attn2.to_out.0.weight", [1280, 1280], .float16, [], false⟩,
  ⟨key% "up_blocks.0.attentions.1.transformer_blocks.8.attn2.to_q.weight", [1280, 1280], .float16, [], false⟩,
  ⟨key% "up_blocks.0.attentions.1.transformer_blocks.8.attn2.to_v.weight", [1280, 2048], .float16, [], false⟩,
  ⟨key% "up_blocks.0.attentions.1.transformer_blocks.8.ff.net.0.proj.bias", [10240], .float16, [], false⟩,
  ⟨key% "up_blocks.0.attentions.1.transformer_blocks.8.ff.net.0.proj.weight", [10240, 1280], .float16, [], false⟩,
  ⟨key% "up_blocks.0.attentions.1.transformer_blocks.8.ff.net.2.bias", [1280], .float16, [], false⟩,
  ⟨key% "up_blocks.0.attentions.1.transformer_blocks.8.ff.net.2.weight", [1280, 5120], .float16, [], false⟩,
  ⟨key% "up_blocks.0.attentions.1.transformer_blocks.8.norm1.bias", [1280], .float16, [], false⟩,
  ⟨key% "up_blocks.0.attentions.1.transformer_blocks.8.norm1.weight", [1280], .float16, [], false⟩]
noncomputable def diffuser12 : List Entry := [
  ⟨key% "up_blocks.0.attentions.1.transformer_blocks.8.norm2.bias", [1280], .float16, [], false⟩,
  ⟨key% "up_blocks.0.attentions.1.transformer_blocks.8.norm2.weight", [1280], .float16, [], false⟩,
  ⟨key% "up_blocks.0.attentions.1.transformer_blocks.8.norm3.bias", [1280], .float16, [], false⟩,
  ⟨key% "up_blocks.0.attentions.1.transformer_blocks.8.norm3.weight", [1280], .float16, [], false⟩,
  ⟨key% "up_blocks.0.attentions.1.transformer_blocks.9.attn1.to_k.weight", [1280, 1280], .float16, [], false⟩,
  ⟨key% "up_blocks.0.attentions.1.transformer_blocks.9.attn1.to_out.0.bias", [1280], .float16, [], false⟩,
  ⟨key% "up_blocks.0.attentions.1.transformer_blocks.9.attn1.to_out.0.weight", [1280, 1280], .float16, [], false⟩,
  ⟨key% "up_blocks.0.attentions.1.transformer_blocks.9.attn1.to_q.weight", [1280, 1280], .float16, [], false⟩,
  ⟨key% "up_blocks.0.attentions.1.transformer_blocks.9.attn1.to_v.weight", [1280, 1280], .float16, [], false⟩,
  ⟨key% "up_blocks.0.attentions.1.transformer_blocks.9.attn2.to_k.weight", [1280, 2048], .float16, [], false⟩,
  ⟨key% "up_blocks.0.attentions.1.transformer_blocks.9.attn2.to_out.0.bias", [1280], .float16, [], false⟩,
  ⟨key% "up_blocks.0.attentions.1.transformer_blocks.9.attn2.to_out.0.weight", [1280, 1280], .float16, [], false⟩,
  ⟨key% "up_blocks.0.attentions.1.transformer_blocks.9.attn2.to_q.weight", [1280, 1280], .float16, [], false⟩,
  ⟨key% "up_blocks.0.attentions.1.transformer_blocks.9.attn2.to_v.weight", [1280, 2048], .float16, [], false⟩,
  ⟨key% "up_blocks.0.attentions.1.transformer_blocks.9.ff.net.0.proj.bias", [10240], .float16, [], false⟩,
  ⟨key% "up_blocks.0.attentions.1.transformer_blocks.9.ff.net.0.proj.weight", [10240, 1280], .float16, [], false⟩,
  ⟨key% "up_blocks.0.attentions.1.transformer_blocks.9.ff.net.2.bias", [1280], .float16, [], false⟩,
  ⟨key% "up_blocks.0.attentions.1.transformer_blocks.9.ff.net.2.weight", [1280, 5120], .float16, [], false⟩,
  ⟨key% "up_blocks.0.attentions.1.transformer_blocks.9.norm1.bias", [1280], .float16, [], false⟩,
  ⟨key% "up_blocks.0.attentions.1.transformer_blocks.9.norm1.weight", [1280], .float16, [], false⟩,
  ⟨key% "up_blocks.0.attentions.1.transformer_blocks.9.norm2.bias", [1280], .float16, [], false⟩,
  ⟨key% "up_blocks.0.attentions.1.transformer_blocks.9.norm2.weight", [1280], .float16, [], false⟩,
  ⟨key% "up_blocks.0.attentions.1.transformer_blocks.9.norm3.bias", [1280], .float16, [], false⟩,
  ⟨key% "up_blocks.0.attentions.1.transformer_blocks.9.norm3.weight", [1280], .float16, [], false⟩,
  ⟨key% "up_blocks.0.attentions.2.norm.bias", [1280], .float16, [], false⟩,
  ⟨key% "up_blocks.0.attentions.2.norm.weight", [1280], .float16, [], false⟩,
  ⟨key% "up_blocks.0.attentions.2.proj_in.bias", [1280], .float16, [], false⟩,
  ⟨key% "up_blocks.0.attentions.2.proj_in.weight", [1280, 1280], .float16, [], false⟩,
  ⟨key% "up_blocks.0.attentions.2.proj_out.bias", [1280], .float16, [], false⟩,
  ⟨key% "up_blocks.0.attentions.2.proj_out.weight", [1280, 1280], .float16, [], false⟩,
  ⟨key% "up_blocks.0.attentions.2.transformer_blocks.0.attn1.to_k.weight", [1280, 1280], .float16, [], false⟩,
  ⟨key% "up_blocks.0.attentions.2.transformer_blocks.0.attn1.to_out.0.bias", [1280], .float16, [], false⟩,
  ⟨key% "up_blocks.0.attentions.2.transformer_blocks.0.attn1.to_out.0.weight", [1280, 1280], .float16, [], false⟩,
  ⟨key% "up_blocks.0.attentions.2.transformer_blocks.0.attn1.to_q.weight", [1280, 1280], .float16, [], false⟩,
  ⟨key% "up_blocks.0.attentions.2.transformer_blocks.0.attn1.to_v.weight", [1280, 1280], .float16, [], false⟩,
  ⟨key% "up_blocks.0.attentions.2.transformer_blocks.0.attn2.to_k.weight", [1280, 2048], .float16, [], false⟩,
  ⟨key% "up_blocks.0.attentions.2.transformer_blocks.0.attn2.to_out.0.bias", [1280], .float16, [], false⟩,
  ⟨key% "up_blocks.0.attentions.2.transformer_blocks.0.attn2.to_out.0.weight", [1280, 1280], .float16, [], false⟩,
  ⟨key% "up_blocks.0.attentions.2.transformer_blocks.0.attn2.to_q.weight", [1280, 1280], .float16, [], false⟩,
  ⟨key% "up_blocks.0.attentions.2.transformer_blocks.0.attn2.to_v.weight", [1280, 2048], .float16, [], false⟩,
  ⟨key% "up_blocks.0.attentions.2.transformer_blocks.0.ff.net.0.proj.bias", [10240], .float16, [], false⟩,
  ⟨key% "up_blocks.0.attentions.2.transformer_blocks.0.ff.net.0.proj.weight", [10240, 1280], .float16, [], false⟩,
  ⟨key% "up_blocks.0.attentions.2.transformer_blocks.0.ff.net.2.bias", [1280], .float16, [], false⟩,
  ⟨key% "up_blocks.0.attentions.2.transformer_blocks.0.ff.net.2.weight", [1280, 5120], .float16, [], false⟩,
  ⟨key% "up_blocks.0.attentions.2.transformer_blocks.0.norm1.bias", [1280], .float16, [], false⟩,
  ⟨key% "up_blocks.0.attentions.2.transformer_blocks.0.norm1.weight", [1280], .float16, [], false⟩,
  ⟨key% "up_blocks.0.attentions.2.transformer_blocks.0.norm2.bias", [1280], .float16, [], false⟩,
  ⟨key% "up_blocks.0.attentions.2.transformer_blocks.0.norm2.weight", [1280], .float16, [], false⟩,
  ⟨key% "up_blocks.0.attentions.2.transformer_blocks.0.norm3.bias", [1280], .float16, [], false⟩,
  ⟨key% "up_blocks.0.attentions.2.transformer_blocks.0.norm3.weight", [1280], .float16, [], false⟩,
  ⟨key% "up_blocks.0.attentions.2.transformer_blocks.1.attn1.to_k.weight", [1280, 1280], .float16, [], false⟩,
  ⟨key% "up_blocks.0.attentions.2.transformer_blocks.1.attn1.to_out.0.bias", [1280], .float16, [], false⟩,
  ⟨key% "up_blocks.0.attentions.2.transformer_blocks.1.attn1.to_out.0.weight", [1280, 1280], .float16, [], false⟩,
  ⟨key% "up_blocks.0.attentions.2.transformer_blocks.1.attn1.to_q.weight", [1280, 1280], .float16, [], false⟩,
  ⟨key% "up_blocks.0.attentions.2.transformer_blocks.1.attn1.to_v.weight", [1280, 1280], .float16, [], false⟩,
  ⟨key% "up_blocks.0.attentions.2.transformer_blocks.1.attn2.to_k.weight", [1280, 2048], .float16, [], false⟩,
  ⟨key% "up_blocks.0.attentions.2.transformer_blocks.1.attn2.to_out.0.bias", [1280], .float16, [], false⟩,
  ⟨key% "up_blocks.0.attentions.2.transformer_blocks.1.attn2.to_out.0.weight", [1280, 1280], .float16, [], false⟩,
  ⟨key% "up_blocks.0.attentions.2.transformer_blocks.1.attn2.to_q.weight", [1280, 1280], .float16, [], false⟩,
  ⟨key% "up_blocks.0.attentions.2.transformer_blocks.1.attn2.to_v.weight", [1280, 2048], .float16, [], false⟩,
  ⟨key% "up_blocks.0.attentions.2.transformer_blocks.1.ff.net.0.proj.bias", [10240], .float16, [], false⟩,
  ⟨key% "up_blocks.0.attentions.2.transformer_blocks.1.ff.net.0.proj.weight", [10240, 1280], .float16, [], false⟩,
  ⟨key% "up_blocks.0.attentions.2.transformer_blocks.1.ff.net.2.bias", [1280], .float16, [], false⟩,
  ⟨key% "up_blocks.0.attentions.2.transformer_blocks.1.ff.net.2.weight", [1280, 5120], .float16, [], false⟩,
  ⟨key% "up_blocks.0.attentions.2.transformer_blocks.1.norm1.bias", [1280], .float16, [], false⟩,
  ⟨key% "up_blocks.0.attentions.2.transformer_blocks.1.norm1.weight", [1280], .float16, [], false⟩,
  ⟨key% "up_blocks.0.attentions.2.transformer_blocks.1.norm2.bias", [1280], .float16, [], false⟩,
  ⟨key% "up_blocks.0.attentions.2.transformer_blocks.1.norm2.weight", [1280], .float16, [], false⟩,
  ⟨key% "up_blocks.0.attentions.2.transformer_blocks.1.norm3.bias", [1280], .float16, [], false⟩,
  ⟨key% "up_blocks.0.attentions.2.transformer_blocks.1.norm3.weight", [1280], .float16, [], false⟩,
  ⟨key% "up_blocks.0.attentions.2.transformer_blocks.2.attn1.to_k.weight", [1280, 1280], .float16, [], false⟩,
  ⟨key% "up_blocks.0.attentions.2.transformer_blocks.2.attn1.to_out.0.bias", [1280], .float16, [], false⟩,
  ⟨key% "up_blocks.0.attentions.2.transformer_blocks.2.attn1.to_out.0.weight", [1280, 1280], .float16, [], false⟩,
  ⟨key% "up_blocks.0.attentions.2.transformer_blocks.2.attn1.to_q.weight", [1280, 1280], .float16, [], false⟩,
  ⟨key% "up_blocks.0.attentions.2.transformer_blocks.2.attn1.to_v.weight", [1280, 1280], .float16, [], false⟩,
  ⟨key% "up_blocks.0.attentions.2.transformer_blocks.2.attn2.to_k.weight", [1280, 2048], .float16, [], false⟩,
  ⟨key% "up_blocks.0.attentions.2.transformer_blocks.2.attn2.to_out.0.bias", [1280], .float16, [], false⟩,
  ⟨key% "up_blocks.0.attentions.2.transformer_blocks.2.attn2.to_out.0.weight", [1280, 1280], .float16, [], false⟩,
  ⟨key% "up_blocks.0.attentions.2.transformer_blocks.2.attn2.to_q.weight", [1280, 1280], .float16, [], false⟩,
  ⟨key% "up_blocks.0.attentions.2.transformer_blocks.2.attn2.to_v.weight", [1280, 2048], .float16, [], false⟩,
  ⟨key% "up_blocks.0.attentions.2.transformer_blocks.2.ff.net.0.proj.bias", [10240], .float16, [], false⟩,
  ⟨key% "up_blocks.0.attentions.2.transformer_blocks.2.ff.net.0.proj.weight", [10240, 1280], .float16, [], false⟩,
  ⟨key% "up_blocks.0.attentions.2.transformer_blocks.2.ff.net.2.bias", [1280], .float16, [], false⟩,
  ⟨key% "up_blocks.0.attentions.2.transformer_blocks.2.ff.net.2.weight", [1280, 5120], .float16, [], false⟩,
  ⟨key% "up_blocks.0.attentions.2.transformer_blocks.2.norm1.bias", [1280], .float16, [], false⟩,
  ⟨key% "up_blocks.0.attentions.2.transformer_blocks.2.norm1.weight", [1280], .float16, [], false⟩,
  ⟨key% "up_blocks.0.attentions.2.transformer_blocks.2.norm2.bias", [1280], .float16, [], false⟩,
  ⟨key% "up_blocks.0.attentions.2.transformer_blocks.2.norm2.weight", [1280], .float16, [], false⟩,
  ⟨key% "up_blocks.0.attentions.2.transformer_blocks.2.norm3.bias", [1280], .float16, [], false⟩,
  ⟨key% "up_blocks.0.attentions.2.transformer_blocks.2.norm3.weight", [1280], .float16, [], false⟩,
  ⟨key% "up_blocks.0.attentions.2.transformer_blocks.3.attn1.to_k.weight", [1280, 1280], .float16, [], false⟩,
  ⟨key% "up_blocks.0.attentions.2.transformer_blocks.3.attn1.to_out.0.bias", [1280], .float16, [], false⟩,
  ⟨key% "up_blocks.0.attentions.2.transformer_blocks.3.attn1.to_out.0.weight", [1280, 1280], .float16, [], false⟩,
  ⟨key% "up_blocks.0.attentions.2.transformer_blocks.3.attn1.to_q.weight", [1280, 1280], .float16, [], false⟩,
  ⟨key% "up_blocks.0.attentions.2.transformer_blocks.3.attn1.to_v.weight", [1280, 1280], .float16, [], false⟩,
  ⟨key% "up_blocks.0.attentions.2.transformer_blocks.3.attn2.to_k.weight", [1280, 2048], .float16, [], false⟩,
  ⟨key% "up_blocks.0.attentions.2.transformer_blocks.3.attn2.to_out.0.bias", [1280], .float16, [], false⟩,
  ⟨key% "up_blocks.0.attentions.2.transformer_blocks.3.attn2.to_out.0.weight", [1280, 1280], .float16, [], false⟩,
  ⟨key% "up_blocks.0.attentions.2.transformer_blocks.3.attn2.to_q.weight", [1280, 1280], .float16, [], false⟩,
  ⟨key% "up_blocks.0.attentions.2.transformer_blocks.3.attn2.to_v.weight", [1280, 2048], .float16, [], false⟩]
noncomputable def diffuser13 : List Entry := [
  ⟨key% "up_blocks.0.attentions.2.transformer_blocks.3.ff.net.0.proj.bias", [10240], .float16, [], false⟩,
  ⟨key% "up_blocks.0.attentions.2.transformer_blocks.3.ff.net.0.proj.weight", [10240, 1280], .float16, [], false⟩,
  ⟨key% "up_blocks.0.attentions.2.transformer_blocks.3.ff.net.2.bias", [1280], .float16, [], false⟩,
  ⟨key% "up_blocks.0.attentions.2.transformer_blocks.3.ff.net.2.weight", [1280, 5120], .float16, [], false⟩,
  ⟨key% "up_blocks.0.attentions.2.transformer_blocks.3.norm1.bias", [1280], .float16, [], false⟩,
  ⟨key% "up_blocks.0.attentions.2.transformer_blocks.3.norm1.weight", [1280], .float16, [], false⟩,
  ⟨key% "up_blocks.0.attentions.2.transformer_blocks.3.norm2.bias", [1280], .float16, [], false⟩,
  ⟨key% "up_blocks.0.attentions.2.transformer_blocks.3.norm2.weight", [1280], .float16, [], false⟩,
  ⟨key% "up_blocks.0.attentions.2.transformer_blocks.3.norm3.bias", [1280], .float16, [], false⟩,
  ⟨key% "up_blocks.0.attentions.2.transformer_blocks.3.norm3.weight", [1280], .float16, [], false⟩,
  ⟨key% "up_blocks.0.attentions.2.transformer_blocks.4.attn1.to_k.weight", [1280, 1280], .float16, [], false⟩,
  ⟨key% "up_blocks.0.attentions.2.transformer_blocks.4.attn1.to_out.0.bias", [1280], .float16, [], false⟩,
  ⟨key% "up_blocks.0.attentions.2.transformer_blocks.4.attn1.to_out.0.weight", [1280, 1280], .float16, [], false⟩,
  ⟨key% "up_blocks.0.attentions.2.transformer_blocks.4.attn1.to_q.weight", [1280, 1280], .float16, [], false⟩,
  ⟨key% "up_blocks.0.attentions.2.transformer_blocks.4.attn1.to_v.weight", [1280, 1280], .float16, [], false⟩,
  ⟨key% "up_blocks.0.attentions.2.transformer_blocks.4.attn2.to_k.weight", [1280, 2048], .float16, [], false⟩,
  ⟨key% "up_blocks.0.attentions.2.transformer_blocks.4.attn2.to_out.0.bias", [1280], .float16, [], false⟩,
  ⟨key% "up_blocks.0.attentions.2.transformer_blocks.4.attn2.to_out.0.weight", [1280, 1280], .float16, [], false⟩,
  ⟨key% "up_blocks.0.attentions.2.transformer_blocks.4.attn2.to_q.weight", [1280, 1280], .float16, [], false⟩,
  ⟨key% "up_blocks.0.attentions.2.transformer_blocks.4.attn2.to_v.weight", [1280, 2048], .float16, [], false⟩,
  ⟨key% "up_blocks.0.attentions.2.transformer_blocks.4.ff.net.0.proj.bias", [10240], .float16, [], false⟩,
  ⟨key% "up_blocks.0.attentions.2.transformer_blocks.4.ff.net.0.proj.weight", [10240, 1280], .float16, [], false⟩,
  ⟨key% "up_blocks.0.attentions.2.transformer_blocks.4.ff.net.2.bias", [1280], .float16, [], false⟩,
  ⟨key% "up_blocks.0.attentions.2.transformer_blocks.4.ff.net.2.weight", [1280, 5120], .float16, [], false⟩,
  ⟨key% "up_blocks.0.attentions.2.transformer_blocks.4.norm1.bias", [1280], .float16, [], false⟩,
  ⟨key% "up_blocks.0.attentions.2.transformer_blocks.4.norm1.weight", [1280], .float16, [], false⟩,
  ⟨key% "up_blocks.0.attentions.2.transformer_blocks.4.norm2.bias", [1280], .float16, [], false⟩,
  ⟨key% "up_blocks.0.attentions.2.transformer_blocks.4.norm2.weight", [1280], .float16, [], false⟩,
  ⟨key% "up_blocks.0.attentions.2.transformer_blocks.4.norm3.bias", [1280], .float16, [], false⟩,
  ⟨key% "up_blocks.0.attentions.2.transformer_blocks.4.norm3.weight", [1280], .float16, [], false⟩,
  ⟨key% "up_blocks.0.attentions.2.transformer_blocks.5.attn1.to_k.weight", [1280, 1280], .float16, [], false⟩,
  ⟨key% "up_blocks.0.attentions.2.transformer_blocks.5.attn1.to_out.0.bias", [1280], .float16, [], false⟩,
  ⟨key% "up_blocks.0.attentions.2.transformer_blocks.5.attn1.to_out.0.weight", [1280, 1280], .float16, [], false⟩,
  ⟨key% "up_blocks.0.attentions.2.transformer_blocks.5.attn1.to_q.weight", [1280, 1280], .float16, [], false⟩,
  ⟨key% "up_blocks.0.attentions.2.transformer_blocks.5.attn1.to_v.weight", [1280, 1280], .float16, [], false⟩,
  ⟨key% "up_blocks.0.attentions.2.transformer_blocks.5.attn2.to_k.weight", [1280, 2048], .float16, [], false⟩,
  ⟨key% "up_blocks.0.attentions.2.transformer_blocks.5.attn2.to_out.0.bias", [1280], .float16, [], false⟩,
  ⟨key% "up_blocks.0.attentions.2.transformer_blocks.5.attn2.to_out.0.weight", [1280, 1280], .float16, [], false⟩,
  ⟨key% "up_blocks.0.attentions.2.transformer_blocks.5.attn2.to_q.weight", [1280, 1280], .float16, [], false⟩,
  ⟨key% "up_blocks.0.attentions.2.transformer_blocks.5.attn2.to_v.weight", [1280, 2048], .float16, [], false⟩,
  ⟨key% "up_blocks.0.attentions.2.transformer_blocks.5.ff.net.0.proj.bias", [10240], .float16, [], false⟩,
  ⟨key% "up_blocks.0.attentions.2.transformer_blocks.5.ff.net.0.proj.weight", [10240, 1280], .float16, [], false⟩,
  ⟨key% "up_blocks.0.attentions.2.transformer_blocks.5.ff.net.2.bias", [1280], .float16, [], false⟩,
  ⟨key% "up_blocks.0.attentions.2.transformer_blocks.5.ff.net.2.weight", [1280, 5120], .float16, [], false⟩,
  ⟨key% "up_blocks.0.attentions.2.transformer_blocks.5.norm1.bias", [1280], .float16, [], false⟩,
  ⟨key% "up_blocks.0.attentions.2.transformer_blocks.5.norm1.weight", [1280], .float16, [], false⟩,
  ⟨key% "up_blocks.0.attentions.2.transformer_blocks.5.norm2.bias", [1280], .float16, [], false⟩,
  ⟨key% "up_blocks.0.attentions.2.transformer_blocks.5.norm2.weight", [1280], .float16, [], false⟩,
  ⟨key% "up_blocks.0.attentions.2.transformer_blocks.5.norm3.bias", [1280], .float16, [], false⟩,
  ⟨key% "up_blocks.0.attentions.2.transformer_blocks.5.norm3.weight", [1280], .float16, [], false⟩,
  ⟨key% "up_blocks.0.attentions.2.transformer_blocks.6.attn1.to_k.weight", [1280, 1280], .float16, [], false⟩,
  ⟨key% "up_blocks.0.attentions.2.transformer_blocks.6.attn1.to_out.0.bias", [1280], .float16, [], false⟩,
  ⟨key% "up_blocks.0.attentions.2.transformer_blocks.6.attn1.to_out.0.weight", [1280, 1280], .float16, [], false⟩,
  ⟨key% "up_blocks.0.attentions.2.transformer_blocks.6.attn1.to_q.weight", [1280, 1280], .float16, [], false⟩,
  ⟨key% "up_blocks.0.attentions.2.transformer_blocks.6.attn1.to_v.weight", [1280, 1280], .float16, [], false⟩,
  ⟨key% "up_blocks.0.attentions.2.transformer_blocks.6.attn2.to_k.weight", [1280, 2048], .float16, [], false⟩,
  ⟨key% "up_blocks.0.attentions.2.transformer_blocks.6.attn2.to_out.0.bias", [1280], .float16, [], false⟩,
  ⟨key% "up_blocks.0.attentions.2.transformer_blocks.6.attn2.to_out.0.weight", [1280, 1280], .float16, [], false⟩,
  ⟨key% "up_blocks.0.attentions.2.transformer_blocks.6.attn2.to_q.weight", [1280, 1280], .float16, [], false⟩,
  ⟨key% "up_blocks.0.attentions.2.transformer_blocks.6.attn2.to_v.weight", [1280, 2048], .float16, [], false⟩,
  ⟨key% "up_blocks.0.attentions.2.transformer_blocks.6.ff.net.0.proj.bias", [10240], .float16, [], false⟩,
  ⟨key% "up_blocks.0.attentions.2.transformer_blocks.6.ff.net.0.proj.weight", [10240, 1280], .float16, [], false⟩,
  ⟨key% "up_blocks.0.attentions.2.transformer_blocks.6.ff.net.2.bias", [1280], .float16, [], false⟩,
  ⟨key% "up_blocks.0.attentions.2.transformer_blocks.6.ff.net.2.weight", [1280, 5120], .float16, [], false⟩,
  ⟨key% "up_blocks.0.attentions.2.transformer_blocks.6.norm1.bias", [1280], .float16, [], false⟩,
  ⟨key% "up_blocks.0.attentions.2.transformer_blocks.6.norm1.weight", [1280], .float16, [], false⟩,
  ⟨key% "up_blocks.0.attentions.2.transformer_blocks.6.norm2.bias", [1280], .float16, [], false⟩,
  ⟨key% "up_blocks.0.attentions.2.transformer_blocks.6.norm2.weight", [1280], .float16, [], false⟩,
  ⟨key% "up_blocks.0.attentions.2.transformer_blocks.6.norm3.bias", [1280], .float16, [], false⟩,
  ⟨key% "up_blocks.0.attentions.2.transformer_blocks.6.norm3.weight", [1280], .float16, [], false⟩,
  ⟨key% "up_blocks.0.attentions.2.transformer_blocks.7.attn1.to_k.weight", [1280, 1280], .float16, [], false⟩,
  ⟨key% "up_blocks.0.attentions.2.transformer_blocks.7.attn1.to_out.0.bias", [1280], .float16, [], false⟩,
  ⟨key% "up_blocks.0.attentions.2.transformer_blocks.7.attn1.to_out.0.weight", [1280, 1280], .float16, [], false⟩,
  ⟨key% "up_blocks.0.attentions.2.transformer_blocks.7.attn1.to_q.weight", [1280, 1280], .float16, [], false⟩,
  ⟨key% "up_blocks.0.attentions.2.transformer_blocks.7.attn1.to_v.weight", [1280, 1280], .float16, [], false⟩,
  ⟨key% "up_blocks.0.attentions.2.transformer_blocks.7.attn2.to_k.weight", [1280, 2048], .float16, [], false⟩,
  ⟨key% "up_blocks.0.attentions.2.transformer_blocks.7.attn2.to_out.0.bias", [1280], .float16, [], false⟩,
  ⟨key% "up_blocks.0.attentions.2.transformer_blocks.7.attn2.to_out.0.weight", [1280, 1280], .float16, [], false⟩,
  ⟨key% "up_blocks.0.attentions.2.transformer_blocks.7.attn2.to_q.weight", [1280, 1280], .float16, [], false⟩,
  ⟨key% "up_blocks.0.attentions.2.transformer_blocks.7.attn2.to_v.weight", [1280, 2048], .float16, [], false⟩,
  ⟨key% "up_blocks.0.attentions.2.transformer_blocks.7.ff.net.0.proj.bias", [10240], .float16, [], false⟩,
  ⟨key% "up_blocks.0.attentions.2.transformer_blocks.7.ff.net.0.proj.weight", [10240, 1280], .float16, [], false⟩,
  ⟨key% "up_blocks.0.attentions.2.transformer_blocks.7.ff.net.2.bias", [1280], .float16, [], false⟩,
  ⟨key% "up_blocks.0.attentions.2.transformer_blocks.7.ff.net.2.weight", [1280, 5120], .float16, [], false⟩,
  ⟨key% "up_blocks.0.attentions.2.transformer_blocks.7.norm1.bias", [1280], .float16, [], false⟩,
  ⟨key% "up_blocks.0.attentions.2.transformer_blocks.7.norm1.weight", [1280], .float16, [], false⟩,
  ⟨key% "up_blocks.0.attentions.2.transformer_blocks.7.norm2.bias", [1280], .float16, [], false⟩,
  ⟨key% "up_blocks.0.attentions.2.transformer_blocks.7.norm2.weight", [1280], .float16, [], false⟩,
  ⟨key% "up_blocks.0.attentions.2.transformer_blocks.7.norm3.bias", [1280], .float16, [], false⟩,
  ⟨key% "up_blocks.0.attentions.2.transformer_blocks.7.norm3.weight", [1280], .float16, [], false⟩,
  ⟨key% "up_blocks.0.attentions.2.transformer_blocks.8.attn1.to_k.weight", [1280, 1280], .float16, [], false⟩,
  ⟨key% "up_blocks.0.attentions.2.transformer_blocks.8.attn1.to_out.0.bias", [1280], .float16, [], false⟩,
  ⟨key% "up_blocks.0.attentions.2.transformer_blocks.8.attn1.to_out.0.weight", [1280, 1280], .float16, [], false⟩,
  ⟨key% "up_blocks.0.attentions.2.transformer_blocks.8.attn1.to_q.weight", [1280, 1280], .float16, [], false⟩,
  ⟨key% "up_blocks.0.attentions.2.transformer_blocks.8.attn1.to_v.weight", [1280, 1280], .float16, [], false⟩,
  ⟨key% "up_blocks.0.attentions.2.transformer_blocks.8.attn2.to_k.weight", [1280, 2048], .float16, [], false⟩,
  ⟨key% "up_blocks.0.attentions.2.transformer_blocks.8.attn2.to_out.0.bias", [1280], .float16, [], false⟩,
  ⟨key% "up_blocks.0.attentions.2.transformer_blocks.8.attn2.to_out.0.weight", [1280, 1280], .float16, [], false⟩,
  ⟨key% "up_blocks.0.attentions.2.transformer_blocks.8.attn2.to_q.weight", [1280, 1280], .float16, [], false⟩,
  ⟨key% "up_blocks.0.attentions.2.transformer_blocks.8.attn2.to_v.weight", [1280, 2048], .float16, [], false⟩]
noncomputable def diffuser14 : List Entry := [
  ⟨key% "up_blocks.0.attentions.2.transformer_blocks.8.ff.net.0.proj.bias", [10240], .float16, [], false⟩,
  ⟨key% "up_blocks.0.attentions.2.transformer_blocks.8.ff.net.0.proj.weight", [10240, 1280], .float16, [], false⟩,
  ⟨key% "up_blocks.0.attentions.2.transformer_blocks.8.ff.net.2.bias", [1280], .float16, [], false⟩,
  ⟨key% "up_blocks.0.attentions.2.transformer_blocks.8.ff.net.2.weight", [1280, 5120], .float16, [], false⟩,
  ⟨key% "up_blocks.0.attentions.2.transformer_blocks.8.norm1.bias", [1280], .float16, [], false⟩,
  ⟨key% "up_blocks.0.attentions.2.transformer_blocks.8.norm1.weight", [1280], .float16, [], false⟩,
  ⟨key% "up_blocks.0.attentions.2.transformer_blocks.8.norm2.bias", [1280], .float16, [], false⟩,
  ⟨key% "up_blocks.0.attentions.2.transformer_blocks.8.norm2.weight", [1280], .float16, [], false⟩,
  ⟨key% "up_blocks.0.attentions.2.transformer_blocks.8.norm3.bias", [1280], .float16, [], false⟩,
  ⟨key% "up_blocks.0.attentions.2.transformer_blocks.8.norm3.weight", [1280], .float16, [], false⟩,
  ⟨key% "up_blocks.0.attentions.2.transformer_blocks.9.attn1.to_k.weight", [1280, 1280], .float16, [], false⟩,
  ⟨key% "up_blocks.0.attentions.2.transformer_blocks.9.attn1.to_out.0.bias", [1280], .float16, [], false⟩,
  ⟨key% "up_blocks.0.attentions.2.transformer_blocks.9.attn1.to_out.0.weight", [1280, 1280], .float16, [], false⟩,
  ⟨key% "up_blocks.0.attentions.2.transformer_blocks.9.attn1.to_q.weight", [1280, 1280], .float16, [], false⟩,
  ⟨key% "up_blocks.0.attentions.2.transformer_blocks.9.attn1.to_v.weight", [1280, 1280], .float16, [], false⟩,
  ⟨key% "up_blocks.0.attentions.2.transformer_blocks.9.attn2.to_k.weight", [1280, 2048], .float16, [], false⟩,
  ⟨key% "up_blocks.0.attentions.2.transformer_blocks.9.attn2.to_out.0.bias", [1280], .float16, [], false⟩,
  ⟨key% "up_blocks.0.attentions.2.transformer_blocks.9.attn2.to_out.0.weight", [1280, 1280], .float16, [], false⟩,
  ⟨key% "up_blocks.0.attentions.2.transformer_blocks.9.attn2.to_q.weight", [1280, 1280], .float16, [], false⟩,
  ⟨key% "up_blocks.0.attentions.2.transformer_blocks.9.attn2.to_v.weight", [1280, 2048], .float16, [], false⟩,
  ⟨key% "up_blocks.0.attentions.2.transformer_blocks.9.ff.net.0.proj.bias", [10240], .float16, [], false⟩,
  ⟨key% "up_blocks.0.attentions.2.transformer_blocks.9.ff.net.0.proj.weight", [10240, 1280], .float16, [], false⟩,
  ⟨key% "up_blocks.0.attentions.2.transformer_blocks.9.ff.net.2.bias", [1280], .float16, [], false⟩,
  ⟨key% "up_blocks.0.attentions.2.transformer_blocks.9.ff.net.2.weight", [1280, 5120], .float16, [], false⟩,
  ⟨key% "up_blocks.0.attentions.2.transformer_blocks.9.norm1.bias", [1280], .float16, [], false⟩,
  ⟨key% "up_blocks.0.attentions.2.transformer_blocks.9.norm1.weight", [1280], .float16, [], false⟩,
  ⟨key% "up_blocks.0.attentions.2.transformer_blocks.9.norm2.bias", [1280], .float16, [], false⟩,
  ⟨key% "up_blocks.0.attentions.2.transformer_blocks.9.norm2.weight", [1280], .float16, [], false⟩,
  ⟨key% "up_blocks.0.attentions.2.transformer_blocks.9.norm3.bias", [1280], .float16, [], false⟩,
  ⟨key% "up_blocks.0.attentions.2.transformer_blocks.9.norm3.weight", [1280], .float16, [], false⟩,
  ⟨key% "up_blocks.0.resnets.0.conv1.bias", [1280], .float16, [], false⟩,
  ⟨key% "up_blocks.0.resnets.0.conv1.weight", [1280, 2560, 3, 3], .float16, [], false⟩,
  ⟨key% "up_blocks.0.resnets.0.conv2.bias", [1280], .float16, [], false⟩,
  ⟨key% "up_blocks.0.resnets.0.conv2.weight", [1280, 1280, 3, 3], .float16, [], false⟩,
  ⟨key% "up_blocks.0.resnets.0.conv_shortcut.bias", [1280], .float16, [], false⟩,
  ⟨key% "up_blocks.0.resnets.0.conv_shortcut.weight", [1280, 2560, 1, 1], .float16, [], false⟩,
  ⟨key% "up_blocks.0.resnets.0.norm1.bias", [2560], .float16, [], false⟩,
  ⟨key% "up_blocks.0.resnets.0.norm1.weight", [2560], .float16, [], false⟩,
  ⟨key% "up_blocks.0.resnets.0.norm2.bias", [1280], .float16, [], false⟩,
  ⟨key% "up_blocks.0.resnets.0.norm2.weight", [1280], .float16, [], false⟩,
  ⟨key% "up_blocks.0.resnets.0.time_emb_proj.bias", [1280], .float16, [], false⟩,
  ⟨key% "up_blocks.0.resnets.0.time_emb_proj.weight", [1280, 1280], .float16, [], false⟩,
  ⟨key% "up_blocks.0.resnets.1.conv1.bias", [1280], .float16, [], false⟩,
  ⟨key% "up_blocks.0.resnets.1.conv1.weight", [1280, 2560, 3, 3], .float16, [], false⟩,
  ⟨key% "up_blocks.0.resnets.1.conv2.bias", [1280], .float16, [], false⟩,
  ⟨key% "up_blocks.0.resnets.1.conv2.weight", [1280, 1280, 3, 3], .float16, [], false⟩,
  ⟨key% "up_blocks.0.resnets.1.conv_shortcut.bias", [1280], .float16, [], false⟩,
  ⟨key% "up_blocks.0.resnets.1.conv_shortcut.weight", [1280, 2560, 1, 1], .float16, [], false⟩,
  ⟨key% "up_blocks.0.resnets.1.norm1.bias", [2560], .float16, [], false⟩,
  ⟨key% "up_blocks.0.resnets.1.norm1.weight", [2560], .float16, [], false⟩,
  ⟨key% "up_blocks.0.resnets.1.norm2.bias", [1280], .float16, [], false⟩,
  ⟨key% "up_blocks.0.resnets.1.norm2.weight", [1280], .float16, [], false⟩,
  ⟨key% "up_blocks.0.resnets.1.time_emb_proj.bias", [1280], .float16, [], false⟩,
  ⟨key% "up_blocks.0.resnets.1.time_emb_proj.weight", [1280, 1280], .float16, [], false⟩,
  ⟨key% "up_blocks.0.resnets.2.conv1.bias", [1280], .float16, [], false⟩,
  ⟨key% "up_blocks.0.resnets.2.conv1.weight", [1280, 1920, 3, 3], .float16, [], false⟩,
  ⟨key% "up_blocks.0.resnets.2.conv2.bias", [1280], .float16, [], false⟩,
  ⟨key% "up_blocks.0.resnets.2.conv2.weight", [1280, 1280, 3, 3], .float16, [], false⟩,
  ⟨key% "up_blocks.0.resnets.2.conv_shortcut.bias", [1280], .float16, [], false⟩,
  ⟨key% "up_blocks.0.resnets.2.conv_shortcut.weight", [1280, 1920, 1, 1], .float16, [], false⟩,
  ⟨key% "up_blocks.0.resnets.2.norm1.bias", [1920], .float16, [], false⟩,
  ⟨key% "up_blocks.0.resnets.2.norm1.weight", [1920], .float16, [], false⟩,
  ⟨key% "up_blocks.0.resnets.2.norm2.bias", [1280], .float16, [], false⟩,
  ⟨key% "up_blocks.0.resnets.2.norm2.weight", [1280], .float16, [], false⟩,
  ⟨key% "up_blocks.0.resnets.2.time_emb_proj.bias", [1280], .float16, [], false⟩,
  ⟨key% "up_blocks.0.resnets.2.time_emb_proj.weight", [1280, 1280], .float16, [], false⟩,
  ⟨key% "up_blocks.0.upsamplers.0.conv.bias", [1280], .float16, [], false⟩,
  ⟨key% "up_blocks.0.upsamplers.0.conv.weight", [1280, 1280, 3, 3], .float16, [], false⟩,
  ⟨key% "up_blocks.1.attentions.0.norm.bias", [640], .float16, [], false⟩,
  ⟨key% "up_blocks.1.attentions.0.norm.weight", [640], .float16, [], false⟩,
  ⟨key% "up_blocks.1.attentions.0.proj_in.bias", [640], .float16, [], false⟩,
  ⟨key% "up_blocks.1.attentions.0.proj_in.weight", [640, 640], .float16, [], false⟩,
  ⟨key% "up_blocks.1.attentions.0.proj_out.bias", [640], .float16, [], false⟩,
  ⟨key% "up_blocks.1.attentions.0.proj_out.weight", [640, 640], .float16, [], false⟩,
  ⟨key% "up_blocks.1.attentions.0.transformer_blocks.0.attn1.to_k.weight", [640, 640], .float16, [], false⟩,
  ⟨key% "up_blocks.1.attentions.0.transformer_blocks.0.attn1.to_out.0.bias", [640], .float16, [], false⟩,
  ⟨key% "up_blocks.1.attentions.0.transformer_blocks.0.attn1.to_out.0.weight", [640, 640], .float16, [], false⟩,
  ⟨key% "up_blocks.1.attentions.0.transformer_blocks.0.attn1.to_q.weight", [640, 640], .float16, [], false⟩,
  ⟨key% "up_blocks.1.attentions.0.transformer_blocks.0.attn1.to_v.weight", [640, 640], .float16, [], false⟩,
  ⟨key% "up_blocks.1.attentions.0.transformer_blocks.0.attn2.to_k.weight", [640, 2048], .float16, [], false⟩,
  ⟨key% "up_blocks.1.attentions.0.transformer_blocks.0.attn2.to_out.0.bias", [640], .float16, [], false⟩,
  ⟨key% "up_blocks.1.attentions.0.transformer_blocks.0.attn2.to_out.0.weight", [640, 640], .float16, [], false⟩,
  ⟨key% "up_blocks.1.attentions.0.transformer_blocks.0.attn2.to_q.weight", [640, 640], .float16, [], false⟩,
  ⟨key% "up_blocks.1.attentions.0.transformer_blocks.0.attn2.to_v.weight", [640, 2048], .float16, [], false⟩,
  ⟨key% "up_blocks.1.attentions.0.transformer_blocks.0.ff.net.0.proj.bias", [5120], .float16, [], false⟩,
  ⟨key% "up_blocks.1.attentions.0.transformer_blocks.0.ff.net.0.proj.weight", [5120, 640], .float16, [], false⟩,
  ⟨key% "up_blocks.1.attentions.0.transformer_blocks.0.ff.net.2.bias", [640], .float16, [], false⟩,
  ⟨key% "up_blocks.1.attentions.0.transformer_blocks.0.ff.net.2.weight", [640, 2560], .float16, [], false⟩,
  ⟨key% "up_blocks.1.attentions.0.transformer_blocks.0.norm1.bias", [640], .float16, [], false⟩,
  ⟨key% "up_blocks.1.attentions.0.transformer_blocks.0.norm1.weight", [640], .float16, [], false⟩,
  ⟨key% "up_blocks.1.attentions.0.transformer_blocks.0.norm2.bias", [640], .float16, [], false⟩,
  ⟨key% "up_blocks.1.attentions.0.transformer_blocks.0.norm2.weight", [640], .float16, [], false⟩,
  ⟨key% "up_blocks.1.attentions.0.transformer_blocks.0.norm3.bias", [640], .float16, [], false⟩,
  ⟨key% "up_blocks.1.attentions.0.transformer_blocks.0.norm3.weight", [640], .float16, [], false⟩,
  ⟨key% "up_blocks.1.attentions.0.transformer_blocks.1.attn1.to_k.weight", [640, 640], .float16, [], false⟩,
  ⟨key% "up_blocks.1.attentions.0.transformer_blocks.1.attn1.to_out.0.bias", [640], .float16, [], false⟩,
  ⟨key% "up_blocks.1.attentions.0.transformer_blocks.1.attn1.to_out.0.weight", [640, 640], .float16, [], false⟩,
  ⟨key% "up_blocks.1.attentions.0.transformer_blocks.1.attn1.to_q.weight", [640, 640], .float16, [], false⟩,
  ⟨key% "up_blocks.1.attentions.0.transformer_blocks.1.attn1.to_v.weight", [640, 640], .float16, [], false⟩,
  ⟨key% "up_blocks.1.attentions.0.transformer_blocks.1.attn2.to_k.weight", [640, 2048], .float16, [], false⟩]
noncomputable def diffuser15 : List Entry := [
  ⟨key% "up_blocks.1.attentions.0.transformer_blocks.1.attn2.to_out.0.bias", [640], .float16, [], false⟩,
  ⟨key% "up_blocks.1.attentions.0.transformer_blocks.1.attn2.to_out.0.weight", [640, 640], .float16, [], false⟩,
  ⟨key% "up_blocks.1.attentions.0.transformer_blocks.1.attn2.to_q.weight", [640, 640], .float16, [], false⟩,
  ⟨key% "up_blocks.1.attentions.0.transformer_blocks.1.attn2.to_v.weight", [640, 2048], .float16, [], false⟩,
  ⟨key% "up_blocks.1.attentions.0.transformer_blocks.1.ff.net.0.proj.bias", [5120], .float16, [], false⟩,
  ⟨key% "up_blocks.1.attentions.0.transformer_blocks.1.ff.net.0.proj.weight", [5120, 640], .float16, [], false⟩,
  ⟨key% "up_blocks.1.attentions.0.transformer_blocks.1.ff.net.2.bias", [640], .float16, [], false⟩,
  ⟨key% "up_blocks.1.attentions.0.transformer_blocks.1.ff.net.2.weight", [640, 2560], .float16, [], false⟩,
  ⟨key% "up_blocks.1.attentions.0.transformer_blocks.1.norm1.bias", [640], .float16, [], false⟩,
  ⟨key% "up_blocks.1.attentions.0.transformer_blocks.1.norm1.weight", [640], .float16, [], false⟩,
  ⟨key% "up_blocks.1.attentions.0.transformer_blocks.1.norm2.bias", [640], .float16, [], false⟩,
  ⟨key% "up_blocks.1.attentions.0.transformer_blocks.1.norm2.weight", [640], .float16, [], false⟩,
  ⟨key% "up_blocks.1.attentions.0.transformer_blocks.1.norm3.bias", [640], .float16, [], false⟩,
  ⟨key% "up_blocks.1.attentions.0.transformer_blocks.1.norm3.weight", [640], .float16, [], false⟩,
  ⟨key% "up_blocks.1.attentions.1.norm.bias", [640], .float16, [], false⟩,
  ⟨key% "up_blocks.1.attentions.1.norm.weight", [640], .float16, [], false⟩,
  ⟨key% "up_blocks.1.attentions.1.proj_in.bias", [640], .float16, [], false⟩,
  ⟨key% "up_blocks.1.attentions.1.proj_in.weight", [640, 640], .float16, [], false⟩,
  ⟨key% "up_blocks.1.attentions.1.proj_out.bias", [640], .float16, [], false⟩,
  ⟨key% "up_blocks.1.attentions.1.proj_out.weight", [640, 640], .float16, [], false⟩,
  ⟨key% "up_blocks.1.attentions.1.transformer_blocks.0.attn1.to_k.weight", [640, 640], .float16, [], false⟩,
  ⟨key% "up_blocks.1.attentions.1.transformer_blocks.0.attn1.to_out.0.bias", [640], .float16, [], false⟩,
  ⟨key% "up_blocks.1.attentions.1.transformer_blocks.0.attn1.to_out.0.weight", [640, 640], .float16, [], false⟩,
  ⟨key% "up_blocks.1.attentions.1.transformer_blocks.0.attn1.to_q.weight", [640, 640], .float16, [], false⟩,
  ⟨key% "up_blocks.1.attentions.1.transformer_blocks.0.attn1.to_v.weight", [640, 640], .float16, [], false⟩,
  ⟨key% "up_blocks.1.attentions.1.transformer_blocks.0.attn2.to_k.weight", [640, 2048], .float16, [], false⟩,
  ⟨key% "up_blocks.1.attentions.1.transformer_blocks.0.attn2.to_out.0.bias", [640], .float16, [], false⟩,
  ⟨key% "up_blocks.1.attentions.1.transformer_blocks.0.attn2.to_out.0.weight", [640, 640], .float16, [], false⟩,
  ⟨key% "up_blocks.1.attentions.1.transformer_blocks.0.attn2.to_q.weight", [640, 640], .float16, [], false⟩,
  ⟨key% "up_blocks.1.attentions.1.transformer_blocks.0.attn2.to_v.weight", [640, 2048], .float16, [], false⟩,
  ⟨key% "up_blocks.1.attentions.1.transformer_blocks.0.ff.net.0.proj.bias", [5120], .float16, [], false⟩,
  ⟨key% "up_blocks.1.attentions.1.transformer_blocks.0.ff.net.0.proj.weight", [5120, 640], .float16, [], false⟩,
  ⟨key% "up_blocks.1.attentions.1.transformer_blocks.0.ff.net.2.bias", [640], .float16, [], false⟩,
  ⟨key% "up_blocks.1.attentions.1.transformer_blocks.0.ff.net.2.weight", [640, 2560], .float16, [], false⟩,
  ⟨key% "up_blocks.1.attentions.1.transformer_blocks.0.norm1.bias", [640], .float16, [], false⟩,
  ⟨key% "up_blocks.1.attentions.1.transformer_blocks.0.norm1.weight", [640], .float16, [], false⟩,
  ⟨key% "up_blocks.1.attentions.1.transformer_blocks.0.norm2.bias", [640], .float16, [], false⟩,
  ⟨key% "up_blocks.1.attentions.1.transformer_blocks.0.norm2.weight", [640], .float16, [], false⟩,
  ⟨key% "up_blocks.1.attentions.1.transformer_blocks.0.norm3.bias", [640], .float16, [], false⟩,
  ⟨key% "up_blocks.1.attentions.1.transformer_blocks.0.norm3.weight", [640], .float16, [], false⟩,
  ⟨key% "up_blocks.1.attentions.1.transformer_blocks.1.attn1.to_k.weight", [640, 640], .float16, [], false⟩,
  ⟨key% "up_blocks.1.attentions.1.transformer_blocks.1.attn1.to_out.0.bias", [640], .float16, [], false⟩,
  ⟨key% "up_blocks.1.attentions.1.transformer_blocks.1.attn1.to_out.0.weight", [640, 640], .float16, [], false⟩,
  ⟨key% "up_blocks.1.attentions.1.transformer_blocks.1.attn1.to_q.weight", [640, 640], .float16, [], false⟩,
  ⟨key% "up_blocks.1.attentions.1.transformer_blocks.1.attn1.to_v.weight", [640, 640], .float16, [], false⟩,
  ⟨key% "up_blocks.1.attentions.1.transformer_blocks.1.attn2.to_k.weight", [640, 2048], .float16, [], false⟩,
  ⟨key% "up_blocks.1.attentions.1.transformer_blocks.1.attn2.to_out.0.bias", [640], .float16, [], false⟩,
  ⟨key% "up_blocks.1.attentions.1.transformer_blocks.1.attn2.to_out.0.weight", [640, 640], .float16, [], false⟩,
  ⟨key% "up_blocks.1.attentions.1.transformer_blocks.1.attn2.to_q.weight", [640, 640], .float16, [], false⟩,
  ⟨key% "up_blocks.1.attentions.1.transformer_blocks.1.attn2.to_v.weight", [640, 2048], .float16, [], false⟩,
  ⟨key% "up_blocks.1.attentions.1.transformer_blocks.1.ff.net.0.proj.bias", [5120], .float16, [], false⟩,
  ⟨key% "up_blocks.1.attentions.1.transformer_blocks.1.ff.net.0.proj.weight", [5120, 640], .float16, [], false⟩,
  ⟨key% "up_blocks.1.attentions.1.transformer_blocks.1.ff.net.2.bias", [640], .float16, [], false⟩,
  ⟨key% "up_blocks.1.attentions.1.transformer_blocks.1.ff.net.2.weight", [640, 2560], .float16, [], false⟩,
  ⟨key% "up_blocks.1.attentions.1.transformer_blocks.1.norm1.bias", [640], .float16, [], false⟩,
  ⟨key% "up_blocks.1.attentions.1.transformer_blocks.1.norm1.weight", [640], .float16, [], false⟩,
  ⟨key% "up_blocks.1.attentions.1.transformer_blocks.1.norm2.bias", [640], .float16, [], false⟩,
  ⟨key% "up_blocks.1.attentions.1.transformer_blocks.1.norm2.weight", [640], .float16, [], false⟩,
  ⟨key% "up_blocks.1.attentions.1.transformer_blocks.1.norm3.bias", [640], .float16, [], false⟩,
  ⟨key% "up_blocks.1.attentions.1.transformer_blocks.1.norm3.weight", [640], .float16, [], false⟩,
  ⟨key% "up_blocks.1.attentions.2.norm.bias", [640], .float16, [], false⟩,
  ⟨key% "up_blocks.1.attentions.2.norm.weight", [640], .float16, [], false⟩,
  ⟨key% "up_blocks.1.attentions.2.proj_in.bias", [640], .float16, [], false⟩,
  ⟨key% "up_blocks.1.attentions.2.proj_in.weight", [640, 640], .float16, [], false⟩,
  ⟨key% "up_blocks.1.attentions.2.proj_out.bias", [640], .float16, [], false⟩,
  ⟨key% "up_blocks.1.attentions.2.proj_out.weight", [640, 640], .float16, [], false⟩,
  ⟨key% "up_blocks.1.attentions.2.transformer_blocks.0.attn1.to_k.weight", [640, 640], .float16, [], false⟩,
  ⟨key% "up_blocks.1.attentions.2.transformer_blocks.0.attn1.to_out.0.bias", [640], .float16, [], false⟩,
  ⟨key% "up_blocks.1.attentions.2.transformer_blocks.0.attn1.to_out.0.weight", [640, 640], .float16, [], false⟩,
  ⟨key% "up_blocks.1.attentions.2.transformer_blocks.0.attn1.to_q.weight", [640, 640], .float16, [], false⟩,
  ⟨key% "up_blocks.1.attentions.2.transformer_blocks.0.attn1.to_v.weight", [640, 640], .float16, [], false⟩,
  ⟨key% "up_blocks.1.attentions.2.transformer_blocks.0.attn2.to_k.weight", [640, 2048], .float16, [], false⟩,
  ⟨key% "up_blocks.1.attentions.2.transformer_blocks.0.attn2.to_out.0.bias", [640], .float16, [], false⟩,
  ⟨key% "up_blocks.1.attentions.2.transformer_blocks.0.attn2.to_out.0.weight", [640, 640], .float16, [], false⟩,
  ⟨key% "up_blocks.1.attentions.2.transformer_blocks.0.attn2.to_q.weight", [640, 640], .float16, [], false⟩,
  ⟨key% "up_blocks.1.attentions.2.transformer_blocks.0.attn2.to_v.weight", [640, 2048], .float16, [], false⟩,
  ⟨key% "up_blocks.1.attentions.2.transformer_blocks.0.ff.net.0.proj.bias", [5120], .float16, [], false⟩,
  ⟨key% "up_blocks.1.attentions.2.transformer_blocks.0.ff.net.0.proj.weight", [5120, 640], .float16, [], false⟩,
  ⟨key% "up_blocks.1.attentions.2.transformer_blocks.0.ff.net.2.bias", [640], .float16, [], false⟩,
  ⟨key% "up_blocks.1.attentions.2.transformer_blocks.0.ff.net.2.weight", [640, 2560], .float16, [], false⟩,
  ⟨key% "up_blocks.1.attentions.2.transformer_blocks.0.norm1.bias", [640], .float16, [], false⟩,
  ⟨key% "up_blocks.1.attentions.2.transformer_blocks.0.norm1.weight", [640], .float16, [], false⟩,
  ⟨key% "up_blocks.1.attentions.2.transformer_blocks.0.norm2.bias", [640], .float16, [], false⟩,
  ⟨key% "up_blocks.1.attentions.2.transformer_blocks.0.norm2.weight", [640], .float16, [], false⟩,
  ⟨key% "up_blocks.1.attentions.2.transformer_blocks.0.norm3.bias", [640], .float16, [], false⟩,
  ⟨key% "up_blocks.1.attentions.2.transformer_blocks.0.norm3.weight", [640], .float16, [], false⟩,
  ⟨key% "up_blocks.1.attentions.2.transformer_blocks.1.attn1.to_k.weight", [640, 640], .float16, [], false⟩,
  ⟨key% "up_blocks.1.attentions.2.transformer_blocks.1.attn1.to_out.0.bias", [640], .float16, [], false⟩,
  ⟨key% "up_blocks.1.attentions.2.transformer_blocks.1.attn1.to_out.0.weight", [640, 640], .float16, [], false⟩,
  ⟨key% "up_blocks.1.attentions.2.transformer_blocks.1.attn1.to_q.weight", [640, 640], .float16, [], false⟩,
  ⟨key% "up_blocks.1.attentions.2.transformer_blocks.1.attn1.to_v.weight", [640, 640], .float16, [], false⟩,
  ⟨key% "up_blocks.1.attentions.2.transformer_blocks.1.attn2.to_k.weight", [640, 2048], .float16, [], false⟩,
  ⟨key% "up_blocks.1.attentions.2.transformer_blocks.1.attn2.to_out.0.bias", [640], .float16, [], false⟩,
  ⟨key% "up_blocks.1.attentions.2.transformer_blocks.1.attn2.to_out.0.weight", [640, 640], .float16, [], false⟩,
  ⟨key% "up_blocks.1.attentions.2.transformer_blocks.1.attn2.to_q.weight", [640, 640], .float16, [], false⟩,
  ⟨key% "up_blocks.1.attentions.2.transformer_blocks.1.attn2.to_v.weight", [640, 2048], .float16, [], false⟩,
  ⟨key% "up_blocks.1.attentions.2.transformer_blocks.1.ff.net.0.proj.bias", [5120], .float16, [], false⟩,
  ⟨key% "up_blocks.1.attentions.2.transformer_blocks.1.ff.net.0.proj.weight", [5120, 640], .float16, [], false⟩,
  ⟨key% "up_blocks.1.attentions.2.transformer_blocks.1.ff.net.2.bias", [640], .float16, [], false⟩,
  ⟨key% "up_blocks.1.attentions.2.transformer_blocks.1.ff.net.2.weight", [640, 2560], .float16, [], false⟩]
noncomputable def diffuser16 : List Entry := [
  ⟨key% "up_blocks.1.attentions.2.transformer_blocks.1.norm1.bias", [640], .float16, [], false⟩,
  ⟨key% "up_blocks.1.attentions.2.transformer_blocks.1.norm1.weight", [640], .float16, [], false⟩,
  ⟨key% "up_blocks.1.attentions.2.transformer_blocks.1.norm2.bias", [640], .float16, [], false⟩,
  ⟨key% "up_blocks.1.attentions.2.transformer_blocks.1.norm2.weight", [640], .float16, [], false⟩,
  ⟨key% "up_blocks.1.attentions.2.transformer_blocks.1.norm3.bias", [640], .float16, [], false⟩,
  ⟨key% "up_blocks.1.attentions.2.transformer_blocks.1.norm3.weight", [640], .float16, [], false⟩,
  ⟨key% "up_blocks.1.resnets.0.conv1.bias", [640], .float16, [], false⟩,
  ⟨key% "up_blocks.1.resnets.0.conv1.weight", [640, 1920, 3, 3], .float16, [], false⟩,
  ⟨key% "up_blocks.1.resnets.0.conv2.bias", [640], .float16, [], false⟩,
  ⟨key% "up_blocks.1.resnets.0.conv2.weight", [640, 640, 3, 3], .float16, [], false⟩,
  ⟨key% "up_blocks.1.resnets.0.conv_shortcut.bias", [640], .float16, [], false⟩,
  ⟨key% "up_blocks.1.resnets.0.conv_shortcut.weight", [640, 1920, 1, 1], .float16, [], false⟩,
  ⟨key% "up_blocks.1.resnets.0.norm1.bias", [1920], .float16, [], false⟩,
  ⟨key% "up_blocks.1.resnets.0.norm1.weight", [1920], .float16, [], false⟩,
  ⟨key% "up_blocks.1.resnets.0.norm2.bias", [640], .float16, [], false⟩,
  ⟨key% "up_blocks.1.resnets.0.norm2.weight", [640], .float16, [], false⟩,
  ⟨key% "up_blocks.1.resnets.0.time_emb_proj.bias", [640], .float16, [], false⟩,
  ⟨key% "up_blocks.1.resnets.0.time_emb_proj.weight", [640, 1280], .float16, [], false⟩,
  ⟨key% "up_blocks.1.resnets.1.conv1.bias", [640], .float16, [], false⟩,
  ⟨key% "up_blocks.1.resnets.1.conv1.weight", [640, 1280, 3, 3], .float16, [], false⟩,
  ⟨key% "up_blocks.1.resnets.1.conv2.bias", [640], .float16, [], false⟩,
  ⟨key% "up_blocks.1.resnets.1.conv2.weight", [640, 640, 3, 3], .float16, [], false⟩,
  ⟨key% "up_blocks.1.resnets.1.conv_shortcut.bias", [640], .float16, [], false⟩,
  ⟨key% "up_blocks.1.resnets.1.conv_shortcut.weight", [640, 1280, 1, 1], .float16, [], false⟩,
  ⟨key% "up_blocks.1.resnets.1.norm1.bias", [1280], .float16, [], false⟩,
  ⟨key% "up_blocks.1.resnets.1.norm1.weight", [1280], .float16, [], false⟩,
  ⟨key% "up_blocks.1.resnets.1.norm2.bias", [640], .float16, [], false⟩,
  ⟨key% "up_blocks.1.resnets.1.norm2.weight", [640], .float16, [], false⟩,
  ⟨key% "up_blocks.1.resnets.1.time_emb_proj.bias", [640], .float16, [], false⟩,
  ⟨key% "up_blocks.1.resnets.1.time_emb_proj.weight", [640, 1280], .float16, [], false⟩,
  ⟨key% "up_blocks.1.resnets.2.conv1.bias", [640], .float16, [], false⟩,
  ⟨key% "up_blocks.1.resnets.2.conv1.weight", [640, 960, 3, 3], .float16, [], false⟩,
  ⟨key% "up_blocks.1.resnets.2.conv2.bias", [640], .float16, [], false⟩,
  ⟨key% "up_blocks.1.resnets.2.conv2.weight", [640, 640, 3, 3], .float16, [], false⟩,
  ⟨key% "up_blocks.1.resnets.2.conv_shortcut.bias", [640], .float16, [], false⟩,
  ⟨key% "up_blocks.1.resnets.2.conv_shortcut.weight", [640, 960, 1, 1], .float16, [], false⟩,
  ⟨key% "up_blocks.1.resnets.2.norm1.bias", [960], .float16, [], false⟩,
  ⟨key% "up_blocks.1.resnets.2.norm1.weight", [960], .float16, [], false⟩,
  ⟨key% "up_blocks.1.resnets.2.norm2.bias", [640], .float16, [], false⟩,
  ⟨key% "up_blocks.1.resnets.2.norm2.weight", [640], .float16, [], false⟩,
  ⟨key% "up_blocks.1.resnets.2.time_emb_proj.bias", [640], .float16, [], false⟩,
  ⟨key% "up_blocks.1.resnets.2.time_emb_proj.weight", [640, 1280], .float16, [], false⟩,
  ⟨key% "up_blocks.1.upsamplers.0.conv.bias", [640], .float16, [], false⟩,
  ⟨key% "up_blocks.1.upsamplers.0.conv.weight", [640, 640, 3, 3], .float16, [], false⟩,
  ⟨key% "up_blocks.2.resnets.0.conv1.bias", [320], .float16, [], false⟩,
  ⟨key% "up_blocks.2.resnets.0.conv1.weight", [320, 960, 3, 3], .float16, [], false⟩,
  ⟨key% "up_blocks.2.resnets.0.conv2.bias", [320], .float16, [], false⟩,
  ⟨key% "up_blocks.2.resnets.0.conv2.weight", [320, 320, 3, 3], .float16, [], false⟩,
  ⟨key% "up_blocks.2.resnets.0.conv_shortcut.bias", [320], .float16, [], false⟩,
  ⟨key% "up_blocks.2.resnets.0.conv_shortcut.weight", [320, 960, 1, 1], .float16, [], false⟩,
  ⟨key% "up_blocks.2.resnets.0.norm1.bias", [960], .float16, [], false⟩,
  ⟨key% "up_blocks.2.resnets.0.norm1.weight", [960], .float16, [], false⟩,
  ⟨key% "up_blocks.2.resnets.0.norm2.bias", [320], .float16, [], false⟩,
  ⟨key% "up_blocks.2.resnets.0.norm2.weight", [320], .float16, [], false⟩,
  ⟨key% "up_blocks.2.resnets.0.time_emb_proj.bias", [320], .float16, [], false⟩,
  ⟨key% "up_blocks.2.resnets.0.time_emb_proj.weight", [320, 1280], .float16, [], false⟩,
  ⟨key% "up_blocks.2.resnets.1.conv1.bias", [320], .float16, [], false⟩,
  ⟨key% "up_blocks.2.resnets.1.conv1.weight", [320, 640, 3, 3], .float16, [], false⟩,
  ⟨key% "up_blocks.2.resnets.1.conv2.bias", [320], .float16, [], false⟩,
  ⟨key% "up_blocks.2.resnets.1.conv2.weight", [320, 320, 3, 3], .float16, [], false⟩,
  ⟨key% "up_blocks.2.resnets.1.conv_shortcut.bias", [320], .float16, [], false⟩,
  ⟨key% "up_blocks.2.resnets.1.conv_shortcut.weight", [320, 640, 1, 1], .float16, [], false⟩,
  ⟨key% "up_blocks.2.resnets.1.norm1.bias", [640], .float16, [], false⟩,
  ⟨key% "up_blocks.2.resnets.1.norm1.weight", [640], .float16, [], false⟩,
  ⟨key% "up_blocks.2.resnets.1.norm2.bias", [320], .float16, [], false⟩,
  ⟨key% "up_blocks.2.resnets.1.norm2.weight", [320], .float16, [], false⟩,
  ⟨key% "up_blocks.2.resnets.1.time_emb_proj.bias", [320], .float16, [], false⟩,
  ⟨key% "up_blocks.2.resnets.1.time_emb_proj.weight", [320, 1280], .float16, [], false⟩,
  ⟨key% "up_blocks.2.resnets.2.conv1.bias", [320], .float16, [], false⟩,
  ⟨key% "up_blocks.2.resnets.2.conv1.weight", [320, 640, 3, 3], .float16, [], false⟩,
  ⟨key% "up_blocks.2.resnets.2.conv2.bias", [320], .float16, [], false⟩,
  ⟨key% "up_blocks.2.resnets.2.conv2.weight", [320, 320, 3, 3], .float16, [], false⟩,
  ⟨key% "up_blocks.2.resnets.2.conv_shortcut.bias", [320], .float16, [], false⟩,
  ⟨key% "up_blocks.2.resnets.2.conv_shortcut.weight", [320, 640, 1, 1], .float16, [], false⟩,
  ⟨key% "up_blocks.2.resnets.2.norm1.bias", [640], .float16, [], false⟩,
  ⟨key% "up_blocks.2.resnets.2.norm1.weight", [640], .float16, [], false⟩,
  ⟨key% "up_blocks.2.resnets.2.norm2.bias", [320], .float16, [], false⟩,
  ⟨key% "up_blocks.2.resnets.2.norm2.weight", [320], .float16, [], false⟩,
  ⟨key% "up_blocks.2.resnets.2.time_emb_proj.bias", [320], .float16, [], false⟩,
  ⟨key% "up_blocks.2.resnets.2.time_emb_proj.weight", [320, 1280], .float16, [], false⟩]
/-- Component `diffuser`: 1680 keys -/
noncomputable def diffuser : List Entry := diffuser0 ++ diffuser1 ++ diffuser2 ++ diffuser3 ++ diffuser4 ++ diffuser5 ++ diffuser6 ++ diffuser7 ++ diffuser8 ++ diffuser9 ++ diffuser10 ++ diffuser11 ++ diffuser12 ++ diffuser13 ++ diffuser14 ++ diffuser15 ++ diffuser16

/-- The config as written in the file: its identifier and its components -/
noncomputable def table : Table := ⟨key% "sdxl-diffusers_unet_only", [(key% "diffuser", diffuser)]⟩

end Verif.Data.SdxlDiffusersUnetOnly
