import Verif.Data.Entry

/-!
# Keys of `sd3-comfyui.yaml`

Generated by tools/gen_tables.py from sd_mecha/extensions/builtin/model_configs/sd3-comfyui.yaml.
-/
namespace Verif.Data.Sd3Comfyui


noncomputable def vae0 : List Entry := [
  ⟨key% "first_stage_model.decoder.conv_in.bias", [512], .float32, [], false⟩,
  ⟨key% "first_stage_model.decoder.conv_in.weight", [512, 16, 3, 3], .float32, [], false⟩,
  ⟨key% "first_stage_model.decoder.conv_out.bias", [3], .float32, [], false⟩,
  ⟨key% "first_stage_model.decoder.conv_out.weight", [3, 128, 3, 3], .float32, [], false⟩,
  ⟨key% "first_stage_model.decoder.mid.attn_1.k.bias", [512], .float32, [], false⟩,
  ⟨key% "first_stage_model.decoder.mid.attn_1.k.weight", [512, 512, 1, 1], .float32, [], false⟩,
  ⟨key% "first_stage_model.decoder.mid.attn_1.norm.bias", [512], .float32, [], false⟩,
  ⟨key% "first_stage_model.decoder.mid.attn_1.norm.weight", [512], .float32, [], false⟩,
  ⟨key% "first_stage_model.decoder.mid.attn_1.proj_out.bias", [512], .float32, [], false⟩,
  ⟨key% "first_stage_model.decoder.mid.attn_1.proj_out.weight", [512, 512, 1, 1], .float32, [], false⟩,
  ⟨key% "first_stage_model.decoder.mid.attn_1.q.bias", [512], .float32, [], false⟩,
  ⟨key% "first_stage_model.decoder.mid.attn_1.q.weight", [512, 512, 1, 1], .float32, [], false⟩,
  ⟨key% "first_stage_model.decoder.mid.attn_1.v.bias", [512], .float32, [], false⟩,
  ⟨key% "first_stage_model.decoder.mid.attn_1.v.weight", [512, 512, 1, 1], .float32, [], false⟩,
  ⟨key% "first_stage_model.decoder.mid.block_1.conv1.bias", [512], .float32, [], false⟩,
  ⟨key% "first_stage_model.decoder.mid.block_1.conv1.weight", [512, 512, 3, 3], .float32, [], false⟩,
  ⟨key% "first_stage_model.decoder.mid.block_1.conv2.bias", [512], .float32, [], false⟩,
  ⟨key% "first_stage_model.decoder.mid.block_1.conv2.weight", [512, 512, 3, 3], .float32, [], false⟩,
  ⟨key% "first_stage_model.decoder.mid.block_1.norm1.bias", [512], .float32, [], false⟩,
  ⟨key% "first_stage_model.decoder.mid.block_1.norm1.weight", [512], .float32, [], false⟩,
  ⟨key% "first_stage_model.decoder.mid.block_1.norm2.bias", [512], .float32, [], false⟩,
  ⟨key% "first_stage_model.decoder.mid.block_1.norm2.weight", [512], .float32, [], false⟩,
  ⟨key% "first_stage_model.decoder.mid.block_2.conv1.bias", [512], .float32, [], false⟩,
  ⟨key% "first_stage_model.decoder.mid.block_2.conv1.weight", [512, 512, 3, 3], .float32, [], false⟩,
  ⟨key% "first_stage_model.decoder.mid.block_2.conv2.bias", [512], .float32, [], false⟩,
  ⟨key% "first_stage_model.decoder.mid.block_2.conv2.weight", [512, 512, 3, 3], .float32, [], false⟩,
  ⟨key% "first_stage_model.decoder.mid.block_2.norm1.bias", [512], .float32, [], false⟩,
  ⟨key% "first_stage_model.decoder.mid.block_2.norm1.weight", [512], .float32, [], false⟩,
  ⟨key% "first_stage_model.decoder.mid.block_2.norm2.bias", [512], .float32, [], false⟩,
  ⟨key% "first_stage_model.decoder.mid.block_2.norm2.weight", [512], .float32, [], false⟩,
  ⟨key% "first_stage_model.decoder.norm_out.bias", [128], .float32, [], false⟩,
  ⟨key% "first_stage_model.decoder.norm_out.weight", [128], .float32, [], false⟩,
  ⟨key% "first_stage_model.decoder.up.0.block.0.conv1.bias", [128], .float32, [], false⟩,
  ⟨key% "first_stage_model.decoder.up.0.block.0.conv1.weight", [128, 256, 3, 3], .float32, [], false⟩,
  ⟨key% "first_stage_model.decoder.up.0.block.0.conv2.bias", [128], .float32, [], false⟩,
  ⟨key% "first_stage_model.decoder.up.0.block.0.conv2.weight", [128, 128, 3, 3], .float32, [], false⟩,
  ⟨key% "first_stage_model.decoder.up.0.block.0.nin_shortcut.bias", [128], .float32, [], false⟩,
  ⟨key% "first_stage_model.decoder.up.0.block.0.nin_shortcut.weight", [128, 256, 1, 1], .float32, [], false⟩,
  ⟨key% "first_stage_model.decoder.up.0.block.0.norm1.bias", [256], .float32, [], false⟩,
  ⟨key% "first_stage_model.decoder.up.0.block.0.norm1.weight", [256], .float32, [], false⟩,
  ⟨key% "first_stage_model.decoder.up.0.block.0.norm2.bias", [128], .float32, [], false⟩,
  ⟨key% "first_stage_model.decoder.up.0.block.0.norm2.weight", [128], .float32, [], false⟩,
  ⟨key% "first_stage_model.decoder.up.0.block.1.conv1.bias", [128], .float32, [], false⟩,
  ⟨key% "first_stage_model.decoder.up.0.block.1.conv1.weight", [128, 128, 3, 3], .float32, [], false⟩,
  ⟨key% "first_stage_model.decoder.up.0.block.1.conv2.bias", [128], .float32, [], false⟩,
  ⟨key% "first_stage_model.decoder.up.0.block.1.conv2.weight", [128, 128, 3, 3], .float32, [], false⟩,
  ⟨key% "first_stage_model.decoder.up.0.block.1.norm1.bias", [128], .float32, [], false⟩,
  ⟨key% "first_stage_model.decoder.up.0.block.1.norm1.weight", [128], .float32, [], false⟩,
  ⟨key% "first_stage_model.decoder.up.0.block.1.norm2.bias", [128], .float32, [], false⟩,
  ⟨key% "first_stage_model.decoder.up.0.block.1.norm2.weight", [128], .float32, [], false⟩,
  ⟨key% "first_stage_model.decoder.up.0.block.2.conv1.bias", [128], .float32, [], false⟩,
  ⟨key% "first_stage_model.decoder.up.0.block.2.conv1.weight", [128, 128, 3, 3], .float32, [], false⟩,
  ⟨key% "first_stage_model.decoder.up.0.block.2.conv2.bias", [128], .float32, [], false⟩,
  ⟨key% "first_stage_model.decoder.up.0.block.2.conv2.weight", [128, 128, 3, 3], .float32, [], false⟩,
  ⟨key% "first_stage_model.decoder.up.0.block.2.norm1.bias", [128], .float32, [], false⟩,
  ⟨key% "first_stage_model.decoder.up.0.block.2.norm1.weight", [128], .float32, [], false⟩,
  ⟨key% "first_stage_model.decoder.up.0.block.2.norm2.bias", [128], .float32, [], false⟩,
  ⟨key% "first_stage_model.decoder.up.0.block.2.norm2.weight", [128], .float32, [], false⟩,
  ⟨key% "first_stage_model.decoder.up.1.block.0.conv1.bias", [256], .float32, [], false⟩,
  ⟨key% "first_stage_model.decoder.up.1.block.0.conv1.weight", [256, 512, 3, 3], .float32, [], false⟩,
  ⟨key% "first_stage_model.decoder.up.1.block.0.conv2.bias", [256], .float32, [], false⟩,
  ⟨key% "first_stage_model.decoder.up.1.block.0.conv2.weight", [256, 256, 3, 3], .float32, [], false⟩,
  ⟨key% "first_stage_model.decoder.up.1.block.0.nin_shortcut.bias", [256], .float32, [], false⟩,
  ⟨key% "first_stage_model.decoder.up.1.block.0.nin_shortcut.weight", [256, 512, 1, 1], .float32, [], false⟩,
  ⟨key% "first_stage_model.decoder.up.1.block.0.norm1.bias", [512], .float32, [], false⟩,
  ⟨key% "first_stage_model.decoder.up.1.block.0.norm1.weight", [512], .float32, [], false⟩,
  ⟨key% "first_stage_model.decoder.up.1.block.0.norm2.bias", [256], .float32, [], false⟩,
  ⟨key% "first_stage_model.decoder.up.1.block.0.norm2.weight", [256], .float32, [], false⟩,
  ⟨key% "first_stage_model.decoder.up.1.block.1.conv1.bias", [256], .float32, [], false⟩,
  ⟨key% "first_stage_model.decoder.up.1.block.1.conv1.weight", [256, 256, 3, 3], .float32, [], false⟩,
  ⟨key% "first_stage_model.decoder.up.1.block.1.conv2.bias", [256], .float32, [], false⟩,
  ⟨key% "first_stage_model.decoder.up.1.block.1.conv2.weight", [256, 256, 3, 3], .float32, [], false⟩,
  ⟨key% "first_stage_model.decoder.up.1.block.1.norm1.bias", [256], .float32, [], false⟩,
  ⟨key% "first_stage_model.decoder.up.1.block.1.norm1.weight", [256], .float32, [], false⟩,
  ⟨key% "first_stage_model.decoder.up.1.block.1.norm2.bias", [256], .float32, [], false⟩,
  ⟨key% "first_stage_model.decoder.up.1.block.1.norm2.weight", [256], .float32, [], false⟩,
  ⟨key% "first_stage_model.decoder.up.1.block.2.conv1.bias", [256], .float32, [], false⟩,
  ⟨key% "first_stage_model.decoder.up.1.block.2.conv1.weight", [256, 256, 3, 3], .float32, [], false⟩,
  ⟨key% "first_stage_model.decoder.up.1.block.2.conv2.bias", [256], .float32, [], false⟩,
  ⟨key% "first_stage_model.decoder.up.1.block.2.conv2.weight", [256, 256, 3, 3], .float32, [], false⟩,
  ⟨key% "first_stage_model.decoder.up.1.block.2.norm1.bias", [256], .float32, [], false⟩,
  ⟨key% "first_stage_model.decoder.up.1.block.2.norm1.weight", [256], .float32, [], false⟩,
  ⟨key% "first_stage_model.decoder.up.1.block.2.norm2.bias", [256], .float32, [], false⟩,
  ⟨key% "first_stage_model.decoder.up.1.block.2.norm2.weight", [256], .float32, [], false⟩,
  ⟨key% "first_stage_model.decoder.up.1.upsample.conv.bias", [256], .float32, [], false⟩,
  ⟨key% "first_stage_model.decoder.up.1.upsample.conv.weight", [256, 256, 3, 3], .float32, [], false⟩,
  ⟨key% "first_stage_model.decoder.up.2.block.0.conv1.bias", [512], .float32, [], false⟩,
  ⟨key% "first_stage_model.decoder.up.2.block.0.conv1.weight", [512, 512, 3, 3], .float32, [], false⟩,
  ⟨key% "first_stage_model.decoder.up.2.block.0.conv2.bias", [512], .float32, [], false⟩,
  ⟨key% "first_stage_model.decoder.up.2.block.0.conv2.weight", [512, 512, 3, 3], .float32, [], false⟩,
  ⟨key% "first_stage_model.decoder.up.2.block.0.norm1.bias", [512], .float32, [], false⟩,
  ⟨key% "first_stage_model.decoder.up.2.block.0.norm1.weight", [512], .float32, [], false⟩,
  ⟨key% "first_stage_model.decoder.up.2.block.0.norm2.bias", [512], .float32, [], false⟩,
  ⟨key% "first_stage_model.decoder.up.2.block.0.norm2.weight", [512], .float32, [], false⟩,
  ⟨key% "first_stage_model.decoder.up.2.block.1.conv1.bias", [512], .float32, [], false⟩,
  ⟨key% "first_stage_model.decoder.up.2.block.1.conv1.weight", [512, 512, 3, 3], .float32, [], false⟩,
  ⟨key% "first_stage_model.decoder.up.2.block.1.conv2.bias", [512], .float32, [], false⟩,
  ⟨key% "first_stage_model.decoder.up.2.block.1.conv2.weight", [512, 512, 3, 3], .float32, [], false⟩,
  ⟨key% "first_stage_model.decoder.up.2.block.1.norm1.bias", [512], .float32, [], false⟩,
  ⟨key% "first_stage_model.decoder.up.2.block.1.norm1.weight", [512], .float32, [], false⟩]
noncomputable def vae1 : List Entry := [
  ⟨key% "first_stage_model.decoder.up.2.block.1.norm2.bias", [512], .float32, [], false⟩,
  ⟨key% "first_stage_model.decoder.up.2.block.1.norm2.weight", [512], .float32, [], false⟩,
  ⟨key% "first_stage_model.decoder.up.2.block.2.conv1.bias", [512], .float32, [], false⟩,
  ⟨key% "first_stage_model.decoder.up.2.block.2.conv1.weight", [512, 512, 3, 3], .float32, [], false⟩,
  ⟨key% "first_stage_model.decoder.up.2.block.2.conv2.bias", [512], .float32, [], false⟩,
  ⟨key% "first_stage_model.decoder.up.2.block.2.conv2.weight", [512, 512, 3, 3], .float32, [], false⟩,
  ⟨key% "first_stage_model.decoder.up.2.block.2.norm1.bias", [512], .float32, [], false⟩,
  ⟨key% "first_stage_model.decoder.up.2.block.2.norm1.weight", [512], .float32, [], false⟩,
  ⟨key% "first_stage_model.decoder.up.2.block.2.norm2.bias", [512], .float32, [], false⟩,
  ⟨key% "first_stage_model.decoder.up.2.block.2.norm2.weight", [512], .float32, [], false⟩,
  ⟨key% "first_stage_model.decoder.up.2.upsample.conv.bias", [512], .float32, [], false⟩,
  ⟨key% "first_stage_model.decoder.up.2.upsample.conv.weight", [512, 512, 3, 3], .float32, [], false⟩,
  ⟨key% "first_stage_model.decoder.up.3.block.0.conv1.bias", [512], .float32, [], false⟩,
  ⟨key% "first_stage_model.decoder.up.3.block.0.conv1.weight", [512, 512, 3, 3], .float32, [], false⟩,
  ⟨key% "first_stage_model.decoder.up.3.block.0.conv2.bias", [512], .float32, [], false⟩,
  ⟨key% "first_stage_model.decoder.up.3.block.0.conv2.weight", [512, 512, 3, 3], .float32, [], false⟩,
  ⟨key% "first_stage_model.decoder.up.3.block.0.norm1.bias", [512], .float32, [], false⟩,
  ⟨key% "first_stage_model.decoder.up.3.block.0.norm1.weight", [512], .float32, [], false⟩,
  ⟨key% "first_stage_model.decoder.up.3.block.0.norm2.bias", [512], .float32, [], false⟩,
  ⟨key% "first_stage_model.decoder.up.3.block.0.norm2.weight", [512], .float32, [], false⟩,
  ⟨key% "first_stage_model.decoder.up.3.block.1.conv1.bias", [512], .float32, [], false⟩,
  ⟨key% "first_stage_model.decoder.up.3.block.1.conv1.weight", [512, 512, 3, 3], .float32, [], false⟩,
  ⟨key% "first_stage_model.decoder.up.3.block.1.conv2.bias", [512], .float32, [], false⟩,
  ⟨key% "first_stage_model.decoder.up.3.block.1.conv2.weight", [512, 512, 3, 3], .float32, [], false⟩,
  ⟨key% "first_stage_model.decoder.up.3.block.1.norm1.bias", [512], .float32, [], false⟩,
  ⟨key% "first_stage_model.decoder.up.3.block.1.norm1.weight", [512], .float32, [], false⟩,
  ⟨key% "first_stage_model.decoder.up.3.block.1.norm2.bias", [512], .float32, [], false⟩,
  ⟨key% "first_stage_model.decoder.up.3.block.1.norm2.weight", [512], .float32, [], false⟩,
  ⟨key% "first_stage_model.decoder.up.3.block.2.conv1.bias", [512], .float32, [], false⟩,
  ⟨key% "first_stage_model.decoder.up.3.block.2.conv1.weight", [512, 512, 3, 3], .float32, [], false⟩,
  ⟨key% "first_stage_model.decoder.up.3.block.2.conv2.bias", [512], .float32, [], false⟩,
  ⟨key% "first_stage_model.decoder.up.3.block.2.conv2.weight", [512, 512, 3, 3], .float32, [], false⟩,
  ⟨key% "first_stage_model.decoder.up.3.block.2.norm1.bias", [512], .float32, [], false⟩,
  ⟨key% "first_stage_model.decoder.up.3.block.2.norm1.weight", [512], .float32, [], false⟩,
  ⟨key% "first_stage_model.decoder.up.3.block.2.norm2.bias", [512], .float32, [], false⟩,
  ⟨key% "first_stage_model.decoder.up.3.block.2.norm2.weight", [512], .float32, [], false⟩,
  ⟨key% "first_stage_model.decoder.up.3.upsample.conv.bias", [512], .float32, [], false⟩,
  ⟨key% "first_stage_model.decoder.up.3.upsample.conv.weight", [512, 512, 3, 3], .float32, [], false⟩,
  ⟨key% "first_stage_model.encoder.conv_in.bias", [128], .float32, [], false⟩,
  ⟨key% "first_stage_model.encoder.conv_in.weight", [128, 3, 3, 3], .float32, [], false⟩,
  ⟨key% "first_stage_model.encoder.conv_out.bias", [32], .float32, [], false⟩,
  ⟨key% "first_stage_model.encoder.conv_out.weight", [32, 512, 3, 3], .float32, [], false⟩,
  ⟨key% "first_stage_model.encoder.down.0.block.0.conv1.bias", [128], .float32, [], false⟩,
  ⟨key% "first_stage_model.encoder.down.0.block.0.conv1.weight", [128, 128, 3, 3], .float32, [], false⟩,
  ⟨key% "first_stage_model.encoder.down.0.block.0.conv2.bias", [128], .float32, [], false⟩,
  ⟨key% "first_stage_model.encoder.down.0.block.0.conv2.weight", [128, 128, 3, 3], .float32, [], false⟩,
  ⟨key% "first_stage_model.encoder.down.0.block.0.norm1.bias", [128], .float32, [], false⟩,
  ⟨key% "first_stage_model.encoder.down.0.block.0.norm1.weight", [128], .float32, [], false⟩,
  ⟨key% "first_stage_model.encoder.down.0.block.0.norm2.bias", [128], .float32, [], false⟩,
  ⟨key% "first_stage_model.encoder.down.0.block.0.norm2.weight", [128], .float32, [], false⟩,
  ⟨key% "first_stage_model.encoder.down.0.block.1.conv1.bias", [128], .float32, [], false⟩,
  ⟨key% "first_stage_model.encoder.down.0.block.1.conv1.weight", [128, 128, 3, 3], .float32, [], false⟩,
  ⟨key% "first_stage_model.encoder.down.0.block.1.conv2.bias", [128], .float32, [], false⟩,
  ⟨key% "first_stage_model.encoder.down.0.block.1.conv2.weight", [128, 128, 3, 3], .float32, [], false⟩,
  ⟨key% "first_stage_model.encoder.down.0.block.1.norm1.bias", [128], .float32, [], false⟩,
  ⟨key% "first_stage_model.encoder.down.0.block.1.norm1.weight", [128], .float32, [], false⟩,
  ⟨key% "first_stage_model.encoder.down.0.block.1.norm2.bias", [128], .float32, [], false⟩,
  ⟨key% "first_stage_model.encoder.down.0.block.1.norm2.weight", [128], .float32, [], false⟩,
  ⟨key% "first_stage_model.encoder.down.0.downsample.conv.bias", [128], .float32, [], false⟩,
  ⟨key% "first_stage_model.encoder.down.0.downsample.conv.weight", [128, 128, 3, 3], .float32, [], false⟩,
  ⟨key% "first_stage_model.encoder.down.1.block.0.conv1.bias", [256], .float32, [], false⟩,
  ⟨key% "first_stage_model.encoder.down.1.block.0.conv1.weight", [256, 128, 3, 3], .float32, [], false⟩,
  ⟨key% "first_stage_model.encoder.down.1.block.0.conv2.bias", [256], .float32, [], false⟩,
  ⟨key% "first_stage_model.encoder.down.1.block.0.conv2.weight", [256, 256, 3, 3], .float32, [], false⟩,
  ⟨key% "first_stage_model.encoder.down.1.block.0.nin_shortcut.bias", [256], .float32, [], false⟩,
  ⟨key% "first_stage_model.encoder.down.1.block.0.nin_shortcut.weight", [256, 128, 1, 1], .float32, [], false⟩,
  ⟨key% "first_stage_model.encoder.down.1.block.0.norm1.bias", [128], .float32, [], false⟩,
  ⟨key% "first_stage_model.encoder.down.1.block.0.norm1.weight", [128], .float32, [], false⟩,
  ⟨key% "first_stage_model.encoder.down.1.block.0.norm2.bias", [256], .float32, [], false⟩,
  ⟨key% "first_stage_model.encoder.down.1.block.0.norm2.weight", [256], .float32, [], false⟩,
  ⟨key% "first_stage_model.encoder.down.1.block.1.conv1.bias", [256], .float32, [], false⟩,
  ⟨key% "first_stage_model.encoder.down.1.block.1.conv1.weight", [256, 256, 3, 3], .float32, [], false⟩,
  ⟨key% "first_stage_model.encoder.down.1.block.1.conv2.bias", [256], .float32, [], false⟩,
  ⟨key% "first_stage_model.encoder.down.1.block.1.conv2.weight", [256, 256, 3, 3], .float32, [], false⟩,
  ⟨key% "first_stage_model.encoder.down.1.block.1.norm1.bias", [256], .float32, [], false⟩,
  ⟨key% "first_stage_model.encoder.down.1.block.1.norm1.weight", [256], .float32, [], false⟩,
  ⟨key% "first_stage_model.encoder.down.1.block.1.norm2.bias", [256], .float32, [], false⟩,
  ⟨key% "first_stage_model.encoder.down.1.block.1.norm2.weight", [256], .float32, [], false⟩,
  ⟨key% "first_stage_model.encoder.down.1.downsample.conv.bias", [256], .float32, [], false⟩,
  ⟨key% "first_stage_model.encoder.down.1.downsample.conv.weight", [256, 256, 3, 3], .float32, [], false⟩,
  ⟨key% "first_stage_model.encoder.down.2.block.0.conv1.bias", [512], .float32, [], false⟩,
  ⟨key% "first_stage_model.encoder.down.2.block.0.conv1.weight", [512, 256, 3, 3], .float32, [], false⟩,
  ⟨key% "first_stage_model.encoder.down.2.block.0.conv2.bias", [512], .float32, [], false⟩,
  ⟨key% "first_stage_model.encoder.down.2.block.0.conv2.weight", [512, 512, 3, 3], .float32, [], false⟩,
  ⟨key% "first_stage_model.encoder.down.2.block.0.nin_shortcut.bias", [512], .float32, [], false⟩,
  ⟨key% "first_stage_model.encoder.down.2.block.0.nin_shortcut.weight", [512, 256, 1, 1], .float32, [], false⟩,
  ⟨key% "first_stage_model.encoder.down.2.block.0.norm1.bias", [256], .float32, [], false⟩,
  ⟨key% "first_stage_model.encoder.down.2.block.0.norm1.weight", [256], .float32, [], false⟩,
  ⟨key% "first_stage_model.encoder.down.2.block.0.norm2.bias", [512], .float32, [], false⟩,
  ⟨key% "first_stage_model.encoder.down.2.block.0.norm2.weight", [512], .float32, [], false⟩,
  ⟨key% "first_stage_model.encoder.down.2.block.1.conv1.bias", [512], .float32, [], false⟩,
  ⟨key% "first_stage_model.encoder.down.2.block.1.conv1.weight", [512, 512, 3, 3], .float32, [], false⟩,
  ⟨key% "first_stage_model.encoder.down.2.block.1.conv2.bias", [512], .float32, [], false⟩,
  ⟨key% "first_stage_model.encoder.down.2.block.1.conv2.weight", [512, 512, 3, 3], .float32, [], false⟩,
  ⟨key% "first_stage_model.encoder.down.2.block.1.norm1.bias", [512], .float32, [], false⟩,
  ⟨key% "first_stage_model.encoder.down.2.block.1.norm1.weight", [512], .float32, [], false⟩,
  ⟨key% "first_stage_model.encoder.down.2.block.1.norm2.bias", [512], .float32, [], false⟩,
  ⟨key% "first_stage_model.encoder.down.2.block.1.norm2.weight", [512], .float32, [], false⟩,
  ⟨key% "first_stage_model.encoder.down.2.downsample.conv.bias", [512], .float32, [], false⟩,
  ⟨key% "first_stage_model.encoder.down.2.downsample.conv.weight", [512, 512, 3, 3], .float32, [], false⟩]
noncomputable def vae2 : List Entry := [
  ⟨key% "first_stage_model.encoder.down.3.block.0.conv1.bias", [512], .float32, [], false⟩,
  ⟨key% "first_stage_model.encoder.down.3.block.0.conv1.weight", [512, 512, 3, 3], .float32, [], false⟩,
  ⟨key% "first_stage_model.encoder.down.3.block.0.conv2.bias", [512], .float32, [], false⟩,
  ⟨key% "first_stage_model.encoder.down.3.block.0.conv2.weight", [512, 512, 3, 3], .float32, [], false⟩,
  ⟨key% "first_stage_model.encoder.down.3.block.0.norm1.bias", [512], .float32, [], false⟩,
  ⟨key% "first_stage_model.encoder.down.3.block.0.norm1.weight", [512], .float32, [], false⟩,
  ⟨key% "first_stage_model.encoder.down.3.block.0.norm2.bias", [512], .float32, [], false⟩,
  ⟨key% "first_stage_model.encoder.down.3.block.0.norm2.weight", [512], .float32, [], false⟩,
  ⟨key% "first_stage_model.encoder.down.3.block.1.conv1.bias", [512], .float32, [], false⟩,
  ⟨key% "first_stage_model.encoder.down.3.block.1.conv1.weight", [512, 512, 3, 3], .float32, [], false⟩,
  ⟨key% "first_stage_model.encoder.down.3.block.1.conv2.bias", [512], .float32, [], false⟩,
  ⟨key% "first_stage_model.encoder.down.3.block.1.conv2.weight", [512, 512, 3, 3], .float32, [], false⟩,
  ⟨key% "first_stage_model.encoder.down.3.block.1.norm1.bias", [512], .float32, [], false⟩,
  ⟨key% "first_stage_model.encoder.down.3.block.1.norm1.weight", [512], .float32, [], false⟩,
  ⟨key% "first_stage_model.encoder.down.3.block.1.norm2.bias", [512], .float32, [], false⟩,
  ⟨key% "first_stage_model.encoder.down.3.block.1.norm2.weight", [512], .float32, [], false⟩,
  ⟨key% "first_stage_model.encoder.mid.attn_1.k.bias", [512], .float32, [], false⟩,
  ⟨key% "first_stage_model.encoder.mid.attn_1.k.weight", [512, 512, 1, 1], .float32, [], false⟩,
  ⟨key% "first_stage_model.encoder.mid.attn_1.norm.bias", [512], .float32, [], false⟩,
  ⟨key% "first_stage_model.encoder.mid.attn_1.norm.weight", [512], .float32, [], false⟩,
  ⟨key% "first_stage_model.encoder.mid.attn_1.proj_out.bias", [512], .float32, [], false⟩,
  ⟨key% "first_stage_model.encoder.mid.attn_1.proj_out.weight", [512, 512, 1, 1], .float32, [], false⟩,
  ⟨key% "first_stage_model.encoder.mid.attn_1.q.bias", [512], .float32, [], false⟩,
  ⟨key% "first_stage_model.encoder.mid.attn_1.q.weight", [512, 512, 1, 1], .float32, [], false⟩,
  ⟨key% "first_stage_model.encoder.mid.attn_1.v.bias", [512], .float32, [], false⟩,
  ⟨key% "first_stage_model.encoder.mid.attn_1.v.weight", [512, 512, 1, 1], .float32, [], false⟩,
  ⟨key% "first_stage_model.encoder.mid.block_1.conv1.bias", [512], .float32, [], false⟩,
  ⟨key% "first_stage_model.encoder.mid.block_1.conv1.weight", [512, 512, 3, 3], .float32, [], false⟩,
  ⟨key% "first_stage_model.encoder.mid.block_1.conv2.bias", [512], .float32, [], false⟩,
  ⟨key% "first_stage_model.encoder.mid.block_1.conv2.weight", [512, 512, 3, 3], .float32, [], false⟩,
  ⟨key% "first_stage_model.encoder.mid.block_1.norm1.bias", [512], .float32, [], false⟩,
  ⟨key% "first_stage_model.encoder.mid.block_1.norm1.weight", [512], .float32, [], false⟩,
  ⟨key% "first_stage_model.encoder.mid.block_1.norm2.bias", [512], .float32, [], false⟩,
  ⟨key% "first_stage_model.encoder.mid.block_1.norm2.weight", [512], .float32, [], false⟩,
  ⟨key% "first_stage_model.encoder.mid.block_2.conv1.bias", [512], .float32, [], false⟩,
  ⟨key% "first_stage_model.encoder.mid.block_2.conv1.weight", [512, 512, 3, 3], .float32, [], false⟩,
  ⟨key% "first_stage_model.encoder.mid.block_2.conv2.bias", [512], .float32, [], false⟩,
  ⟨key% "first_stage_model.encoder.mid.block_2.conv2.weight", [512, 512, 3, 3], .float32, [], false⟩,
  ⟨key% "first_stage_model.encoder.mid.block_2.norm1.bias", [512], .float32, [], false⟩,
  ⟨key% "first_stage_model.encoder.mid.block_2.norm1.weight", [512], .float32, [], false⟩,
  ⟨key% "first_stage_model.encoder.mid.block_2.norm2.bias", [512], .float32, [], false⟩,
  ⟨key% "first_stage_model.encoder.mid.block_2.norm2.weight", [512], .float32, [], false⟩,
  ⟨key% "first_stage_model.encoder.norm_out.bias", [512], .float32, [], false⟩,
  ⟨key% "first_stage_model.encoder.norm_out.weight", [512], .float32, [], false⟩]
/-- Component `vae`: 244 keys -/
noncomputable def vae : List Entry := vae0 ++ vae1 ++ vae2

noncomputable def diffuser0 : List Entry := [
  ⟨key% "model.diffusion_model.context_embedder.bias", [1536], .float32, [], false⟩,
  ⟨key% "model.diffusion_model.context_embedder.weight", [1536, 4096], .float32, [], false⟩,
  ⟨key% "model.diffusion_model.final_layer.adaLN_modulation.1.bias", [3072], .float32, [], false⟩,
  ⟨key% "model.diffusion_model.final_layer.adaLN_modulation.1.weight", [3072, 1536], .float32, [], false⟩,
  ⟨key% "model.diffusion_model.final_layer.linear.bias", [64], .float32, [], false⟩,
  ⟨key% "model.diffusion_model.final_layer.linear.weight", [64, 1536], .float32, [], false⟩,
  ⟨key% "model.diffusion_model.joint_blocks.0.context_block.adaLN_modulation.1.bias", [9216], .float32, [], false⟩,
  ⟨key% "model.diffusion_model.joint_blocks.0.context_block.adaLN_modulation.1.weight", [9216, 1536], .float32, [], false⟩,
  ⟨key% "model.diffusion_model.joint_blocks.0.context_block.attn.proj.bias", [1536], .float32, [], false⟩,
  ⟨key% "model.diffusion_model.joint_blocks.0.context_block.attn.proj.weight", [1536, 1536], .float32, [], false⟩,
  ⟨key% "model.diffusion_model.joint_blocks.0.context_block.attn.qkv.bias", [4608], .float32, [], false⟩,
  ⟨key% "model.diffusion_model.joint_blocks.0.context_block.attn.qkv.weight", [4608, 1536], .float32, [], false⟩,
  ⟨key% "model.diffusion_model.joint_blocks.0.context_block.mlp.fc1.bias", [6144], .float32, [], false⟩,
  ⟨key% "model.diffusion_model.joint_blocks.0.context_block.mlp.fc1.weight", [6144, 1536], .float32, [], false⟩,
  ⟨key% "model.diffusion_model.joint_blocks.0.context_block.mlp.fc2.bias", [1536], .float32, [], false⟩,
  ⟨key% "model.diffusion_model.joint_blocks.0.context_block.mlp.fc2.weight", [1536, 6144], .float32, [], false⟩,
  ⟨key% "model.diffusion_model.joint_blocks.0.x_block.adaLN_modulation.1.bias", [9216], .float32, [], false⟩,
  ⟨key% "model.diffusion_model.joint_blocks.0.x_block.adaLN_modulation.1.weight", [9216, 1536], .float32, [], false⟩,
  ⟨key% "model.diffusion_model.joint_blocks.0.x_block.attn.proj.bias", [1536], .float32, [], false⟩,
  ⟨key% "model.diffusion_model.joint_blocks.0.x_block.attn.proj.weight", [1536, 1536], .float32, [], false⟩,
  ⟨key% "model.diffusion_model.joint_blocks.0.x_block.attn.qkv.bias", [4608], .float32, [], false⟩,
  ⟨key% "model.diffusion_model.joint_blocks.0.x_block.attn.qkv.weight", [4608, 1536], .float32, [], false⟩,
  ⟨key% "model.diffusion_model.joint_blocks.0.x_block.mlp.fc1.bias", [6144], .float32, [], false⟩,
  ⟨key% "model.diffusion_model.joint_blocks.0.x_block.mlp.fc1.weight", [6144, 1536], .float32, [], false⟩,
  ⟨key% "model.diffusion_model.joint_blocks.0.x_block.mlp.fc2.bias", [1536], .float32, [], false⟩,
  ⟨key% "model.diffusion_model.joint_blocks.0.x_block.mlp.fc2.weight", [1536, 6144], .float32, [], false⟩,
  ⟨key% "model.diffusion_model.joint_blocks.1.context_block.adaLN_modulation.1.bias", [9216], .float32, [], false⟩,
  ⟨key% "model.diffusion_model.joint_blocks.1.context_block.adaLN_modulation.1.weight", [9216, 1536], .float32, [], false⟩,
  ⟨key% "model.diffusion_model.joint_blocks.1.context_block.attn.proj.bias", [1536], .float32, [], false⟩,
  ⟨key% "model.diffusion_model.joint_blocks.1.context_block.attn.proj.weight", [1536, 1536], .float32, [], false⟩,
  ⟨key% "model.diffusion_model.joint_blocks.1.context_block.attn.qkv.bias", [4608], .float32, [], false⟩,
  ⟨key% "model.diffusion_model.joint_blocks.1.context_block.attn.qkv.weight", [4608, 1536], .float32, [], false⟩,
  ⟨key% "model.diffusion_model.joint_blocks.1.context_block.mlp.fc1.bias", [6144], .float32, [], false⟩,
  ⟨key% "model.diffusion_model.joint_blocks.1.context_block.mlp.fc1.weight", [6144, 1536], .float32, [], false⟩,
  ⟨key% "model.diffusion_model.joint_blocks.1.context_block.mlp.fc2.bias", [1536], .float32, [], false⟩,
  ⟨key% "model.diffusion_model.joint_blocks.1.context_block.mlp.fc2.weight", [1536, 6144], .float32, [], false⟩,
  ⟨key% "model.diffusion_model.joint_blocks.1.x_block.adaLN_modulation.1.bias", [9216], .float32, [], false⟩,
  ⟨key% "model.diffusion_model.joint_blocks.1.x_block.adaLN_modulation.1.weight", [9216, 1536], .float32, [], false⟩,
  ⟨key% "model.diffusion_model.joint_blocks.1.x_block.attn.proj.bias", [1536], .float32, [], false⟩,
  ⟨key% "model.diffusion_model.joint_blocks.1.x_block.attn.proj.weight", [1536, 1536], .float32, [], false⟩,
  ⟨key% "model.diffusion_model.joint_blocks.1.x_block.attn.qkv.bias", [4608], .float32, [], false⟩,
  ⟨key% "model.diffusion_model.joint_blocks.1.x_block.attn.qkv.weight", [4608, 1536], .float32, [], false⟩,
  ⟨key% "model.diffusion_model.joint_blocks.1.x_block.mlp.fc1.bias", [6144], .float32, [], false⟩,
  ⟨key% "model.diffusion_model.joint_blocks.1.x_block.mlp.fc1.weight", [6144, 1536], .float32, [], false⟩,
  ⟨key% "model.diffusion_model.joint_blocks.1.x_block.mlp.fc2.bias", [1536], .float32, [], false⟩,
  ⟨key% "model.diffusion_model.joint_blocks.1.x_block.mlp.fc2.weight", [1536, 6144], .float32, [], false⟩,
  ⟨key% "model.diffusion_model.joint_blocks.10.context_block.adaLN_modulation.1.bias", [9216], .float32, [], false⟩,
  ⟨key% "model.diffusion_model.joint_blocks.10.context_block.adaLN_modulation.1.weight", [9216, 1536], .float32, [], false⟩,
  ⟨key% "model.diffusion_model.joint_blocks.10.context_block.attn.proj.bias", [1536], .float32, [], false⟩,
  ⟨key% "model.diffusion_model.joint_blocks.10.context_block.attn.proj.weight", [1536, 1536], .float32, [], false⟩,
  ⟨key% "model.diffusion_model.joint_blocks.10.context_block.attn.qkv.bias", [4608], .float32, [], false⟩,
  ⟨key% "model.diffusion_model.joint_blocks.10.context_block.attn.qkv.weight", [4608, 1536], .float32, [], false⟩,
  ⟨key% "model.diffusion_model.joint_blocks.10.context_block.mlp.fc1.bias", [6144], .float32, [], false⟩,
  ⟨key% "model.diffusion_model.joint_blocks.10.context_block.mlp.fc1.weight", [6144, 1536], .float32, [], false⟩,
  ⟨key% "model.diffusion_model.joint_blocks.10.context_block.mlp.fc2.bias", [1536], .float32, [], false⟩,
  ⟨key% "model.diffusion_model.joint_blocks.10.context_block.mlp.fc2.weight", [1536, 6144], .float32, [], false⟩,
  ⟨key% "model.diffusion_model.joint_blocks.10.x_block.adaLN_modulation.1.bias", [9216], .float32, [], false⟩,
  ⟨key% "model.diffusion_model.joint_blocks.10.x_block.adaLN_modulation.1.weight", [9216, 1536], .float32, [], false⟩,
  ⟨key% "model.diffusion_model.joint_blocks.10.x_block.attn.proj.bias", [1536], .float32, [], false⟩,
  ⟨key% "model.diffusion_model.joint_blocks.10.x_block.attn.proj.weight", [1536, 1536], .float32, [], false⟩,
  ⟨key% "model.diffusion_model.joint_blocks.10.x_block.attn.qkv.bias", [4608], .float32, [], false⟩,
  ⟨key% "model.diffusion_model.joint_blocks.10.x_block.attn.qkv.weight", [4608, 1536], .float32, [], false⟩,
  ⟨key% "model.diffusion_model.joint_blocks.10.x_block.mlp.fc1.bias", [6144], .float32, [], false⟩,
  ⟨key% "model.diffusion_model.joint_blocks.10.x_block.mlp.fc1.weight", [6144, 1536], .float32, [], false⟩,
  ⟨key% "model.diffusion_model.joint_blocks.10.x_block.mlp.fc2.bias", [1536], .float32, [], false⟩,
  ⟨key% "model.diffusion_model.joint_blocks.10.x_block.mlp.fc2.weight", [1536, 6144], .float32, [], false⟩,
  ⟨key% "model.diffusion_model.joint_blocks.11.context_block.adaLN_modulation.1.bias", [9216], .float32, [], false⟩,
  ⟨key% "model.diffusion_model.joint_blocks.11.context_block.adaLN_modulation.1.weight", [9216, 1536], .float32, [], false⟩,
  ⟨key% "model.diffusion_model.joint_blocks.11.context_block.attn.proj.bias", [1536], .float32, [], false⟩,
  ⟨key% "model.diffusion_model.joint_blocks.11.context_block.attn.proj.weight", [1536, 1536], .float32, [], false⟩,
  ⟨key% "model.diffusion_model.joint_blocks.11.context_block.attn.qkv.bias", [4608], .float32, [], false⟩,
  ⟨key% "model.diffusion_model.joint_blocks.11.context_block.attn.qkv.weight", [4608, 1536], .float32, [], false⟩,
  ⟨key% "model.diffusion_model.joint_blocks.11.context_block.mlp.fc1.bias", [6144], .float32, [], false⟩,
  ⟨key% "model.diffusion_model.joint_blocks.11.context_block.mlp.fc1.weight", [6144, 1536], .float32, [], false⟩,
  ⟨key% "model.diffusion_model.joint_blocks.11.context_block.mlp.fc2.bias", [1536], .float32, [], false⟩,
  ⟨key% "model.diffusion_model.joint_blocks.11.context_block.mlp.fc2.weight", [1536, 6144], .float32, [], false⟩,
  ⟨key% "model.diffusion_model.joint_blocks.11.x_block.adaLN_modulation.1.bias", [9216], .float32, [], false⟩,
  ⟨key% "model.diffusion_model.joint_blocks.11.x_block.adaLN_modulation.1.weight", [9216, 1536], .float32, [], false⟩,
  ⟨key% "model.diffusion_model.joint_blocks.11.x_block.attn.proj.bias", [1536], .float32, [], false⟩,
  ⟨key% "model.diffusion_model.joint_blocks.11.x_block.attn.proj.weight", [1536, 1536], .float32, [], false⟩,
  ⟨key% "model.diffusion_model.joint_blocks.11.x_block.attn.qkv.bias", [4608], .float32, [], false⟩,
  ⟨key% "model.diffusion_model.joint_blocks.11.x_block.attn.qkv.weight", [4608, 1536], .float32, [], false⟩,
  ⟨key% "model.diffusion_model.joint_blocks.11.x_block.mlp.fc1.bias", [6144], .float32, [], false⟩,
  ⟨key% "model.diffusion_model.joint_blocks.11.x_block.mlp.fc1.weight", [6144, 1536], .float32, [], false⟩,
  ⟨key% "model.diffusion_model.joint_blocks.11.x_block.mlp.fc2.bias", [1536], .float32, [], false⟩,
  ⟨key% "model.diffusion_model.joint_blocks.11.x_block.mlp.fc2.weight", [1536, 6144], .float32, [], false⟩,
  ⟨key% "model.diffusion_model.joint_blocks.12.context_block.adaLN_modulation.1.bias", [9216], .float32, [], false⟩,
  ⟨key% "model.diffusion_model.joint_blocks.12.context_block.adaLN_modulation.1.weight", [9216, 1536], .float32, [], false⟩,
  ⟨key% "model.diffusion_model.joint_blocks.12.context_block.attn.proj.bias", [1536], .float32, [], false⟩,
  ⟨key% "model.diffusion_model.joint_blocks.12.context_block.attn.proj.weight", [1536, 1536], .float32, [], false⟩,
  ⟨key% "model.diffusion_model.joint_blocks.12.context_block.attn.qkv.bias", [4608], .float32, [], false⟩,
  ⟨key% "model.diffusion_model.joint_blocks.12.context_block.attn.qkv.weight", [4608, 1536], .float32, [], false⟩,
  ⟨key% "model.diffusion_model.joint_blocks.12.context_block.mlp.fc1.bias", [6144], .float32, [], false⟩,
  ⟨key% "model.diffusion_model.joint_blocks.12.context_block.mlp.fc1.weight", [6144, 1536], .float32, [], false⟩,
  ⟨key% "model.diffusion_model.joint_blocks.12.context_block.mlp.fc2.bias", [1536], .float32, [], false⟩,
  ⟨key% "model.diffusion_model.joint_blocks.12.context_block.mlp.fc2.weight", [1536, 6144], .float32, [], false⟩,
  ⟨key% "model.diffusion_model.joint_blocks.12.x_block.adaLN_modulation.1.bias", [9216], .float32, [], false⟩,
  ⟨key% "model.diffusion_model.joint_blocks.12.x_block.adaLN_modulation.1.weight", [9216, 1536], .float32, [], false⟩,
  ⟨key% "model.diffusion_model.joint_blocks.12.x_block.attn.proj.bias", [1536], .float32, [], false⟩,
  ⟨key% "model.diffusion_model.joint_blocks.12.x_block.attn.proj.weight", [1536, 1536], .float32, [], false⟩]
noncomputable def diffuser1 : List Entry := [
  ⟨key% "model.diffusion_model.joint_blocks.12.x_block.attn.qkv.bias", [4608], .float32, [], false⟩,
  ⟨key% "model.diffusion_model.joint_blocks.12.x_block.attn.qkv.weight", [4608, 1536], .float32, [], false⟩,
  ⟨key% "model.diffusion_model.joint_blocks.12.x_block.mlp.fc1.bias", [6144], .float32, [], false⟩,
  ⟨key% "model.diffusion_model.joint_blocks.12.x_block.mlp.fc1.weight", [6144, 1536], .float32, [], false⟩,
  ⟨key% "model.diffusion_model.joint_blocks.12.x_block.mlp.fc2.bias", [1536], .float32, [], false⟩,
  ⟨key% "model.diffusion_model.joint_blocks.12.x_block.mlp.fc2.weight", [1536, 6144], .float32, [], false⟩,
  ⟨key% "model.diffusion_model.joint_blocks.13.context_block.adaLN_modulation.1.bias", [9216], .float32, [], false⟩,
  ⟨key% "model.diffusion_model.joint_blocks.13.context_block.adaLN_modulation.1.weight", [9216, 1536], .float32, [], false⟩,
  ⟨key% "model.diffusion_model.joint_blocks.13.context_block.attn.proj.bias", [1536], .float32, [], false⟩,
  ⟨key% "model.diffusion_model.joint_blocks.13.context_block.attn.proj.weight", [1536, 1536], .float32, [], false⟩,
  ⟨key% "model.diffusion_model.joint_blocks.13.context_block.attn.qkv.bias", [4608], .float32, [], false⟩,
  ⟨key% "model.diffusion_model.joint_blocks.13.context_block.attn.qkv.weight", [4608, 1536], .float32, [], false⟩,
  ⟨key% "model.diffusion_model.joint_blocks.13.context_block.mlp.fc1.bias", [6144], .float32, [], false⟩,
  ⟨key% "model.diffusion_model.joint_blocks.13.context_block.mlp.fc1.weight", [6144, 1536], .float32, [], false⟩,
  ⟨key% "model.diffusion_model.joint_blocks.13.context_block.mlp.fc2.bias", [1536], .float32, [], false⟩,
  ⟨key% "model.diffusion_model.joint_blocks.13.context_block.mlp.fc2.weight", [1536, 6144], .float32, [], false⟩,
  ⟨key% "model.diffusion_model.joint_blocks.13.x_block.adaLN_modulation.1.bias", [9216], .float32, [], false⟩,
  ⟨key% "model.diffusion_model.joint_blocks.13.x_block.adaLN_modulation.1.weight", [9216, 1536], .float32, [], false⟩,
  ⟨key% "model.diffusion_model.joint_blocks.13.x_block.attn.proj.bias", [1536], .float32, [], false⟩,
  ⟨key% "model.diffusion_model.joint_blocks.13.x_block.attn.proj.weight", [1536, 1536], .float32, [], false⟩,
  ⟨key% "model.diffusion_model.joint_blocks.13.x_block.attn.qkv.bias", [4608], .float32, [], false⟩,
  ⟨key% "model.diffusion_model.joint_blocks.13.x_block.attn.qkv.weight", [4608, 1536], .float32, [], false⟩,
  ⟨key% "model.diffusion_model.joint_blocks.13.x_block.mlp.fc1.bias", [6144], .float32, [], false⟩,
  ⟨key% "model.diffusion_model.joint_blocks.13.x_block.mlp.fc1.weight", [6144, 1536], .float32, [], false⟩,
  ⟨key% "model.diffusion_model.joint_blocks.13.x_block.mlp.fc2.bias", [1536], .float32, [], false⟩,
  ⟨key% "model.diffusion_model.joint_blocks.13.x_block.mlp.fc2.weight", [1536, 6144], .float32, [], false⟩,
  ⟨key% "model.diffusion_model.joint_blocks.14.context_block.adaLN_modulation.1.bias", [9216], .float32, [], false⟩,
  ⟨key% "model.diffusion_model.joint_blocks.14.context_block.adaLN_modulation.1.weight", [9216, 1536], .float32, [], false⟩,
  ⟨key% "model.diffusion_model.joint_blocks.14.context_block.attn.proj.bias", [1536], .float32, [], false⟩,
  ⟨key% "model.diffusion_model.joint_blocks.14.context_block.attn.proj.weight", [1536, 1536], .float32, [], false⟩,
  ⟨key% "model.diffusion_model.joint_blocks.14.context_block.attn.qkv.bias", [4608], .float32, [], false⟩,
  ⟨key% "model.diffusion_model.joint_blocks.14.context_block.attn.qkv.weight", [4608, 1536], .float32, [], false⟩,
  ⟨key% "model.diffusion_model.joint_blocks.14.context_block.mlp.fc1.bias", [6144], .float32, [], false⟩,
  ⟨key% "model.diffusion_model.joint_blocks.14.context_block.mlp.fc1.weight", [6144, 1536], .float32, [], false⟩,
  ⟨key% "model.diffusion_model.joint_blocks.14.context_block.mlp.fc2.bias", [1536], .float32, [], false⟩,
  ⟨key% "model.diffusion_model.joint_blocks.14.context_block.mlp.fc2.weight", [1536, 6144], .float32, [], false⟩,
  ⟨key% "model.diffusion_model.joint_blocks.14.x_block.adaLN_modulation.1.bias", [9216], .float32, [], false⟩,
  ⟨key% "model.diffusion_model.joint_blocks.14.x_block.adaLN_modulation.1.weight", [9216, 1536], .float32, [], false⟩,
  ⟨key% "model.diffusion_model.joint_blocks.14.x_block.attn.proj.bias", [1536], .float32, [], false⟩,
  ⟨key% "model.diffusion_model.joint_blocks.14.x_block.attn.proj.weight", [1536, 1536], .float32, [], false⟩,
  ⟨key% "model.diffusion_model.joint_blocks.14.x_block.attn.qkv.bias", [4608], .float32, [], false⟩,
  ⟨key% "model.diffusion_model.joint_blocks.14.x_block.attn.qkv.weight", [4608, 1536], .float32, [], false⟩,
  ⟨key% "model.diffusion_model.joint_blocks.14.x_block.mlp.fc1.bias", [6144], .float32, [], false⟩,
  ⟨key% "model.diffusion_model.joint_blocks.14.x_block.mlp.fc1.weight", [6144, 1536], .float32, [], false⟩,
  ⟨key% "model.diffusion_model.joint_blocks.14.x_block.mlp.fc2.bias", [1536], .float32, [], false⟩,
  ⟨key% "model.diffusion_model.joint_blocks.14.x_block.mlp.fc2.weight", [1536, 6144], .float32, [], false⟩,
  ⟨key% "model.diffusion_model.joint_blocks.15.context_block.adaLN_modulation.1.bias", [9216], .float32, [], false⟩,
  ⟨key% "model.diffusion_model.joint_blocks.15.context_block.adaLN_modulation.1.weight", [9216, 1536], .float32, [], false⟩,
  ⟨key% "model.diffusion_model.joint_blocks.15.context_block.attn.proj.bias", [1536], .float32, [], false⟩,
  ⟨key% "model.diffusion_model.joint_blocks.15.context_block.attn.proj.weight", [1536, 1536], .float32, [], false⟩,
  ⟨key% "model.diffusion_model.joint_blocks.15.context_block.attn.qkv.bias", [4608], .float32, [], false⟩,
  ⟨key% "model.diffusion_model.joint_blocks.15.context_block.attn.qkv.weight", [4608, 1536], .float32, [], false⟩,
  ⟨key% "model.diffusion_model.joint_blocks.15.context_block.mlp.fc1.bias", [6144], .float32, [], false⟩,
  ⟨key% "model.diffusion_model.joint_blocks.15.context_block.mlp.fc1.weight", [6144, 1536], .float32, [], false⟩,
  ⟨key% "model.diffusion_model.joint_blocks.15.context_block.mlp.fc2.bias", [1536], .float32, [], false⟩,
  ⟨key% "model.diffusion_model.joint_blocks.15.context_block.mlp.fc2.weight", [1536, 6144], .float32, [], false⟩,
  ⟨key% "model.diffusion_model.joint_blocks.15.x_block.adaLN_modulation.1.bias", [9216], .float32, [], false⟩,
  ⟨key% "model.diffusion_model.joint_blocks.15.x_block.adaLN_modulation.1.weight", [9216, 1536], .float32, [], false⟩,
  ⟨key% "model.diffusion_model.joint_blocks.15.x_block.attn.proj.bias", [1536], .float32, [], false⟩,
  ⟨key% "model.diffusion_model.joint_blocks.15.x_block.attn.proj.weight", [1536, 1536], .float32, [], false⟩,
  ⟨key% "model.diffusion_model.joint_blocks.15.x_block.attn.qkv.bias", [4608], .float32, [], false⟩,
  ⟨key% "model.diffusion_model.joint_blocks.15.x_block.attn.qkv.weight", [4608, 1536], .float32, [], false⟩,
  ⟨key% "model.diffusion_model.joint_blocks.15.x_block.mlp.fc1.bias", [6144], .float32, [], false⟩,
  ⟨key% "model.diffusion_model.joint_blocks.15.x_block.mlp.fc1.weight", [6144, 1536], .float32, [], false⟩,
  ⟨key% "model.diffusion_model.joint_blocks.15.x_block.mlp.fc2.bias", [1536], .float32, [], false⟩,
  ⟨key% "model.diffusion_model.joint_blocks.15.x_block.mlp.fc2.weight", [1536, 6144], .float32, [], false⟩,
  ⟨key% "model.diffusion_model.joint_blocks.16.context_block.adaLN_modulation.1.bias", [9216], .float32, [], false⟩,
  ⟨key% "model.diffusion_model.joint_blocks.16.context_block.adaLN_modulation.1.weight", [9216, 1536], .float32, [], false⟩,
  ⟨key% "model.diffusion_model.joint_blocks.16.context_block.attn.proj.bias", [1536], .float32, [], false⟩,
  ⟨key% "model.diffusion_model.joint_blocks.16.context_block.attn.proj.weight", [1536, 1536], .float32, [], false⟩,
  ⟨key% "model.diffusion_model.joint_blocks.16.context_block.attn.qkv.bias", [4608], .float32, [], false⟩,
  ⟨key% "model.diffusion_model.joint_blocks.16.context_block.attn.qkv.weight", [4608, 1536], .float32, [], false⟩,
  ⟨key% "model.diffusion_model.joint_blocks.16.context_block.mlp.fc1.bias", [6144], .float32, [], false⟩,
  ⟨key% "model.diffusion_model.joint_blocks.16.context_block.mlp.fc1.weight", [6144, 1536], .float32, [], false⟩,
  ⟨key% "model.diffusion_model.joint_blocks.16.context_block.mlp.fc2.bias", [1536], .float32, [], false⟩,
  ⟨key% "model.diffusion_model.joint_blocks.16.context_block.mlp.fc2.weight", [1536, 6144], .float32, [], false⟩,
  ⟨key% "model.diffusion_model.joint_blocks.16.x_block.adaLN_modulation.1.bias", [9216], .float32, [], false⟩,
  ⟨key% "model.diffusion_model.joint_blocks.16.x_block.adaLN_modulation.1.weight", [9216, 1536], .float32, [], false⟩,
  ⟨key% "model.diffusion_model.joint_blocks.16.x_block.attn.proj.bias", [1536], .float32, [], false⟩,
  ⟨key% "model.diffusion_model.joint_blocks.16.x_block.attn.proj.weight", [1536, 1536], .float32, [], false⟩,
  ⟨key% "model.diffusion_model.joint_blocks.16.x_block.attn.qkv.bias", [4608], .float32, [], false⟩,
  ⟨key% "model.diffusion_model.joint_blocks.16.x_block.attn.qkv.weight", [4608, 1536], .float32, [], false⟩,
  ⟨key% "model.diffusion_model.joint_blocks.16.x_block.mlp.fc1.bias", [6144], .float32, [], false⟩,
  ⟨key% "model.diffusion_model.joint_blocks.16.x_block.mlp.fc1.weight", [6144, 1536], .float32, [], false⟩,
  ⟨key% "model.diffusion_model.joint_blocks.16.x_block.mlp.fc2.bias", [1536], .float32, [], false⟩,
  ⟨key% "model.diffusion_model.joint_blocks.16.x_block.mlp.fc2.weight", [1536, 6144], .float32, [], false⟩,
  ⟨key% "model.diffusion_model.joint_blocks.17.context_block.adaLN_modulation.1.bias", [9216], .float32, [], false⟩,
  ⟨key% "model.diffusion_model.joint_blocks.17.context_block.adaLN_modulation.1.weight", [9216, 1536], .float32, [], false⟩,
  ⟨key% "model.diffusion_model.joint_blocks.17.context_block.attn.proj.bias", [1536], .float32, [], false⟩,
  ⟨key% "model.diffusion_model.joint_blocks.17.context_block.attn.proj.weight", [1536, 1536], .float32, [], false⟩,
  ⟨key% "model.diffusion_model.joint_blocks.17.context_block.attn.qkv.bias", [4608], .float32, [], false⟩,
  ⟨key% "model.diffusion_model.joint_blocks.17.context_block.attn.qkv.weight", [4608, 1536], .float32, [], false⟩,
  ⟨key% "model.diffusion_model.joint_blocks.17.context_block.mlp.fc1.bias", [6144], .float32, [], false⟩,
  ⟨key% "model.diffusion_model.joint_blocks.17.context_block.mlp.fc1.weight", [6144, 1536], .float32, [], false⟩,
  ⟨key% "model.diffusion_model.joint_blocks.17.context_block.mlp.fc2.bias", [1536], .float32, [], false⟩,
  ⟨key% "model.diffusion_model.joint_blocks.17.context_block.mlp.fc2.weight", [1536, 6144], .float32, [], false⟩,
  ⟨key% "model.diffusion_model.joint_blocks.17.x_block.adaLN_modulation.1.bias", [9216], .float32, [], false⟩,
  ⟨key% "model.diffusion_model.joint_blocks.17.x_block.adaLN_modulation.1.weight", [9216, 1536], .float32, [], false⟩,
  ⟨key% "model.diffusion_model.joint_blocks.17.x_block.attn.proj.bias", [1536], .float32, [], false⟩,
  ⟨key% "model.diffusion_model.joint_blocks.17.x_block.attn.proj.weight", [1536, 1536], .float32, [], false⟩]
noncomputable def diffuser2 : List Entry := [
  ⟨key% "model.diffusion_model.joint_blocks.17.x_block.attn.qkv.bias", [4608], .float32, [], false⟩,
  ⟨key% "model.diffusion_model.joint_blocks.17.x_block.attn.qkv.weight", [4608, 1536], .float32, [], false⟩,
  ⟨key% "model.diffusion_model.joint_blocks.17.x_block.mlp.fc1.bias", [6144], .float32, [], false⟩,
  ⟨key% "model.diffusion_model.joint_blocks.17.x_block.mlp.fc1.weight", [6144, 1536], .float32, [], false⟩,
  ⟨key% "model.diffusion_model.joint_blocks.17.x_block.mlp.fc2.bias", [1536], .float32, [], false⟩,
  ⟨key% "model.diffusion_model.joint_blocks.17.x_block.mlp.fc2.weight", [1536, 6144], .float32, [], false⟩,
  ⟨key% "model.diffusion_model.joint_blocks.18.context_block.adaLN_modulation.1.bias", [9216], .float32, [], false⟩,
  ⟨key% "model.diffusion_model.joint_blocks.18.context_block.adaLN_modulation.1.weight", [9216, 1536], .float32, [], false⟩,
  ⟨key% "model.diffusion_model.joint_blocks.18.context_block.attn.proj.bias", [1536], .float32, [], false⟩,
  ⟨key% "model.diffusion_model.joint_blocks.18.context_block.attn.proj.weight", [1536, 1536], .float32, [], false⟩,
  ⟨key% "model.diffusion_model.joint_blocks.18.context_block.attn.qkv.bias", [4608], .float32, [], false⟩,
  ⟨key% "model.diffusion_model.joint_blocks.18.context_block.attn.qkv.weight", [4608, 1536], .float32, [], false⟩,
  ⟨key% "model.diffusion_model.joint_blocks.18.context_block.mlp.fc1.bias", [6144], .float32, [], false⟩,
  ⟨key% "model.diffusion_model.joint_blocks.18.context_block.mlp.fc1.weight", [6144, 1536], .float32, [], false⟩,
  ⟨key% "model.diffusion_model.joint_blocks.18.context_block.mlp.fc2.bias", [1536], .float32, [], false⟩,
  ⟨key% "model.diffusion_model.joint_blocks.18.context_block.mlp.fc2.weight", [1536, 6144], .float32, [], false⟩,
  ⟨key% "model.diffusion_model.joint_blocks.18.x_block.adaLN_modulation.1.bias", [9216], .float32, [], false⟩,
  ⟨key% "model.diffusion_model.joint_blocks.18.x_block.adaLN_modulation.1.weight", [9216, 1536], .float32, [], false⟩,
  ⟨key% "model.diffusion_model.joint_blocks.18.x_block.attn.proj.bias", [1536], .float32, [], false⟩,
  ⟨key% "model.diffusion_model.joint_blocks.18.x_block.attn.proj.weight", [1536, 1536], .float32, [], false⟩,
  ⟨key% "model.diffusion_model.joint_blocks.18.x_block.attn.qkv.bias", [4608], .float32, [], false⟩,
  ⟨key% "model.diffusion_model.joint_blocks.18.x_block.attn.qkv.weight", [4608, 1536], .float32, [], false⟩,
  ⟨key% "model.diffusion_model.joint_blocks.18.x_block.mlp.fc1.bias", [6144], .float32, [], false⟩,
  ⟨key% "model.diffusion_model.joint_blocks.18.x_block.mlp.fc1.weight", [6144, 1536], .float32, [], false⟩,
  ⟨key% "model.diffusion_model.joint_blocks.18.x_block.mlp.fc2.bias", [1536], .float32, [], false⟩,
  ⟨key% "model.diffusion_model.joint_blocks.18.x_block.mlp.fc2.weight", [1536, 6144], .float32, [], false⟩,
  ⟨key% "model.diffusion_model.joint_blocks.19.context_block.adaLN_modulation.1.bias", [9216], .float32, [], false⟩,
  ⟨key% "model.diffusion_model.joint_blocks.19.context_block.adaLN_modulation.1.weight", [9216, 1536], .float32, [], false⟩,
  ⟨key% "model.diffusion_model.joint_blocks.19.context_block.attn.proj.bias", [1536], .float32, [], false⟩,
  ⟨key% "model.diffusion_model.joint_blocks.19.context_block.attn.proj.weight", [1536, 1536], .float32, [], false⟩,
  ⟨key% "model.diffusion_model.joint_blocks.19.context_block.attn.qkv.bias", [4608], .float32, [], false⟩,
  ⟨key% "model.diffusion_model.joint_blocks.19.context_block.attn.qkv.weight", [4608, 1536], .float32, [], false⟩,
  ⟨key% "model.diffusion_model.joint_blocks.19.context_block.mlp.fc1.bias", [6144], .float32, [], false⟩,
  ⟨key% "model.diffusion_model.joint_blocks.19.context_block.mlp.fc1.weight", [6144, 1536], .float32, [], false⟩,
  ⟨key% "model.diffusion_model.joint_blocks.19.context_block.mlp.fc2.bias", [1536], .float32, [], false⟩,
  ⟨key% "model.diffusion_model.joint_blocks.19.context_block.mlp.fc2.weight", [1536, 6144], .float32, [], false⟩,
  ⟨key% "model.diffusion_model.joint_blocks.19.x_block.adaLN_modulation.1.bias", [9216], .float32, [], false⟩,
  ⟨key% "model.diffusion_model.joint_blocks.19.x_block.adaLN_modulation.1.weight", [9216, 1536], .float32, [], false⟩,
  ⟨key% "model.diffusion_model.joint_blocks.19.x_block.attn.proj.bias", [1536], .float32, [], false⟩,
  ⟨key% "model.diffusion_model.joint_blocks.19.x_block.attn.proj.weight", [1536, 1536], .float32, [], false⟩,
  ⟨key% "model.diffusion_model.joint_blocks.19.x_block.attn.qkv.bias", [4608], .float32, [], false⟩,
  ⟨key% "model.diffusion_model.joint_blocks.19.x_block.attn.qkv.weight", [4608, 1536], .float32, [], false⟩,
  ⟨key% "model.diffusion_model.joint_blocks.19.x_block.mlp.fc1.bias", [6144], .float32, [], false⟩,
  ⟨key% "model.diffusion_model.joint_blocks.19.x_block.mlp.fc1.weight", [6144, 1536], .float32, [], false⟩,
  ⟨key% "model.diffusion_model.joint_blocks.19.x_block.mlp.fc2.bias", [1536], .float32, [], false⟩,
  ⟨key% "model.diffusion_model.joint_blocks.19.x_block.mlp.fc2.weight", [1536, 6144], .float32, [], false⟩,
  ⟨key% "model.diffusion_model.joint_blocks.2.context_block.adaLN_modulation.1.bias", [9216], .float32, [], false⟩,
  ⟨key% "model.diffusion_model.joint_blocks.2.context_block.adaLN_modulation.1.weight", [9216, 1536], .float32, [], false⟩,
  ⟨key% "model.diffusion_model.joint_blocks.2.context_block.attn.proj.bias", [1536], .float32, [], false⟩,
  ⟨key% "model.diffusion_model.joint_blocks.2.context_block.attn.proj.weight", [1536, 1536], .float32, [], false⟩,
  ⟨key% "model.diffusion_model.joint_blocks.2.context_block.attn.qkv.bias", [4608], .float32, [], false⟩,
  ⟨key% "model.diffusion_model.joint_blocks.2.context_block.attn.qkv.weight", [4608, 1536], .float32, [], false⟩,
  ⟨key% "model.diffusion_model.joint_blocks.2.context_block.mlp.fc1.bias", [6144], .float32, [], false⟩,
  ⟨key% "model.diffusion_model.joint_blocks.2.context_block.mlp.fc1.weight", [6144, 1536], .float32, [], false⟩,
  ⟨key% "model.diffusion_model.joint_blocks.2.context_block.mlp.fc2.bias", [1536], .float32, [], false⟩,
  ⟨key% "model.diffusion_model.joint_blocks.2.context_block.mlp.fc2.weight", [1536, 6144], .float32, [], false⟩,
  ⟨key% "model.diffusion_model.joint_blocks.2.x_block.adaLN_modulation.1.bias", [9216], .float32, [], false⟩,
  ⟨key% "model.diffusion_model.joint_blocks.2.x_block.adaLN_modulation.1.weight", [9216, 1536], .float32, [], false⟩,
  ⟨key% "model.diffusion_model.joint_blocks.2.x_block.attn.proj.bias", [1536], .float32, [], false⟩,
  ⟨key% "model.diffusion_model.joint_blocks.2.x_block.attn.proj.weight", [1536, 1536], .float32, [], false⟩,
  ⟨key% "model.diffusion_model.joint_blocks.2.x_block.attn.qkv.bias", [4608], .float32, [], false⟩,
  ⟨key% "model.diffusion_model.joint_blocks.2.x_block.attn.qkv.weight", [4608, 1536], .float32, [], false⟩,
  ⟨key% "model.diffusion_model.joint_blocks.2.x_block.mlp.fc1.bias", [6144], .float32, [], false⟩,
  ⟨key% "model.diffusion_model.joint_blocks.2.x_block.mlp.fc1.weight", [6144, 1536], .float32, [], false⟩,
  ⟨key% "model.diffusion_model.joint_blocks.2.x_block.mlp.fc2.bias", [1536], .float32, [], false⟩,
  ⟨key% "model.diffusion_model.joint_blocks.2.x_block.mlp.fc2.weight", [1536, 6144], .float32, [], false⟩,
  ⟨key% "model.diffusion_model.joint_blocks.20.context_block.adaLN_modulation.1.bias", [9216], .float32, [], false⟩,
  ⟨key% "model.diffusion_model.joint_blocks.20.context_block.adaLN_modulation.1.weight", [9216, 1536], .float32, [], false⟩,
  ⟨key% "model.diffusion_model.joint_blocks.20.context_block.attn.proj.bias", [1536], .float32, [], false⟩,
  ⟨key% "model.diffusion_model.joint_blocks.20.context_block.attn.proj.weight", [1536, 1536], .float32, [], false⟩,
  ⟨key% "model.diffusion_model.joint_blocks.20.context_block.attn.qkv.bias", [4608], .float32, [], false⟩,
  ⟨key% "model.diffusion_model.joint_blocks.20.context_block.attn.qkv.weight", [4608, 1536], .float32, [], false⟩,
  ⟨key% "model.diffusion_model.joint_blocks.20.context_block.mlp.fc1.bias", [6144], .float32, [], false⟩,
  ⟨key% "model.diffusion_model.joint_blocks.20.context_block.mlp.fc1.weight", [6144, 1536], .float32, [], false⟩,
  ⟨key% "model.diffusion_model.joint_blocks.20.context_block.mlp.fc2.bias", [1536], .float32, [], false⟩,
  ⟨key% "model.diffusion_model.joint_blocks.20.context_block.mlp.fc2.weight", [1536, 6144], .float32, [], false⟩,
  ⟨key% "model.diffusion_model.joint_blocks.20.x_block.adaLN_modulation.1.bias", [9216], .float32, [], false⟩,
  ⟨key% "model.diffusion_model.joint_blocks.20.x_block.adaLN_modulation.1.weight", [9216, 1536], .float32, [], false⟩,
  ⟨key% "model.diffusion_model.joint_blocks.20.x_block.attn.proj.bias", [1536], .float32, [], false⟩,
  ⟨key% "model.diffusion_model.joint_blocks.20.x_block.attn.proj.weight", [1536, 1536], .float32, [], false⟩,
  ⟨key% "model.diffusion_model.joint_blocks.20.x_block.attn.qkv.bias", [4608], .float32, [], false⟩,
  ⟨key% "model.diffusion_model.joint_blocks.20.x_block.attn.qkv.weight", [4608, 1536], .float32, [], false⟩,
  ⟨key% "model.diffusion_model.joint_blocks.20.x_block.mlp.fc1.bias", [6144], .float32, [], false⟩,
  ⟨key% "model.diffusion_model.joint_blocks.20.x_block.mlp.fc1.weight", [6144, 1536], .float32, [], false⟩,
  ⟨key% "model.diffusion_model.joint_blocks.20.x_block.mlp.fc2.bias", [1536], .float32, [], false⟩,
  ⟨key% "model.diffusion_model.joint_blocks.20.x_block.mlp.fc2.weight", [1536, 6144], .float32, [], false⟩,
  ⟨key% "model.diffusion_model.joint_blocks.21.context_block.adaLN_modulation.1.bias", [9216], .float32, [], false⟩,
  ⟨key% "model.diffusion_model.joint_blocks.21.context_block.adaLN_modulation.1.weight", [9216, 1536], .float32, [], false⟩,
  ⟨key% "model.diffusion_model.joint_blocks.21.context_block.attn.proj.bias", [1536], .float32, [], false⟩,
  ⟨key% "model.diffusion_model.joint_blocks.21.context_block.attn.proj.weight", [1536, 1536], .float32, [], false⟩,
  ⟨key% "model.diffusion_model.joint_blocks.21.context_block.attn.qkv.bias", [4608], .float32, [], false⟩,
  ⟨key% "model.diffusion_model.joint_blocks.21.context_block.attn.qkv.weight", [4608, 1536], .float32, [], false⟩,
  ⟨key% "model.diffusion_model.joint_blocks.21.context_block.mlp.fc1.bias", [6144], .float32, [], false⟩,
  ⟨key% "model.diffusion_model.joint_blocks.21.context_block.mlp.fc1.weight", [6144, 1536], .float32, [], false⟩,
  ⟨key% "model.diffusion_model.joint_blocks.21.context_block.mlp.fc2.bias", [1536], .float32, [], false⟩,
  ⟨key% "model.diffusion_model.joint_blocks.21.context_block.mlp.fc2.weight", [1536, 6144], .float32, [], false⟩,
  ⟨key% "model.diffusion_model.joint_blocks.21.x_block.adaLN_modulation.1.bias", [9216], .float32, [], false⟩,
  ⟨key% "model.diffusion_model.joint_blocks.21.x_block.adaLN_modulation.1.weight", [9216, 1536], .float32, [], false⟩,
  ⟨key% "model.diffusion_model.joint_blocks.21.x_block.attn.proj.bias", [1536], .float32, [], false⟩,
  ⟨key% "model.diffusion_model.joint_blocks.21.x_block.attn.proj.weight", [1536, 1536], .float32, [], false⟩]
noncomputable def diffuser3 : List Entry := [
  ⟨key% "model.diffusion_model.joint_blocks.21.x_block.attn.qkv.bias", [4608], .float32, [], false⟩,
  ⟨key% "model.diffusion_model.joint_blocks.21.x_block.attn.qkv.weight", [4608, 1536], .float32, [], false⟩,
  ⟨key% "model.diffusion_model.joint_blocks.21.x_block.mlp.fc1.bias", [6144], .float32, [], false⟩,
  ⟨key% "model.diffusion_model.joint_blocks.21.x_block.mlp.fc1.weight", [6144, 1536], .float32, [], false⟩,
  ⟨key% "model.diffusion_model.joint_blocks.21.x_block.mlp.fc2.bias", [1536], .float32, [], false⟩,
  ⟨key% "model.diffusion_model.joint_blocks.21.x_block.mlp.fc2.weight", [1536, 6144], .float32, [], false⟩,
  ⟨key% "model.diffusion_model.joint_blocks.22.context_block.adaLN_modulation.1.bias", [9216], .float32, [], false⟩,
  ⟨key% "model.diffusion_model.joint_blocks.22.context_block.adaLN_modulation.1.weight", [9216, 1536], .float32, [], false⟩,
  ⟨key% "model.diffusion_model.joint_blocks.22.context_block.attn.proj.bias", [1536], .float32, [], false⟩,
  ⟨key% "model.diffusion_model.joint_blocks.22.context_block.attn.proj.weight", [1536, 1536], .float32, [], false⟩,
  ⟨key% "model.diffusion_model.joint_blocks.22.context_block.attn.qkv.bias", [4608], .float32, [], false⟩,
  ⟨key% "model.diffusion_model.joint_blocks.22.context_block.attn.qkv.weight", [4608, 1536], .float32, [], false⟩,
  ⟨key% "model.diffusion_model.joint_blocks.22.context_block.mlp.fc1.bias", [6144], .float32, [], false⟩,
  ⟨key% "model.diffusion_model.joint_blocks.22.context_block.mlp.fc1.weight", [6144, 1536], .float32, [], false⟩,
  ⟨key% "model.diffusion_model.joint_blocks.22.context_block.mlp.fc2.bias", [1536], .float32, [], false⟩,
  ⟨key% "model.diffusion_model.joint_blocks.22.context_block.mlp.fc2.weight", [1536, 6144], .float32, [], false⟩,
  ⟨key% "model.diffusion_model.joint_blocks.22.x_block.adaLN_modulation.1.bias", [9216], .float32, [], false⟩,
  ⟨key% "model.diffusion_model.joint_blocks.22.x_block.adaLN_modulation.1.weight", [9216, 1536], .float32, [], false⟩,
  ⟨key% "model.diffusion_model.joint_blocks.22.x_block.attn.proj.bias", [1536], .float32, [], false⟩,
  ⟨key% "model.diffusion_model.joint_blocks.22.x_block.attn.proj.weight", [1536, 1536], .float32, [], false⟩,
  ⟨key% "model.diffusion_model.joint_blocks.22.x_block.attn.qkv.bias", [4608], .float32, [], false⟩,
  ⟨key% "model.diffusion_model.joint_blocks.22.x_block.attn.qkv.weight", [4608, 1536], .float32, [], false⟩,
  ⟨key% "model.diffusion_model.joint_blocks.22.x_block.mlp.fc1.bias", [6144], .float32, [], false⟩,
  ⟨key% "model.diffusion_model.joint_blocks.22.x_block.mlp.fc1.weight", [6144, 1536], .float32, [], false⟩,
  ⟨key% "model.diffusion_model.joint_blocks.22.x_block.mlp.fc2.bias", [1536], .float32, [], false⟩,
  ⟨key% "model.diffusion_model.joint_blocks.22.x_block.mlp.fc2.weight", [1536, 6144], .float32, [], false⟩,
  ⟨key% "model.diffusion_model.joint_blocks.23.context_block.adaLN_modulation.1.bias", [3072], .float32, [], false⟩,
  ⟨key% "model.diffusion_model.joint_blocks.23.context_block.adaLN_modulation.1.weight", [3072, 1536], .float32, [], false⟩,
  ⟨key% "model.diffusion_model.joint_blocks.23.context_block.attn.qkv.bias", [4608], .float32, [], false⟩,
  ⟨key% "model.diffusion_model.joint_blocks.23.context_block.attn.qkv.weight", [4608, 1536], .float32, [], false⟩,
  ⟨key% "model.diffusion_model.joint_blocks.23.x_block.adaLN_modulation.1.bias", [9216], .float32, [], false⟩,
  ⟨key% "model.diffusion_model.joint_blocks.23.x_block.adaLN_modulation.1.weight", [9216, 1536], .float32, [], false⟩,
  ⟨key% "model.diffusion_model.joint_blocks.23.x_block.attn.proj.bias", [1536], .float32, [], false⟩,
  ⟨key% "model.diffusion_model.joint_blocks.23.x_block.attn.proj.weight", [1536, 1536], .float32, [], false⟩,
  ⟨key% "model.diffusion_model.joint_blocks.23.x_block.attn.qkv.bias", [4608], .float32, [], false⟩,
  ⟨key% "model.diffusion_model.joint_blocks.23.x_block.attn.qkv.weight", [4608, 1536], .float32, [], false⟩,
  ⟨key% "model.diffusion_model.joint_blocks.23.x_block.mlp.fc1.bias", [6144], .float32, [], false⟩,
  ⟨key% "model.diffusion_model.joint_blocks.23.x_block.mlp.fc1.weight", [6144, 1536], .float32, [], false⟩,
  ⟨key% "model.diffusion_model.joint_blocks.23.x_block.mlp.fc2.bias", [1536], .float32, [], false⟩,
  ⟨key% "model.diffusion_model.joint_blocks.23.x_block.mlp.fc2.weight", [1536, 6144], .float32, [], false⟩,
  ⟨key% "model.diffusion_model.joint_blocks.3.context_block.adaLN_modulation.1.bias", [9216], .float32, [], false⟩,
  ⟨key% "model.diffusion_model.joint_blocks.3.context_block.adaLN_modulation.1.weight", [9216, 1536], .float32, [], false⟩,
  ⟨key% "model.diffusion_model.joint_blocks.3.context_block.attn.proj.bias", [1536], .float32, [], false⟩,
  ⟨key% "model.diffusion_model.joint_blocks.3.context_block.attn.proj.weight", [1536, 1536], .float32, [], false⟩,
  ⟨key% "model.diffusion_model.joint_blocks.3.context_block.attn.qkv.bias", [4608], .float32, [], false⟩,
  ⟨key% "model.diffusion_model.joint_blocks.3.context_block.attn.qkv.weight", [4608, 1536], .float32, [], false⟩,
  ⟨key% "model.diffusion_model.joint_blocks.3.context_block.mlp.fc1.bias", [6144], .float32, [], false⟩,
  ⟨key% "model.diffusion_model.joint_blocks.3.context_block.mlp.fc1.weight", [6144, 1536], .float32, [], false⟩,
  ⟨key% "model.diffusion_model.joint_blocks.3.context_block.mlp.fc2.bias", [1536], .float32, [], false⟩,
  ⟨key% "model.diffusion_model.joint_blocks.3.context_block.mlp.fc2.weight", [1536, 6144], .float32, [], false⟩,
  ⟨key% "model.diffusion_model.joint_blocks.3.x_block.adaLN_modulation.1.bias", [9216], .float32, [], false⟩,
  ⟨key% "model.diffusion_model.joint_blocks.3.x_block.adaLN_modulation.1.weight", [9216, 1536], .float32, [], false⟩,
  ⟨key% "model.diffusion_model.joint_blocks.3.x_block.attn.proj.bias", [1536], .float32, [], false⟩,
  ⟨key% "model.diffusion_model.joint_blocks.3.x_block.attn.proj.weight", [1536, 1536], .float32, [], false⟩,
  ⟨key% "model.diffusion_model.joint_blocks.3.x_block.attn.qkv.bias", [4608], .float32, [], false⟩,
  ⟨key% "model.diffusion_model.joint_blocks.3.x_block.attn.qkv.weight", [4608, 1536], .float32, [], false⟩,
  ⟨key% "model.diffusion_model.joint_blocks.3.x_block.mlp.fc1.bias", [6144], .float32, [], false⟩,
  ⟨key% "model.diffusion_model.joint_blocks.3.x_block.mlp.fc1.weight", [6144, 1536], .float32, [], false⟩,
  ⟨key% "model.diffusion_model.joint_blocks.3.x_block.mlp.fc2.bias", [1536], .float32, [], false⟩,
  ⟨key% "model.diffusion_model.joint_blocks.3.x_block.mlp.fc2.weight", [1536, 6144], .float32, [], false⟩,
  ⟨key% "model.diffusion_model.joint_blocks.4.context_block.adaLN_modulation.1.bias", [9216], .float32, [], false⟩,
  ⟨key% "model.diffusion_model.joint_blocks.4.context_block.adaLN_modulation.1.weight", [9216, 1536], .float32, [], false⟩,
  ⟨key% "model.diffusion_model.joint_blocks.4.context_block.attn.proj.bias", [1536], .float32, [], false⟩,
  ⟨key% "model.diffusion_model.joint_blocks.4.context_block.attn.proj.weight", [1536, 1536], .float32, [], false⟩,
  ⟨key% "model.diffusion_model.joint_blocks.4.context_block.attn.qkv.bias", [4608], .float32, [], false⟩,
  ⟨key% "model.diffusion_model.joint_blocks.4.context_block.attn.qkv.weight", [4608, 1536], .float32, [], false⟩,
  ⟨key% "model.diffusion_model.joint_blocks.4.context_block.mlp.fc1.bias", [6144], .float32, [], false⟩,
  ⟨key% "model.diffusion_model.joint_blocks.4.context_block.mlp.fc1.weight", [6144, 1536], .float32, [], false⟩,
  ⟨key% "model.diffusion_model.joint_blocks.4.context_block.mlp.fc2.bias", [1536], .float32, [], false⟩,
  ⟨key% "model.diffusion_model.joint_blocks.4.context_block.mlp.fc2.weight", [1536, 6144], .float32, [], false⟩,
  ⟨key% "model.diffusion_model.joint_blocks.4.x_block.adaLN_modulation.1.bias", [9216], .float32, [], false⟩,
  ⟨key% "model.diffusion_model.joint_blocks.4.x_block.adaLN_modulation.1.weight", [9216, 1536], .float32, [], false⟩,
  ⟨key% "model.diffusion_model.joint_blocks.4.x_block.attn.proj.bias", [1536], .float32, [], false⟩,
  ⟨key% "model.diffusion_model.joint_blocks.4.x_block.attn.proj.weight", [1536, 1536], .float32, [], false⟩,
  ⟨key% "model.diffusion_model.joint_blocks.4.x_block.attn.qkv.bias", [4608], .float32, [], false⟩,
  ⟨key% "model.diffusion_model.joint_blocks.4.x_block.attn.qkv.weight", [4608, 1536], .float32, [], false⟩,
  ⟨key% "model.diffusion_model.joint_blocks.4.x_block.mlp.fc1.bias", [6144], .float32, [], false⟩,
  ⟨key% "model.diffusion_model.joint_blocks.4.x_block.mlp.fc1.weight", [6144, 1536], .float32, [], false⟩,
  ⟨key% "model.diffusion_model.joint_blocks.4.x_block.mlp.fc2.bias", [1536], .float32, [], false⟩,
  ⟨key% "model.diffusion_model.joint_blocks.4.x_block.mlp.fc2.weight", [1536, 6144], .float32, [], false⟩,
  ⟨key% "model.diffusion_model.joint_blocks.5.context_block.adaLN_modulation.1.bias", [9216], .float32, [], false⟩,
  ⟨key% "model.diffusion_model.joint_blocks.5.context_block.adaLN_modulation.1.weight", [9216, 1536], .float32, [], false⟩,
  ⟨key% "model.diffusion_model.joint_blocks.5.context_block.attn.proj.bias", [1536], .float32, [], false⟩,
  ⟨key% "model.diffusion_model.joint_blocks.5.context_block.attn.proj.weight", [1536, 1536], .float32, [], false⟩,
  ⟨key% "model.diffusion_model.joint_blocks.5.context_block.attn.qkv.bias", [4608], .float32, [], false⟩,
  ⟨key% "model.diffusion_model.joint_blocks.5.context_block.attn.qkv.weight", [4608, 1536], .float32, [], false⟩,
  ⟨key% "model.diffusion_model.joint_blocks.5.context_block.mlp.fc1.bias", [6144], .float32, [], false⟩,
  ⟨key% "model.diffusion_model.joint_blocks.5.context_block.mlp.fc1.weight", [6144, 1536], .float32, [], false⟩,
  ⟨key% "model.diffusion_model.joint_blocks.5.context_block.mlp.fc2.bias", [1536], .float32, [], false⟩,
  ⟨key% "model.diffusion_model.joint_blocks.5.context_block.mlp.fc2.weight", [1536, 6144], .float32, [], false⟩,
  ⟨key% "model.diffusion_model.joint_blocks.5.x_block.adaLN_modulation.1.bias", [9216], .float32, [], false⟩,
  ⟨key% "model.diffusion_model.joint_blocks.5.x_block.adaLN_modulation.1.weight", [9216, 1536], .float32, [], false⟩,
  ⟨key% "model.diffusion_model.joint_blocks.5.x_block.attn.proj.bias", [1536], .float32, [], false⟩,
  ⟨key% "model.diffusion_model.joint_blocks.5.x_block.attn.proj.weight", [1536, 1536], .float32, [], false⟩,
  ⟨key% "model.diffusion_model.joint_blocks.5.x_block.attn.qkv.bias", [4608], .float32, [], false⟩,
  ⟨key% "model.diffusion_model.joint_blocks.5.x_block.attn.qkv.weight", [4608, 1536], .float32, [], false⟩,
  ⟨key% "model.diffusion_model.joint_blocks.5.x_block.mlp.fc1.bias", [6144], .float32, [], false⟩,
  ⟨key% "model.diffusion_model.joint_blocks.5.x_block.mlp.fc1.weight", [6144, 1536], .float32, [], false⟩,
  ⟨key% "model.diffusion_model.joint_blocks.5.x_block.mlp.fc2.bias", [1536], .float32, [], false⟩,
  ⟨key% "model.diffusion_model.joint_blocks.5.x_block.mlp.fc2.weight", [1536, 6144], .float32, [], false⟩]
noncomputable def diffuser4 : List Entry := [
  ⟨key% "model.diffusion_model.joint_blocks.6.context_block.adaLN_modulation.1.bias", [9216], .float32, [], false⟩,
  ⟨key% "model.diffusion_model.joint_blocks.6.context_block.adaLN_modulation.1.weight", [9216, 1536], .float32, [], false⟩,
  ⟨key% "model.diffusion_model.joint_blocks.6.context_block.attn.proj.bias", [1536], .float32, [], false⟩,
  ⟨key% "model.diffusion_model.joint_blocks.6.context_block.attn.proj.weight", [1536, 1536], .float32, [], false⟩,
  ⟨key% "model.diffusion_model.joint_blocks.6.context_block.attn.qkv.bias", [4608], .float32, [], false⟩,
  ⟨key% "model.diffusion_model.joint_blocks.6.context_block.attn.qkv.weight", [4608, 1536], .float32, [], false⟩,
  ⟨key% "model.diffusion_model.joint_blocks.6.context_block.mlp.fc1.bias", [6144], .float32, [], false⟩,
  ⟨key% "model.diffusion_model.joint_blocks.6.context_block.mlp.fc1.weight", [6144, 1536], .float32, [], false⟩,
  ⟨key% "model.diffusion_model.joint_blocks.6.context_block.mlp.fc2.bias", [1536], .float32, [], false⟩,
  ⟨key% "model.diffusion_model.joint_blocks.6.context_block.mlp.fc2.weight", [1536, 6144], .float32, [], false⟩,
  ⟨key% "model.diffusion_model.joint_blocks.6.x_block.adaLN_modulation.1.bias", [9216], .float32, [], false⟩,
  ⟨key% "model.diffusion_model.joint_blocks.6.x_block.adaLN_modulation.1.weight", [9216, 1536], .float32, [], false⟩,
  ⟨key% "model.diffusion_model.joint_blocks.6.x_block.attn.proj.bias", [1536], .float32, [], false⟩,
  ⟨key% "model.diffusion_model.joint_blocks.6.x_block.attn.proj.weight", [1536, 1536], .float32, [], false⟩,
  ⟨key% "model.diffusion_model.joint_blocks.6.x_block.attn.qkv.bias", [4608], .float32, [], false⟩,
  ⟨key% "model.diffusion_model.joint_blocks.6.x_block.attn.qkv.weight", [4608, 1536], .float32, [], false⟩,
  ⟨key% "model.diffusion_model.joint_blocks.6.x_block.mlp.fc1.bias", [6144], .float32, [], false⟩,
  ⟨key% "model.diffusion_model.joint_blocks.6.x_block.mlp.fc1.weight", [6144, 1536], .float32, [], false⟩,
  ⟨key% "model.diffusion_model.joint_blocks.6.x_block.mlp.fc2.bias", [1536], .float32, [], false⟩,
  ⟨key% "model.diffusion_model.joint_blocks.6.x_block.mlp.fc2.weight", [1536, 6144], .float32, [], false⟩,
  ⟨key% "model.diffusion_model.joint_blocks.7.context_block.adaLN_modulation.1.bias", [9216], .float32, [], false⟩,
  ⟨key% "model.diffusion_model.joint_blocks.7.context_block.adaLN_modulation.1.weight", [9216, 1536], .float32, [], false⟩,
  ⟨key% "model.diffusion_model.joint_blocks.7.context_block.attn.proj.bias", [1536], .float32, [], false⟩,
  ⟨key% "model.diffusion_model.joint_blocks.7.context_block.attn.proj.weight", [1536, 1536], .float32, [], false⟩,
  ⟨key% "model.diffusion_model.joint_blocks.7.context_block.attn.qkv.bias", [4608], .float32, [], false⟩,
  ⟨key% "model.diffusion_model.joint_blocks.7.context_block.attn.qkv.weight", [4608, 1536], .float32, [], false⟩,
  ⟨key% "model.diffusion_model.joint_blocks.7.context_block.mlp.fc1.bias", [6144], .float32, [], false⟩,
  ⟨key% "model.diffusion_model.joint_blocks.7.context_block.mlp.fc1.weight", [6144, 1536], .float32, [], false⟩,
  ⟨key% "model.diffusion_model.joint_blocks.7.context_block.mlp.fc2.bias", [1536], .float32, [], false⟩,
  ⟨key% "model.diffusion_model.joint_blocks.7.context_block.mlp.fc2.weight", [1536, 6144], .float32, [], false⟩,
  ⟨key% "model.diffusion_model.joint_blocks.7.x_block.adaLN_modulation.1.bias", [9216], .float32, [], false⟩,
  ⟨key% "model.diffusion_model.joint_blocks.7.x_block.adaLN_modulation.1.weight", [9216, 1536], .float32, [], false⟩,
  ⟨key% "model.diffusion_model.joint_blocks.7.x_block.attn.proj.bias", [1536], .float32, [], false⟩,
  ⟨key% "model.diffusion_model.joint_blocks.7.x_block.attn.proj.weight", [1536, 1536], .float32, [], false⟩,
  ⟨key% "model.diffusion_model.joint_blocks.7.x_block.attn.qkv.bias", [4608], .float32, [], false⟩,
  ⟨key% "model.diffusion_model.joint_blocks.7.x_block.attn.qkv.weight", [4608, 1536], .float32, [], false⟩,
  ⟨key% "model.diffusion_model.joint_blocks.7.x_block.mlp.fc1.bias", [6144], .float32, [], false⟩,
  ⟨key% "model.diffusion_model.joint_blocks.7.x_block.mlp.fc1.weight", [6144, 1536], .float32, [], false⟩,
  ⟨key% "model.diffusion_model.joint_blocks.7.x_block.mlp.fc2.bias", [1536], .float32, [], false⟩,
  ⟨key% "model.diffusion_model.joint_blocks.7.x_block.mlp.fc2.weight", [1536, 6144], .float32, [], false⟩,
  ⟨key% "model.diffusion_model.joint_blocks.8.context_block.adaLN_modulation.1.bias", [9216], .float32, [], false⟩,
  ⟨key% "model.diffusion_model.joint_blocks.8.context_block.adaLN_modulation.1.weight", [9216, 1536], .float32, [], false⟩,
  ⟨key% "model.diffusion_model.joint_blocks.8.context_block.attn.proj.bias", [1536], .float32, [], false⟩,
  ⟨key% "model.diffusion_model.joint_blocks.8.context_block.attn.proj.weight", [1536, 1536], .float32, [], false⟩,
  ⟨key% "model.diffusion_model.joint_blocks.8.context_block.attn.qkv.bias", [4608], .float32, [], false⟩,
  ⟨key% "model.diffusion_model.joint_blocks.8.context_block.attn.qkv.weight", [4608, 1536], .float32, [], false⟩,
  ⟨key% "model.diffusion_model.joint_blocks.8.context_block.mlp.fc1.bias", [6144], .float32, [], false⟩,
  ⟨key% "model.diffusion_model.joint_blocks.8.context_block.mlp.fc1.weight", [6144, 1536], .float32, [], false⟩,
  ⟨key% "model.diffusion_model.joint_blocks.8.context_block.mlp.fc2.bias", [1536], .float32, [], false⟩,
  ⟨key% "model.diffusion_model.joint_blocks.8.context_block.mlp.fc2.weight", [1536, 6144], .float32, [], false⟩,
  ⟨key% "model.diffusion_model.joint_blocks.8.x_block.adaLN_modulation.1.bias", [9216], .float32, [], false⟩,
  ⟨key% "model.diffusion_model.joint_blocks.8.x_block.adaLN_modulation.1.weight", [9216, 1536], .float32, [], false⟩,
  ⟨key% "model.diffusion_model.joint_blocks.8.x_block.attn.proj.bias", [1536], .float32, [], false⟩,
  ⟨key% "model.diffusion_model.joint_blocks.8.x_block.attn.proj.weight", [1536, 1536], .float32, [], false⟩,
  ⟨key% "model.diffusion_model.joint_blocks.8.x_block.attn.qkv.bias", [4608], .float32, [], false⟩,
  ⟨key% "model.diffusion_model.joint_blocks.8.x_block.attn.qkv.weight", [4608, 1536], .float32, [], false⟩,
  ⟨key% "model.diffusion_model.joint_blocks.8.x_block.mlp.fc1.bias", [6144], .float32, [], false⟩,
  ⟨key% "model.diffusion_model.joint_blocks.8.x_block.mlp.fc1.weight", [6144, 1536], .float32, [], false⟩,
  ⟨key% "model.diffusion_model.joint_blocks.8.x_block.mlp.fc2.bias", [1536], .float32, [], false⟩,
  ⟨key% "model.diffusion_model.joint_blocks.8.x_block.mlp.fc2.weight", [1536, 6144], .float32, [], false⟩,
  ⟨key% "model.diffusion_model.joint_blocks.9.context_block.adaLN_modulation.1.bias", [9216], .float32, [], false⟩,
  ⟨key% "model.diffusion_model.joint_blocks.9.context_block.adaLN_modulation.1.weight", [9216, 1536], .float32, [], false⟩,
  ⟨key% "model.diffusion_model.joint_blocks.9.context_block.attn.proj.bias", [1536], .float32, [], false⟩,
  ⟨key% "model.diffusion_model.joint_blocks.9.context_block.attn.proj.weight", [1536, 1536], .float32, [], false⟩,
  ⟨key% "model.diffusion_model.joint_blocks.9.context_block.attn.qkv.bias", [4608], .float32, [], false⟩,
  ⟨key% "model.diffusion_model.joint_blocks.9.context_block.attn.qkv.weight", [4608, 1536], .float32, [], false⟩,
  ⟨key% "model.diffusion_model.joint_blocks.9.context_block.mlp.fc1.bias", [6144], .float32, [], false⟩,
  ⟨key% "model.diffusion_model.joint_blocks.9.context_block.mlp.fc1.weight", [6144, 1536], .float32, [], false⟩,
  ⟨key% "model.diffusion_model.joint_blocks.9.context_block.mlp.fc2.bias", [1536], .float32, [], false⟩,
  ⟨key% "model.diffusion_model.joint_blocks.9.context_block.mlp.fc2.weight", [1536, 6144], .float32, [], false⟩,
  ⟨key% "model.diffusion_model.joint_blocks.9.x_block.adaLN_modulation.1.bias", [9216], .float32, [], false⟩,
  ⟨key% "model.diffusion_model.joint_blocks.9.x_block.adaLN_modulation.1.weight", [9216, 1536], .float32, [], false⟩,
  ⟨key% "model.diffusion_model.joint_blocks.9.x_block.attn.proj.bias", [1536], .float32, [], false⟩,
  ⟨key% "model.diffusion_model.joint_blocks.9.x_block.attn.proj.weight", [1536, 1536], .float32, [], false⟩,
  ⟨key% "model.diffusion_model.joint_blocks.9.x_block.attn.qkv.bias", [4608], .float32, [], false⟩,
  ⟨key% "model.diffusion_model.joint_blocks.9.x_block.attn.qkv.weight", [4608, 1536], .float32, [], false⟩,
  ⟨key% "model.diffusion_model.joint_blocks.9.x_block.mlp.fc1.bias", [6144], .float32, [], false⟩,
  ⟨key% "model.diffusion_model.joint_blocks.9.x_block.mlp.fc1.weight", [6144, 1536], .float32, [], false⟩,
  ⟨key% "model.diffusion_model.joint_blocks.9.x_block.mlp.fc2.bias", [1536], .float32, [], false⟩,
  ⟨key% "model.diffusion_model.joint_blocks.9.x_block.mlp.fc2.weight", [1536, 6144], .float32, [], false⟩,
  ⟨key% "model.diffusion_model.pos_embed", [1, 36864, 1536], .float32, [], false⟩,
  ⟨key% "model.diffusion_model.t_embedder.mlp.0.bias", [1536], .float32, [], false⟩,
  ⟨key% "model.diffusion_model.t_embedder.mlp.0.weight", [1536, 256], .float32, [], false⟩,
  ⟨key% "model.diffusion_model.t_embedder.mlp.2.bias", [1536], .float32, [], false⟩,
  ⟨key% "model.diffusion_model.t_embedder.mlp.2.weight", [1536, 1536], .float32, [], false⟩,
  ⟨key% "model.diffusion_model.x_embedder.proj.bias", [1536], .float32, [], false⟩,
  ⟨key% "model.diffusion_model.x_embedder.proj.weight", [1536, 16, 2, 2], .float32, [], false⟩,
  ⟨key% "model.diffusion_model.y_embedder.mlp.0.bias", [1536], .float32, [], false⟩,
  ⟨key% "model.diffusion_model.y_embedder.mlp.0.weight", [1536, 2048], .float32, [], false⟩,
  ⟨key% "model.diffusion_model.y_embedder.mlp.2.bias", [1536], .float32, [], false⟩,
  ⟨key% "model.diffusion_model.y_embedder.mlp.2.weight", [1536, 1536], .float32, [], false⟩,
  ⟨key% "model.model_sampling.sigmas", [1000], .float32, [], false⟩]
/-- Component `diffuser`: 492 keys -/
noncomputable def diffuser : List Entry := diffuser0 ++ diffuser1 ++ diffuser2 ++ diffuser3 ++ diffuser4

noncomputable def clip_g0 : List Entry := [
  ⟨key% "text_encoders.clip_g.logit_scale", [], .float32, [], false⟩,
  ⟨key% "text_encoders.clip_g.transformer.text_model.embeddings.position_embedding.weight", [77, 1280], .float32, [], false⟩,
  ⟨key% "text_encoders.clip_g.transformer.text_model.embeddings.token_embedding.weight", [49408, 1280], .float32, [], false⟩,
  ⟨key% "text_encoders.clip_g.transformer.text_model.encoder.layers.0.layer_norm1.bias", [1280], .float32, [], false⟩,
  ⟨key% "text_encoders.clip_g.transformer.text_model.encoder.layers.0.layer_norm1.weight", [1280], .float32, [], false⟩,
  ⟨key% "text_encoders.clip_g.transformer.text_model.encoder.layers.0.layer_norm2.bias", [1280], .float32, [], false⟩,
  ⟨key% "text_encoders.clip_g.transformer.text_model.encoder.layers.0.layer_norm2.weight", [1280], .float32, [], false⟩,
  ⟨key% "text_encoders.clip_g.transformer.text_model.encoder.layers.0.mlp.fc1.bias", [5120], .float32, [], false⟩,
  ⟨key% "text_encoders.clip_g.transformer.text_model.encoder.layers.0.mlp.fc1.weight", [5120, 1280], .float32, [], false⟩,
  ⟨key% "text_encoders.clip_g.transformer.text_model.encoder.layers.0.mlp.fc2.bias", [1280], .float32, [], false⟩,
  ⟨key% "text_encoders.clip_g.transformer.text_model.encoder.layers.0.mlp.fc2.weight", [1280, 5120], .float32, [], false⟩,
  ⟨key% "text_encoders.clip_g.transformer.text_model.encoder.layers.0.self_attn.k_proj.bias", [1280], .float32, [], false⟩,
  ⟨key% "text_encoders.clip_g.transformer.text_model.encoder.layers.0.self_attn.k_proj.weight", [1280, 1280], .float32, [], false⟩,
  ⟨key% "text_encoders.clip_g.transformer.text_model.encoder.layers.0.self_attn.out_proj.bias", [1280], .float32, [], false⟩,
  ⟨key% "text_encoders.clip_g.transformer.text_model.encoder.layers.0.self_attn.out_proj.weight", [1280, 1280], .float32, [], false⟩,
  ⟨key% "text_encoders.clip_g.transformer.text_model.encoder.layers.0.self_attn.q_proj.bias", [1280], .float32, [], false⟩,
  ⟨key% "text_encoders.clip_g.transformer.text_model.encoder.layers.0.self_attn.q_proj.weight", [1280, 1280], .float32, [], false⟩,
  ⟨key% "text_encoders.clip_g.transformer.text_model.encoder.layers.0.self_attn.v_proj.bias", [1280], .float32, [], false⟩,
  ⟨key% "text_encoders.clip_g.transformer.text_model.encoder.layers.0.self_attn.v_proj.weight", [1280, 1280], .float32, [], false⟩,
  ⟨key% "text_encoders.clip_g.transformer.text_model.encoder.layers.1.layer_norm1.bias", [1280], .float32, [], false⟩,
  ⟨key% "text_encoders.clip_g.transformer.text_model.encoder.layers.1.layer_norm1.weight", [1280], .float32, [], false⟩,
  ⟨key% "text_encoders.clip_g.transformer.text_model.encoder.layers.1.layer_norm2.bias", [1280], .float32, [], false⟩,
  ⟨key% "text_encoders.clip_g.transformer.text_model.encoder.layers.1.layer_norm2.weight", [1280], .float32, [], false⟩,
  ⟨key% "text_encoders.clip_g.transformer.text_model.encoder.layers.1.mlp.fc1.bias", [5120], .float32, [], false⟩,
  ⟨key% "text_encoders.clip_g.transformer.text_model.encoder.layers.1.mlp.fc1.weight", [5120, 1280], .float32, [], false⟩,
  ⟨key% "text_encoders.clip_g.transformer.text_model.encoder.layers.1.mlp.fc2.bias", [1280], .float32, [], false⟩,
  ⟨key% "text_encoders.clip_g.transformer.text_model.encoder.layers.1.mlp.fc2.weight", [1280, 5120], .float32, [], false⟩,
  ⟨key% "text_encoders.clip_g.transformer.text_model.encoder.layers.1.self_attn.k_proj.bias", [1280], .float32, [], false⟩,
  ⟨key% "text_encoders.clip_g.transformer.text_model.encoder.layers.1.self_attn.k_proj.weight", [1280, 1280], .float32, [], false⟩,
  ⟨key% "text_encoders.clip_g.transformer.text_model.encoder.layers.1.self_attn.out_proj.bias", [1280], .float32, [], false⟩,
  ⟨key% "text_encoders.clip_g.transformer.text_model.encoder.layers.1.self_attn.out_proj.weight", [1280, 1280], .float32, [], false⟩,
  ⟨key% "text_encoders.clip_g.transformer.text_model.encoder.layers.1.self_attn.q_proj.bias", [1280], .float32, [], false⟩,
  ⟨key% "text_encoders.clip_g.transformer.text_model.encoder.layers.1.self_attn.q_proj.weight", [1280, 1280], .float32, [], false⟩,
  ⟨key% "text_encoders.clip_g.transformer.text_model.encoder.layers.1.self_attn.v_proj.bias", [1280], .float32, [], false⟩,
  ⟨key% "text_encoders.clip_g.transformer.text_model.encoder.layers.1.self_attn.v_proj.weight", [1280, 1280], .float32, [], false⟩,
  ⟨key% "text_encoders.clip_g.transformer.text_model.encoder.layers.10.layer_norm1.bias", [1280], .float32, [], false⟩,
  ⟨key% "text_encoders.clip_g.transformer.text_model.encoder.layers.10.layer_norm1.weight", [1280], .float32, [], false⟩,
  ⟨key% "text_encoders.clip_g.transformer.text_model.encoder.layers.10.layer_norm2.bias", [1280], .float32, [], false⟩,
  ⟨key% "text_encoders.clip_g.transformer.text_model.encoder.layers.10.layer_norm2.weight", [1280], .float32, [], false⟩,
  ⟨key% "text_encoders.clip_g.transformer.text_model.encoder.layers.10.mlp.fc1.bias", [5120], .float32, [], false⟩,
  ⟨key% "text_encoders.clip_g.transformer.text_model.encoder.layers.10.mlp.fc1.weight", [5120, 1280], .float32, [], false⟩,
  ⟨key% "text_encoders.clip_g.transformer.text_model.encoder.layers.10.mlp.fc2.bias", [1280], .float32, [], false⟩,
  ⟨key% "text_encoders.clip_g.transformer.text_model.encoder.layers.10.mlp.fc2.weight", [1280, 5120], .float32, [], false⟩,
  ⟨key% "text_encoders.clip_g.transformer.text_model.encoder.layers.10.self_attn.k_proj.bias", [1280], .float32, [], false⟩,
  ⟨key% "text_encoders.clip_g.transformer.text_model.encoder.layers.10.self_attn.k_proj.weight", [1280, 1280], .float32, [], false⟩,
  ⟨key% "text_encoders.clip_g.transformer.text_model.encoder.layers.10.self_attn.out_proj.bias", [1280], .float32, [], false⟩,
  ⟨key% "text_encoders.clip_g.transformer.text_model.encoder.layers.10.self_attn.out_proj.weight", [1280, 1280], .float32, [], false⟩,
  ⟨key% "text_encoders.clip_g.transformer.text_model.encoder.layers.10.self_attn.q_proj.bias", [1280], .float32, [], false⟩,
  ⟨key% "text_encoders.clip_g.transformer.text_model.encoder.layers.10.self_attn.q_proj.weight", [1280, 1280], .float32, [], false⟩,
  ⟨key% "text_encoders.clip_g.transformer.text_model.encoder.layers.10.self_attn.v_proj.bias", [1280], .float32, [], false⟩,
  ⟨key% "text_encoders.clip_g.transformer.text_model.encoder.layers.10.self_attn.v_proj.weight", [1280, 1280], .float32, [], false⟩,
  ⟨key% "text_encoders.clip_g.transformer.text_model.encoder.layers.11.layer_norm1.bias", [1280], .float32, [], false⟩,
  ⟨key% "text_encoders.clip_g.transformer.text_model.encoder.layers.11.layer_norm1.weight", [1280], .float32, [], false⟩,
  ⟨key% "text_encoders.clip_g.transformer.text_model.encoder.layers.11.layer_norm2.bias", [1280], .float32, [], false⟩,
  ⟨key% "text_encoders.clip_g.transformer.text_model.encoder.layers.11.layer_norm2.weight", [1280], .float32, [], false⟩,
  ⟨key% "text_encoders.clip_g.transformer.text_model.encoder.layers.11.mlp.fc1.bias", [5120], .float32, [], false⟩,
  ⟨key% "text_encoders.clip_g.transformer.text_model.encoder.layers.11.mlp.fc1.weight", [5120, 1280], .float32, [], false⟩,
  ⟨key% "text_encoders.clip_g.transformer.text_model.encoder.layers.11.mlp.fc2.bias", [1280], .float32, [], false⟩,
  ⟨key% "text_encoders.clip_g.transformer.text_model.encoder.layers.11.mlp.fc2.weight", [1280, 5120], .float32, [], false⟩,
  ⟨key% "text_encoders.clip_g.transformer.text_model.encoder.layers.11.self_attn.k_proj.bias", [1280], .float32, [], false⟩,
  ⟨key% "text_encoders.clip_g.transformer.text_model.encoder.layers.11.self_attn.k_proj.weight", [1280, 1280], .float32, [], false⟩,
  ⟨key% "text_encoders.clip_g.transformer.text_model.encoder.layers.11.self_attn.out_proj.bias", [1280], .float32, [], false⟩,
  ⟨key% "text_encoders.clip_g.transformer.text_model.encoder.layers.11.self_attn.out_proj.weight", [1280, 1280], .float32, [], false⟩,
  ⟨key% "text_encoders.clip_g.transformer.text_model.encoder.layers.11.self_attn.q_proj.bias", [1280], .float32, [], false⟩,
  ⟨key% "text_encoders.clip_g.transformer.text_model.encoder.layers.11.self_attn.q_proj.weight", [1280, 1280], .float32, [], false⟩,
  ⟨key% "text_encoders.clip_g.transformer.text_model.encoder.layers.11.self_attn.v_proj.bias", [1280], .float32, [], false⟩,
  ⟨key% "text_encoders.clip_g.transformer.text_model.encoder.layers.11.self_attn.v_proj.weight", [1280, 1280], .float32, [], false⟩,
  ⟨key% "text_encoders.clip_g.transformer.text_model.encoder.layers.12.layer_norm1.bias", [1280], .float32, [], false⟩,
  ⟨key% "text_encoders.clip_g.transformer.text_model.encoder.layers.12.layer_norm1.weight", [1280], .float32, [], false⟩,
  ⟨key% "text_encoders.clip_g.transformer.text_model.encoder.layers.12.layer_norm2.bias", [1280], .float32, [], false⟩,
  ⟨key% "text_encoders.clip_g.transformer.text_model.encoder.layers.12.layer_norm2.weight", [1280], .float32, [], false⟩,
  ⟨key% "text_encoders.clip_g.transformer.text_model.encoder.layers.12.mlp.fc1.bias", [5120], .float32, [], false⟩,
  ⟨key% "text_encoders.clip_g.transformer.text_model.encoder.layers.12.mlp.fc1.weight", [5120, 1280], .float32, [], false⟩,
  ⟨key% "text_encoders.clip_g.transformer.text_model.encoder.layers.12.mlp.fc2.bias", [1280], .float32, [], false⟩,
  ⟨key% "text_encoders.clip_g.transformer.text_model.encoder.layers.12.mlp.fc2.weight", [1280, 5120], .float32, [], false⟩,
  ⟨key% "text_encoders.clip_g.transformer.text_model.encoder.layers.12.self_attn.k_proj.bias", [1280], .float32, [], false⟩,
  ⟨key% "text_encoders.clip_g.transformer.text_model.encoder.layers.12.self_attn.k_proj.weight", [1280, 1280], .float32, [], false⟩,
  ⟨key% "text_encoders.clip_g.transformer.text_model.encoder.layers.12.self_attn.out_proj.bias", [1280], .float32, [], false⟩,
  ⟨key% "text_encoders.clip_g.transformer.text_model.encoder.layers.12.self_attn.out_proj.weight", [1280, 1280], .float32, [], false⟩,
  ⟨key% "text_encoders.clip_g.transformer.text_model.encoder.layers.12.self_attn.q_proj.bias", [1280], .float32, [], false⟩,
  ⟨key% "text_encoders.clip_g.transformer.text_model.encoder.layers.12.self_attn.q_proj.weight", [1280, 1280], .float32, [], false⟩,
  ⟨key% "text_encoders.clip_g.transformer.text_model.encoder.layers.12.self_attn.v_proj.bias", [1280], .float32, [], false⟩,
  ⟨key% "text_encoders.clip_g.transformer.text_model.encoder.layers.12.self_attn.v_proj.weight", [1280, 1280], .float32, [], false⟩,
  ⟨key% "text_encoders.clip_g.transformer.text_model.encoder.layers.13.layer_norm1.bias", [1280], .float32, [], false⟩,
  ⟨key% "text_encoders.clip_g.transformer.text_model.encoder.layers.13.layer_norm1.weight", [1280], .float32, [], false⟩,
  ⟨key% "text_encoders.clip_g.transformer.text_model.encoder.layers.13.layer_norm2.bias", [1280], .float32, [], false⟩,
  ⟨key% "text_encoders.clip_g.transformer.text_model.encoder.layers.13.layer_norm2.weight", [1280], .float32, [], false⟩,
  ⟨key% "text_encoders.clip_g.transformer.text_model.encoder.layers.13.mlp.fc1.bias", [5120], .float32, [], false⟩,
  ⟨key% "text_encoders.clip_g.transformer.text_model.encoder.layers.13.mlp.fc1.weight", [5120, 1280], .float32, [], false⟩,
  ⟨key% "text_encoders.clip_g.transformer.text_model.encoder.layers.13.mlp.fc2.bias", [1280], .float32, [], false⟩,
  ⟨key% "text_encoders.clip_g.transformer.text_model.encoder.layers.13.mlp.fc2.weight", [1280, 5120], .float32, [], false⟩,
  ⟨key% "text_encoders.clip_g.transformer.text_model.encoder.layers.13.self_attn.k_proj.bias", [1280], .float32, [], false⟩,
  ⟨key% "text_encoders.clip_g.transformer.text_model.encoder.layers.13.self_attn.k_proj.weight", [1280, 1280], .float32, [], false⟩,
  ⟨key% "text_encoders.clip_g.transformer.text_model.encoder.layers.13.self_attn.out_proj.bias", [1280], .float32, [], false⟩,
  ⟨key% "text_encoders.clip_g.transformer.text_model.encoder.layers.13.self_attn.out_proj.weight", [1280, 1280], .float32, [], false⟩,
  ⟨key% "text_encoders.clip_g.transformer.text_model.encoder.layers.13.self_attn.q_proj.bias", [1280], .float32, [], false⟩,
  ⟨key% "text_encoders.clip_g.transformer.text_model.encoder.layers.13.self_attn.q_proj.weight", [1280, 1280], .float32, [], false⟩,
  ⟨key% "text_encoders.clip_g.transformer.text_model.encoder.layers.13.self_attn.v_proj.bias", [1280], .float32, [], false⟩,
  ⟨key% "text_encoders.clip_g.transformer.text_model.encoder.layers.13.self_attn.v_proj.weight", [1280, 1280], .float32, [], false⟩,
  ⟨key% "text_encoders.clip_g.transformer.text_model.encoder.layers.14.layer_norm1.bias", [1280], .float32, [], false⟩]
noncomputable def clip_g1 : List Entry := [
  ⟨key% "text_encoders.clip_g.transformer.text_model.encoder.layers.14.layer_norm1.weight", [1280], .float32, [], false⟩,
  ⟨key% "text_encoders.clip_g.transformer.text_model.encoder.layers.14.layer_norm2.bias", [1280], .float32, [], false⟩,
  ⟨key% "text_encoders.clip_g.transformer.text_model.encoder.layers.14.layer_norm2.weight", [1280], .float32, [], false⟩,
  ⟨key% "text_encoders.clip_g.transformer.text_model.encoder.layers.14.mlp.fc1.bias", [5120], .float32, [], false⟩,
  ⟨key% "text_encoders.clip_g.transformer.text_model.encoder.layers.14.mlp.fc1.weight", [5120, 1280], .float32, [], false⟩,
  ⟨key% "text_encoders.clip_g.transformer.text_model.encoder.layers.14.mlp.fc2.bias", [1280], .float32, [], false⟩,
  ⟨key% "text_encoders.clip_g.transformer.text_model.encoder.layers.14.mlp.fc2.weight", [1280, 5120], .float32, [], false⟩,
  ⟨key% "text_encoders.clip_g.transformer.text_model.encoder.layers.14.self_attn.k_proj.bias", [1280], .float32, [], false⟩,
  ⟨key% "text_encoders.clip_g.transformer.text_model.encoder.layers.14.self_attn.k_proj.weight", [1280, 1280], .float32, [], false⟩,
  ⟨key% "text_encoders.clip_g.transformer.text_model.encoder.layers.14.self_attn.out_proj.bias", [1280], .float32, [], false⟩,
  ⟨key% "text_encoders.clip_g.transformer.text_model.encoder.layers.14.self_attn.out_proj.weight", [1280, 1280], .float32, [], false⟩,
  ⟨key% "text_encoders.clip_g.transformer.text_model.encoder.layers.14.self_attn.q_proj.bias", [1280], .float32, [], false⟩,
  ⟨key% "text_encoders.clip_g.transformer.text_model.encoder.layers.14.self_attn.q_proj.weight", [1280, 1280], .float32, [], false⟩,
  ⟨key% "text_encoders.clip_g.transformer.text_model.encoder.layers.14.self_attn.v_proj.bias", [1280], .float32, [], false⟩,
  ⟨key% "text_encoders.clip_g.transformer.text_model.encoder.layers.14.self_attn.v_proj.weight", [1280, 1280], .float32, [], false⟩,
  ⟨key% "text_encoders.clip_g.transformer.text_model.encoder.layers.15.layer_norm1.bias", [1280], .float32, [], false⟩,
  ⟨key% "text_encoders.clip_g.transformer.text_model.encoder.layers.15.layer_norm1.weight", [1280], .float32, [], false⟩,
  ⟨key% "text_encoders.clip_g.transformer.text_model.encoder.layers.15.layer_norm2.bias", [1280], .float32, [], false⟩,
  ⟨key% "text_encoders.clip_g.transformer.text_model.encoder.layers.15.layer_norm2.weight", [1280], .float32, [], false⟩,
  ⟨key% "text_encoders.clip_g.transformer.text_model.encoder.layers.15.mlp.fc1.bias", [5120], .float32, [], false⟩,
  ⟨key% "text_encoders.clip_g.transformer.text_model.encoder.layers.15.mlp.fc1.weight", [5120, 1280], .float32, [], false⟩,
  ⟨key% "text_encoders.clip_g.transformer.text_model.encoder.layers.15.mlp.fc2.bias", [1280], .float32, [], false⟩,
  ⟨key% "text_encoders.clip_g.transformer.text_model.encoder.layers.15.mlp.fc2.weight", [1280, 5120], .float32, [], false⟩,
  ⟨key% "text_encoders.clip_g.transformer.text_model.encoder.layers.15.self_attn.k_proj.bias", [1280], .float32, [], false⟩,
  ⟨key% "text_encoders.clip_g.transformer.text_model.encoder.layers.15.self_attn.k_proj.weight", [1280, 1280], .float32, [], false⟩,
  ⟨key% "text_encoders.clip_g.transformer.text_model.encoder.layers.15.self_attn.out_proj.bias", [1280], .float32, [], false⟩,
  ⟨key% "text_encoders.clip_g.transformer.text_model.encoder.layers.15.self_attn.out_proj.weight", [1280, 1280], .float32, [], false⟩,
  ⟨key% "text_encoders.clip_g.transformer.text_model.encoder.layers.15.self_attn.q_proj.bias", [1280], .float32, [], false⟩,
  ⟨key% "text_encoders.clip_g.transformer.text_model.encoder.layers.15.self_attn.q_proj.weight", [1280, 1280], .float32, [], false⟩,
  ⟨key% "text_encoders.clip_g.transformer.text_model.encoder.layers.15.self_attn.v_proj.bias", [1280], .float32, [], false⟩,
  ⟨key% "text_encoders.clip_g.transformer.text_model.encoder.layers.15.self_attn.v_proj.weight", [1280, 1280], .float32, [], false⟩,
  ⟨key% "text_encoders.clip_g.transformer.text_model.encoder.layers.16.layer_norm1.bias", [1280], .float32, [], false⟩,
  ⟨key% "text_encoders.clip_g.transformer.text_model.encoder.layers.16.layer_norm1.weight", [1280], .float32, [], false⟩,
  ⟨key% "text_encoders.clip_g.transformer.text_model.encoder.layers.16.layer_norm2.bias", [1280], .float32, [], false⟩,
  ⟨key% "text_encoders.clip_g.transformer.text_model.encoder.layers.16.layer_norm2.weight", [1280], .float32, [], false⟩,
  ⟨key% "text_encoders.clip_g.transformer.text_model.encoder.layers.16.mlp.fc1.bias", [5120], .float32, [], false⟩,
  ⟨key% "text_encoders.clip_g.transformer.text_model.encoder.layers.16.mlp.fc1.weight", [5120, 1280], .float32, [], false⟩,
  ⟨key% "text_encoders.clip_g.transformer.text_model.encoder.layers.16.mlp.fc2.bias", [1280], .float32, [], false⟩,
  ⟨key% "text_encoders.clip_g.transformer.text_model.encoder.layers.16.mlp.fc2.weight", [1280, 5120], .float32, [], false⟩,
  ⟨key% "text_encoders.clip_g.transformer.text_model.encoder.layers.16.self_attn.k_proj.bias", [1280], .float32, [], false⟩,
  ⟨key% "text_encoders.clip_g.transformer.text_model.encoder.layers.16.self_attn.k_proj.weight", [1280, 1280], .float32, [], false⟩,
  ⟨key% "text_encoders.clip_g.transformer.text_model.encoder.layers.16.self_attn.out_proj.bias", [1280], .float32, [], false⟩,
  ⟨key% "text_encoders.clip_g.transformer.text_model.encoder.layers.16.self_attn.out_proj.weight", [1280, 1280], .float32, [], false⟩,
  ⟨key% "text_encoders.clip_g.transformer.text_model.encoder.layers.16.self_attn.q_proj.bias", [1280], .float32, [], false⟩,
  ⟨key% "text_encoders.clip_g.transformer.text_model.encoder.layers.16.self_attn.q_proj.weight", [1280, 1280], .float32, [], false⟩,
  ⟨key% "text_encoders.clip_g.transformer.text_model.encoder.layers.16.self_attn.v_proj.bias", [1280], .float32, [], false⟩,
  ⟨key% "text_encoders.clip_g.transformer.text_model.encoder.layers.16.self_attn.v_proj.weight", [1280, 1280], .float32, [], false⟩,
  ⟨key% "text_encoders.clip_g.transformer.text_model.encoder.layers.17.layer_norm1.bias", [1280], .float32, [], false⟩,
  ⟨key% "text_encoders.clip_g.transformer.text_model.encoder.layers.17.layer_norm1.weight", [1280], .float32, [], false⟩,
  ⟨key% "text_encoders.clip_g.transformer.text_model.encoder.layers.17.layer_norm2.bias", [1280], .float32, [], false⟩,
  ⟨key% "text_encoders.clip_g.transformer.text_model.encoder.layers.17.layer_norm2.weight", [1280], .float32, [], false⟩,
  ⟨key% "text_encoders.clip_g.transformer.text_model.encoder.layers.17.mlp.fc1.bias", [5120], .float32, [], false⟩,
  ⟨key% "text_encoders.clip_g.transformer.text_model.encoder.layers.17.mlp.fc1.weight", [5120, 1280], .float32, [], false⟩,
  ⟨key% "text_encoders.clip_g.transformer.text_model.encoder.layers.17.mlp.fc2.bias", [1280], .float32, [], false⟩,
  ⟨key% "text_encoders.clip_g.transformer.text_model.encoder.layers.17.mlp.fc2.weight", [1280, 5120], .float32, [], false⟩,
  ⟨key% "text_encoders.clip_g.transformer.text_model.encoder.layers.17.self_attn.k_proj.bias", [1280], .float32, [], false⟩,
  ⟨key% "text_encoders.clip_g.transformer.text_model.encoder.layers.17.self_attn.k_proj.weight", [1280, 1280], .float32, [], false⟩,
  ⟨key% "text_encoders.clip_g.transformer.text_model.encoder.layers.17.self_attn.out_proj.bias", [1280], .float32, [], false⟩,
  ⟨key% "text_encoders.clip_g.transformer.text_model.encoder.layers.17.self_attn.out_proj.weight", [1280, 1280], .float32, [], false⟩,
  ⟨key% "text_encoders.clip_g.transformer.text_model.encoder.layers.17.self_attn.q_proj.bias", [1280], .float32, [], false⟩,
  ⟨key% "text_encoders.clip_g.transformer.text_model.encoder.layers.17.self_attn.q_proj.weight", [1280, 1280], .float32, [], false⟩,
  ⟨key% "text_encoders.clip_g.transformer.text_model.encoder.layers.17.self_attn.v_proj.bias", [1280], .float32, [], false⟩,
  ⟨key% "text_encoders.clip_g.transformer.text_model.encoder.layers.17.self_attn.v_proj.weight", [1280, 1280], .float32, [], false⟩,
  ⟨key% "text_encoders.clip_g.transformer.text_model.encoder.layers.18.layer_norm1.bias", [1280], .float32, [], false⟩,
  ⟨key% "text_encoders.clip_g.transformer.text_model.encoder.layers.18.layer_norm1.weight", [1280], .float32, [], false⟩,
  ⟨key% "text_encoders.clip_g.transformer.text_model.encoder.layers.18.layer_norm2.bias", [1280], .float32, [], false⟩,
  ⟨key% "text_encoders.clip_g.transformer.text_model.encoder.layers.18.layer_norm2.weight", [1280], .float32, [], false⟩,
  ⟨key% "text_encoders.clip_g.transformer.text_model.encoder.layers.18.mlp.fc1.bias", [5120], .float32, [], false⟩,
  ⟨key% "text_encoders.clip_g.transformer.text_model.encoder.layers.18.mlp.fc1.weight", [5120, 1280], .float32, [], false⟩,
  ⟨key% "text_encoders.clip_g.transformer.text_model.encoder.layers.18.mlp.fc2.bias", [1280], .float32, [], false⟩,
  ⟨key% "text_encoders.clip_g.transformer.text_model.encoder.layers.18.mlp.fc2.weight", [1280, 5120], .float32, [], false⟩,
  ⟨key% "text_encoders.clip_g.transformer.text_model.encoder.layers.18.self_attn.k_proj.bias", [1280], .float32, [], false⟩,
  ⟨key% "text_encoders.clip_g.transformer.text_model.encoder.layers.18.self_attn.k_proj.weight", [1280, 1280], .float32, [], false⟩,
  ⟨key% "text_encoders.clip_g.transformer.text_model.encoder.layers.18.self_attn.out_proj.bias", [1280], .float32, [], false⟩,
  ⟨key% "text_encoders.clip_g.transformer.text_model.encoder.layers.18.self_attn.out_proj.weight", [1280, 1280], .float32, [], false⟩,
  ⟨key% "text_encoders.clip_g.transformer.text_model.encoder.layers.18.self_attn.q_proj.bias", [1280], .float32, [], false⟩,
  ⟨key% "text_encoders.clip_g.transformer.text_model.encoder.layers.18.self_attn.q_proj.weight", [1280, 1280], .float32, [], false⟩,
  ⟨key% "text_encoders.clip_g.transformer.text_model.encoder.layers.18.self_attn.v_proj.bias", [1280], .float32, [], false⟩,
  ⟨key% "text_encoders.clip_g.transformer.text_model.encoder.layers.18.self_attn.v_proj.weight", [1280, 1280], .float32, [], false⟩,
  ⟨key% "text_encoders.clip_g.transformer.text_model.encoder.layers.19.layer_norm1.bias", [1280], .float32, [], false⟩,
  ⟨key% "text_encoders.clip_g.transformer.text_model.encoder.layers.19.layer_norm1.weight", [1280], .float32, [], false⟩,
  ⟨key% "text_encoders.clip_g.transformer.text_model.encoder.layers.19.layer_norm2.bias", [1280], .float32, [], false⟩,
  ⟨key% "text_encoders.clip_g.transformer.text_model.encoder.layers.19.layer_norm2.weight", [1280], .float32, [], false⟩,
  ⟨key% "text_encoders.clip_g.transformer.text_model.encoder.layers.19.mlp.fc1.bias", [5120], .float32, [], false⟩,
  ⟨key% "text_encoders.clip_g.transformer.text_model.encoder.layers.19.mlp.fc1.weight", [5120, 1280], .float32, [], false⟩,
  ⟨key% "text_encoders.clip_g.transformer.text_model.encoder.layers.19.mlp.fc2.bias", [1280], .float32, [], false⟩,
  ⟨key% "text_encoders.clip_g.transformer.text_model.encoder.layers.19.mlp.fc2.weight", [1280, 5120], .float32, [], false⟩,
  ⟨key% "text_encoders.clip_g.transformer.text_model.encoder.layers.19.self_attn.k_proj.bias", [1280], .float32, [], false⟩,
  ⟨key% "text_encoders.clip_g.transformer.text_model.encoder.layers.19.self_attn.k_proj.weight", [1280, 1280], .float32, [], false⟩,
  ⟨key% "text_encoders.clip_g.transformer.text_model.encoder.layers.19.self_attn.out_proj.bias", [1280], .float32, [], false⟩,
  ⟨key% "text_encoders.clip_g.transformer.text_model.encoder.layers.19.self_attn.out_proj.weight", [1280, 1280], .float32, [], false⟩,
  ⟨key% "text_encoders.clip_g.transformer.text_model.encoder.layers.19.self_attn.q_proj.bias", [1280], .float32, [], false⟩,
  ⟨key% "text_encoders.clip_g.transformer.text_model.encoder.layers.19.self_attn.q_proj.weight", [1280, 1280], .float32, [], false⟩,
  ⟨key% "text_encoders.clip_g.transformer.text_model.encoder.layers.19.self_attn.v_proj.bias", [1280], .float32, [], false⟩,
  ⟨key% "text_encoders.clip_g.transformer.text_model.encoder.layers.19.self_attn.v_proj.weight", [1280, 1280], .float32, [], false⟩,
  ⟨key% "text_encoders.clip_g.transformer.text_model.encoder.layers.2.layer_norm1.bias", [1280], .float32, [], false⟩,
  ⟨key% "text_encoders.clip_g.transformer.text_model.encoder.layers.2.layer_norm1.weight", [1280], .float32, [], false⟩,
  ⟨key% "text_encoders.clip_g.transformer.text_model.encoder.layers.2.layer_norm2.bias", [1280], .float32, [], false⟩,
  ⟨key% "text_encoders.clip_g.transformer.text_model.encoder.layers.2.layer_norm2.weight", [1280], .float32, [], false⟩,
  ⟨key% "text_encoders.clip_g.transformer.text_model.encoder.layers.2.mlp.fc1.bias", [5120], .float32, [], false⟩]
noncomputable def clip_g2 : List Entry := [
  ⟨key% "text_encoders.clip_g.transformer.text_model.encoder.layers.2.mlp.fc1.weight", [5120, 1280], .float32, [], false⟩,
  ⟨key% "text_encoders.clip_g.transformer.text_model.encoder.layers.2.mlp.fc2.bias", [1280], .float32, [], false⟩,
  ⟨key% "text_encoders.clip_g.transformer.text_model.encoder.layers.2.mlp.fc2.weight", [1280, 5120], .float32, [], false⟩,
  ⟨key% "text_encoders.clip_g.transformer.text_model.encoder.layers.2.self_attn.k_proj.bias", [1280], .float32, [], false⟩,
  ⟨key% "text_encoders.clip_g.transformer.text_model.encoder.layers.2.self_attn.k_proj.weight", [1280, 1280], .float32, [], false⟩,
  ⟨key% "text_encoders.clip_g.transformer.text_model.encoder.layers.2.self_attn.out_proj.bias", [1280], .float32, [], false⟩,
  ⟨key% "text_encoders.clip_g.transformer.text_model.encoder.layers.2.self_attn.out_proj.weight", [1280, 1280], .float32, [], false⟩,
  ⟨key% "text_encoders.clip_g.transformer.text_model.encoder.layers.2.self_attn.q_proj.bias", [1280], .float32, [], false⟩,
  ⟨key% "text_encoders.clip_g.transformer.text_model.encoder.layers.2.self_attn.q_proj.weight", [1280, 1280], .float32, [], false⟩,
  ⟨key% "text_encoders.clip_g.transformer.text_model.encoder.layers.2.self_attn.v_proj.bias", [1280], .float32, [], false⟩,
  ⟨key% "text_encoders.clip_g.transformer.text_model.encoder.layers.2.self_attn.v_proj.weight", [1280, 1280], .float32, [], false⟩,
  ⟨key% "text_encoders.clip_g.transformer.text_model.encoder.layers.20.layer_norm1.bias", [1280], .float32, [], false⟩,
  ⟨key% "text_encoders.clip_g.transformer.text_model.encoder.layers.20.layer_norm1.weight", [1280], .float32, [], false⟩,
  ⟨key% "text_encoders.clip_g.transformer.text_model.encoder.layers.20.layer_norm2.bias", [1280], .float32, [], false⟩,
  ⟨key% "text_encoders.clip_g.transformer.text_model.encoder.layers.20.layer_norm2.weight", [1280], .float32, [], false⟩,
  ⟨key% "text_encoders.clip_g.transformer.text_model.encoder.layers.20.mlp.fc1.bias", [5120], .float32, [], false⟩,
  ⟨key% "text_encoders.clip_g.transformer.text_model.encoder.layers.20.mlp.fc1.weight", [5120, 1280], .float32, [], false⟩,
  ⟨key% "text_encoders.clip_g.transformer.text_model.encoder.layers.20.mlp.fc2.bias", [1280], .float32, [], false⟩,
  ⟨key% "text_encoders.clip_g.transformer.text_model.encoder.layers.20.mlp.fc2.weight", [1280, 5120], .float32, [], false⟩,
  ⟨key% "text_encoders.clip_g.transformer.text_model.encoder.layers.20.self_attn.k_proj.bias", [1280], .float32, [], false⟩,
  ⟨key% "text_encoders.clip_g.transformer.text_model.encoder.layers.20.self_attn.k_proj.weight", [1280, 1280], .float32, [], false⟩,
  ⟨key% "text_encoders.clip_g.transformer.text_model.encoder.layers.20.self_attn.out_proj.bias", [1280], .float32, [], false⟩,
  ⟨key% "text_encoders.clip_g.transformer.text_model.encoder.layers.20.self_attn.out_proj.weight", [1280, 1280], .float32, [], false⟩,
  ⟨key% "text_encoders.clip_g.transformer.text_model.encoder.layers.20.self_attn.q_proj.bias", [1280], .float32, [], false⟩,
  ⟨key% "text_encoders.clip_g.transformer.text_model.encoder.layers.20.self_attn.q_proj.weight", [1280, 1280], .float32, [], false⟩,
  ⟨key% "text_encoders.clip_g.transformer.text_model.encoder.layers.20.self_attn.v_proj.bias", [1280], .float32, [], false⟩,
  ⟨key% "text_encoders.clip_g.transformer.text_model.encoder.layers.20.self_attn.v_proj.weight", [1280, 1280], .float32, [], false⟩,
  ⟨key% "text_encoders.clip_g.transformer.text_model.encoder.layers.21.layer_norm1.bias", [1280], .float32, [], false⟩,
  ⟨key% "text_encoders.clip_g.transformer.text_model.encoder.layers.21.layer_norm1.weight", [1280], .float32, [], false⟩,
  ⟨key% "text_encoders.clip_g.transformer.text_model.encoder.layers.21.layer_norm2.bias", [1280], .float32, [], false⟩,
  ⟨key% "text_encoders.clip_g.transformer.text_model.encoder.layers.21.layer_norm2.weight", [1280], .float32, [], false⟩,
  ⟨key% "text_encoders.clip_g.transformer.text_model.encoder.layers.21.mlp.fc1.bias", [5120], .float32, [], false⟩,
  ⟨key% "text_encoders.clip_g.transformer.text_model.encoder.layers.21.mlp.fc1.weight", [5120, 1280], .float32, [], false⟩,
  ⟨key% "text_encoders.clip_g.transformer.text_model.encoder.layers.21.mlp.fc2.bias", [1280], .float32, [], false⟩,
  ⟨key% "text_encoders.clip_g.transformer.text_model.encoder.layers.21.mlp.fc2.weight", [1280, 5120], .float32, [], false⟩,
  ⟨key% "text_encoders.clip_g.transformer.text_model.encoder.layers.21.self_attn.k_proj.bias", [1280], .float32, [], false⟩,
  ⟨key% "text_encoders.clip_g.transformer.text_model.encoder.layers.21.self_attn.k_proj.weight", [1280, 1280], .float32, [], false⟩,
  ⟨key% "text_encoders.clip_g.transformer.text_model.encoder.layers.21.self_attn.out_proj.bias", [1280], .float32, [], false⟩,
  ⟨key% "text_encoders.clip_g.transformer.text_model.encoder.layers.21.self_attn.out_proj.weight", [1280, 1280], .float32, [], false⟩,
  ⟨key% "text_encoders.clip_g.transformer.text_model.encoder.layers.21.self_attn.q_proj.bias", [1280], .float32, [], false⟩,
  ⟨key% "text_encoders.clip_g.transformer.text_model.encoder.layers.21.self_attn.q_proj.weight", [1280, 1280], .float32, [], false⟩,
  ⟨key% "text_encoders.clip_g.transformer.text_model.encoder.layers.21.self_attn.v_proj.bias", [1280], .float32, [], false⟩,
  ⟨key% "text_encoders.clip_g.transformer.text_model.encoder.layers.21.self_attn.v_proj.weight", [1280, 1280], .float32, [], false⟩,
  ⟨key% "text_encoders.clip_g.transformer.text_model.encoder.layers.22.layer_norm1.bias", [1280], .float32, [], false⟩,
  ⟨key% "text_encoders.clip_g.transformer.text_model.encoder.layers.22.layer_norm1.weight", [1280], .float32, [], false⟩,
  ⟨key% "text_encoders.clip_g.transformer.text_model.encoder.layers.22.layer_norm2.bias", [1280], .float32, [], false⟩,
  ⟨key% "text_encoders.clip_g.transformer.text_model.encoder.layers.22.layer_norm2.weight", [1280], .float32, [], false⟩,
  ⟨key% "text_encoders.clip_g.transformer.text_model.encoder.layers.22.mlp.fc1.bias", [5120], .float32, [], false⟩,
  ⟨key% "text_encoders.clip_g.transformer.text_model.encoder.layers.22.mlp.fc1.weight", [5120, 1280], .float32, [], false⟩,
  ⟨key% "text_encoders.clip_g.transformer.text_model.encoder.layers.22.mlp.fc2.bias", [1280], .float32, [], false⟩,
  ⟨key% "text_encoders.clip_g.transformer.text_model.encoder.layers.22.mlp.fc2.weight", [1280, 5120], .float32, [], false⟩,
  ⟨key% "text_encoders.clip_g.transformer.text_model.encoder.layers.22.self_attn.k_proj.bias", [1280], .float32, [], false⟩,
  ⟨key% "text_encoders.clip_g.transformer.text_model.encoder.layers.22.self_attn.k_proj.weight", [1280, 1280], .float32, [], false⟩,
  ⟨key% "text_encoders.clip_g.transformer.text_model.encoder.layers.22.self_attn.out_proj.bias", [1280], .float32, [], false⟩,
  ⟨key% "text_encoders.clip_g.transformer.text_model.encoder.layers.22.self_attn.out_proj.weight", [1280, 1280], .float32, [], false⟩,
  ⟨key% "text_encoders.clip_g.transformer.text_model.encoder.layers.22.self_attn.q_proj.bias", [1280], .float32, [], false⟩,
  ⟨key% "text_encoders.clip_g.transformer.text_model.encoder.layers.22.self_attn.q_proj.weight", [1280, 1280], .float32, [], false⟩,
  ⟨key% "text_encoders.clip_g.transformer.text_model.encoder.layers.22.self_attn.v_proj.bias", [1280], .float32, [], false⟩,
  ⟨key% "text_encoders.clip_g.transformer.text_model.encoder.layers.22.self_attn.v_proj.weight", [1280, 1280], .float32, [], false⟩,
  ⟨key% "text_encoders.clip_g.transformer.text_model.encoder.layers.23.layer_norm1.bias", [1280], .float32, [], false⟩,
  ⟨key% "text_encoders.clip_g.transformer.text_model.encoder.layers.23.layer_norm1.weight", [1280], .float32, [], false⟩,
  ⟨key% "text_encoders.clip_g.transformer.text_model.encoder.layers.23.layer_norm2.bias", [1280], .float32, [], false⟩,
  ⟨key% "text_encoders.clip_g.transformer.text_model.encoder.layers.23.layer_norm2.weight", [1280], .float32, [], false⟩,
  ⟨key% "text_encoders.clip_g.transformer.text_model.encoder.layers.23.mlp.fc1.bias", [5120], .float32, [], false⟩,
  ⟨key% "text_encoders.clip_g.transformer.text_model.encoder.layers.23.mlp.fc1.weight", [5120, 1280], .float32, [], false⟩,
  ⟨key% "text_encoders.clip_g.transformer.text_model.encoder.layers.23.mlp.fc2.bias", [1280], .float32, [], false⟩,
  ⟨key% "text_encoders.clip_g.transformer.text_model.encoder.layers.23.mlp.fc2.weight", [1280, 5120], .float32, [], false⟩,
  ⟨key% "text_encoders.clip_g.transformer.text_model.encoder.layers.23.self_attn.k_proj.bias", [1280], .float32, [], false⟩,
  ⟨key% "text_encoders.clip_g.transformer.text_model.encoder.layers.23.self_attn.k_proj.weight", [1280, 1280], .float32, [], false⟩,
  ⟨key% "text_encoders.clip_g.transformer.text_model.encoder.layers.23.self_attn.out_proj.bias", [1280], .float32, [], false⟩,
  ⟨key% "text_encoders.clip_g.transformer.text_model.encoder.layers.23.self_attn.out_proj.weight", [1280, 1280], .float32, [], false⟩,
  ⟨key% "text_encoders.clip_g.transformer.text_model.encoder.layers.23.self_attn.q_proj.bias", [1280], .float32, [], false⟩,
  ⟨key% "text_encoders.clip_g.transformer.text_model.encoder.layers.23.self_attn.q_proj.weight", [1280, 1280], .float32, [], false⟩,
  ⟨key% "text_encoders.clip_g.transformer.text_model.encoder.layers.23.self_attn.v_proj.bias", [1280], .float32, [], false⟩,
  ⟨key% "text_encoders.clip_g.transformer.text_model.encoder.layers.23.self_attn.v_proj.weight", [1280, 1280], .float32, [], false⟩,
  ⟨key% "text_encoders.clip_g.transformer.text_model.encoder.layers.24.layer_norm1.bias", [1280], .float32, [], false⟩,
  ⟨key% "text_encoders.clip_g.transformer.text_model.encoder.layers.24.layer_norm1.weight", [1280], .float32, [], false⟩,
  ⟨key% "text_encoders.clip_g.transformer.text_model.encoder.layers.24.layer_norm2.bias", [1280], .float32, [], false⟩,
  ⟨key% "text_encoders.clip_g.transformer.text_model.encoder.layers.24.layer_norm2.weight", [1280], .float32, [], false⟩,
  ⟨key% "text_encoders.clip_g.transformer.text_model.encoder.layers.24.mlp.fc1.bias", [5120], .float32, [], false⟩,
  ⟨key% "text_encoders.clip_g.transformer.text_model.encoder.layers.24.mlp.fc1.weight", [5120, 1280], .float32, [], false⟩,
  ⟨key% "text_encoders.clip_g.transformer.text_model.encoder.layers.24.mlp.fc2.bias", [1280], .float32, [], false⟩,
  ⟨key% "text_encoders.clip_g.transformer.text_model.encoder.layers.24.mlp.fc2.weight", [1280, 5120], .float32, [], false⟩,
  ⟨key% "text_encoders.clip_g.transformer.text_model.encoder.layers.24.self_attn.k_proj.bias", [1280], .float32, [], false⟩,
  ⟨key% "text_encoders.clip_g.transformer.text_model.encoder.layers.24.self_attn.k_proj.weight", [1280, 1280], .float32, [], false⟩,
  ⟨key% "text_encoders.clip_g.transformer.text_model.encoder.layers.24.self_attn.out_proj.bias", [1280], .float32, [], false⟩,
  ⟨key% "text_encoders.clip_g.transformer.text_model.encoder.layers.24.self_attn.out_proj.weight", [1280, 1280], .float32, [], false⟩,
  ⟨key% "text_encoders.clip_g.transformer.text_model.encoder.layers.24.self_attn.q_proj.bias", [1280], .float32, [], false⟩,
  ⟨key% "text_encoders.clip_g.transformer.text_model.encoder.layers.24.self_attn.q_proj.weight", [1280, 1280], .float32, [], false⟩,
  ⟨key% "text_encoders.clip_g.transformer.text_model.encoder.layers.24.self_attn.v_proj.bias", [1280], .float32, [], false⟩,
  ⟨key% "text_encoders.clip_g.transformer.text_model.encoder.layers.24.self_attn.v_proj.weight", [1280, 1280], .float32, [], false⟩,
  ⟨key% "text_encoders.clip_g.transformer.text_model.encoder.layers.25.layer_norm1.bias", [1280], .float32, [], false⟩,
  ⟨key% "text_encoders.clip_g.transformer.text_model.encoder.layers.25.layer_norm1.weight", [1280], .float32, [], false⟩,
  ⟨key% "text_encoders.clip_g.transformer.text_model.encoder.layers.25.layer_norm2.bias", [1280], .float32, [], false⟩,
  ⟨key% "text_encoders.clip_g.transformer.text_model.encoder.layers.25.layer_norm2.weight", [1280], .float32, [], false⟩,
  ⟨key% "text_encoders.clip_g.transformer.text_model.encoder.layers.25.mlp.fc1.bias", [5120], .float32, [], false⟩,
  ⟨key% "text_encoders.clip_g.transformer.text_model.encoder.layers.25.mlp.fc1.weight", [5120, 1280], .float32, [], false⟩,
  ⟨key% "text_encoders.clip_g.transformer.text_model.encoder.layers.25.mlp.fc2.bias", [1280], .float32, [], false⟩,
  ⟨key% "text_encoders.clip_g.transformer.text_model.encoder.layers.25.mlp.fc2.weight", [1280, 5120], .float32, [], false⟩,
  ⟨key% "text_encoders.clip_g.transformer.text_model.encoder.layers.25.self_attn.k_proj.bias", [1280], .float32, [], false⟩]
noncomputable def clip_g3 : List Entry := [
  ⟨key% "text_encoders.clip_g.transformer.text_model.encoder.layers.25.self_attn.k_proj.weight", [1280, 1280], .float32, [], false⟩,
  ⟨key% "text_encoders.clip_g.transformer.text_model.encoder.layers.25.self_attn.out_proj.bias", [1280], .float32, [], false⟩,
  ⟨key% "text_encoders.clip_g.transformer.text_model.encoder.layers.25.self_attn.out_proj.weight", [1280, 1280], .float32, [], false⟩,
  ⟨key% "text_encoders.clip_g.transformer.text_model.encoder.layers.25.self_attn.q_proj.bias", [1280], .float32, [], false⟩,
  ⟨key% "text_encoders.clip_g.transformer.text_model.encoder.layers.25.self_attn.q_proj.weight", [1280, 1280], .float32, [], false⟩,
  ⟨key% "text_encoders.clip_g.transformer.text_model.encoder.layers.25.self_attn.v_proj.bias", [1280], .float32, [], false⟩,
  ⟨key% "text_encoders.clip_g.transformer.text_model.encoder.layers.25.self_attn.v_proj.weight", [1280, 1280], .float32, [], false⟩,
  ⟨key% "text_encoders.clip_g.transformer.text_model.encoder.layers.26.layer_norm1.bias", [1280], .float32, [], false⟩,
  ⟨key% "text_encoders.clip_g.transformer.text_model.encoder.layers.26.layer_norm1.weight", [1280], .float32, [], false⟩,
  ⟨key% "text_encoders.clip_g.transformer.text_model.encoder.layers.26.layer_norm2.bias", [1280], .float32, [], false⟩,
  ⟨key% "text_encoders.clip_g.transformer.text_model.encoder.layers.26.layer_norm2.weight", [1280], .float32, [], false⟩,
  ⟨key% "text_encoders.clip_g.transformer.text_model.encoder.layers.26.mlp.fc1.bias", [5120], .float32, [], false⟩,
  ⟨key% "text_encoders.clip_g.transformer.text_model.encoder.layers.26.mlp.fc1.weight", [5120, 1280], .float32, [], false⟩,
  ⟨key% "text_encoders.clip_g.transformer.text_model.encoder.layers.26.mlp.fc2.bias", [1280], .float32, [], false⟩,
  ⟨key% "text_encoders.clip_g.transformer.text_model.encoder.layers.26.mlp.fc2.weight", [1280, 5120], .float32, [], false⟩,
  ⟨key% "text_encoders.clip_g.transformer.text_model.encoder.layers.26.self_attn.k_proj.bias", [1280], .float32, [], false⟩,
  ⟨key% "text_encoders.clip_g.transformer.text_model.encoder.layers.26.self_attn.k_proj.weight", [1280, 1280], .float32, [], false⟩,
  ⟨key% "text_encoders.clip_g.transformer.text_model.encoder.layers.26.self_attn.out_proj.bias", [1280], .float32, [], false⟩,
  ⟨key% "text_encoders.clip_g.transformer.text_model.encoder.layers.26.self_attn.out_proj.weight", [1280, 1280], .float32, [], false⟩,
  ⟨key% "text_encoders.clip_g.transformer.text_model.encoder.layers.26.self_attn.q_proj.bias", [1280], .float32, [], false⟩,
  ⟨key% "text_encoders.clip_g.transformer.text_model.encoder.layers.26.self_attn.q_proj.weight", [1280, 1280], .float32, [], false⟩,
  ⟨key% "text_encoders.clip_g.transformer.text_model.encoder.layers.26.self_attn.v_proj.bias", [1280], .float32, [], false⟩,
  ⟨key% "text_encoders.clip_g.transformer.text_model.encoder.layers.26.self_attn.v_proj.weight", [1280, 1280], .float32, [], false⟩,
  ⟨key% "text_encoders.clip_g.transformer.text_model.encoder.layers.27.layer_norm1.bias", [1280], .float32, [], false⟩,
  ⟨key% "text_encoders.clip_g.transformer.text_model.encoder.layers.27.layer_norm1.weight", [1280], .float32, [], false⟩,
  ⟨key% "text_encoders.clip_g.transformer.text_model.encoder.layers.27.layer_norm2.bias", [1280], .float32, [], false⟩,
  ⟨key% "text_encoders.clip_g.transformer.text_model.encoder.layers.27.layer_norm2.weight", [1280], .float32, [], false⟩,
  ⟨key% "text_encoders.clip_g.transformer.text_model.encoder.layers.27.mlp.fc1.bias", [5120], .float32, [], false⟩,
  ⟨key% "text_encoders.clip_g.transformer.text_model.encoder.layers.27.mlp.fc1.weight", [5120, 1280], .float32, [], false⟩,
  ⟨key% "text_encoders.clip_g.transformer.text_model.encoder.layers.27.mlp.fc2.bias", [1280], .float32, [], false⟩,
  ⟨key% "text_encoders.clip_g.transformer.text_model.encoder.layers.27.mlp.fc2.weight", [1280, 5120], .float32, [], false⟩,
  ⟨key% "text_encoders.clip_g.transformer.text_model.encoder.layers.27.self_attn.k_proj.bias", [1280], .float32, [], false⟩,
  ⟨key% "text_encoders.clip_g.transformer.text_model.encoder.layers.27.self_attn.k_proj.weight", [1280, 1280], .float32, [], false⟩,
  ⟨key% "text_encoders.clip_g.transformer.text_model.encoder.layers.27.self_attn.out_proj.bias", [1280], .float32, [], false⟩,
  ⟨key% "text_encoders.clip_g.transformer.text_model.encoder.layers.27.self_attn.out_proj.weight", [1280, 1280], .float32, [], false⟩,
  ⟨key% "text_encoders.clip_g.transformer.text_model.encoder.layers.27.self_attn.q_proj.bias", [1280], .float32, [], false⟩,
  ⟨key% "text_encoders.clip_g.transformer.text_model.encoder.layers.27.self_attn.q_proj.weight", [1280, 1280], .float32, [], false⟩,
  ⟨key% "text_encoders.clip_g.transformer.text_model.encoder.layers.27.self_attn.v_proj.bias", [1280], .float32, [], false⟩,
  ⟨key% "text_encoders.clip_g.transformer.text_model.encoder.layers.27.self_attn.v_proj.weight", [1280, 1280], .float32, [], false⟩,
  ⟨key% "text_encoders.clip_g.transformer.text_model.encoder.layers.28.layer_norm1.bias", [1280], .float32, [], false⟩,
  ⟨key% "text_encoders.clip_g.transformer.text_model.encoder.layers.28.layer_norm1.weight", [1280], .float32, [], false⟩,
  ⟨key% "text_encoders.clip_g.transformer.text_model.encoder.layers.28.layer_norm2.bias", [1280], .float32, [], false⟩,
  ⟨key% "text_encoders.clip_g.transformer.text_model.encoder.layers.28.layer_norm2.weight", [1280], .float32, [], false⟩,
  ⟨key% "text_encoders.clip_g.transformer.text_model.encoder.layers.28.mlp.fc1.bias", [5120], .float32, [], false⟩,
  ⟨key% "text_encoders.clip_g.transformer.text_model.encoder.layers.28.mlp.fc1.weight", [5120, 1280], .float32, [], false⟩,
  ⟨key% "text_encoders.clip_g.transformer.text_model.encoder.layers.28.mlp.fc2.bias", [1280], .float32, [], false⟩,
  ⟨key% "text_encoders.clip_g.transformer.text_model.encoder.layers.28.mlp.fc2.weight", [1280, 5120], .float32, [], false⟩,
  ⟨key% "text_encoders.clip_g.transformer.text_model.encoder.layers.28.self_attn.k_proj.bias", [1280], .float32, [], false⟩,
  ⟨key% "text_encoders.clip_g.transformer.text_model.encoder.layers.28.self_attn.k_proj.weight", [1280, 1280], .float32, [], false⟩,
  ⟨key% "text_encoders.clip_g.transformer.text_model.encoder.layers.28.self_attn.out_proj.bias", [1280], .float32, [], false⟩,
  ⟨key% "text_encoders.clip_g.transformer.text_model.encoder.layers.28.self_attn.out_proj.weight", [1280, 1280], .float32, [], false⟩,
  ⟨key% "text_encoders.clip_g.transformer.text_model.encoder.layers.28.self_attn.q_proj.bias", [1280], .float32, [], false⟩,
  ⟨key% "text_encoders.clip_g.transformer.text_model.encoder.layers.28.self_attn.q_proj.weight", [1280, 1280], .float32, [], false⟩,
  ⟨key% "text_encoders.clip_g.transformer.text_model.encoder.layers.28.self_attn.v_proj.bias", [1280], .float32, [], false⟩,
  ⟨key% "text_encoders.clip_g.transformer.text_model.encoder.layers.28.self_attn.v_proj.weight", [1280, 1280], .float32, [], false⟩,
  ⟨key% "text_encoders.clip_g.transformer.text_model.encoder.layers.29.layer_norm1.bias", [1280], .float32, [], false⟩,
  ⟨key% "text_encoders.clip_g.transformer.text_model.encoder.layers.29.layer_norm1.weight", [1280], .float32, [], false⟩,
  ⟨key% "text_encoders.clip_g.transformer.text_model.encoder.layers.29.layer_norm2.bias", [1280], .float32, [], false⟩,
  ⟨key% "text_encoders.clip_g.transformer.text_model.encoder.layers.29.layer_norm2.weight", [1280], .float32, [], false⟩,
  ⟨key% "text_encoders.clip_g.transformer.text_model.encoder.layers.29.mlp.fc1.bias", [5120], .float32, [], false⟩,
  ⟨key% "text_encoders.clip_g.transformer.text_model.encoder.layers.29.mlp.fc1.weight", [5120, 1280], .float32, [], false⟩,
  ⟨key% "text_encoders.clip_g.transformer.text_model.encoder.layers.29.mlp.fc2.bias", [1280], .float32, [], false⟩,
  ⟨key% "text_encoders.clip_g.transformer.text_model.encoder.layers.29.mlp.fc2.weight", [1280, 5120], .float32, [], false⟩,
  ⟨key% "text_encoders.clip_g.transformer.text_model.encoder.layers.29.self_attn.k_proj.bias", [1280], .float32, [], false⟩,
  ⟨key% "text_encoders.clip_g.transformer.text_model.encoder.layers.29.self_attn.k_proj.weight", [1280, 1280], .float32, [], false⟩,
  ⟨key% "text_encoders.clip_g.transformer.text_model.encoder.layers.29.self_attn.out_proj.bias", [1280], .float32, [], false⟩,
  ⟨key% "text_encoders.clip_g.transformer.text_model.encoder.layers.29.self_attn.out_proj.weight", [1280, 1280], .float32, [], false⟩,
  ⟨key% "text_encoders.clip_g.transformer.text_model.encoder.layers.29.self_attn.q_proj.bias", [1280], .float32, [], false⟩,
  ⟨key% "text_encoders.clip_g.transformer.text_model.encoder.layers.29.self_attn.q_proj.weight", [1280, 1280], .float32, [], false⟩,
  ⟨key% "text_encoders.clip_g.transformer.text_model.encoder.layers.29.self_attn.v_proj.bias", [1280], .float32, [], false⟩,
  ⟨key% "text_encoders.clip_g.transformer.text_model.encoder.layers.29.self_attn.v_proj.weight", [1280, 1280], .float32, [], false⟩,
  ⟨key% "text_encoders.clip_g.transformer.text_model.encoder.layers.3.layer_norm1.bias", [1280], .float32, [], false⟩,
  ⟨key% "text_encoders.clip_g.transformer.text_model.encoder.layers.3.layer_norm1.weight", [1280], .float32, [], false⟩,
  ⟨key% "text_encoders.clip_g.transformer.text_model.encoder.layers.3.layer_norm2.bias", [1280], .float32, [], false⟩,
  ⟨key% "text_encoders.clip_g.transformer.text_model.encoder.layers.3.layer_norm2.weight", [1280], .float32, [], false⟩,
  ⟨key% "text_encoders.clip_g.transformer.text_model.encoder.layers.3.mlp.fc1.bias", [5120], .float32, [], false⟩,
  ⟨key% "text_encoders.clip_g.transformer.text_model.encoder.layers.3.mlp.fc1.weight", [5120, 1280], .float32, [], false⟩,
  ⟨key% "text_encoders.clip_g.transformer.text_model.encoder.layers.3.mlp.fc2.bias", [1280], .float32, [], false⟩,
  ⟨key% "text_encoders.clip_g.transformer.text_model.encoder.layers.3.mlp.fc2.weight", [1280, 5120], .float32, [], false⟩,
  ⟨key% "text_encoders.clip_g.transformer.text_model.encoder.layers.3.self_attn.k_proj.bias", [1280], .float32, [], false⟩,
  ⟨key% "text_encoders.clip_g.transformer.text_model.encoder.layers.3.self_attn.k_proj.weight", [1280, 1280], .float32, [], false⟩,
  ⟨key% "text_encoders.clip_g.transformer.text_model.encoder.layers.3.self_attn.out_proj.bias", [1280], .float32, [], false⟩,
  ⟨key% "text_encoders.clip_g.transformer.text_model.encoder.layers.3.self_attn.out_proj.weight", [1280, 1280], .float32, [], false⟩,
  ⟨key% "text_encoders.clip_g.transformer.text_model.encoder.layers.3.self_attn.q_proj.bias", [1280], .float32, [], false⟩,
  ⟨key% "text_encoders.clip_g.transformer.text_model.encoder.layers.3.self_attn.q_proj.weight", [1280, 1280], .float32, [], false⟩,
  ⟨key% "text_encoders.clip_g.transformer.text_model.encoder.layers.3.self_attn.v_proj.bias", [1280], .float32, [], false⟩,
  ⟨key% "text_encoders.clip_g.transformer.text_model.encoder.layers.3.self_attn.v_proj.weight", [1280, 1280], .float32, [], false⟩,
  ⟨key% "text_encoders.clip_g.transformer.text_model.encoder.layers.30.layer_norm1.bias", [1280], .float32, [], false⟩,
  ⟨key% "text_encoders.clip_g.transformer.text_model.encoder.layers.30.layer_norm1.weight", [1280], .float32, [], false⟩,
  ⟨key% "text_encoders.clip_g.transformer.text_model.encoder.layers.30.layer_norm2.bias", [1280], .float32, [], false⟩,
  ⟨key% "text_encoders.clip_g.transformer.text_model.encoder.layers.30.layer_norm2.weight", [1280], .float32, [], false⟩,
  ⟨key% "text_encoders.clip_g.transformer.text_model.encoder.layers.30.mlp.fc1.bias", [5120], .float32, [], false⟩,
  ⟨key% "text_encoders.clip_g.transformer.text_model.encoder.layers.30.mlp.fc1.weight", [5120, 1280], .float32, [], false⟩,
  ⟨key% "text_encoders.clip_g.transformer.text_model.encoder.layers.30.mlp.fc2.bias", [1280], .float32, [], false⟩,
  ⟨key% "text_encoders.clip_g.transformer.text_model.encoder.layers.30.mlp.fc2.weight", [1280, 5120], .float32, [], false⟩,
  ⟨key% "text_encoders.clip_g.transformer.text_model.encoder.layers.30.self_attn.k_proj.bias", [1280], .float32, [], false⟩,
  ⟨key% "text_encoders.clip_g.transformer.text_model.encoder.layers.30.self_attn.k_proj.weight", [1280, 1280], .float32, [], false⟩,
  ⟨key% "text_encoders.clip_g.transformer.text_model.encoder.layers.30.self_attn.out_proj.bias", [1280], .float32, [], false⟩,
  ⟨key% "text_encoders.clip_g.transformer.text_model.encoder.layers.30.self_attn.out_proj.weight", [1280, 1280], .float32, [], false⟩,
  ⟨key% "text_encoders.clip_g.transformer.text_model.encoder.layers.30.self_attn.q_proj.bias", [1280], .float32, [], false⟩]
noncomputable def clip_g4 : List Entry := [
  ⟨key% "text_encoders.clip_g.transformer.text_model.encoder.layers.30.self_attn.q_proj.weight", [1280, 1280], .float32, [], false⟩,
  ⟨key% "text_encoders.clip_g.transformer.text_model.encoder.layers.30.self_attn.v_proj.bias", [1280], .float32, [], false⟩,
  ⟨key% "text_encoders.clip_g.transformer.text_model.encoder.layers.30.self_attn.v_proj.weight", [1280, 1280], .float32, [], false⟩,
  ⟨key% "text_encoders.clip_g.transformer.text_model.encoder.layers.31.layer_norm1.bias", [1280], .float32, [], false⟩,
  ⟨key% "text_encoders.clip_g.transformer.text_model.encoder.layers.31.layer_norm1.weight", [1280], .float32, [], false⟩,
  ⟨key% "text_encoders.clip_g.transformer.text_model.encoder.layers.31.layer_norm2.bias", [1280], .float32, [], false⟩,
  ⟨key% "text_encoders.clip_g.transformer.text_model.encoder.layers.31.layer_norm2.weight", [1280], .float32, [], false⟩,
  ⟨key% "text_encoders.clip_g.transformer.text_model.encoder.layers.31.mlp.fc1.bias", [5120], .float32, [], false⟩,
  ⟨key% "text_encoders.clip_g.transformer.text_model.encoder.layers.31.mlp.fc1.weight", [5120, 1280], .float32, [], false⟩,
  ⟨key% "text_encoders.clip_g.transformer.text_model.encoder.layers.31.mlp.fc2.bias", [1280], .float32, [], false⟩,
  ⟨key% "text_encoders.clip_g.transformer.text_model.encoder.layers.31.mlp.fc2.weight", [1280, 5120], .float32, [], false⟩,
  ⟨key% "text_encoders.clip_g.transformer.text_model.encoder.layers.31.self_attn.k_proj.bias", [1280], .float32, [], false⟩,
  ⟨key% "text_encoders.clip_g.transformer.text_model.encoder.layers.31.self_attn.k_proj.weight", [1280, 1280], .float32, [], false⟩,
  ⟨key% "text_encoders.clip_g.transformer.text_model.encoder.layers.31.self_attn.out_proj.bias", [1280], .float32, [], false⟩,
  ⟨key% "text_encoders.clip_g.transformer.text_model.encoder.layers.31.self_attn.out_proj.weight", [1280, 1280], .float32, [], false⟩,
  ⟨key% "text_encoders.clip_g.transformer.text_model.encoder.layers.31.self_attn.q_proj.bias", [1280], .float32, [], false⟩,
  ⟨key% "text_encoders.clip_g.transformer.text_model.encoder.layers.31.self_attn.q_proj.weight", [1280, 1280], .float32, [], false⟩,
  ⟨key% "text_encoders.clip_g.transformer.text_model.encoder.layers.31.self_attn.v_proj.bias", [1280], .float32, [], false⟩,
  ⟨key% "text_encoders.clip_g.transformer.text_model.encoder.layers.31.self_attn.v_proj.weight", [1280, 1280], .float32, [], false⟩,
  ⟨key% "text_encoders.clip_g.transformer.text_model.encoder.layers.4.layer_norm1.bias", [1280], .float32, [], false⟩,
  ⟨key% "text_encoders.clip_g.transformer.text_model.encoder.layers.4.layer_norm1.weight", [1280], .float32, [], false⟩,
  ⟨key% "text_encoders.clip_g.transformer.text_model.encoder.layers.4.layer_norm2.bias", [1280], .float32, [], false⟩,
  ⟨key% "text_encoders.clip_g.transformer.text_model.encoder.layers.4.layer_norm2.weight", [1280], .float32, [], false⟩,
  ⟨key% "text_encoders.clip_g.transformer.text_model.encoder.layers.4.mlp.fc1.bias", [5120], .float32, [], false⟩,
  ⟨key% "text_encoders.clip_g.transformer.text_model.encoder.layers.4.mlp.fc1.weight", [5120, 1280], .float32, [], false⟩,
  ⟨key% "text_encoders.clip_g.transformer.text_model.encoder.layers.4.mlp.fc2.bias", [1280], .float32, [], false⟩,
  ⟨key% "text_encoders.clip_g.transformer.text_model.encoder.layers.4.mlp.fc2.weight", [1280, 5120], .float32, [], false⟩,
  ⟨key% "text_encoders.clip_g.transformer.text_model.encoder.layers.4.self_attn.k_proj.bias", [1280], .float32, [], false⟩,
  ⟨key% "text_encoders.clip_g.transformer.text_model.encoder.layers.4.self_attn.k_proj.weight", [1280, 1280], .float32, [], false⟩,
  ⟨key% "text_encoders.clip_g.transformer.text_model.encoder.layers.4.self_attn.out_proj.bias", [1280], .float32, [], false⟩,
  ⟨key% "text_encoders.clip_g.transformer.text_model.encoder.layers.4.self_attn.out_proj.weight", [1280, 1280], .float32, [], false⟩,
  ⟨key% "text_encoders.clip_g.transformer.text_model.encoder.layers.4.self_attn.q_proj.bias", [1280], .float32, [], false⟩,
  ⟨key% "text_encoders.clip_g.transformer.text_model.encoder.layers.4.self_attn.q_proj.weight", [1280, 1280], .float32, [], false⟩,
  ⟨key% "text_encoders.clip_g.transformer.text_model.encoder.layers.4.self_attn.v_proj.bias", [1280], .float32, [], false⟩,
  ⟨key% "text_encoders.clip_g.transformer.text_model.encoder.layers.4.self_attn.v_proj.weight", [1280, 1280], .float32, [], false⟩,
  ⟨key% "text_encoders.clip_g.transformer.text_model.encoder.layers.5.layer_norm1.bias", [1280], .float32, [], false⟩,
  ⟨key% "text_encoders.clip_g.transformer.text_model.encoder.layers.5.layer_norm1.weight", [1280], .float32, [], false⟩,
  ⟨key% "text_encoders.clip_g.transformer.text_model.encoder.layers.5.layer_norm2.bias", [1280], .float32, [], false⟩,
  ⟨key% "text_encoders.clip_g.transformer.text_model.encoder.layers.5.layer_norm2.weight", [1280], .float32, [], false⟩,
  ⟨key% "text_encoders.clip_g.transformer.text_model.encoder.layers.5.mlp.fc1.bias", [5120], .float32, [], false⟩,
  ⟨key% "text_encoders.clip_g.transformer.text_model.encoder.layers.5.mlp.fc1.weight", [5120, 1280], .float32, [], false⟩,
  ⟨key% "text_encoders.clip_g.transformer.text_model.encoder.layers.5.mlp.fc2.bias", [1280], .float32, [], false⟩,
  ⟨key% "text_encoders.clip_g.transformer.text_model.encoder.layers.5.mlp.fc2.weight", [1280, 5120], .float32, [], false⟩,
  ⟨key% "text_encoders.clip_g.transformer.text_model.encoder.layers.5.self_attn.k_proj.bias", [1280], .float32, [], false⟩,
  ⟨key% "text_encoders.clip_g.transformer.text_model.encoder.layers.5.self_attn.k_proj.weight", [1280, 1280], .float32, [], false⟩,
  ⟨key% "text_encoders.clip_g.transformer.text_model.encoder.layers.5.self_attn.out_proj.bias", [1280], .float32, [], false⟩,
  ⟨key% "text_encoders.clip_g.transformer.text_model.encoder.layers.5.self_attn.out_proj.weight", [1280, 1280], .float32, [], false⟩,
  ⟨key% "text_encoders.clip_g.transformer.text_model.encoder.layers.5.self_attn.q_proj.bias", [1280], .float32, [], false⟩,
  ⟨key% "text_encoders.clip_g.transformer.text_model.encoder.layers.5.self_attn.q_proj.weight", [1280, 1280], .float32, [], false⟩,
  ⟨key% "text_encoders.clip_g.transformer.text_model.encoder.layers.5.self_attn.v_proj.bias", [1280], .float32, [], false⟩,
  ⟨key% "text_encoders.clip_g.transformer.text_model.encoder.layers.5.self_attn.v_proj.weight", [1280, 1280], .float32, [], false⟩,
  ⟨key% "text_encoders.clip_g.transformer.text_model.encoder.layers.6.layer_norm1.bias", [1280], .float32, [], false⟩,
  ⟨key% "text_encoders.clip_g.transformer.text_model.encoder.layers.6.layer_norm1.weight", [1280], .float32, [], false⟩,
  ⟨key% "text_encoders.clip_g.transformer.text_model.encoder.layers.6.layer_norm2.bias", [1280], .float32, [], false⟩,
  ⟨key% "text_encoders.clip_g.transformer.text_model.encoder.layers.6.layer_norm2.weight", [1280], .float32, [], false⟩,
  ⟨key% "text_encoders.clip_g.transformer.text_model.encoder.layers.6.mlp.fc1.bias", [5120], .float32, [], false⟩,
  ⟨key% "text_encoders.clip_g.transformer.text_model.encoder.layers.6.mlp.fc1.weight", [5120, 1280], .float32, [], false⟩,
  ⟨key% "text_encoders.clip_g.transformer.text_model.encoder.layers.6.mlp.fc2.bias", [1280], .float32, [], false⟩,
  ⟨key% "text_encoders.clip_g.transformer.text_model.encoder.layers.6.mlp.fc2.weight", [1280, 5120], .float32, [], false⟩,
  ⟨key% "text_encoders.clip_g.transformer.text_model.encoder.layers.6.self_attn.k_proj.bias", [1280], .float32, [], false⟩,
  ⟨key% "text_encoders.clip_g.transformer.text_model.encoder.layers.6.self_attn.k_proj.weight", [1280, 1280], .float32, [], false⟩,
  ⟨key% "text_encoders.clip_g.transformer.text_model.encoder.layers.6.self_attn.out_proj.bias", [1280], .float32, [], false⟩,
  ⟨key% "text_encoders.clip_g.transformer.text_model.encoder.layers.6.self_attn.out_proj.weight", [1280, 1280], .float32, [], false⟩,
  ⟨key% "text_encoders.clip_g.transformer.text_model.encoder.layers.6.self_attn.q_proj.bias", [1280], .float32, [], false⟩,
  ⟨key% "text_encoders.clip_g.transformer.text_model.encoder.layers.6.self_attn.q_proj.weight", [1280, 1280], .float32, [], false⟩,
  ⟨key% "text_encoders.clip_g.transformer.text_model.encoder.layers.6.self_attn.v_proj.bias", [1280], .float32, [], false⟩,
  ⟨key% "text_encoders.clip_g.transformer.text_model.encoder.layers.6.self_attn.v_proj.weight", [1280, 1280], .float32, [], false⟩,
  ⟨key% "text_encoders.clip_g.transformer.text_model.encoder.layers.7.layer_norm1.bias", [1280], .float32, [], false⟩,
  ⟨key% "text_encoders.clip_g.transformer.text_model.encoder.layers.7.layer_norm1.weight", [1280], .float32, [], false⟩,
  ⟨key% "text_encoders.clip_g.transformer.text_model.encoder.layers.7.layer_norm2.bias", [1280], .float32, [], false⟩,
  ⟨key% "text_encoders.clip_g.transformer.text_model.encoder.layers.7.layer_norm2.weight", [1280], .float32, [], false⟩,
  ⟨key% "text_encoders.clip_g.transformer.text_model.encoder.layers.7.mlp.fc1.bias", [5120], .float32, [], false⟩,
  ⟨key% "text_encoders.clip_g.transformer.text_model.encoder.layers.7.mlp.fc1.weight", [5120, 1280], .float32, [], false⟩,
  ⟨key% "text_encoders.clip_g.transformer.text_model.encoder.layers.7.mlp.fc2.bias", [1280], .float32, [], false⟩,
  ⟨key% "text_encoders.clip_g.transformer.text_model.encoder.layers.7.mlp.fc2.weight", [1280, 5120], .float32, [], false⟩,
  ⟨key% "text_encoders.clip_g.transformer.text_model.encoder.layers.7.self_attn.k_proj.bias", [1280], .float32, [], false⟩,
  ⟨key% "text_encoders.clip_g.transformer.text_model.encoder.layers.7.self_attn.k_proj.weight", [1280, 1280], .float32, [], false⟩,
  ⟨key% "text_encoders.clip_g.transformer.text_model.encoder.layers.7.self_attn.out_proj.bias", [1280], .float32, [], false⟩,
  ⟨key% "text_encoders.clip_g.transformer.text_model.encoder.layers.7.self_attn.out_proj.weight", [1280, 1280], .float32, [], false⟩,
  ⟨key% "text_encoders.clip_g.transformer.text_model.encoder.layers.7.self_attn.q_proj.bias", [1280], .float32, [], false⟩,
  ⟨key% "text_encoders.clip_g.transformer.text_model.encoder.layers.7.self_attn.q_proj.weight", [1280, 1280], .float32, [], false⟩,
  ⟨key% "text_encoders.clip_g.transformer.text_model.encoder.layers.7.self_attn.v_proj.bias", [1280], .float32, [], false⟩,
  ⟨key% "text_encoders.clip_g.transformer.text_model.encoder.layers.7.self_attn.v_proj.weight", [1280, 1280], .float32, [], false⟩,
  ⟨key% "text_encoders.clip_g.transformer.text_model.encoder.layers.8.layer_norm1.bias", [1280], .float32, [], false⟩,
  ⟨key% "text_encoders.clip_g.transformer.text_model.encoder.layers.8.layer_norm1.weight", [1280], .float32, [], false⟩,
  ⟨key% "text_encoders.clip_g.transformer.text_model.encoder.layers.8.layer_norm2.bias", [1280], .float32, [], false⟩,
  ⟨key% "text_encoders.clip_g.transformer.text_model.encoder.layers.8.layer_norm2.weight", [1280], .float32, [], false⟩,
  ⟨key% "text_encoders.clip_g.transformer.text_model.encoder.layers.8.mlp.fc1.bias", [5120], .float32, [], false⟩,
  ⟨key% "text_encoders.clip_g.transformer.text_model.encoder.layers.8.mlp.fc1.weight", [5120, 1280], .float32, [], false⟩,
  ⟨key% "text_encoders.clip_g.transformer.text_model.encoder.layers.8.mlp.fc2.bias", [1280], .float32, [], false⟩,
  ⟨key% "text_encoders.clip_g.transformer.text_model.encoder.layers.8.mlp.fc2.weight", [1280, 5120], .float32, [], false⟩,
  ⟨key% "text_encoders.clip_g.transformer.text_model.encoder.layers.8.self_attn.k_proj.bias", [1280], .float32, [], false⟩,
  ⟨key% "text_encoders.clip_g.transformer.text_model.encoder.layers.8.self_attn.k_proj.weight", [1280, 1280], .float32, [], false⟩,
  ⟨key% "text_encoders.clip_g.transformer.text_model.encoder.layers.8.self_attn.out_proj.bias", [1280], .float32, [], false⟩,
  ⟨key% "text_encoders.clip_g.transformer.text_model.encoder.layers.8.self_attn.out_proj.weight", [1280, 1280], .float32, [], false⟩,
  ⟨key% "text_encoders.clip_g.transformer.text_model.encoder.layers.8.self_attn.q_proj.bias", [1280], .float32, [], false⟩,
  ⟨key% "text_encoders.clip_g.transformer.text_model.encoder.layers.8.self_attn.q_proj.weight", [1280, 1280], .float32, [], false⟩,
  ⟨key% "text_encoders.clip_g.transformer.text_model.encoder.layers.8.self_attn.v_proj.bias", [1280], .float32, [], false⟩,
  ⟨key% "text_encoders.clip_g.transformer.text_model.encoder.layers.8.self_attn.v_proj.weight", [1280, 1280], .float32, [], false⟩,
  ⟨key% "text_encoders.clip_g.transformer.text_model.encoder.layers.9.layer_norm1.bias", [1280], .float32, [], false⟩]
noncomputable def clip_g5 : List Entry := [
  ⟨key% "text_encoders.clip_g.transformer.text_model.encoder.layers.9.layer_norm1.weight", [1280], .float32, [], false⟩,
  ⟨key% "text_encoders.clip_g.transformer.text_model.encoder.layers.9.layer_norm2.bias", [1280], .float32, [], false⟩,
  ⟨key% "text_encoders.clip_g.transformer.text_model.encoder.layers.9.layer_norm2.weight", [1280], .float32, [], false⟩,
  ⟨key% "text_encoders.clip_g.transformer.text_model.encoder.layers.9.mlp.fc1.bias", [5120], .float32, [], false⟩,
  ⟨key% "text_encoders.clip_g.transformer.text_model.encoder.layers.9.mlp.fc1.weight", [5120, 1280], .float32, [], false⟩,
  ⟨key% "text_encoders.clip_g.transformer.text_model.encoder.layers.9.mlp.fc2.bias", [1280], .float32, [], false⟩,
  ⟨key% "text_encoders.clip_g.transformer.text_model.encoder.layers.9.mlp.fc2.weight", [1280, 5120], .float32, [], false⟩,
  ⟨key% "text_encoders.clip_g.transformer.text_model.encoder.layers.9.self_attn.k_proj.bias", [1280], .float32, [], false⟩,
  ⟨key% "text_encoders.clip_g.transformer.text_model.encoder.layers.9.self_attn.k_proj.weight", [1280, 1280], .float32, [], false⟩,
  ⟨key% "text_encoders.clip_g.transformer.text_model.encoder.layers.9.self_attn.out_proj.bias", [1280], .float32, [], false⟩,
  ⟨key% "text_encoders.clip_g.transformer.text_model.encoder.layers.9.self_attn.out_proj.weight", [1280, 1280], .float32, [], false⟩,
  ⟨key% "text_encoders.clip_g.transformer.text_model.encoder.layers.9.self_attn.q_proj.bias", [1280], .float32, [], false⟩,
  ⟨key% "text_encoders.clip_g.transformer.text_model.encoder.layers.9.self_attn.q_proj.weight", [1280, 1280], .float32, [], false⟩,
  ⟨key% "text_encoders.clip_g.transformer.text_model.encoder.layers.9.self_attn.v_proj.bias", [1280], .float32, [], false⟩,
  ⟨key% "text_encoders.clip_g.transformer.text_model.encoder.layers.9.self_attn.v_proj.weight", [1280, 1280], .float32, [], false⟩,
  ⟨key% "text_encoders.clip_g.transformer.text_model.final_layer_norm.bias", [1280], .float32, [], false⟩,
  ⟨key% "text_encoders.clip_g.transformer.text_model.final_layer_norm.weight", [1280], .float32, [], false⟩,
  ⟨key% "text_encoders.clip_g.transformer.text_projection.weight", [1280, 1280], .float32, [], false⟩]
/-- Component `clip_g`: 518 keys -/
noncomputable def clip_g : List Entry := clip_g0 ++ clip_g1 ++ clip_g2 ++ clip_g3 ++ clip_g4 ++ clip_g5

noncomputable def clip_l0 : List Entry := [
  ⟨key% "text_encoders.clip_l.logit_scale", [], .float32, [], false⟩,
  ⟨key% "text_encoders.clip_l.transformer.text_model.embeddings.position_embedding.weight", [77, 768], .float32, [], false⟩,
  ⟨key% "text_encoders.clip_l.transformer.text_model.embeddings.token_embedding.weight", [49408, 768], .float32, [], false⟩,
  ⟨key% "text_encoders.clip_l.transformer.text_model.encoder.layers.0.layer_norm1.bias", [768], .float32, [], false⟩,
  ⟨key% "text_encoders.clip_l.transformer.text_model.encoder.layers.0.layer_norm1.weight", [768], .float32, [], false⟩,
  ⟨key% "text_encoders.clip_l.transformer.text_model.encoder.layers.0.layer_norm2.bias", [768], .float32, [], false⟩,
  ⟨key% "text_encoders.clip_l.transformer.text_model.encoder.layers.0.layer_norm2.weight", [768], .float32, [], false⟩,
  ⟨key% "text_encoders.clip_l.transformer.text_model.encoder.layers.0.mlp.fc1.bias", [3072], .float32, [], false⟩,
  ⟨key% "text_encoders.clip_l.transformer.text_model.encoder.layers.0.mlp.fc1.weight", [3072, 768], .float32, [], false⟩,
  ⟨key% "text_encoders.clip_l.transformer.text_model.encoder.layers.0.mlp.fc2.bias", [768], .float32, [], false⟩,
  ⟨key% "text_encoders.clip_l.transformer.text_model.encoder.layers.0.mlp.fc2.weight", [768, 3072], .float32, [], false⟩,
  ⟨key% "text_encoders.clip_l.transformer.text_model.encoder.layers.0.self_attn.k_proj.bias", [768], .float32, [], false⟩,
  ⟨key% "text_encoders.clip_l.transformer.text_model.encoder.layers.0.self_attn.k_proj.weight", [768, 768], .float32, [], false⟩,
  ⟨key% "text_encoders.clip_l.transformer.text_model.encoder.layers.0.self_attn.out_proj.bias", [768], .float32, [], false⟩,
  ⟨key% "text_encoders.clip_l.transformer.text_model.encoder.layers.0.self_attn.out_proj.weight", [768, 768], .float32, [], false⟩,
  ⟨key% "text_encoders.clip_l.transformer.text_model.encoder.layers.0.self_attn.q_proj.bias", [768], .float32, [], false⟩,
  ⟨key% "text_encoders.clip_l.transformer.text_model.encoder.layers.0.self_attn.q_proj.weight", [768, 768], .float32, [], false⟩,
  ⟨key% "text_encoders.clip_l.transformer.text_model.encoder.layers.0.self_attn.v_proj.bias", [768], .float32, [], false⟩,
  ⟨key% "text_encoders.clip_l.transformer.text_model.encoder.layers.0.self_attn.v_proj.weight", [768, 768], .float32, [], false⟩,
  ⟨key% "text_encoders.clip_l.transformer.text_model.encoder.layers.1.layer_norm1.bias", [768], .float32, [], false⟩,
  ⟨key% "text_encoders.clip_l.transformer.text_model.encoder.layers.1.layer_norm1.weight", [768], .float32, [], false⟩,
  ⟨key% "text_encoders.clip_l.transformer.text_model.encoder.layers.1.layer_norm2.bias", [768], .float32, [], false⟩,
  ⟨key% "text_encoders.clip_l.transformer.text_model.encoder.layers.1.layer_norm2.weight", [768], .float32, [], false⟩,
  ⟨key% "text_encoders.clip_l.transformer.text_model.encoder.layers.1.mlp.fc1.bias", [3072], .float32, [], false⟩,
  ⟨key% "text_encoders.clip_l.transformer.text_model.encoder.layers.1.mlp.fc1.weight", [3072, 768], .float32, [], false⟩,
  ⟨key% "text_encoders.clip_l.transformer.text_model.encoder.layers.1.mlp.fc2.bias", [768], .float32, [], false⟩,
  ⟨key% "text_encoders.clip_l.transformer.text_model.encoder.layers.1.mlp.fc2.weight", [768, 3072], .float32, [], false⟩,
  ⟨key% "text_encoders.clip_l.transformer.text_model.encoder.layers.1.self_attn.k_proj.bias", [768], .float32, [], false⟩,
  ⟨key% "text_encoders.clip_l.transformer.text_model.encoder.layers.1.self_attn.k_proj.weight", [768, 768], .float32, [], false⟩,
  ⟨key% "text_encoders.clip_l.transformer.text_model.encoder.layers.1.self_attn.out_proj.bias", [768], .float32, [], false⟩,
  ⟨key% "text_encoders.clip_l.transformer.text_model.encoder.layers.1.self_attn.out_proj.weight", [768, 768], .float32, [], false⟩,
  ⟨key% "text_encoders.clip_l.transformer.text_model.encoder.layers.1.self_attn.q_proj.bias", [768], .float32, [], false⟩,
  ⟨key% "text_encoders.clip_l.transformer.text_model.encoder.layers.1.self_attn.q_proj.weight", [768, 768], .float32, [], false⟩,
  ⟨key% "text_encoders.clip_l.transformer.text_model.encoder.layers.1.self_attn.v_proj.bias", [768], .float32, [], false⟩,
  ⟨key% "text_encoders.clip_l.transformer.text_model.encoder.layers.1.self_attn.v_proj.weight", [768, 768], .float32, [], false⟩,
  ⟨key% "text_encoders.clip_l.transformer.text_model.encoder.layers.10.layer_norm1.bias", [768], .float32, [], false⟩,
  ⟨key% "text_encoders.clip_l.transformer.text_model.encoder.layers.10.layer_norm1.weight", [768], .float32, [], false⟩,
  ⟨key% "text_encoders.clip_l.transformer.text_model.encoder.layers.10.layer_norm2.bias", [768], .float32, [], false⟩,
  ⟨key% "text_encoders.clip_l.transformer.text_model.encoder.layers.10.layer_norm2.weight", [768], .float32, [], false⟩,
  ⟨key% "text_encoders.clip_l.transformer.text_model.encoder.layers.10.mlp.fc1.bias", [3072], .float32, [], false⟩,
  ⟨key% "text_encoders.clip_l.transformer.text_model.encoder.layers.10.mlp.fc1.weight", [3072, 768], .float32, [], false⟩,
  ⟨key% "text_encoders.clip_l.transformer.text_model.encoder.layers.10.mlp.fc2.bias", [768], .float32, [], false⟩,
  ⟨key% "text_encoders.clip_l.transformer.text_model.encoder.layers.10.mlp.fc2.weight", [768, 3072], .float32, [], false⟩,
  ⟨key% "text_encoders.clip_l.transformer.text_model.encoder.layers.10.self_attn.k_proj.bias", [768], .float32, [], false⟩,
  ⟨key% "text_encoders.clip_l.transformer.text_model.encoder.layers.10.self_attn.k_proj.weight", [768, 768], .float32, [], false⟩,
  ⟨key% "text_encoders.clip_l.transformer.text_model.encoder.layers.10.self_attn.out_proj.bias", [768], .float32, [], false⟩,
  ⟨key% "text_encoders.clip_l.transformer.text_model.encoder.layers.10.self_attn.out_proj.weight", [768, 768], .float32, [], false⟩,
  ⟨key% "text_encoders.clip_l.transformer.text_model.encoder.layers.10.self_attn.q_proj.bias", [768], .float32, [], false⟩,
  ⟨key% "text_encoders.clip_l.transformer.text_model.encoder.layers.10.self_attn.q_proj.weight", [768, 768], .float32, [], false⟩,
  ⟨key% "text_encoders.clip_l.transformer.text_model.encoder.layers.10.self_attn.v_proj.bias", [768], .float32, [], false⟩,
  ⟨key% "text_encoders.clip_l.transformer.text_model.encoder.layers.10.self_attn.v_proj.weight", [768, 768], .float32, [], false⟩,
  ⟨key% "text_encoders.clip_l.transformer.text_model.encoder.layers.11.layer_norm1.bias", [768], .float32, [], false⟩,
  ⟨key% "text_encoders.clip_l.transformer.text_model.encoder.layers.11.layer_norm1.weight", [768], .float32, [], false⟩,
  ⟨key% "text_encoders.clip_l.transformer.text_model.encoder.layers.11.layer_norm2.bias", [768], .float32, [], false⟩,
  ⟨key% "text_encoders.clip_l.transformer.text_model.encoder.layers.11.layer_norm2.weight", [768], .float32, [], false⟩,
  ⟨key% "text_encoders.clip_l.transformer.text_model.encoder.layers.11.mlp.fc1.bias", [3072], .float32, [], false⟩,
  ⟨key% "text_encoders.clip_l.transformer.text_model.encoder.layers.11.mlp.fc1.weight", [3072, 768], .float32, [], false⟩,
  ⟨key% "text_encoders.clip_l.transformer.text_model.encoder.layers.11.mlp.fc2.bias", [768], .float32, [], false⟩,
  ⟨key% "text_encoders.clip_l.transformer.text_model.encoder.layers.11.mlp.fc2.weight", [768, 3072], .float32, [], false⟩,
  ⟨key% "text_encoders.clip_l.transformer.text_model.encoder.layers.11.self_attn.k_proj.bias", [768], .float32, [], false⟩,
  ⟨key% "text_encoders.clip_l.transformer.text_model.encoder.layers.11.self_attn.k_proj.weight", [768, 768], .float32, [], false⟩,
  ⟨key% "text_encoders.clip_l.transformer.text_model.encoder.layers.11.self_attn.out_proj.bias", [768], .float32, [], false⟩,
  ⟨key% "text_encoders.clip_l.transformer.text_model.encoder.layers.11.self_attn.out_proj.weight", [768, 768], .float32, [], false⟩,
  ⟨key% "text_encoders.clip_l.transformer.text_model.encoder.layers.11.self_attn.q_proj.bias", [768], .float32, [], false⟩,
  ⟨key% "text_encoders.clip_l.transformer.text_model.encoder.layers.11.self_attn.q_proj.weight", [768, 768], .float32, [], false⟩,
  ⟨key% "text_encoders.clip_l.transformer.text_model.encoder.layers.11.self_attn.v_proj.bias", [768], .float32, [], false⟩,
  ⟨key% "text_encoders.clip_l.transformer.text_model.encoder.layers.11.self_attn.v_proj.weight", [768, 768], .float32, [], false⟩,
  ⟨key% "text_encoders.clip_l.transformer.text_model.encoder.layers.2.layer_norm1.bias", [768], .float32, [], false⟩,
  ⟨key% "text_encoders.clip_l.transformer.text_model.encoder.layers.2.layer_norm1.weight", [768], .float32, [], false⟩,
  ⟨key% "text_encoders.clip_l.transformer.text_model.encoder.layers.2.layer_norm2.bias", [768], .float32, [], false⟩,
  ⟨key% "text_encoders.clip_l.transformer.text_model.encoder.layers.2.layer_norm2.weight", [768], .float32, [], false⟩,
  ⟨key% "text_encoders.clip_l.transformer.text_model.encoder.layers.2.mlp.fc1.bias", [3072], .float32, [], false⟩,
  ⟨key% "text_encoders.clip_l.transformer.text_model.encoder.layers.2.mlp.fc1.weight", [3072, 768], .float32, [], false⟩,
  ⟨key% "text_encoders.clip_l.transformer.text_model.encoder.layers.2.mlp.fc2.bias", [768], .float32, [], false⟩,
  ⟨key% "text_encoders.clip_l.transformer.text_model.encoder.layers.2.mlp.fc2.weight", [768, 3072], .float32, [], false⟩,
  ⟨key% "text_encoders.clip_l.transformer.text_model.encoder.layers.2.self_attn.k_proj.bias", [768], .float32, [], false⟩,
  ⟨key% "text_encoders.clip_l.transformer.text_model.encoder.layers.2.self_attn.k_proj.weight", [768, 768], .float32, [], false⟩,
  ⟨key% "text_encoders.clip_l.transformer.text_model.encoder.layers.2.self_attn.out_proj.bias", [768], .float32, [], false⟩,
  ⟨key% "text_encoders.clip_l.transformer.text_model.encoder.layers.2.self_attn.out_proj.weight", [768, 768], .float32, [], false⟩,
  ⟨key% "text_encoders.clip_l.transformer.text_model.encoder.layers.2.self_attn.q_proj.bias", [768], .float32, [], false⟩,
  ⟨key% "text_encoders.clip_l.transformer.text_model.encoder.layers.2.self_attn.q_proj.weight", [768, 768], .float32, [], false⟩,
  ⟨key% "text_encoders.clip_l.transformer.text_model.encoder.layers.2.self_attn.v_proj.bias", [768], .float32, [], false⟩,
  ⟨key% "text_encoders.clip_l.transformer.text_model.encoder.layers.2.self_attn.v_proj.weight", [768, 768], .float32, [], false⟩,
  ⟨key% "text_encoders.clip_l.transformer.text_model.encoder.layers.3.layer_norm1.bias", [768], .float32, [], false⟩,
  ⟨key% "text_encoders.clip_l.transformer.text_model.encoder.layers.3.layer_norm1.weight", [768], .float32, [], false⟩,
  ⟨key% "text_encoders.clip_l.transformer.text_model.encoder.layers.3.layer_norm2.bias", [768], .float32, [], false⟩,
  ⟨key% "text_encoders.clip_l.transformer.text_model.encoder.layers.3.layer_norm2.weight", [768], .float32, [], false⟩,
  ⟨key% "text_encoders.clip_l.transformer.text_model.encoder.layers.3.mlp.fc1.bias", [3072], .float32, [], false⟩,
  ⟨key% "text_encoders.clip_l.transformer.text_model.encoder.layers.3.mlp.fc1.weight", [3072, 768], .float32, [], false⟩,
  ⟨key% "text_encoders.clip_l.transformer.text_model.encoder.layers.3.mlp.fc2.bias", [768], .float32, [], false⟩,
  ⟨key% "text_encoders.clip_l.transformer.text_model.encoder.layers.3.mlp.fc2.weight", [768, 3072], .float32, [], false⟩,
  ⟨key% "text_encoders.clip_l.transformer.text_model.encoder.layers.3.self_attn.k_proj.bias", [768], .float32, [], false⟩,
  ⟨key% "text_encoders.clip_l.transformer.text_model.encoder.layers.3.self_attn.k_proj.weight", [768, 768], .float32, [], false⟩,
  ⟨key% "text_encoders.clip_l.transformer.text_model.encoder.layers.3.self_attn.out_proj.bias", [768], .float32, [], false⟩,
  ⟨key% "text_encoders.clip_l.transformer.text_model.encoder.layers.3.self_attn.out_proj.weight", [768, 768], .float32, [], false⟩,
  ⟨key% "text_encoders.clip_l.transformer.text_model.encoder.layers.3.self_attn.q_proj.bias", [768], .float32, [], false⟩,
  ⟨key% "text_encoders.clip_l.transformer.text_model.encoder.layers.3.self_attn.q_proj.weight", [768, 768], .float32, [], false⟩,
  ⟨key% "text_encoders.clip_l.transformer.text_model.encoder.layers.3.self_attn.v_proj.bias", [768], .float32, [], false⟩,
  ⟨key% "text_encoders.clip_l.transformer.text_model.encoder.layers.3.self_attn.v_proj.weight", [768, 768], .float32, [], false⟩,
  ⟨key% "text_encoders.clip_l.transformer.text_model.encoder.layers.4.layer_norm1.bias", [768], .float32, [], false⟩]
noncomputable def clip_l1 : List Entry := [
  ⟨key% "text_encoders.clip_l.transformer.text_model.encoder.layers.4.layer_norm1.weight", [768], .float32, [], false⟩,
  ⟨key% "text_encoders.clip_l.transformer.text_model.encoder.layers.4.layer_norm2.bias", [768], .float32, [], false⟩,
  ⟨key% "text_encoders.clip_l.transformer.text_model.encoder.layers.4.layer_norm2.weight", [768], .float32, [], false⟩,
  ⟨key% "text_encoders.clip_l.transformer.text_model.encoder.layers.4.mlp.fc1.bias", [3072], .float32, [], false⟩,
  ⟨key% "text_encoders.clip_l.transformer.text_model.encoder.layers.4.mlp.fc1.weight", [3072, 768], .float32, [], false⟩,
  ⟨key% "text_encoders.clip_l.transformer.text_model.encoder.layers.4.mlp.fc2.bias", [768], .float32, [], false⟩,
  ⟨key% "text_encoders.clip_l.transformer.text_model.encoder.layers.4.mlp.fc2.weight", [768, 3072], .float32, [], false⟩,
  ⟨key% "text_encoders.clip_l.transformer.text_model.encoder.layers.4.self_attn.k_proj.bias", [768], .float32, [], false⟩,
  ⟨key% "text_encoders.clip_l.transformer.text_model.encoder.layers.4.self_attn.k_proj.weight", [768, 768], .float32, [], false⟩,
  ⟨key% "text_encoders.clip_l.transformer.text_model.encoder.layers.4.self_attn.out_proj.bias", [768], .float32, [], false⟩,
  ⟨key% "text_encoders.clip_l.transformer.text_model.encoder.layers.4.self_attn.out_proj.weight", [768, 768], .float32, [], false⟩,
  ⟨key% "text_encoders.clip_l.transformer.text_model.encoder.layers.4.self_attn.q_proj.bias", [768], .float32, [], false⟩,
  ⟨key% "text_encoders.clip_l.transformer.text_model.encoder.layers.4.self_attn.q_proj.weight", [768, 768], .float32, [], false⟩,
  ⟨key% "text_encoders.clip_l.transformer.text_model.encoder.layers.4.self_attn.v_proj.bias", [768], .float32, [], false⟩,
  ⟨key% "text_encoders.clip_l.transformer.text_model.encoder.layers.4.self_attn.v_proj.weight", [768, 768], .float32, [], false⟩,
  ⟨key% "text_encoders.clip_l.transformer.text_model.encoder.layers.5.layer_norm1.bias", [768], .float32, [], false⟩,
  ⟨key% "text_encoders.clip_l.transformer.text_model.encoder.layers.5.layer_norm1.weight", [768], .float32, [], false⟩,
  ⟨key% "text_encoders.clip_l.transformer.text_model.encoder.layers.5.layer_norm2.bias", [768], .float32, [], false⟩,
  ⟨key% "text_encoders.clip_l.transformer.text_model.encoder.layers.5.layer_norm2.weight", [768], .float32, [], false⟩,
  ⟨key% "text_encoders.clip_l.transformer.text_model.encoder.layers.5.mlp.fc1.bias", [3072], .float32, [], false⟩,
  ⟨key% "text_encoders.clip_l.transformer.text_model.encoder.layers.5.mlp.fc1.weight", [3072, 768], .float32, [], false⟩,
  ⟨key% "text_encoders.clip_l.transformer.text_model.encoder.layers.5.mlp.fc2.bias", [768], .float32, [], false⟩,
  ⟨key% "text_encoders.clip_l.transformer.text_model.encoder.layers.5.mlp.fc2.weight", [768, 3072], .float32, [], false⟩,
  ⟨key% "text_encoders.clip_l.transformer.text_model.encoder.layers.5.self_attn.k_proj.bias", [768], .float32, [], false⟩,
  ⟨key% "text_encoders.clip_l.transformer.text_model.encoder.layers.5.self_attn.k_proj.weight", [768, 768], .float32, [], false⟩,
  ⟨key% "text_encoders.clip_l.transformer.text_model.encoder.layers.5.self_attn.out_proj.bias", [768], .float32, [], false⟩,
  ⟨key% "text_encoders.clip_l.transformer.text_model.encoder.layers.5.self_attn.out_proj.weight", [768, 768], .float32, [], false⟩,
  ⟨key% "text_encoders.clip_l.transformer.text_model.encoder.layers.5.self_attn.q_proj.bias", [768], .float32, [], false⟩,
  ⟨key% "text_encoders.clip_l.transformer.text_model.encoder.layers.5.self_attn.q_proj.weight", [768, 768], .float32, [], false⟩,
  ⟨key% "text_encoders.clip_l.transformer.text_model.encoder.layers.5.self_attn.v_proj.bias", [768], .float32, [], false⟩,
  ⟨key% "text_encoders.clip_l.transformer.text_model.encoder.layers.5.self_attn.v_proj.weight", [768, 768], .float32, [], false⟩,
  ⟨key% "text_encoders.clip_l.transformer.text_model.encoder.layers.6.layer_norm1.bias", [768], .float32, [], false⟩,
  ⟨key% "text_encoders.clip_l.transformer.text_model.encoder.layers.6.layer_norm1.weight", [768], .float32, [], false⟩,
  ⟨key% "text_encoders.clip_l.transformer.text_model.encoder.layers.6.layer_norm2.bias", [768], .float32, [], false⟩,
  ⟨key% "text_encoders.clip_l.transformer.text_model.encoder.layers.6.layer_norm2.weight", [768], .float32, [], false⟩,
  ⟨key% "text_encoders.clip_l.transformer.text_model.encoder.layers.6.mlp.fc1.bias", [3072], .float32, [], false⟩,
  ⟨key% "text_encoders.clip_l.transformer.text_model.encoder.layers.6.mlp.fc1.weight", [3072, 768], .float32, [], false⟩,
  ⟨key% "text_encoders.clip_l.transformer.text_model.encoder.layers.6.mlp.fc2.bias", [768], .float32, [], false⟩,
  ⟨key% "text_encoders.clip_l.transformer.text_model.encoder.layers.6.mlp.fc2.weight", [768, 3072], .float32, [], false⟩,
  ⟨key% "text_encoders.clip_l.transformer.text_model.encoder.layers.6.self_attn.k_proj.bias", [768], .float32, [], false⟩,
  ⟨key% "text_encoders.clip_l.transformer.text_model.encoder.layers.6.self_attn.k_proj.weight", [768, 768], .float32, [], false⟩,
  ⟨key% "text_encoders.clip_l.transformer.text_model.encoder.layers.6.self_attn.out_proj.bias", [768], .float32, [], false⟩,
  ⟨key% "text_encoders.clip_l.transformer.text_model.encoder.layers.6.self_attn.out_proj.weight", [768, 768], .float32, [], false⟩,
  ⟨key% "text_encoders.clip_l.transformer.text_model.encoder.layers.6.self_attn.q_proj.bias", [768], .float32, [], false⟩,
  ⟨key% "text_encoders.clip_l.transformer.text_model.encoder.layers.6.self_attn.q_proj.weight", [768, 768], .float32, [], false⟩,
  ⟨key% "text_encoders.clip_l.transformer.text_model.encoder.layers.6.self_attn.v_proj.bias", [768], .float32, [], false⟩,
  ⟨key% "text_encoders.clip_l.transformer.text_model.encoder.layers.6.self_attn.v_proj.weight", [768, 768], .float32, [], false⟩,
  ⟨key% "text_encoders.clip_l.transformer.text_model.encoder.layers.7.layer_norm1.bias", [768], .float32, [], false⟩,
  ⟨key% "text_encoders.clip_l.transformer.text_model.encoder.layers.7.layer_norm1.weight", [768], .float32, [], false⟩,
  ⟨key% "text_encoders.clip_l.transformer.text_model.encoder.layers.7.layer_norm2.bias", [768], .float32, [], false⟩,
  ⟨key% "text_encoders.clip_l.transformer.text_model.encoder.layers.7.layer_norm2.weight", [768], .float32, [], false⟩,
  ⟨key% "text_encoders.clip_l.transformer.text_model.encoder.layers.7.mlp.fc1.bias", [3072], .float32, [], false⟩,
  ⟨key% "text_encoders.clip_l.transformer.text_model.encoder.layers.7.mlp.fc1.weight", [3072, 768], .float32, [], false⟩,
  ⟨key% "text_encoders.clip_l.transformer.text_model.encoder.layers.7.mlp.fc2.bias", [768], .float32, [], false⟩,
  ⟨key% "text_encoders.clip_l.transformer.text_model.encoder.layers.7.mlp.fc2.weight", [768, 3072], .float32, [], false⟩,
  ⟨key% "text_encoders.clip_l.transformer.text_model.encoder.layers.7.self_attn.k_proj.bias", [768], .float32, [], false⟩,
  ⟨key% "text_encoders.clip_l.transformer.text_model.encoder.layers.7.self_attn.k_proj.weight", [768, 768], .float32, [], false⟩,
  ⟨key% "text_encoders.clip_l.transformer.text_model.encoder.layers.7.self_attn.out_proj.bias", [768], .float32, [], false⟩,
  ⟨key% "text_encoders.clip_l.transformer.text_model.encoder.layers.7.self_attn.out_proj.weight", [768, 768], .float32, [], false⟩,
  ⟨key% "text_encoders.clip_l.transformer.text_model.encoder.layers.7.self_attn.q_proj.bias", [768], .float32, [], false⟩,
  ⟨key% "text_encoders.clip_l.transformer.text_model.encoder.layers.7.self_attn.q_proj.weight", [768, 768], .float32, [], false⟩,
  ⟨key% "text_encoders.clip_l.transformer.text_model.encoder.layers.7.self_attn.v_proj.bias", [768], .float32, [], false⟩,
  ⟨key% "text_encoders.clip_l.transformer.text_model.encoder.layers.7.self_attn.v_proj.weight", [768, 768], .float32, [], false⟩,
  ⟨key% "text_encoders.clip_l.transformer.text_model.encoder.layers.8.layer_norm1.bias", [768], .float32, [], false⟩,
  ⟨key% "text_encoders.clip_l.transformer.text_model.encoder.layers.8.layer_norm1.weight", [768], .float32, [], false⟩,
  ⟨key% "text_encoders.clip_l.transformer.text_model.encoder.layers.8.layer_norm2.bias", [768], .float32, [], false⟩,
  ⟨key% "text_encoders.clip_l.transformer.text_model.encoder.layers.8.layer_norm2.weight", [768], .float32, [], false⟩,
  ⟨key% "text_encoders.clip_l.transformer.text_model.encoder.layers.8.mlp.fc1.bias", [3072], .float32, [], false⟩,
  ⟨key% "text_encoders.clip_l.transformer.text_model.encoder.layers.8.mlp.fc1.weight", [3072, 768], .float32, [], false⟩,
  ⟨key% "text_encoders.clip_l.transformer.text_model.encoder.layers.8.mlp.fc2.bias", [768], .float32, [], false⟩,
  ⟨key% "text_encoders.clip_l.transformer.text_model.encoder.layers.8.mlp.fc2.weight", [768, 3072], .float32, [], false⟩,
  ⟨key% "text_encoders.clip_l.transformer.text_model.encoder.layers.8.self_attn.k_proj.bias", [768], .float32, [], false⟩,
  ⟨key% "text_encoders.clip_l.transformer.text_model.encoder.layers.8.self_attn.k_proj.weight", [768, 768], .float32, [], false⟩,
  ⟨key% "text_encoders.clip_l.transformer.text_model.encoder.layers.8.self_attn.out_proj.bias", [768], .float32, [], false⟩,
  ⟨key% "text_encoders.clip_l.transformer.text_model.encoder.layers.8.self_attn.out_proj.weight", [768, 768], .float32, [], false⟩,
  ⟨key% "text_encoders.clip_l.transformer.text_model.encoder.layers.8.self_attn.q_proj.bias", [768], .float32, [], false⟩,
  ⟨key% "text_encoders.clip_l.transformer.text_model.encoder.layers.8.self_attn.q_proj.weight", [768, 768], .float32, [], false⟩,
  ⟨key% "text_encoders.clip_l.transformer.text_model.encoder.layers.8.self_attn.v_proj.bias", [768], .float32, [], false⟩,
  ⟨key% "text_encoders.clip_l.transformer.text_model.encoder.layers.8.self_attn.v_proj.weight", [768, 768], .float32, [], false⟩,
  ⟨key% "text_encoders.clip_l.transformer.text_model.encoder.layers.9.layer_norm1.bias", [768], .float32, [], false⟩,
  ⟨key% "text_encoders.clip_l.transformer.text_model.encoder.layers.9.layer_norm1.weight", [768], .float32, [], false⟩,
  ⟨key% "text_encoders.clip_l.transformer.text_model.encoder.layers.9.layer_norm2.bias", [768], .float32, [], false⟩,
  ⟨key% "text_encoders.clip_l.transformer.text_model.encoder.layers.9.layer_norm2.weight", [768], .float32, [], false⟩,
  ⟨key% "text_encoders.clip_l.transformer.text_model.encoder.layers.9.mlp.fc1.bias", [3072], .float32, [], false⟩,
  ⟨key% "text_encoders.clip_l.transformer.text_model.encoder.layers.9.mlp.fc1.weight", [3072, 768], .float32, [], false⟩,
  ⟨key% "text_encoders.clip_l.transformer.text_model.encoder.layers.9.mlp.fc2.bias", [768], .float32, [], false⟩,
  ⟨key% "text_encoders.clip_l.transformer.text_model.encoder.layers.9.mlp.fc2.weight", [768, 3072], .float32, [], false⟩,
  ⟨key% "text_encoders.clip_l.transformer.text_model.encoder.layers.9.self_attn.k_proj.bias", [768], .float32, [], false⟩,
  ⟨key% "text_encoders.clip_l.transformer.text_model.encoder.layers.9.self_attn.k_proj.weight", [768, 768], .float32, [], false⟩,
  ⟨key% "text_encoders.clip_l.transformer.text_model.encoder.layers.9.self_attn.out_proj.bias", [768], .float32, [], false⟩,
  ⟨key% "text_encoders.clip_l.transformer.text_model.encoder.layers.9.self_attn.out_proj.weight", [768, 768], .float32, [], false⟩,
  ⟨key% "text_encoders.clip_l.transformer.text_model.encoder.layers.9.self_attn.q_proj.bias", [768], .float32, [], false⟩,
  ⟨key% "text_encoders.clip_l.transformer.text_model.encoder.layers.9.self_attn.q_proj.weight", [768, 768], .float32, [], false⟩,
  ⟨key% "text_encoders.clip_l.transformer.text_model.encoder.layers.9.self_attn.v_proj.bias", [768], .float32, [], false⟩,
  ⟨key% "text_encoders.clip_l.transformer.text_model.encoder.layers.9.self_attn.v_proj.weight", [768, 768], .float32, [], false⟩,
  ⟨key% "text_encoders.clip_l.transformer.text_model.final_layer_norm.bias", [768], .float32, [], false⟩,
  ⟨key% "text_encoders.clip_l.transformer.text_model.final_layer_norm.weight", [768], .float32, [], false⟩,
  ⟨key% "text_encoders.clip_l.transformer.text_projection.weight", [768, 768], .float32, [], false⟩]
/-- Component `clip_l`: 198 keys -/
noncomputable def clip_l : List Entry := clip_l0 ++ clip_l1

noncomputable def t5xxl0 : List Entry := [
  ⟨key% "text_encoders.t5xxl.logit_scale", [], .float32, [], false⟩,
  ⟨key% "text_encoders.t5xxl.transformer.encoder.block.0.layer.0.SelfAttention.k.weight", [4096, 4096], .float32, [], false⟩,
  ⟨key% "text_encoders.t5xxl.transformer.encoder.block.0.layer.0.SelfAttention.o.weight", [4096, 4096], .float32, [], false⟩,
  ⟨key% "text_encoders.t5xxl.transformer.encoder.block.0.layer.0.SelfAttention.q.weight", [4096, 4096], .float32, [], false⟩,
  ⟨key% "text_encoders.t5xxl.transformer.encoder.block.0.layer.0.SelfAttention.relative_attention_bias.weight", [32, 64], .float32, [], false⟩,
  ⟨key% "text_encoders.t5xxl.transformer.encoder.block.0.layer.0.SelfAttention.v.weight", [4096, 4096], .float32, [], false⟩,
  ⟨key% "text_encoders.t5xxl.transformer.encoder.block.0.layer.0.layer_norm.weight", [4096], .float32, [], false⟩,
  ⟨key% "text_encoders.t5xxl.transformer.encoder.block.0.layer.1.DenseReluDense.wi_0.weight", [10240, 4096], .float32, [], false⟩,
  ⟨key% "text_encoders.t5xxl.transformer.encoder.block.0.layer.1.DenseReluDense.wi_1.weight", [10240, 4096], .float32, [], false⟩,
  ⟨key% "text_encoders.t5xxl.transformer.encoder.block.0.layer.1.DenseReluDense.wo.weight", [4096, 10240], .float32, [], false⟩,
  ⟨key% "text_encoders.t5xxl.transformer.encoder.block.0.layer.1.layer_norm.weight", [4096], .float32, [], false⟩,
  ⟨key% "text_encoders.t5xxl.transformer.encoder.block.1.layer.0.SelfAttention.k.weight", [4096, 4096], .float32, [], false⟩,
  ⟨key% "text_encoders.t5xxl.transformer.encoder.block.1.layer.0.SelfAttention.o.weight", [4096, 4096], .float32, [], false⟩,
  ⟨key% "text_encoders.t5xxl.transformer.encoder.block.1.layer.0.SelfAttention.q.weight", [4096, 4096], .float32, [], false⟩,
  ⟨key% "text_encoders.t5xxl.transformer.encoder.block.1.layer.0.SelfAttention.v.weight", [4096, 4096], .float32, [], false⟩,
  ⟨key% "text_encoders.t5xxl.transformer.encoder.block.1.layer.0.layer_norm.weight", [4096], .float32, [], false⟩,
  ⟨key% "text_encoders.t5xxl.transformer.encoder.block.1.layer.1.DenseReluDense.wi_0.weight", [10240, 4096], .float32, [], false⟩,
  ⟨key% "text_encoders.t5xxl.transformer.encoder.block.1.layer.1.DenseReluDense.wi_1.weight", [10240, 4096], .float32, [], false⟩,
  ⟨key% "text_encoders.t5xxl.transformer.encoder.block.1.layer.1.DenseReluDense.wo.weight", [4096, 10240], .float32, [], false⟩,
  ⟨key% "text_encoders.t5xxl.transformer.encoder.block.1.layer.1.layer_norm.weight", [4096], .float32, [], false⟩,
  ⟨key% "text_encoders.t5xxl.transformer.encoder.block.10.layer.0.SelfAttention.k.weight", [4096, 4096], .float32, [], false⟩,
  ⟨key% "text_encoders.t5xxl.transformer.encoder.block.10.layer.0.SelfAttention.o.weight", [4096, 4096], .float32, [], false⟩,
  ⟨key% "text_encoders.t5xxl.transformer.encoder.block.10.layer.0.SelfAttention.q.weight", [4096, 4096], .float32, [], false⟩,
  ⟨key% "text_encoders.t5xxl.transformer.encoder.block.10.layer.0.SelfAttention.v.weight", [4096, 4096], .float32, [], false⟩,
  ⟨key% "text_encoders.t5xxl.transformer.encoder.block.10.layer.0.layer_norm.weight", [4096], .float32, [], false⟩,
  ⟨key% "text_encoders.t5xxl.transformer.encoder.block.10.layer.1.DenseReluDense.wi_0.weight", [10240, 4096], .float32, [], false⟩,
  ⟨key% "text_encoders.t5xxl.transformer.encoder.block.10.layer.1.DenseReluDense.wi_1.weight", [10240, 4096], .float32, [], false⟩,
  ⟨key% "text_encoders.t5xxl.transformer.encoder.block.10.layer.1.DenseReluDense.wo.weight", [4096, 10240], .float32, [], false⟩,
  ⟨key% "text_encoders.t5xxl.transformer.encoder.block.10.layer.1.layer_norm.weight", [4096], .float32, [], false⟩,
  ⟨key% "text_encoders.t5xxl.transformer.encoder.block.11.layer.0.SelfAttention.k.weight", [4096, 4096], .float32, [], false⟩,
  ⟨key% "text_encoders.t5xxl.transformer.encoder.block.11.layer.0.SelfAttention.o.weight", [4096, 4096], .float32, [], false⟩,
  ⟨key% "text_encoders.t5xxl.transformer.encoder.block.11.layer.0.SelfAttention.q.weight", [4096, 4096], .float32, [], false⟩,
  ⟨key% "text_encoders.t5xxl.transformer.encoder.block.11.layer.0.SelfAttention.v.weight", [4096, 4096], .float32, [], false⟩,
  ⟨key% "text_encoders.t5xxl.transformer.encoder.block.11.layer.0.layer_norm.weight", [4096], .float32, [], false⟩,
  ⟨key% "text_encoders.t5xxl.transformer.encoder.block.11.layer.1.DenseReluDense.wi_0.weight", [10240, 4096], .float32, [], false⟩,
  ⟨key% "text_encoders.t5xxl.transformer.encoder.block.11.layer.1.DenseReluDense.wi_1.weight", [10240, 4096], .float32, [], false⟩,
  ⟨key% "text_encoders.t5xxl.transformer.encoder.block.11.layer.1.DenseReluDense.wo.weight", [4096, 10240], .float32, [], false⟩,
  ⟨key% "text_encoders.t5xxl.transformer.encoder.block.11.layer.1.layer_norm.weight", [4096], .float32, [], false⟩,
  ⟨key% "text_encoders.t5xxl.transformer.encoder.block.12.layer.0.SelfAttention.k.weight", [4096, 4096], .float32, [], false⟩,
  ⟨key% "text_encoders.t5xxl.transformer.encoder.block.12.layer.0.SelfAttention.o.weight", [4096, 4096], .float32, [], false⟩,
  ⟨key% "text_encoders.t5xxl.transformer.encoder.block.12.layer.0.SelfAttention.q.weight", [4096, 4096], .float32, [], false⟩,
  ⟨key% "text_encoders.t5xxl.transformer.encoder.block.12.layer.0.SelfAttention.v.weight", [4096, 4096], .float32, [], false⟩,
  ⟨key% "text_encoders.t5xxl.transformer.encoder.block.12.layer.0.layer_norm.weight", [4096], .float32, [], false⟩,
  ⟨key% "text_encoders.t5xxl.transformer.encoder.block.12.layer.1.DenseReluDense.wi_0.weight", [10240, 4096], .float32, [], false⟩,
  ⟨key% "text_encoders.t5xxl.transformer.encoder.block.12.layer.1.DenseReluDense.wi_1.weight", [10240, 4096], .float32, [], false⟩,
  ⟨key% "text_encoders.t5xxl.transformer.encoder.block.12.layer.1.DenseReluDense.wo.weight", [4096, 10240], .float32, [], false⟩,
  ⟨key% "text_encoders.t5xxl.transformer.encoder.block.12.layer.1.layer_norm.weight", [4096], .float32, [], false⟩,
  ⟨key% "text_encoders.t5xxl.transformer.encoder.block.13.layer.0.SelfAttention.k.weight", [4096, 4096], .float32, [], false⟩,
  ⟨key% "text_encoders.t5xxl.transformer.encoder.block.13.layer.0.SelfAttention.o.weight", [4096, 4096], .float32, [], false⟩,
  ⟨key% "text_encoders.t5xxl.transformer.encoder.block.13.layer.0.SelfAttention.q.weight", [4096, 4096], .float32, [], false⟩,
  ⟨key% "text_encoders.t5xxl.transformer.encoder.block.13.layer.0.SelfAttention.v.weight", [4096, 4096], .float32, [], false⟩,
  ⟨key% "text_encoders.t5xxl.transformer.encoder.block.13.layer.0.layer_norm.weight", [4096], .float32, [], false⟩,
  ⟨key% "text_encoders.t5xxl.transformer.encoder.block.13.layer.1.DenseReluDense.wi_0.weight", [10240, 4096], .float32, [], false⟩,
  ⟨key% "text_encoders.t5xxl.transformer.encoder.block.13.layer.1.DenseReluDense.wi_1.weight", [10240, 4096], .float32, [], false⟩,
  ⟨key% "text_encoders.t5xxl.transformer.encoder.block.13.layer.1.DenseReluDense.wo.weight", [4096, 10240], .float32, [], false⟩,
  ⟨key% "text_encoders.t5xxl.transformer.encoder.block.13.layer.1.layer_norm.weight", [4096], .float32, [], false⟩,
  ⟨key% "text_encoders.t5xxl.transformer.encoder.block.14.layer.0.SelfAttention.k.weight", [4096, 4096], .float32, [], false⟩,
  ⟨key% "text_encoders.t5xxl.transformer.encoder.block.14.layer.0.SelfAttention.o.weight", [4096, 4096], .float32, [], false⟩,
  ⟨key% "text_encoders.t5xxl.transformer.encoder.block.14.layer.0.SelfAttention.q.weight", [4096, 4096], .float32, [], false⟩,
  ⟨key% "text_encoders.t5xxl.transformer.encoder.block.14.layer.0.SelfAttention.v.weight", [4096, 4096], .float32, [], false⟩,
  ⟨key% "text_encoders.t5xxl.transformer.encoder.block.14.layer.0.layer_norm.weight", [4096], .float32, [], false⟩,
  ⟨key% "text_encoders.t5xxl.transformer.encoder.block.14.layer.1.DenseReluDense.wi_0.weight", [10240, 4096], .float32, [], false⟩,
  ⟨key% "text_encoders.t5xxl.transformer.encoder.block.14.layer.1.DenseReluDense.wi_1.weight", [10240, 4096], .float32, [], false⟩,
  ⟨key% "text_encoders.t5xxl.transformer.encoder.block.14.layer.1.DenseReluDense.wo.weight", [4096, 10240], .float32, [], false⟩,
  ⟨key% "text_encoders.t5xxl.transformer.encoder.block.14.layer.1.layer_norm.weight", [4096], .float32, [], false⟩,
  ⟨key% "text_encoders.t5xxl.transformer.encoder.block.15.layer.0.SelfAttention.k.weight", [4096, 4096], .float32, [], false⟩,
  ⟨key% "text_encoders.t5xxl.transformer.encoder.block.15.layer.0.SelfAttention.o.weight", [4096, 4096], .float32, [], false⟩,
  ⟨key% "text_encoders.t5xxl.transformer.encoder.block.15.layer.0.SelfAttention.q.weight", [4096, 4096], .float32, [], false⟩,
  ⟨key% "text_encoders.t5xxl.transformer.encoder.block.15.layer.0.SelfAttention.v.weight", [4096, 4096], .float32, [], false⟩,
  ⟨key% "text_encoders.t5xxl.transformer.encoder.block.15.layer.0.layer_norm.weight", [4096], .float32, [], false⟩,
  ⟨key% "text_encoders.t5xxl.transformer.encoder.block.15.layer.1.DenseReluDense.wi_0.weight", [10240, 4096], .float32, [], false⟩,
  ⟨key% "text_encoders.t5xxl.transformer.encoder.block.15.layer.1.DenseReluDense.wi_1.weight", [10240, 4096], .float32, [], false⟩,
  ⟨key% "text_encoders.t5xxl.transformer.encoder.block.15.layer.1.DenseReluDense.wo.weight", [4096, 10240], .float32, [], false⟩,
  ⟨key% "text_encoders.t5xxl.transformer.encoder.block.15.layer.1.layer_norm.weight", [4096], .float32, [], false⟩,
  ⟨key% "text_encoders.t5xxl.transformer.encoder.block.16.layer.0.SelfAttention.k.weight", [4096, 4096], .float32, [], false⟩,
  ⟨key% "text_encoders.t5xxl.transformer.encoder.block.16.layer.0.SelfAttention.o.weight", [4096, 4096], .float32, [], false⟩,
  ⟨key% "text_encoders.t5xxl.transformer.encoder.block.16.layer.0.SelfAttention.q.weight", [4096, 4096], .float32, [], false⟩,
  ⟨key% "text_encoders.t5xxl.transformer.encoder.block.16.layer.0.SelfAttention.v.weight", [4096, 4096], .float32, [], false⟩,
  ⟨key% "text_encoders.t5xxl.transformer.encoder.block.16.layer.0.layer_norm.weight", [4096], .float32, [], false⟩,
  ⟨key% "text_encoders.t5xxl.transformer.encoder.block.16.layer.1.DenseReluDense.wi_0.weight", [10240, 4096], .float32, [], false⟩,
  ⟨key% "text_encoders.t5xxl.transformer.encoder.block.16.layer.1.DenseReluDense.wi_1.weight", [10240, 4096], .float32, [], false⟩,
  ⟨key% "text_encoders.t5xxl.transformer.encoder.block.16.layer.1.DenseReluDense.wo.weight", [4096, 10240], .float32, [], false⟩,
  ⟨key% "text_encoders.t5xxl.transformer.encoder.block.16.layer.1.layer_norm.weight", [4096], .float32, [], false⟩,
  ⟨key% "text_encoders.t5xxl.transformer.encoder.block.17.layer.0.SelfAttention.k.weight", [4096, 4096], .float32, [], false⟩,
  ⟨key% "text_encoders.t5xxl.transformer.encoder.block.17.layer.0.SelfAttention.o.weight", [4096, 4096], .float32, [], false⟩,
  ⟨key% "text_encoders.t5xxl.transformer.encoder.block.17.layer.0.SelfAttention.q.weight", [4096, 4096], .float32, [], false⟩,
  ⟨key% "text_encoders.t5xxl.transformer.encoder.block.17.layer.0.SelfAttention.v.weight", [4096, 4096], .float32, [], false⟩,
  ⟨key% "text_encoders.t5xxl.transformer.encoder.block.17.layer.0.layer_norm.weight", [4096], .float32, [], false⟩,
  ⟨key% "text_encoders.t5xxl.transformer.encoder.block.17.layer.1.DenseReluDense.wi_0.weight", [10240, 4096], .float32, [], false⟩,
  ⟨key% "text_encoders.t5xxl.transformer.encoder.block.17.layer.1.DenseReluDense.wi_1.weight", [10240, 4096], .float32, [], false⟩,
  ⟨key% "text_encoders.t5xxl.transformer.encoder.block.17.layer.1.DenseReluDense.wo.weight", [4096, 10240], .float32, [], false⟩,
  ⟨key% "text_encoders.t5xxl.transformer.encoder.block.17.layer.1.layer_norm.weight", [4096], .float32, [], false⟩,
  ⟨key% "text_encoders.t5xxl.transformer.encoder.block.18.layer.0.SelfAttention.k.weight", [4096, 4096], .float32, [], false⟩,
  ⟨key% "text_encoders.t5xxl.transformer.encoder.block.18.layer.0.SelfAttention.o.weight", [4096, 4096], .float32, [], false⟩,
  ⟨key% "text_encoders.t5xxl.transformer.encoder.block.18.layer.0.SelfAttention.q.weight", [4096, 4096], .float32, [], false⟩,
  ⟨key% "text_encoders.t5xxl.transformer.encoder.block.18.layer.0.SelfAttention.v.weight", [4096, 4096], .float32, [], false⟩,
  ⟨key% "text_encoders.t5xxl.transformer.encoder.block.18.layer.0.layer_norm.weight", [4096], .float32, [], false⟩,
  ⟨key% "text_encoders.t5xxl.transformer.encoder.block.18.layer.1.DenseReluDense.wi_0.weight", [10240, 4096], .float32, [], false⟩,
  ⟨key% "text_encoders.t5xxl.transformer.encoder.block.18.layer.1.DenseReluDense.wi_1.weight", [10240, 4096], .float32, [], false⟩,
  ⟨key% "text_encoders.t5xxl.transformer.encoder.block.18.layer.1.DenseReluDense.wo.weight", [4096, 10240], .float32, [], false⟩]
noncomputable def t5xxl1 : List Entry := [
  ⟨key% "text_encoders.t5xxl.transformer.encoder.block.18.layer.1.layer_norm.weight", [4096], .float32, [], false⟩,
  ⟨key% "text_encoders.t5xxl.transformer.encoder.block.19.layer.0.SelfAttention.k.weight", [4096, 4096], .float32, [], false⟩,
  ⟨key% "text_encoders.t5xxl.transformer.encoder.block.19.layer.0.SelfAttention.o.weight", [4096, 4096], .float32, [], false⟩,
  ⟨key% "text_encoders.t5xxl.transformer.encoder.block.19.layer.0.SelfAttention.q.weight", [4096, 4096], .float32, [], false⟩,
  ⟨key% "text_encoders.t5xxl.transformer.encoder.block.19.layer.0.SelfAttention.v.weight", [4096, 4096], .float32, [], false⟩,
  ⟨key% "text_encoders.t5xxl.transformer.encoder.block.19.layer.0.layer_norm.weight", [4096], .float32, [], false⟩,
  ⟨key% "text_encoders.t5xxl.transformer.encoder.block.19.layer.1.DenseReluDense.wi_0.weight", [10240, 4096], .float32, [], false⟩,
  ⟨key% "text_encoders.t5xxl.transformer.encoder.block.19.layer.1.DenseReluDense.wi_1.weight", [10240, 4096], .float32, [], false⟩,
  ⟨key% "text_encoders.t5xxl.transformer.encoder.block.19.layer.1.DenseReluDense.wo.weight", [4096, 10240], .float32, [], false⟩,
  ⟨key% "text_encoders.t5xxl.transformer.encoder.block.19.layer.1.layer_norm.weight", [4096], .float32, [], false⟩,
  ⟨key% "text_encoders.t5xxl.transformer.encoder.block.2.layer.0.SelfAttention.k.weight", [4096, 4096], .float32, [], false⟩,
  ⟨key% "text_encoders.t5xxl.transformer.encoder.block.2.layer.0.SelfAttention.o.weight", [4096, 4096], .float32, [], false⟩,
  ⟨key% "text_encoders.t5xxl.transformer.encoder.block.2.layer.0.SelfAttention.q.weight", [4096, 4096], .float32, [], false⟩,
  ⟨key% "text_encoders.t5xxl.transformer.encoder.block.2.layer.0.SelfAttention.v.weight", [4096, 4096], .float32, [], false⟩,
  ⟨key% "text_encoders.t5xxl.transformer.encoder.block.2.layer.0.layer_norm.weight", [4096], .float32, [], false⟩,
  ⟨key% "text_encoders.t5xxl.transformer.encoder.block.2.layer.1.DenseReluDense.wi_0.weight", [10240, 4096], .float32, [], false⟩,
  ⟨key% "text_encoders.t5xxl.transformer.encoder.block.2.layer.1.DenseReluDense.wi_1.weight", [10240, 4096], .float32, [], false⟩,
  ⟨key% "text_encoders.t5xxl.transformer.encoder.block.2.layer.1.DenseReluDense.wo.weight", [4096, 10240], .float32, [], false⟩,
  ⟨key% "text_encoders.t5xxl.transformer.encoder.block.2.layer.1.layer_norm.weight", [4096], .float32, [], false⟩,
  ⟨key% "text_encoders.t5xxl.transformer.encoder.block.20.layer.0.SelfAttention.k.weight", [4096, 4096], .float32, [], false⟩,
  ⟨key% "text_encoders.t5xxl.transformer.encoder.block.20.layer.0.SelfAttention.o.weight", [4096, 4096], .float32, [], false⟩,
  ⟨key% "text_encoders.t5xxl.transformer.encoder.block.20.layer.0.SelfAttention.q.weight", [4096, 4096], .float32, [], false⟩,
  ⟨key% "text_encoders.t5xxl.transformer.encoder.block.20.layer.0.SelfAttention.v.weight", [4096, 4096], .float32, [], false⟩,
  ⟨key% "text_encoders.t5xxl.transformer.encoder.block.20.layer.0.layer_norm.weight", [4096], .float32, [], false⟩,
  ⟨key% "text_encoders.t5xxl.transformer.encoder.block.20.layer.1.DenseReluDense.wi_0.weight", [10240, 4096], .float32, [], false⟩,
  ⟨key% "text_encoders.t5xxl.transformer.encoder.block.20.layer.1.DenseReluDense.wi_1.weight", [10240, 4096], .float32, [], false⟩,
  ⟨key% "text_encoders.t5xxl.transformer.encoder.block.20.layer.1.DenseReluDense.wo.weight", [4096, 10240], .float32, [], false⟩,
  ⟨key% "text_encoders.t5xxl.transformer.encoder.block.20.layer.1.layer_norm.weight", [4096], .float32, [], false⟩,
  ⟨key% "text_encoders.t5xxl.transformer.encoder.block.21.layer.0.SelfAttention.k.weight", [4096, 4096], .float32, [], false⟩,
  ⟨key% "text_encoders.t5xxl.transformer.encoder.block.21.layer.0.SelfAttention.o.weight", [4096, 4096], .float32, [], false⟩,
  ⟨key% "text_encoders.t5xxl.transformer.encoder.block.21.layer.0.SelfAttention.q.weight", [4096, 4096], .float32, [], false⟩,
  ⟨key% "text_encoders.t5xxl.transformer.encoder.block.21.layer.0.SelfAttention.v.weight", [4096, 4096], .float32, [], false⟩,
  ⟨key% "text_encoders.t5xxl.transformer.encoder.block.21.layer.0.layer_norm.weight", [4096], .float32, [], false⟩,
  ⟨key% "text_encoders.t5xxl.transformer.encoder.block.21.layer.1.DenseReluDense.wi_0.weight", [10240, 4096], .float32, [], false⟩,
  ⟨key% "text_encoders.t5xxl.transformer.encoder.block.21.layer.1.DenseReluDense.wi_1.weight", [10240, 4096], .float32, [], false⟩,
  ⟨key% "text_encoders.t5xxl.transformer.encoder.block.21.layer.1.DenseReluDense.wo.weight", [4096, 10240], .float32, [], false⟩,
  ⟨key% "text_encoders.t5xxl.transformer.encoder.block.21.layer.1.layer_norm.weight", [4096], .float32, [], false⟩,
  ⟨key% "text_encoders.t5xxl.transformer.encoder.block.22.layer.0.SelfAttention.k.weight", [4096, 4096], .float32, [], false⟩,
  ⟨key% "text_encoders.t5xxl.transformer.encoder.block.22.layer.0.SelfAttention.o.weight", [4096, 4096], .float32, [], false⟩,
  ⟨key% "text_encoders.t5xxl.transformer.encoder.block.22.layer.0.SelfAttention.q.weight", [4096, 4096], .float32, [], false⟩,
  ⟨key% "text_encoders.t5xxl.transformer.encoder.block.22.layer.0.SelfAttention.v.weight", [4096, 4096], .float32, [], false⟩,
  ⟨key% "text_encoders.t5xxl.transformer.encoder.block.22.layer.0.layer_norm.weight", [4096], .float32, [], false⟩,
  ⟨key% "text_encoders.t5xxl.transformer.encoder.block.22.layer.1.DenseReluDense.wi_0.weight", [10240, 4096], .float32, [], false⟩,
  ⟨key% "text_encoders.t5xxl.transformer.encoder.block.22.layer.1.DenseReluDense.wi_1.weight", [10240, 4096], .float32, [], false⟩,
  ⟨key% "text_encoders.t5xxl.transformer.encoder.block.22.layer.1.DenseReluDense.wo.weight", [4096, 10240], .float32, [], false⟩,
  ⟨key% "text_encoders.t5xxl.transformer.encoder.block.22.layer.1.layer_norm.weight", [4096], .float32, [], false⟩,
  ⟨key% "text_encoders.t5xxl.transformer.encoder.block.23.layer.0.SelfAttention.k.weight", [4096, 4096], .float32, [], false⟩,
  ⟨key% "text_encoders.t5xxl.transformer.encoder.block.23.layer.0.SelfAttention.o.weight", [4096, 4096], .float32, [], false⟩,
  ⟨key% "text_encoders.t5xxl.transformer.encoder.block.23.layer.0.SelfAttention.q.weight", [4096, 4096], .float32, [], false⟩,
  ⟨key% "text_encoders.t5xxl.transformer.encoder.block.23.layer.0.SelfAttention.v.weight", [4096, 4096], .float32, [], false⟩,
  ⟨key% "text_encoders.t5xxl.transformer.encoder.block.23.layer.0.layer_norm.weight", [4096], .float32, [], false⟩,
  ⟨key% "text_encoders.t5xxl.transformer.encoder.block.23.layer.1.DenseReluDense.wi_0.weight", [10240, 4096], .float32, [], false⟩,
  ⟨key% "text_encoders.t5xxl.transformer.encoder.block.23.layer.1.DenseReluDense.wi_1.weight", [10240, 4096], .float32, [], false⟩,
  ⟨key% "text_encoders.t5xxl.transformer.encoder.block.23.layer.1.DenseReluDense.wo.weight", [4096, 10240], .float32, [], false⟩,
  ⟨key% "text_encoders.t5xxl.transformer.encoder.block.23.layer.1.layer_norm.weight", [4096], .float32, [], false⟩,
  ⟨key% "text_encoders.t5xxl.transformer.encoder.block.3.layer.0.SelfAttention.k.weight", [4096, 4096], .float32, [], false⟩,
  ⟨key% "text_encoders.t5xxl.transformer.encoder.block.3.layer.0.SelfAttention.o.weight", [4096, 4096], .float32, [], false⟩,
  ⟨key% "text_encoders.t5xxl.transformer.encoder.block.3.layer.0.SelfAttention.q.weight", [4096, 4096], .float32, [], false⟩,
  ⟨key% "text_encoders.t5xxl.transformer.encoder.block.3.layer.0.SelfAttention.v.weight", [4096, 4096], .float32, [], false⟩,
  ⟨key% "text_encoders.t5xxl.transformer.encoder.block.3.layer.0.layer_norm.weight", [4096], .float32, [], false⟩,
  ⟨key% "text_encoders.t5xxl.transformer.encoder.block.3.layer.1.DenseReluDense.wi_0.weight", [10240, 4096], .float32, [], false⟩,
  ⟨key% "text_encoders.t5xxl.transformer.encoder.block.3.layer.1.DenseReluDense.wi_1.weight", [10240, 4096], .float32, [], false⟩,
  ⟨key% "text_encoders.t5xxl.transformer.encoder.block.3.layer.1.DenseReluDense.wo.weight", [4096, 10240], .float32, [], false⟩,
  ⟨key% "text_encoders.t5xxl.transformer.encoder.block.3.layer.1.layer_norm.weight", [4096], .float32, [], false⟩,
  ⟨key% "text_encoders.t5xxl.transformer.encoder.block.4.layer.0.SelfAttention.k.weight", [4096, 4096], .float32, [], false⟩,
  ⟨key% "text_encoders.t5xxl.transformer.encoder.block.4.layer.0.SelfAttention.o.weight", [4096, 4096], .float32, [], false⟩,
  ⟨key% "text_encoders.t5xxl.transformer.encoder.block.4.layer.0.SelfAttention.q.weight", [4096, 4096], .float32, [], false⟩,
  ⟨key% "text_encoders.t5xxl.transformer.encoder.block.4.layer.0.SelfAttention.v.weight", [4096, 4096], .float32, [], false⟩,
  ⟨key% "text_encoders.t5xxl.transformer.encoder.block.4.layer.0.layer_norm.weight", [4096], .float32, [], false⟩,
  ⟨key% "text_encoders.t5xxl.transformer.encoder.block.4.layer.1.DenseReluDense.wi_0.weight", [10240, 4096], .float32, [], false⟩,
  ⟨key% "text_encoders.t5xxl.transformer.encoder.block.4.layer.1.DenseReluDense.wi_1.weight", [10240, 4096], .float32, [], false⟩,
  ⟨key% "text_encoders.t5xxl.transformer.encoder.block.4.layer.1.DenseReluDense.wo.weight", [4096, 10240], .float32, [], false⟩,
  ⟨key% "text_encoders.t5xxl.transformer.encoder.block.4.layer.1.layer_norm.weight", [4096], .float32, [], false⟩,
  ⟨key% "text_encoders.t5xxl.transformer.encoder.block.5.layer.0.SelfAttention.k.weight", [4096, 4096], .float32, [], false⟩,
  ⟨key% "text_encoders.t5xxl.transformer.encoder.block.5.layer.0.SelfAttention.o.weight", [4096, 4096], .float32, [], false⟩,
  ⟨key% "text_encoders.t5xxl.transformer.encoder.block.5.layer.0.SelfAttention.q.weight", [4096, 4096], .float32, [], false⟩,
  ⟨key% "text_encoders.t5xxl.transformer.encoder.block.5.layer.0.SelfAttention.v.weight", [4096, 4096], .float32, [], false⟩,
  ⟨key% "text_encoders.t5xxl.transformer.encoder.block.5.layer.0.layer_norm.weight", [4096], .float32, [], false⟩,
  ⟨key% "text_encoders.t5xxl.transformer.encoder.block.5.layer.1.DenseReluDense.wi_0.weight", [10240, 4096], .float32, [], false⟩,
  ⟨key% "text_encoders.t5xxl.transformer.encoder.block.5.layer.1.DenseReluDense.wi_1.weight", [10240, 4096], .float32, [], false⟩,
  ⟨key% "text_encoders.t5xxl.transformer.encoder.block.5.layer.1.DenseReluDense.wo.weight", [4096, 10240], .float32, [], false⟩,
  ⟨key% "text_encoders.t5xxl.transformer.encoder.block.5.layer.1.layer_norm.weight", [4096], .float32, [], false⟩,
  ⟨key% "text_encoders.t5xxl.transformer.encoder.block.6.layer.0.SelfAttention.k.weight", [4096, 4096], .float32, [], false⟩,
  ⟨key% "text_encoders.t5xxl.transformer.encoder.block.6.layer.0.SelfAttention.o.weight", [4096, 4096], .float32, [], false⟩,
  ⟨key% "text_encoders.t5xxl.transformer.encoder.block.6.layer.0.SelfAttention.q.weight", [4096, 4096], .float32, [], false⟩,
  ⟨key% "text_encoders.t5xxl.transformer.encoder.block.6.layer.0.SelfAttention.v.weight", [4096, 4096], .float32, [], false⟩,
  ⟨key% "text_encoders.t5xxl.transformer.encoder.block.6.layer.0.layer_norm.weight", [4096], .float32, [], false⟩,
  ⟨key% "text_encoders.t5xxl.transformer.encoder.block.6.layer.1.DenseReluDense.wi_0.weight", [10240, 4096], .float32, [], false⟩,
  ⟨key% "text_encoders.t5xxl.transformer.encoder.block.6.layer.1.DenseReluDense.wi_1.weight", [10240, 4096], .float32, [], false⟩,
  ⟨key% "text_encoders.t5xxl.transformer.encoder.block.6.layer.1.DenseReluDense.wo.weight", [4096, 10240], .float32, [], false⟩,
  ⟨key% "text_encoders.t5xxl.transformer.encoder.block.6.layer.1.layer_norm.weight", [4096], .float32, [], false⟩,
  ⟨key% "text_encoders.t5xxl.transformer.encoder.block.7.layer.0.SelfAttention.k.weight", [4096, 4096], .float32, [], false⟩,
  ⟨key% "text_encoders.t5xxl.transformer.encoder.block.7.layer.0.SelfAttention.o.weight", [4096, 4096], .float32, [], false⟩,
  ⟨key% "text_encoders.t5xxl.transformer.encoder.block.7.layer.0.SelfAttention.q.weight", [4096, 4096], .float32, [], false⟩,
  ⟨key% "text_encoders.t5xxl.transformer.encoder.block.7.layer.0.SelfAttention.v.weight", [4096, 4096], .float32, [], false⟩,
  ⟨key% "text_encoders.t5xxl.transformer.encoder.block.7.layer.0.layer_norm.weight", [4096], .float32, [], false⟩,
  ⟨key% "text_encoders.t5xxl.transformer.encoder.block.7.layer.1.DenseReluDense.wi_0.weight", [10240, 4096], .float32, [], false⟩,
  ⟨key% "text_encoders.t5xxl.transformer.encoder.block.7.layer.1.DenseReluDense.wi_1.weight", [10240, 4096], .float32, [], false⟩,
  ⟨key% "text_encoders.t5xxl.transformer.encoder.block.7.layer.1.DenseReluDense.wo.weight", [4096, 10240], .float32, [], false⟩,
  ⟨key% "text_encoders.t5xxl.transformer.encoder.block.7.layer.1.layer_norm.weight", [4096], .float32, [], false⟩]
noncomputable def t5xxl2 : List Entry := [
  ⟨key% "text_encoders.t5xxl.transformer.encoder.block.8.layer.0.SelfAttention.k.weight", [4096, 4096], .float32, [], false⟩,
  ⟨key% "text_encoders.t5xxl.transformer.encoder.block.8.layer.0.SelfAttention.o.weight", [4096, 4096], .float32, [], false⟩,
  ⟨key% "text_encoders.t5xxl.transformer.encoder.block.8.layer.0.SelfAttention.q.weight", [4096, 4096], .float32, [], false⟩,
  ⟨key% "text_encoders.t5xxl.transformer.encoder.block.8.layer.0.SelfAttention.v.weight", [4096, 4096], .float32, [], false⟩,
  ⟨key% "text_encoders.t5xxl.transformer.encoder.block.8.layer.0.layer_norm.weight", [4096], .float32, [], false⟩,
  ⟨key% "text_encoders.t5xxl.transformer.encoder.block.8.layer.1.DenseReluDense.wi_0.weight", [10240, 4096], .float32, [], false⟩,
  ⟨key% "text_encoders.t5xxl.transformer.encoder.block.8.layer.1.DenseReluDense.wi_1.weight", [10240, 4096], .float32, [], false⟩,
  ⟨key% "text_encoders.t5xxl.transformer.encoder.block.8.layer.1.DenseReluDense.wo.weight", [4096, 10240], .float32, [], false⟩,
  ⟨key% "text_encoders.t5xxl.transformer.encoder.block.8.layer.1.layer_norm.weight", [4096], .float32, [], false⟩,
  ⟨key% "text_encoders.t5xxl.transformer.encoder.block.9.layer.0.SelfAttention.k.weight", [4096, 4096], .float32, [], false⟩,
  ⟨key% "text_encoders.t5xxl.transformer.encoder.block.9.layer.0.SelfAttention.o.weight", [4096, 4096], .float32, [], false⟩,
  ⟨key% "text_encoders.t5xxl.transformer.encoder.block.9.layer.0.SelfAttention.q.weight", [4096, 4096], .float32, [], false⟩,
  ⟨key% "text_encoders.t5xxl.transformer.encoder.block.9.layer.0.SelfAttention.v.weight", [4096, 4096], .float32, [], false⟩,
  ⟨key% "text_encoders.t5xxl.transformer.encoder.block.9.layer.0.layer_norm.weight", [4096], .float32, [], false⟩,
  ⟨key% "text_encoders.t5xxl.transformer.encoder.block.9.layer.1.DenseReluDense.wi_0.weight", [10240, 4096], .float32, [], false⟩,
  ⟨key% "text_encoders.t5xxl.transformer.encoder.block.9.layer.1.DenseReluDense.wi_1.weight", [10240, 4096], .float32, [], false⟩,
  ⟨key% "text_encoders.t5xxl.transformer.encoder.block.9.layer.1.DenseReluDense.wo.weight", [4096, 10240], .float32, [], false⟩,
  ⟨key% "text_encoders.t5xxl.transformer.encoder.block.9.layer.1.layer_norm.weight", [4096], .float32, [], false⟩,
  ⟨key% "text_encoders.t5xxl.transformer.encoder.final_layer_norm.weight", [4096], .float32, [], false⟩,
  ⟨key% "text_encoders.t5xxl.transformer.shared.weight", [32128, 4096], .float32, [], false⟩]
/-- Component `t5xxl`: 220 keys -/
noncomputable def t5xxl : List Entry := t5xxl0 ++ t5xxl1 ++ t5xxl2

/-- The config as written in the file: its identifier and its components -/
noncomputable def table : Table := ⟨key% "sd3-comfyui", [(key% "vae", vae), (key% "diffuser", diffuser), (key% "clip_g", clip_g), (key% "clip_l", clip_l), (key% "t5xxl", t5xxl)]⟩

end Verif.Data.Sd3Comfyui
