import Verif.Data.Entry

/-!
# Keys of `sdxl-kohya.yaml`

Generated by tools/gen_tables.py from sd_mecha/extensions/builtin/model_configs/sdxl-kohya.yaml.
-/
namespace Verif.Data.SdxlKohya


noncomputable def vae0 : List Entry := [
  ⟨key% "first_stage_model.decoder.conv_in.bias", [512], .float32, [], false⟩,
  ⟨key% "first_stage_model.decoder.conv_in.weight", [512, 4, 3, 3], .float32, [], false⟩,
  ⟨key% "first_stage_model.decoder.conv_out.bias", [3], .float32, [], false⟩,
  ⟨key% "first_stage_model.decoder.conv_out.weight", [3, 128, 3, 3], .float32, [], false⟩,
  ⟨key% "first_stage_model.decoder.mid.attn_1.k.bias", [512], .float32, [], false⟩,
  ⟨key% "first_stage_model.decoder.mid.attn_1.k.weight", [512, 512, 1, 1], .float32, [], false⟩,
  ⟨key% "first_stage_model.decoder.mid.attn_1.norm.bias", [512], .float32, [], false⟩,
  ⟨key% "first_stage_model.decoder.mid.attn_1.norm.weight", [512], .float32, [], false⟩,
  ⟨key% "first_stage_model.decoder.mid.attn_1.proj_out.bias", [512], .float32, [], false⟩,
  ⟨key% "first_stage_model.decoder.mid.attn_1.proj_out.weight", [512, 512, 1, 1], .float32, [], false⟩,
  ⟨key% "first_stage_model.decoder.mid.attn_1.q.bias", [512], .float32, [], false⟩,
  ⟨key% "first_stage_model.decoder.mid.attn_1.q.weight", [512, 512, 1, 1], .float32, [], false⟩,
  ⟨key% "first_stage_model.decoder.mid.attn_1.v.bias", [512], .float32, [], false⟩,
  ⟨key% "first_stage_model.decoder.mid.attn_1.v.weight", [512, 512, 1, 1], .float32, [], false⟩,
  ⟨key% "first_stage_model.decoder.mid.block_1.conv1.bias", [512], .float32, [], false⟩,
  ⟨key% "first_stage_model.decoder.mid.block_1.conv1.weight", [512, 512, 3, 3], .float32, [], false⟩,
  ⟨key% "first_stage_model.decoder.mid.block_1.conv2.bias", [512], .float32, [], false⟩,
  ⟨key% "first_stage_model.decoder.mid.block_1.conv2.weight", [512, 512, 3, 3], .float32, [], false⟩,
  ⟨key% "first_stage_model.decoder.mid.block_1.norm1.bias", [512], .float32, [], false⟩,
  ⟨key% "first_stage_model.decoder.mid.block_1.norm1.weight", [512], .float32, [], false⟩,
  ⟨key% "first_stage_model.decoder.mid.block_1.norm2.bias", [512], .float32, [], false⟩,
  ⟨key% "first_stage_model.decoder.mid.block_1.norm2.weight", [512], .float32, [], false⟩,
  ⟨key% "first_stage_model.decoder.mid.block_2.conv1.bias", [512], .float32, [], false⟩,
  ⟨key% "first_stage_model.decoder.mid.block_2.conv1.weight", [512, 512, 3, 3], .float32, [], false⟩,
  ⟨key% "first_stage_model.decoder.mid.block_2.conv2.bias", [512], .float32, [], false⟩,
  ⟨key% "first_stage_model.decoder.mid.block_2.conv2.weight", [512, 512, 3, 3], .float32, [], false⟩,
  ⟨key% "first_stage_model.decoder.mid.block_2.norm1.bias", [512], .float32, [], false⟩,
  ⟨key% "first_stage_model.decoder.mid.block_2.norm1.weight", [512], .float32, [], false⟩,
  ⟨key% "first_stage_model.decoder.mid.block_2.norm2.bias", [512], .float32, [], false⟩,
  ⟨key% "first_stage_model.decoder.mid.block_2.norm2.weight", [512], .float32, [], false⟩,
  ⟨key% "first_stage_model.decoder.norm_out.bias", [128], .float32, [], false⟩,
  ⟨key% "first_stage_model.decoder.norm_out.weight", [128], .float32, [], false⟩,
  ⟨key% "first_stage_model.decoder.up.0.block.0.conv1.bias", [128], .float32, [], false⟩,
  ⟨key% "first_stage_model.decoder.up.0.block.0.conv1.weight", [128, 256, 3, 3], .float32, [], false⟩,
  ⟨key% "first_stage_model.decoder.up.0.block.0.conv2.bias", [128], .float32, [], false⟩,
  ⟨key% "first_stage_model.decoder.up.0.block.0.conv2.weight", [128, 128, 3, 3], .float32, [], false⟩,
  ⟨key% "first_stage_model.decoder.up.0.block.0.nin_shortcut.bias", [128], .float32, [], false⟩,
  ⟨key% "first_stage_model.decoder.up.0.block.0.nin_shortcut.weight", [128, 256, 1, 1], .float32, [], false⟩,
  ⟨key% "first_stage_model.decoder.up.0.block.0.norm1.bias", [256], .float32, [], false⟩,
  ⟨key% "first_stage_model.decoder.up.0.block.0.norm1.weight", [256], .float32, [], false⟩,
  ⟨key% "first_stage_model.decoder.up.0.block.0.norm2.bias", [128], .float32, [], false⟩,
  ⟨key% "first_stage_model.decoder.up.0.block.0.norm2.weight", [128], .float32, [], false⟩,
  ⟨key% "first_stage_model.decoder.up.0.block.1.conv1.bias", [128], .float32, [], false⟩,
  ⟨key% "first_stage_model.decoder.up.0.block.1.conv1.weight", [128, 128, 3, 3], .float32, [], false⟩,
  ⟨key% "first_stage_model.decoder.up.0.block.1.conv2.bias", [128], .float32, [], false⟩,
  ⟨key% "first_stage_model.decoder.up.0.block.1.conv2.weight", [128, 128, 3, 3], .float32, [], false⟩,
  ⟨key% "first_stage_model.decoder.up.0.block.1.norm1.bias", [128], .float32, [], false⟩,
  ⟨key% "first_stage_model.decoder.up.0.block.1.norm1.weight", [128], .float32, [], false⟩,
  ⟨key% "first_stage_model.decoder.up.0.block.1.norm2.bias", [128], .float32, [], false⟩,
  ⟨key% "first_stage_model.decoder.up.0.block.1.norm2.weight", [128], .float32, [], false⟩,
  ⟨key% "first_stage_model.decoder.up.0.block.2.conv1.bias", [128], .float32, [], false⟩,
  ⟨key% "first_stage_model.decoder.up.0.block.2.conv1.weight", [128, 128, 3, 3], .float32, [], false⟩,
  ⟨key% "first_stage_model.decoder.up.0.block.2.conv2.bias", [128], .float32, [], false⟩,
  ⟨key% "first_stage_model.decoder.up.0.block.2.conv2.weight", [128, 128, 3, 3], .float32, [], false⟩,
  ⟨key% "first_stage_model.decoder.up.0.block.2.norm1.bias", [128], .float32, [], false⟩,
  ⟨key% "first_stage_model.decoder.up.0.block.2.norm1.weight", [128], .float32, [], false⟩,
  ⟨key% "first_stage_model.decoder.up.0.block.2.norm2.bias", [128], .float32, [], false⟩,
  ⟨key% "first_stage_model.decoder.up.0.block.2.norm2.weight", [128], .float32, [], false⟩,
  ⟨key% "first_stage_model.decoder.up.1.block.0.conv1.bias", [256], .float32, [], false⟩,
  ⟨key% "first_stage_model.decoder.up.1.block.0.conv1.weight", [256, 512, 3, 3], .float32, [], false⟩,
  ⟨key% "first_stage_model.decoder.up.1.block.0.conv2.bias", [256], .float32, [], false⟩,
  ⟨key% "first_stage_model.decoder.up.1.block.0.conv2.weight", [256, 256, 3, 3], .float32, [], false⟩,
  ⟨key% "first_stage_model.decoder.up.1.block.0.nin_shortcut.bias", [256], .float32, [], false⟩,
  ⟨key% "first_stage_model.decoder.up.1.block.0.nin_shortcut.weight", [256, 512, 1, 1], .float32, [], false⟩,
  ⟨key% "first_stage_model.decoder.up.1.block.0.norm1.bias", [512], .float32, [], false⟩,
  ⟨key% "first_stage_model.decoder.up.1.block.0.norm1.weight", [512], .float32, [], false⟩,
  ⟨key% "first_stage_model.decoder.up.1.block.0.norm2.bias", [256], .float32, [], false⟩,
  ⟨key% "first_stage_model.decoder.up.1.block.0.norm2.weight", [256], .float32, [], false⟩,
  ⟨key% "first_stage_model.decoder.up.1.block.1.conv1.bias", [256], .float32, [], false⟩,
  ⟨key% "first_stage_model.decoder.up.1.block.1.conv1.weight", [256, 256, 3, 3], .float32, [], false⟩,
  ⟨key% "first_stage_model.decoder.up.1.block.1.conv2.bias", [256], .float32, [], false⟩,
  ⟨key% "first_stage_model.decoder.up.1.block.1.conv2.weight", [256, 256, 3, 3], .float32, [], false⟩,
  ⟨key% "first_stage_model.decoder.up.1.block.1.norm1.bias", [256], .float32, [], false⟩,
  ⟨key% "first_stage_model.decoder.up.1.block.1.norm1.weight", [256], .float32, [], false⟩,
  ⟨key% "first_stage_model.decoder.up.1.block.1.norm2.bias", [256], .float32, [], false⟩,
  ⟨key% "first_stage_model.decoder.up.1.block.1.norm2.weight", [256], .float32, [], false⟩,
  ⟨key% "first_stage_model.decoder.up.1.block.2.conv1.bias", [256], .float32, [], false⟩,
  ⟨key% "first_stage_model.decoder.up.1.block.2.conv1.weight", [256, 256, 3, 3], .float32, [], false⟩,
  ⟨key% "first_stage_model.decoder.up.1.block.2.conv2.bias", [256], .float32, [], false⟩,
  ⟨key% "first_stage_model.decoder.up.1.block.2.conv2.weight", [256, 256, 3, 3], .float32, [], false⟩,
  ⟨key% "first_stage_model.decoder.up.1.block.2.norm1.bias", [256], .float32, [], false⟩,
  ⟨key% "first_stage_model.decoder.up.1.block.2.norm1.weight", [256], .float32, [], false⟩,
  ⟨key% "first_stage_model.decoder.up.1.block.2.norm2.bias", [256], .float32, [], false⟩,
  ⟨key% "first_stage_model.decoder.up.1.block.2.norm2.weight", [256], .float32, [], false⟩,
  ⟨key% "first_stage_model.decoder.up.1.upsample.conv.bias", [256], .float32, [], false⟩,
  ⟨key% "first_stage_model.decoder.up.1.upsample.conv.weight", [256, 256, 3, 3], .float32, [], false⟩,
  ⟨key% "first_stage_model.decoder.up.2.block.0.conv1.bias", [512], .float32, [], false⟩,
  ⟨key% "first_stage_model.decoder.up.2.block.0.conv1.weight", [512, 512, 3, 3], .float32, [], false⟩,
  ⟨key% "first_stage_model.decoder.up.2.block.0.conv2.bias", [512], .float32, [], false⟩,
  ⟨key% "first_stage_model.decoder.up.2.block.0.conv2.weight", [512, 512, 3, 3], .float32, [], false⟩,
  ⟨key% "first_stage_model.decoder.up.2.block.0.norm1.bias", [512], .float32, [], false⟩,
  ⟨key% "first_stage_model.decoder.up.2.block.0.norm1.weight", [512], .float32, [], false⟩,
  ⟨key% "first_stage_model.decoder.up.2.block.0.norm2.bias", [512], .float32, [], false⟩,
  ⟨key% "first_stage_model.decoder.up.2.block.0.norm2.weight", [512], .float32, [], false⟩,
  ⟨key% "first_stage_model.decoder.up.2.block.1.conv1.bias", [512], .float32, [], false⟩,
  ⟨key% "first_stage_model.decoder.up.2.block.1.conv1.weight", [512, 512, 3, 3], .float32, [], false⟩,
  ⟨key% "first_stage_model.decoder.up.2.block.1.conv2.bias", [512], .float32, [], false⟩,
  ⟨key% "first_stage_model.decoder.up.2.block.1.conv2.weight", [512, 512, 3, 3], .float32, [], false⟩,
  ⟨key% "first_stage_model.decoder.up.2.block.1.norm1.bias", [512], .float32, [], false⟩,
  ⟨key% "first_stage_model.decoder.up.2.block.1.norm1.weight", [512], .float32, [], false⟩]
noncomputable def vae1 : List Entry := [
  ⟨key% "first_stage_model.decoder.up.2.block.1.norm2.bias", [512], .float32, [], false⟩,
  ⟨key% "first_stage_model.decoder.up.2.block.1.norm2.weight", [512], .float32, [], false⟩,
  ⟨key% "first_stage_model.decoder.up.2.block.2.conv1.bias", [512], .float32, [], false⟩,
  ⟨key% "first_stage_model.decoder.up.2.block.2.conv1.weight", [512, 512, 3, 3], .float32, [], false⟩,
  ⟨key% "first_stage_model.decoder.up.2.block.2.conv2.bias", [512], .float32, [], false⟩,
  ⟨key% "first_stage_model.decoder.up.2.block.2.conv2.weight", [512, 512, 3, 3], .float32, [], false⟩,
  ⟨key% "first_stage_model.decoder.up.2.block.2.norm1.bias", [512], .float32, [], false⟩,
  ⟨key% "first_stage_model.decoder.up.2.block.2.norm1.weight", [512], .float32, [], false⟩,
  ⟨key% "first_stage_model.decoder.up.2.block.2.norm2.bias", [512], .float32, [], false⟩,
  ⟨key% "first_stage_model.decoder.up.2.block.2.norm2.weight", [512], .float32, [], false⟩,
  ⟨key% "first_stage_model.decoder.up.2.upsample.conv.bias", [512], .float32, [], false⟩,
  ⟨key% "first_stage_model.decoder.up.2.upsample.conv.weight", [512, 512, 3, 3], .float32, [], false⟩,
  ⟨key% "first_stage_model.decoder.up.3.block.0.conv1.bias", [512], .float32, [], false⟩,
  ⟨key% "first_stage_model.decoder.up.3.block.0.conv1.weight", [512, 512, 3, 3], .float32, [], false⟩,
  ⟨key% "first_stage_model.decoder.up.3.block.0.conv2.bias", [512], .float32, [], false⟩,
  ⟨key% "first_stage_model.decoder.up.3.block.0.conv2.weight", [512, 512, 3, 3], .float32, [], false⟩,
  ⟨key% "first_stage_model.decoder.up.3.block.0.norm1.bias", [512], .float32, [], false⟩,
  ⟨key% "first_stage_model.decoder.up.3.block.0.norm1.weight", [512], .float32, [], false⟩,
  ⟨key% "first_stage_model.decoder.up.3.block.0.norm2.bias", [512], .float32, [], false⟩,
  ⟨key% "first_stage_model.decoder.up.3.block.0.norm2.weight", [512], .float32, [], false⟩,
  ⟨key% "first_stage_model.decoder.up.3.block.1.conv1.bias", [512], .float32, [], false⟩,
  ⟨key% "first_stage_model.decoder.up.3.block.1.conv1.weight", [512, 512, 3, 3], .float32, [], false⟩,
  ⟨key% "first_stage_model.decoder.up.3.block.1.conv2.bias", [512], .float32, [], false⟩,
  ⟨key% "first_stage_model.decoder.up.3.block.1.conv2.weight", [512, 512, 3, 3], .float32, [], false⟩,
  ⟨key% "first_stage_model.decoder.up.3.block.1.norm1.bias", [512], .float32, [], false⟩,
  ⟨key% "first_stage_model.decoder.up.3.block.1.norm1.weight", [512], .float32, [], false⟩,
  ⟨key% "first_stage_model.decoder.up.3.block.1.norm2.bias", [512], .float32, [], false⟩,
  ⟨key% "first_stage_model.decoder.up.3.block.1.norm2.weight", [512], .float32, [], false⟩,
  ⟨key% "first_stage_model.decoder.up.3.block.2.conv1.bias", [512], .float32, [], false⟩,
  ⟨key% "first_stage_model.decoder.up.3.block.2.conv1.weight", [512, 512, 3, 3], .float32, [], false⟩,
  ⟨key% "first_stage_model.decoder.up.3.block.2.conv2.bias", [512], .float32, [], false⟩,
  ⟨key% "first_stage_model.decoder.up.3.block.2.conv2.weight", [512, 512, 3, 3], .float32, [], false⟩,
  ⟨key% "first_stage_model.decoder.up.3.block.2.norm1.bias", [512], .float32, [], false⟩,
  ⟨key% "first_stage_model.decoder.up.3.block.2.norm1.weight", [512], .float32, [], false⟩,
  ⟨key% "first_stage_model.decoder.up.3.block.2.norm2.bias", [512], .float32, [], false⟩,
  ⟨key% "first_stage_model.decoder.up.3.block.2.norm2.weight", [512], .float32, [], false⟩,
  ⟨key% "first_stage_model.decoder.up.3.upsample.conv.bias", [512], .float32, [], false⟩,
  ⟨key% "first_stage_model.decoder.up.3.upsample.conv.weight", [512, 512, 3, 3], .float32, [], false⟩,
  ⟨key% "first_stage_model.encoder.conv_in.bias", [128], .float32, [], false⟩,
  ⟨key% "first_stage_model.encoder.conv_in.weight", [128, 3, 3, 3], .float32, [], false⟩,
  ⟨key% "first_stage_model.encoder.conv_out.bias", [8], .float32, [], false⟩,
  ⟨key% "first_stage_model.encoder.conv_out.weight", [8, 512, 3, 3], .float32, [], false⟩,
  ⟨key% "first_stage_model.encoder.down.0.block.0.conv1.bias", [128], .float32, [], false⟩,
  ⟨key% "first_stage_model.encoder.down.0.block.0.conv1.weight", [128, 128, 3, 3], .float32, [], false⟩,
  ⟨key% "first_stage_model.encoder.down.0.block.0.conv2.bias", [128], .float32, [], false⟩,
  ⟨key% "first_stage_model.encoder.down.0.block.0.conv2.weight", [128, 128, 3, 3], .float32, [], false⟩,
  ⟨key% "first_stage_model.encoder.down.0.block.0.norm1.bias", [128], .float32, [], false⟩,
  ⟨key% "first_stage_model.encoder.down.0.block.0.norm1.weight", [128], .float32, [], false⟩,
  ⟨key% "first_stage_model.encoder.down.0.block.0.norm2.bias", [128], .float32, [], false⟩,
  ⟨key% "first_stage_model.encoder.down.0.block.0.norm2.weight", [128], .float32, [], false⟩,
  ⟨key% "first_stage_model.encoder.down.0.block.1.conv1.bias", [128], .float32, [], false⟩,
  ⟨key% "first_stage_model.encoder.down.0.block.1.conv1.weight", [128, 128, 3, 3], .float32, [], false⟩,
  ⟨key% "first_stage_model.encoder.down.0.block.1.conv2.bias", [128], .float32, [], false⟩,
  ⟨key% "first_stage_model.encoder.down.0.block.1.conv2.weight", [128, 128, 3, 3], .float32, [], false⟩,
  ⟨key% "first_stage_model.encoder.down.0.block.1.norm1.bias", [128], .float32, [], false⟩,
  ⟨key% "first_stage_model.encoder.down.0.block.1.norm1.weight", [128], .float32, [], false⟩,
  ⟨key% "first_stage_model.encoder.down.0.block.1.norm2.bias", [128], .float32, [], false⟩,
  ⟨key% "first_stage_model.encoder.down.0.block.1.norm2.weight", [128], .float32, [], false⟩,
  ⟨key% "first_stage_model.encoder.down.0.downsample.conv.bias", [128], .float32, [], false⟩,
  ⟨key% "first_stage_model.encoder.down.0.downsample.conv.weight", [128, 128, 3, 3], .float32, [], false⟩,
  ⟨key% "first_stage_model.encoder.down.1.block.0.conv1.bias", [256], .float32, [], false⟩,
  ⟨key% "first_stage_model.encoder.down.1.block.0.conv1.weight", [256, 128, 3, 3], .float32, [], false⟩,
  ⟨key% "first_stage_model.encoder.down.1.block.0.conv2.bias", [256], .float32, [], false⟩,
  ⟨key% "first_stage_model.encoder.down.1.block.0.conv2.weight", [256, 256, 3, 3], .float32, [], false⟩,
  ⟨key% "first_stage_model.encoder.down.1.block.0.nin_shortcut.bias", [256], .float32, [], false⟩,
  ⟨key% "first_stage_model.encoder.down.1.block.0.nin_shortcut.weight", [256, 128, 1, 1], .float32, [], false⟩,
  ⟨key% "first_stage_model.encoder.down.1.block.0.norm1.bias", [128], .float32, [], false⟩,
  ⟨key% "first_stage_model.encoder.down.1.block.0.norm1.weight", [128], .float32, [], false⟩,
  ⟨key% "first_stage_model.encoder.down.1.block.0.norm2.bias", [256], .float32, [], false⟩,
  ⟨key% "first_stage_model.encoder.down.1.block.0.norm2.weight", [256], .float32, [], false⟩,
  ⟨key% "first_stage_model.encoder.down.1.block.1.conv1.bias", [256], .float32, [], false⟩,
  ⟨key% "first_stage_model.encoder.down.1.block.1.conv1.weight", [256, 256, 3, 3], .float32, [], false⟩,
  ⟨key% "first_stage_model.encoder.down.1.block.1.conv2.bias", [256], .float32, [], false⟩,
  ⟨key% "first_stage_model.encoder.down.1.block.1.conv2.weight", [256, 256, 3, 3], .float32, [], false⟩,
  ⟨key% "first_stage_model.encoder.down.1.block.1.norm1.bias", [256], .float32, [], false⟩,
  ⟨key% "first_stage_model.encoder.down.1.block.1.norm1.weight", [256], .float32, [], false⟩,
  ⟨key% "first_stage_model.encoder.down.1.block.1.norm2.bias", [256], .float32, [], false⟩,
  ⟨key% "first_stage_model.encoder.down.1.block.1.norm2.weight", [256], .float32, [], false⟩,
  ⟨key% "first_stage_model.encoder.down.1.downsample.conv.bias", [256], .float32, [], false⟩,
  ⟨key% "first_stage_model.encoder.down.1.downsample.conv.weight", [256, 256, 3, 3], .float32, [], false⟩,
  ⟨key% "first_stage_model.encoder.down.2.block.0.conv1.bias", [512], .float32, [], false⟩,
  ⟨key% "first_stage_model.encoder.down.2.block.0.conv1.weight", [512, 256, 3, 3], .float32, [], false⟩,
  ⟨key% "first_stage_model.encoder.down.2.block.0.conv2.bias", [512], .float32, [], false⟩,
  ⟨key% "first_stage_model.encoder.down.2.block.0.conv2.weight", [512, 512, 3, 3], .float32, [], false⟩,
  ⟨key% "first_stage_model.encoder.down.2.block.0.nin_shortcut.bias", [512], .float32, [], false⟩,
  ⟨key% "first_stage_model.encoder.down.2.block.0.nin_shortcut.weight", [512, 256, 1, 1], .float32, [], false⟩,
  ⟨key% "first_stage_model.encoder.down.2.block.0.norm1.bias", [256], .float32, [], false⟩,
  ⟨key% "first_stage_model.encoder.down.2.block.0.norm1.weight", [256], .float32, [], false⟩,
  ⟨key% "first_stage_model.encoder.down.2.block.0.norm2.bias", [512], .float32, [], false⟩,
  ⟨key% "first_stage_model.encoder.down.2.block.0.norm2.weight", [512], .float32, [], false⟩,
  ⟨key% "first_stage_model.encoder.down.2.block.1.conv1.bias", [512], .float32, [], false⟩,
  ⟨key% "first_stage_model.encoder.down.2.block.1.conv1.weight", [512, 512, 3, 3], .float32, [], false⟩,
  ⟨key% "first_stage_model.encoder.down.2.block.1.conv2.bias", [512], .float32, [], false⟩,
  ⟨key% "first_stage_model.encoder.down.2.block.1.conv2.weight", [512, 512, 3, 3], .float32, [], false⟩,
  ⟨key% "first_stage_model.encoder.down.2.block.1.norm1.bias", [512], .float32, [], false⟩,
  ⟨key% "first_stage_model.encoder.down.2.block.1.norm1.weight", [512], .float32, [], false⟩,
  ⟨key% "first_stage_model.encoder.down.2.block.1.norm2.bias", [512], .float32, [], false⟩,
  ⟨key% "first_stage_model.encoder.down.2.block.1.norm2.weight", [512], .float32, [], false⟩,
  ⟨key% "first_stage_model.encoder.down.2.downsample.conv.bias", [512], .float32, [], false⟩,
  ⟨key% "first_stage_model.encoder.down.2.downsample.conv.weight", [512, 512, 3, 3], .float32, [], false⟩]
noncomputable def vae2 : List Entry := [
  ⟨key% "first_stage_model.encoder.down.3.block.0.conv1.bias", [512], .float32, [], false⟩,
  ⟨key% "first_stage_model.encoder.down.3.block.0.conv1.weight", [512, 512, 3, 3], .float32, [], false⟩,
  ⟨key% "first_stage_model.encoder.down.3.block.0.conv2.bias", [512], .float32, [], false⟩,
  ⟨key% "first_stage_model.encoder.down.3.block.0.conv2.weight", [512, 512, 3, 3], .float32, [], false⟩,
  ⟨key% "first_stage_model.encoder.down.3.block.0.norm1.bias", [512], .float32, [], false⟩,
  ⟨key% "first_stage_model.encoder.down.3.block.0.norm1.weight", [512], .float32, [], false⟩,
  ⟨key% "first_stage_model.encoder.down.3.block.0.norm2.bias", [512], .float32, [], false⟩,
  ⟨key% "first_stage_model.encoder.down.3.block.0.norm2.weight", [512], .float32, [], false⟩,
  ⟨key% "first_stage_model.encoder.down.3.block.1.conv1.bias", [512], .float32, [], false⟩,
  ⟨key% "first_stage_model.encoder.down.3.block.1.conv1.weight", [512, 512, 3, 3], .float32, [], false⟩,
  ⟨key% "first_stage_model.encoder.down.3.block.1.conv2.bias", [512], .float32, [], false⟩,
  ⟨key% "first_stage_model.encoder.down.3.block.1.conv2.weight", [512, 512, 3, 3], .float32, [], false⟩,
  ⟨key% "first_stage_model.encoder.down.3.block.1.norm1.bias", [512], .float32, [], false⟩,
  ⟨key% "first_stage_model.encoder.down.3.block.1.norm1.weight", [512], .float32, [], false⟩,
  ⟨key% "first_stage_model.encoder.down.3.block.1.norm2.bias", [512], .float32, [], false⟩,
  ⟨key% "first_stage_model.encoder.down.3.block.1.norm2.weight", [512], .float32, [], false⟩,
  ⟨key% "first_stage_model.encoder.mid.attn_1.k.bias", [512], .float32, [], false⟩,
  ⟨key% "first_stage_model.encoder.mid.attn_1.k.weight", [512, 512, 1, 1], .float32, [], false⟩,
  ⟨key% "first_stage_model.encoder.mid.attn_1.norm.bias", [512], .float32, [], false⟩,
  ⟨key% "first_stage_model.encoder.mid.attn_1.norm.weight", [512], .float32, [], false⟩,
  ⟨key% "first_stage_model.encoder.mid.attn_1.proj_out.bias", [512], .float32, [], false⟩,
  ⟨key% "first_stage_model.encoder.mid.attn_1.proj_out.weight", [512, 512, 1, 1], .float32, [], false⟩,
  ⟨key% "first_stage_model.encoder.mid.attn_1.q.bias", [512], .float32, [], false⟩,
  ⟨key% "first_stage_model.encoder.mid.attn_1.q.weight", [512, 512, 1, 1], .float32, [], false⟩,
  ⟨key% "first_stage_model.encoder.mid.attn_1.v.bias", [512], .float32, [], false⟩,
  ⟨key% "first_stage_model.encoder.mid.attn_1.v.weight", [512, 512, 1, 1], .float32, [], false⟩,
  ⟨key% "first_stage_model.encoder.mid.block_1.conv1.bias", [512], .float32, [], false⟩,
  ⟨key% "first_stage_model.encoder.mid.block_1.conv1.weight", [512, 512, 3, 3], .float32, [], false⟩,
  ⟨key% "first_stage_model.encoder.mid.block_1.conv2.bias", [512], .float32, [], false⟩,
  ⟨key% "first_stage_model.encoder.mid.block_1.conv2.weight", [512, 512, 3, 3], .float32, [], false⟩,
  ⟨key% "first_stage_model.encoder.mid.block_1.norm1.bias", [512], .float32, [], false⟩,
  ⟨key% "first_stage_model.encoder.mid.block_1.norm1.weight", [512], .float32, [], false⟩,
  ⟨key% "first_stage_model.encoder.mid.block_1.norm2.bias", [512], .float32, [], false⟩,
  ⟨key% "first_stage_model.encoder.mid.block_1.norm2.weight", [512], .float32, [], false⟩,
  ⟨key% "first_stage_model.encoder.mid.block_2.conv1.bias", [512], .float32, [], false⟩,
  ⟨key% "first_stage_model.encoder.mid.block_2.conv1.weight", [512, 512, 3, 3], .float32, [], false⟩,
  ⟨key% "first_stage_model.encoder.mid.block_2.conv2.bias", [512], .float32, [], false⟩,
  ⟨key% "first_stage_model.encoder.mid.block_2.conv2.weight", [512, 512, 3, 3], .float32, [], false⟩,
  ⟨key% "first_stage_model.encoder.mid.block_2.norm1.bias", [512], .float32, [], false⟩,
  ⟨key% "first_stage_model.encoder.mid.block_2.norm1.weight", [512], .float32, [], false⟩,
  ⟨key% "first_stage_model.encoder.mid.block_2.norm2.bias", [512], .float32, [], false⟩,
  ⟨key% "first_stage_model.encoder.mid.block_2.norm2.weight", [512], .float32, [], false⟩,
  ⟨key% "first_stage_model.encoder.norm_out.bias", [512], .float32, [], false⟩,
  ⟨key% "first_stage_model.encoder.norm_out.weight", [512], .float32, [], false⟩,
  ⟨key% "first_stage_model.post_quant_conv.bias", [4], .float32, [], false⟩,
  ⟨key% "first_stage_model.post_quant_conv.weight", [4, 4, 1, 1], .float32, [], false⟩,
  ⟨key% "first_stage_model.quant_conv.bias", [8], .float32, [], false⟩,
  ⟨key% "first_stage_model.quant_conv.weight", [8, 8, 1, 1], .float32, [], false⟩]
/-- Component `vae`: 248 keys -/
noncomputable def vae : List Entry := vae0 ++ vae1 ++ vae2

noncomputable def clip_l0 : List Entry := [
  ⟨key% "te1.text_model.embeddings.position_embedding.weight", [77, 768], .float32, [], false⟩,
  ⟨key% "te1.text_model.embeddings.position_ids", [1, 77], .int64, [], false⟩,
  ⟨key% "te1.text_model.embeddings.token_embedding.weight", [49408, 768], .float32, [], false⟩,
  ⟨key% "te1.text_model.encoder.layers.0.layer_norm1.bias", [768], .float32, [], false⟩,
  ⟨key% "te1.text_model.encoder.layers.0.layer_norm1.weight", [768], .float32, [], false⟩,
  ⟨key% "te1.text_model.encoder.layers.0.layer_norm2.bias", [768], .float32, [], false⟩,
  ⟨key% "te1.text_model.encoder.layers.0.layer_norm2.weight", [768], .float32, [], false⟩,
  ⟨key% "te1.text_model.encoder.layers.0.mlp.fc1.bias", [3072], .float32, [], false⟩,
  ⟨key% "te1.text_model.encoder.layers.0.mlp.fc1.weight", [3072, 768], .float32, [], false⟩,
  ⟨key% "te1.text_model.encoder.layers.0.mlp.fc2.bias", [768], .float32, [], false⟩,
  ⟨key% "te1.text_model.encoder.layers.0.mlp.fc2.weight", [768, 3072], .float32, [], false⟩,
  ⟨key% "te1.text_model.encoder.layers.0.self_attn.k_proj.bias", [768], .float32, [], false⟩,
  ⟨key% "te1.text_model.encoder.layers.0.self_attn.k_proj.weight", [768, 768], .float32, [], false⟩,
  ⟨key% "te1.text_model.encoder.layers.0.self_attn.out_proj.bias", [768], .float32, [], false⟩,
  ⟨key% "te1.text_model.encoder.layers.0.self_attn.out_proj.weight", [768, 768], .float32, [], false⟩,
  ⟨key% "te1.text_model.encoder.layers.0.self_attn.q_proj.bias", [768], .float32, [], false⟩,
  ⟨key% "te1.text_model.encoder.layers.0.self_attn.q_proj.weight", [768, 768], .float32, [], false⟩,
  ⟨key% "te1.text_model.encoder.layers.0.self_attn.v_proj.bias", [768], .float32, [], false⟩,
  ⟨key% "te1.text_model.encoder.layers.0.self_attn.v_proj.weight", [768, 768], .float32, [], false⟩,
  ⟨key% "te1.text_model.encoder.layers.1.layer_norm1.bias", [768], .float32, [], false⟩,
  ⟨key% "te1.text_model.encoder.layers.1.layer_norm1.weight", [768], .float32, [], false⟩,
  ⟨key% "te1.text_model.encoder.layers.1.layer_norm2.bias", [768], .float32, [], false⟩,
  ⟨key% "te1.text_model.encoder.layers.1.layer_norm2.weight", [768], .float32, [], false⟩,
  ⟨key% "te1.text_model.encoder.layers.1.mlp.fc1.bias", [3072], .float32, [], false⟩,
  ⟨key% "te1.text_model.encoder.layers.1.mlp.fc1.weight", [3072, 768], .float32, [], false⟩,
  ⟨key% "te1.text_model.encoder.layers.1.mlp.fc2.bias", [768], .float32, [], false⟩,
  ⟨key% "te1.text_model.encoder.layers.1.mlp.fc2.weight", [768, 3072], .float32, [], false⟩,
  ⟨key% "te1.text_model.encoder.layers.1.self_attn.k_proj.bias", [768], .float32, [], false⟩,
  ⟨key% "te1.text_model.encoder.layers.1.self_attn.k_proj.weight", [768, 768], .float32, [], false⟩,
  ⟨key% "te1.text_model.encoder.layers.1.self_attn.out_proj.bias", [768], .float32, [], false⟩,
  ⟨key% "te1.text_model.encoder.layers.1.self_attn.out_proj.weight", [768, 768], .float32, [], false⟩,
  ⟨key% "te1.text_model.encoder.layers.1.self_attn.q_proj.bias", [768], .float32, [], false⟩,
  ⟨key% "te1.text_model.encoder.layers.1.self_attn.q_proj.weight", [768, 768], .float32, [], false⟩,
  ⟨key% "te1.text_model.encoder.layers.1.self_attn.v_proj.bias", [768], .float32, [], false⟩,
  ⟨key% "te1.text_model.encoder.layers.1.self_attn.v_proj.weight", [768, 768], .float32, [], false⟩,
  ⟨key% "te1.text_model.encoder.layers.10.layer_norm1.bias", [768], .float32, [], false⟩,
  ⟨key% "te1.text_model.encoder.layers.10.layer_norm1.weight", [768], .float32, [], false⟩,
  ⟨key% "te1.text_model.encoder.layers.10.layer_norm2.bias", [768], .float32, [], false⟩,
  ⟨key% "te1.text_model.encoder.layers.10.layer_norm2.weight", [768], .float32, [], false⟩,
  ⟨key% "te1.text_model.encoder.layers.10.mlp.fc1.bias", [3072], .float32, [], false⟩,
  ⟨key% "te1.text_model.encoder.layers.10.mlp.fc1.weight", [3072, 768], .float32, [], false⟩,
  ⟨key% "te1.text_model.encoder.layers.10.mlp.fc2.bias", [768], .float32, [], false⟩,
  ⟨key% "te1.text_model.encoder.layers.10.mlp.fc2.weight", [768, 3072], .float32, [], false⟩,
  ⟨key% "te1.text_model.encoder.layers.10.self_attn.k_proj.bias", [768], .float32, [], false⟩,
  ⟨key% "te1.text_model.encoder.layers.10.self_attn.k_proj.weight", [768, 768], .float32, [], false⟩,
  ⟨key% "te1.text_model.encoder.layers.10.self_attn.out_proj.bias", [768], .float32, [], false⟩,
  ⟨key% "te1.text_model.encoder.layers.10.self_attn.out_proj.weight", [768, 768], .float32, [], false⟩,
  ⟨key% "te1.text_model.encoder.layers.10.self_attn.q_proj.bias", [768], .float32, [], false⟩,
  ⟨key% "te1.text_model.encoder.layers.10.self_attn.q_proj.weight", [768, 768], .float32, [], false⟩,
  ⟨key% "te1.text_model.encoder.layers.10.self_attn.v_proj.bias", [768], .float32, [], false⟩,
  ⟨key% "te1.text_model.encoder.layers.10.self_attn.v_proj.weight", [768, 768], .float32, [], false⟩,
  ⟨key% "te1.text_model.encoder.layers.11.layer_norm1.bias", [768], .float32, [], false⟩,
  ⟨key% "te1.text_model.encoder.layers.11.layer_norm1.weight", [768], .float32, [], false⟩,
  ⟨key% "te1.text_model.encoder.layers.11.layer_norm2.bias", [768], .float32, [], false⟩,
  ⟨key% "te1.text_model.encoder.layers.11.layer_norm2.weight", [768], .float32, [], false⟩,
  ⟨key% "te1.text_model.encoder.layers.11.mlp.fc1.bias", [3072], .float32, [], false⟩,
  ⟨key% "te1.text_model.encoder.layers.11.mlp.fc1.weight", [3072, 768], .float32, [], false⟩,
  ⟨key% "te1.text_model.encoder.layers.11.mlp.fc2.bias", [768], .float32, [], false⟩,
  ⟨key% "te1.text_model.encoder.layers.11.mlp.fc2.weight", [768, 3072], .float32, [], false⟩,
  ⟨key% "te1.text_model.encoder.layers.11.self_attn.k_proj.bias", [768], .float32, [], false⟩,
  ⟨key% "te1.text_model.encoder.layers.11.self_attn.k_proj.weight", [768, 768], .float32, [], false⟩,
  ⟨key% "te1.text_model.encoder.layers.11.self_attn.out_proj.bias", [768], .float32, [], false⟩,
  ⟨key% "te1.text_model.encoder.layers.11.self_attn.out_proj.weight", [768, 768], .float32, [], false⟩,
  ⟨key% "te1.text_model.encoder.layers.11.self_attn.q_proj.bias", [768], .float32, [], false⟩,
  ⟨key% "te1.text_model.encoder.layers.11.self_attn.q_proj.weight", [768, 768], .float32, [], false⟩,
  ⟨key% "te1.text_model.encoder.layers.11.self_attn.v_proj.bias", [768], .float32, [], false⟩,
  ⟨key% "te1.text_model.encoder.layers.11.self_attn.v_proj.weight", [768, 768], .float32, [], false⟩,
  ⟨key% "te1.text_model.encoder.layers.2.layer_norm1.bias", [768], .float32, [], false⟩,
  ⟨key% "te1.text_model.encoder.layers.2.layer_norm1.weight", [768], .float32, [], false⟩,
  ⟨key% "te1.text_model.encoder.layers.2.layer_norm2.bias", [768], .float32, [], false⟩,
  ⟨key% "te1.text_model.encoder.layers.2.layer_norm2.weight", [768], .float32, [], false⟩,
  ⟨key% "te1.text_model.encoder.layers.2.mlp.fc1.bias", [3072], .float32, [], false⟩,
  ⟨key% "te1.text_model.encoder.layers.2.mlp.fc1.weight", [3072, 768], .float32, [], false⟩,
  ⟨key% "te1.text_model.encoder.layers.2.mlp.fc2.bias", [768], .float32, [], false⟩,
  ⟨key% "te1.text_model.encoder.layers.2.mlp.fc2.weight", [768, 3072], .float32, [], false⟩,
  ⟨key% "te1.text_model.encoder.layers.2.self_attn.k_proj.bias", [768], .float32, [], false⟩,
  ⟨key% "te1.text_model.encoder.layers.2.self_attn.k_proj.weight", [768, 768], .float32, [], false⟩,
  ⟨key% "te1.text_model.encoder.layers.2.self_attn.out_proj.bias", [768], .float32, [], false⟩,
  ⟨key% "te1.text_model.encoder.layers.2.self_attn.out_proj.weight", [768, 768], .float32, [], false⟩,
  ⟨key% "te1.text_model.encoder.layers.2.self_attn.q_proj.bias", [768], .float32, [], false⟩,
  ⟨key% "te1.text_model.encoder.layers.2.self_attn.q_proj.weight", [768, 768], .float32, [], false⟩,
  ⟨key% "te1.text_model.encoder.layers.2.self_attn.v_proj.bias", [768], .float32, [], false⟩,
  ⟨key% "te1.text_model.encoder.layers.2.self_attn.v_proj.weight", [768, 768], .float32, [], false⟩,
  ⟨key% "te1.text_model.encoder.layers.3.layer_norm1.bias", [768], .float32, [], false⟩,
  ⟨key% "te1.text_model.encoder.layers.3.layer_norm1.weight", [768], .float32, [], false⟩,
  ⟨key% "te1.text_model.encoder.layers.3.layer_norm2.bias", [768], .float32, [], false⟩,
  ⟨key% "te1.text_model.encoder.layers.3.layer_norm2.weight", [768], .float32, [], false⟩,
  ⟨key% "te1.text_model.encoder.layers.3.mlp.fc1.bias", [3072], .float32, [], false⟩,
  ⟨key% "te1.text_model.encoder.layers.3.mlp.fc1.weight", [3072, 768], .float32, [], false⟩,
  ⟨key% "te1.text_model.encoder.layers.3.mlp.fc2.bias", [768], .float32, [], false⟩,
  ⟨key% "te1.text_model.encoder.layers.3.mlp.fc2.weight", [768, 3072], .float32, [], false⟩,
  ⟨key% "te1.text_model.encoder.layers.3.self_attn.k_proj.bias", [768], .float32, [], false⟩,
  ⟨key% "te1.text_model.encoder.layers.3.self_attn.k_proj.weight", [768, 768], .float32, [], false⟩,
  ⟨key% "te1.text_model.encoder.layers.3.self_attn.out_proj.bias", [768], .float32, [], false⟩,
  ⟨key% "te1.text_model.encoder.layers.3.self_attn.out_proj.weight", [768, 768], .float32, [], false⟩,
  ⟨key% "te1.text_model.encoder.layers.3.self_attn.q_proj.bias", [768], .float32, [], false⟩,
  ⟨key% "te1.text_model.encoder.layers.3.self_attn.q_proj.weight", [768, 768], .float32, [], false⟩,
  ⟨key% "te1.text_model.encoder.layers.3.self_attn.v_proj.bias", [768], .float32, [], false⟩,
  ⟨key% "te1.text_model.encoder.layers.3.self_attn.v_proj.weight", [768, 768], .float32, [], false⟩,
  ⟨key% "te1.text_model.encoder.layers.4.layer_norm1.bias", [768], .float32, [], false⟩]
noncomputable def clip_l1 : List Entry := [
  ⟨key% "te1.text_model.encoder.layers.4.layer_norm1.weight", [768], .float32, [], false⟩,
  ⟨key% "te1.text_model.encoder.layers.4.layer_norm2.bias", [768], .float32, [], false⟩,
  ⟨key% "te1.text_model.encoder.layers.4.layer_norm2.weight", [768], .float32, [], false⟩,
  ⟨key% "te1.text_model.encoder.layers.4.mlp.fc1.bias", [3072], .float32, [], false⟩,
  ⟨key% "te1.text_model.encoder.layers.4.mlp.fc1.weight", [3072, 768], .float32, [], false⟩,
  ⟨key% "te1.text_model.encoder.layers.4.mlp.fc2.bias", [768], .float32, [], false⟩,
  ⟨key% "te1.text_model.encoder.layers.4.mlp.fc2.weight", [768, 3072], .float32, [], false⟩,
  ⟨key% "te1.text_model.encoder.layers.4.self_attn.k_proj.bias", [768], .float32, [], false⟩,
  ⟨key% "te1.text_model.encoder.layers.4.self_attn.k_proj.weight", [768, 768], .float32, [], false⟩,
  ⟨key% "te1.text_model.encoder.layers.4.self_attn.out_proj.bias", [768], .float32, [], false⟩,
  ⟨key% "te1.text_model.encoder.layers.4.self_attn.out_proj.weight", [768, 768], .float32, [], false⟩,
  ⟨key% "te1.text_model.encoder.layers.4.self_attn.q_proj.bias", [768], .float32, [], false⟩,
  ⟨key% "te1.text_model.encoder.layers.4.self_attn.q_proj.weight", [768, 768], .float32, [], false⟩,
  ⟨key% "te1.text_model.encoder.layers.4.self_attn.v_proj.bias", [768], .float32, [], false⟩,
  ⟨key% "te1.text_model.encoder.layers.4.self_attn.v_proj.weight", [768, 768], .float32, [], false⟩,
  ⟨key% "te1.text_model.encoder.layers.5.layer_norm1.bias", [768], .float32, [], false⟩,
  ⟨key% "te1.text_model.encoder.layers.5.layer_norm1.weight", [768], .float32, [], false⟩,
  ⟨key% "te1.text_model.encoder.layers.5.layer_norm2.bias", [768], .float32, [], false⟩,
  ⟨key% "te1.text_model.encoder.layers.5.layer_norm2.weight", [768], .float32, [], false⟩,
  ⟨key% "te1.text_model.encoder.layers.5.mlp.fc1.bias", [3072], .float32, [], false⟩,
  ⟨key% "te1.text_model.encoder.layers.5.mlp.fc1.weight", [3072, 768], .float32, [], false⟩,
  ⟨key% "te1.text_model.encoder.layers.5.mlp.fc2.bias", [768], .float32, [], false⟩,
  ⟨key% "te1.text_model.encoder.layers.5.mlp.fc2.weight", [768, 3072], .float32, [], false⟩,
  ⟨key% "te1.text_model.encoder.layers.5.self_attn.k_proj.bias", [768], .float32, [], false⟩,
  ⟨key% "te1.text_model.encoder.layers.5.self_attn.k_proj.weight", [768, 768], .float32, [], false⟩,
  ⟨key% "te1.text_model.encoder.layers.5.self_attn.out_proj.bias", [768], .float32, [], false⟩,
  ⟨key% "te1.text_model.encoder.layers.5.self_attn.out_proj.weight", [768, 768], .float32, [], false⟩,
  ⟨key% "te1.text_model.encoder.layers.5.self_attn.q_proj.bias", [768], .float32, [], false⟩,
  ⟨key% "te1.text_model.encoder.layers.5.self_attn.q_proj.weight", [768, 768], .float32, [], false⟩,
  ⟨key% "te1.text_model.encoder.layers.5.self_attn.v_proj.bias", [768], .float32, [], false⟩,
  ⟨key% "te1.text_model.encoder.layers.5.self_attn.v_proj.weight", [768, 768], .float32, [], false⟩,
  ⟨key% "te1.text_model.encoder.layers.6.layer_norm1.bias", [768], .float32, [], false⟩,
  ⟨key% "te1.text_model.encoder.layers.6.layer_norm1.weight", [768], .float32, [], false⟩,
  ⟨key% "te1.text_model.encoder.layers.6.layer_norm2.bias", [768], .float32, [], false⟩,
  ⟨key% "te1.text_model.encoder.layers.6.layer_norm2.weight", [768], .float32, [], false⟩,
  ⟨key% "te1.text_model.encoder.layers.6.mlp.fc1.bias", [3072], .float32, [], false⟩,
  ⟨key% "te1.text_model.encoder.layers.6.mlp.fc1.weight", [3072, 768], .float32, [], false⟩,
  ⟨key% "te1.text_model.encoder.layers.6.mlp.fc2.bias", [768], .float32, [], false⟩,
  ⟨key% "te1.text_model.encoder.layers.6.mlp.fc2.weight", [768, 3072], .float32, [], false⟩,
  ⟨key% "te1.text_model.encoder.layers.6.self_attn.k_proj.bias", [768], .float32, [], false⟩,
  ⟨key% "te1.text_model.encoder.layers.6.self_attn.k_proj.weight", [768, 768], .float32, [], false⟩,
  ⟨key% "te1.text_model.encoder.layers.6.self_attn.out_proj.bias", [768], .float32, [], false⟩,
  ⟨key% "te1.text_model.encoder.layers.6.self_attn.out_proj.weight", [768, 768], .float32, [], false⟩,
  ⟨key% "te1.text_model.encoder.layers.6.self_attn.q_proj.bias", [768], .float32, [], false⟩,
  ⟨key% "te1.text_model.encoder.layers.6.self_attn.q_proj.weight", [768, 768], .float32, [], false⟩,
  ⟨key% "te1.text_model.encoder.layers.6.self_attn.v_proj.bias", [768], .float32, [], false⟩,
  ⟨key% "te1.text_model.encoder.layers.6.self_attn.v_proj.weight", [768, 768], .float32, [], false⟩,
  ⟨key% "te1.text_model.encoder.layers.7.layer_norm1.bias", [768], .float32, [], false⟩,
  ⟨key% "te1.text_model.encoder.layers.7.layer_norm1.weight", [768], .float32, [], false⟩,
  ⟨key% "te1.text_model.encoder.layers.7.layer_norm2.bias", [768], .float32, [], false⟩,
  ⟨key% "te1.text_model.encoder.layers.7.layer_norm2.weight", [768], .float32, [], false⟩,
  ⟨key% "te1.text_model.encoder.layers.7.mlp.fc1.bias", [3072], .float32, [], false⟩,
  ⟨key% "te1.text_model.encoder.layers.7.mlp.fc1.weight", [3072, 768], .float32, [], false⟩,
  ⟨key% "te1.text_model.encoder.layers.7.mlp.fc2.bias", [768], .float32, [], false⟩,
  ⟨key% "te1.text_model.encoder.layers.7.mlp.fc2.weight", [768, 3072], .float32, [], false⟩,
  ⟨key% "te1.text_model.encoder.layers.7.self_attn.k_proj.bias", [768], .float32, [], false⟩,
  ⟨key% "te1.text_model.encoder.layers.7.self_attn.k_proj.weight", [768, 768], .float32, [], false⟩,
  ⟨key% "te1.text_model.encoder.layers.7.self_attn.out_proj.bias", [768], .float32, [], false⟩,
  ⟨key% "te1.text_model.encoder.layers.7.self_attn.out_proj.weight", [768, 768], .float32, [], false⟩,
  ⟨key% "te1.text_model.encoder.layers.7.self_attn.q_proj.bias", [768], .float32, [], false⟩,
  ⟨key% "te1.text_model.encoder.layers.7.self_attn.q_proj.weight", [768, 768], .float32, [], false⟩,
  ⟨key% "te1.text_model.encoder.layers.7.self_attn.v_proj.bias", [768], .float32, [], false⟩,
  ⟨key% "te1.text_model.encoder.layers.7.self_attn.v_proj.weight", [768, 768], .float32, [], false⟩,
  ⟨key% "te1.text_model.encoder.layers.8.layer_norm1.bias", [768], .float32, [], false⟩,
  ⟨key% "te1.text_model.encoder.layers.8.layer_norm1.weight", [768], .float32, [], false⟩,
  ⟨key% "te1.text_model.encoder.layers.8.layer_norm2.bias", [768], .float32, [], false⟩,
  ⟨key% "te1.text_model.encoder.layers.8.layer_norm2.weight", [768], .float32, [], false⟩,
  ⟨key% "te1.text_model.encoder.layers.8.mlp.fc1.bias", [3072], .float32, [], false⟩,
  ⟨key% "te1.text_model.encoder.layers.8.mlp.fc1.weight", [3072, 768], .float32, [], false⟩,
  ⟨key% "te1.text_model.encoder.layers.8.mlp.fc2.bias", [768], .float32, [], false⟩,
  ⟨key% "te1.text_model.encoder.layers.8.mlp.fc2.weight", [768, 3072], .float32, [], false⟩,
  ⟨key% "te1.text_model.encoder.layers.8.self_attn.k_proj.bias", [768], .float32, [], false⟩,
  ⟨key% "te1.text_model.encoder.layers.8.self_attn.k_proj.weight", [768, 768], .float32, [], false⟩,
  ⟨key% "te1.text_model.encoder.layers.8.self_attn.out_proj.bias", [768], .float32, [], false⟩,
  ⟨key% "te1.text_model.encoder.layers.8.self_attn.out_proj.weight", [768, 768], .float32, [], false⟩,
  ⟨key% "te1.text_model.encoder.layers.8.self_attn.q_proj.bias", [768], .float32, [], false⟩,
  ⟨key% "te1.text_model.encoder.layers.8.self_attn.q_proj.weight", [768, 768], .float32, [], false⟩,
  ⟨key% "te1.text_model.encoder.layers.8.self_attn.v_proj.bias", [768], .float32, [], false⟩,
  ⟨key% "te1.text_model.encoder.layers.8.self_attn.v_proj.weight", [768, 768], .float32, [], false⟩,
  ⟨key% "te1.text_model.encoder.layers.9.layer_norm1.bias", [768], .float32, [], false⟩,
  ⟨key% "te1.text_model.encoder.layers.9.layer_norm1.weight", [768], .float32, [], false⟩,
  ⟨key% "te1.text_model.encoder.layers.9.layer_norm2.bias", [768], .float32, [], false⟩,
  ⟨key% "te1.text_model.encoder.layers.9.layer_norm2.weight", [768], .float32, [], false⟩,
  ⟨key% "te1.text_model.encoder.layers.9.mlp.fc1.bias", [3072], .float32, [], false⟩,
  ⟨key% "te1.text_model.encoder.layers.9.mlp.fc1.weight", [3072, 768], .float32, [], false⟩,
  ⟨key% "te1.text_model.encoder.layers.9.mlp.fc2.bias", [768], .float32, [], false⟩,
  ⟨key% "te1.text_model.encoder.layers.9.mlp.fc2.weight", [768, 3072], .float32, [], false⟩,
  ⟨key% "te1.text_model.encoder.layers.9.self_attn.k_proj.bias", [768], .float32, [], false⟩,
  ⟨key% "te1.text_model.encoder.layers.9.self_attn.k_proj.weight", [768, 768], .float32, [], false⟩,
  ⟨key% "te1.text_model.encoder.layers.9.self_attn.out_proj.bias", [768], .float32, [], false⟩,
  ⟨key% "te1.text_model.encoder.layers.9.self_attn.out_proj.weight", [768, 768], .float32, [], false⟩,
  ⟨key% "te1.text_model.encoder.layers.9.self_attn.q_proj.bias", [768], .float32, [], false⟩,
  ⟨key% "te1.text_model.encoder.layers.9.self_attn.q_proj.weight", [768, 768], .float32, [], false⟩,
  ⟨key% "te1.text_model.encoder.layers.9.self_attn.v_proj.bias", [768], .float32, [], false⟩,
  ⟨key% "te1.text_model.encoder.layers.9.self_attn.v_proj.weight", [768, 768], .float32, [], false⟩,
  ⟨key% "te1.text_model.final_layer_norm.bias", [768], .float32, [], false⟩,
  ⟨key% "te1.text_model.final_layer_norm.weight", [768], .float32, [], false⟩]
/-- Component `clip_l`: 197 keys -/
noncomputable def clip_l : List Entry := clip_l0 ++ clip_l1

noncomputable def clip_g0 : List Entry := [
  ⟨key% "te2.text_model.embeddings.position_embedding.weight", [77, 1280], .float32, [], false⟩,
  ⟨key% "te2.text_model.embeddings.token_embedding.weight", [49408, 1280], .float32, [], false⟩,
  ⟨key% "te2.text_model.encoder.layers.0.layer_norm1.bias", [1280], .float32, [], false⟩,
  ⟨key% "te2.text_model.encoder.layers.0.layer_norm1.weight", [1280], .float32, [], false⟩,
  ⟨key% "te2.text_model.encoder.layers.0.layer_norm2.bias", [1280], .float32, [], false⟩,
  ⟨key% "te2.text_model.encoder.layers.0.layer_norm2.weight", [1280], .float32, [], false⟩,
  ⟨key% "te2.text_model.encoder.layers.0.mlp.fc1.bias", [5120], .float32, [], false⟩,
  ⟨key% "te2.text_model.encoder.layers.0.mlp.fc1.weight", [5120, 1280], .float32, [], false⟩,
  ⟨key% "te2.text_model.encoder.layers.0.mlp.fc2.bias", [1280], .float32, [], false⟩,
  ⟨key% "te2.text_model.encoder.layers.0.mlp.fc2.weight", [1280, 5120], .float32, [], false⟩,
  ⟨key% "te2.text_model.encoder.layers.0.self_attn.k_proj.bias", [1280], .float32, [], false⟩,
  ⟨key% "te2.text_model.encoder.layers.0.self_attn.k_proj.weight", [1280, 1280], .float32, [], false⟩,
  ⟨key% "te2.text_model.encoder.layers.0.self_attn.out_proj.bias", [1280], .float32, [], false⟩,
  ⟨key% "te2.text_model.encoder.layers.0.self_attn.out_proj.weight", [1280, 1280], .float32, [], false⟩,
  ⟨key% "te2.text_model.encoder.layers.0.self_attn.q_proj.bias", [1280], .float32, [], false⟩,
  ⟨key% "te2.text_model.encoder.layers.0.self_attn.q_proj.weight", [1280, 1280], .float32, [], false⟩,
  ⟨key% "te2.text_model.encoder.layers.0.self_attn.v_proj.bias", [1280], .float32, [], false⟩,
  ⟨key% "te2.text_model.encoder.layers.0.self_attn.v_proj.weight", [1280, 1280], .float32, [], false⟩,
  ⟨key% "te2.text_model.encoder.layers.1.layer_norm1.bias", [1280], .float32, [], false⟩,
  ⟨key% "te2.text_model.encoder.layers.1.layer_norm1.weight", [1280], .float32, [], false⟩,
  ⟨key% "te2.text_model.encoder.layers.1.layer_norm2.bias", [1280], .float32, [], false⟩,
  ⟨key% "te2.text_model.encoder.layers.1.layer_norm2.weight", [1280], .float32, [], false⟩,
  ⟨key% "te2.text_model.encoder.layers.1.mlp.fc1.bias", [5120], .float32, [], false⟩,
  ⟨key% "te2.text_model.encoder.layers.1.mlp.fc1.weight", [5120, 1280], .float32, [], false⟩,
  ⟨key% "te2.text_model.encoder.layers.1.mlp.fc2.bias", [1280], .float32, [], false⟩,
  ⟨key% "te2.text_model.encoder.layers.1.mlp.fc2.weight", [1280, 5120], .float32, [], false⟩,
  ⟨key% "te2.text_model.encoder.layers.1.self_attn.k_proj.bias", [1280], .float32, [], false⟩,
  ⟨key% "te2.text_model.encoder.layers.1.self_attn.k_proj.weight", [1280, 1280], .float32, [], false⟩,
  ⟨key% "te2.text_model.encoder.layers.1.self_attn.out_proj.bias", [1280], .float32, [], false⟩,
  ⟨key% "te2.text_model.encoder.layers.1.self_attn.out_proj.weight", [1280, 1280], .float32, [], false⟩,
  ⟨key% "te2.text_model.encoder.layers.1.self_attn.q_proj.bias", [1280], .float32, [], false⟩,
  ⟨key% "te2.text_model.encoder.layers.1.self_attn.q_proj.weight", [1280, 1280], .float32, [], false⟩,
  ⟨key% "te2.text_model.encoder.layers.1.self_attn.v_proj.bias", [1280], .float32, [], false⟩,
  ⟨key% "te2.text_model.encoder.layers.1.self_attn.v_proj.weight", [1280, 1280], .float32, [], false⟩,
  ⟨key% "te2.text_model.encoder.layers.10.layer_norm1.bias", [1280], .float32, [], false⟩,
  ⟨key% "te2.text_model.encoder.layers.10.layer_norm1.weight", [1280], .float32, [], false⟩,
  ⟨key% "te2.text_model.encoder.layers.10.layer_norm2.bias", [1280], .float32, [], false⟩,
  ⟨key% "te2.text_model.encoder.layers.10.layer_norm2.weight", [1280], .float32, [], false⟩,
  ⟨key% "te2.text_model.encoder.layers.10.mlp.fc1.bias", [5120], .float32, [], false⟩,
  ⟨key% "te2.text_model.encoder.layers.10.mlp.fc1.weight", [5120, 1280], .float32, [], false⟩,
  ⟨key% "te2.text_model.encoder.layers.10.mlp.fc2.bias", [1280], .float32, [], false⟩,
  ⟨key% "te2.text_model.encoder.layers.10.mlp.fc2.weight", [1280, 5120], .float32, [], false⟩,
  ⟨key% "te2.text_model.encoder.layers.10.self_attn.k_proj.bias", [1280], .float32, [], false⟩,
  ⟨key% "te2.text_model.encoder.layers.10.self_attn.k_proj.weight", [1280, 1280], .float32, [], false⟩,
  ⟨key% "te2.text_model.encoder.layers.10.self_attn.out_proj.bias", [1280], .float32, [], false⟩,
  ⟨key% "te2.text_model.encoder.layers.10.self_attn.out_proj.weight", [1280, 1280], .float32, [], false⟩,
  ⟨key% "te2.text_model.encoder.layers.10.self_attn.q_proj.bias", [1280], .float32, [], false⟩,
  ⟨key% "te2.text_model.encoder.layers.10.self_attn.q_proj.weight", [1280, 1280], .float32, [], false⟩,
  ⟨key% "te2.text_model.encoder.layers.10.self_attn.v_proj.bias", [1280], .float32, [], false⟩,
  ⟨key% "te2.text_model.encoder.layers.10.self_attn.v_proj.weight", [1280, 1280], .float32, [], false⟩,
  ⟨key% "te2.text_model.encoder.layers.11.layer_norm1.bias", [1280], .float32, [], false⟩,
  ⟨key% "te2.text_model.encoder.layers.11.layer_norm1.weight", [1280], .float32, [], false⟩,
  ⟨key% "te2.text_model.encoder.layers.11.layer_norm2.bias", [1280], .float32, [], false⟩,
  ⟨key% "te2.text_model.encoder.layers.11.layer_norm2.weight", [1280], .float32, [], false⟩,
  ⟨key% "te2.text_model.encoder.layers.11.mlp.fc1.bias", [5120], .float32, [], false⟩,
  ⟨key% "te2.text_model.encoder.layers.11.mlp.fc1.weight", [5120, 1280], .float32, [], false⟩,
  ⟨key% "te2.text_model.encoder.layers.11.mlp.fc2.bias", [1280], .float32, [], false⟩,
  ⟨key% "te2.text_model.encoder.layers.11.mlp.fc2.weight", [1280, 5120], .float32, [], false⟩,
  ⟨key% "te2.text_model.encoder.layers.11.self_attn.k_proj.bias", [1280], .float32, [], false⟩,
  ⟨key% "te2.text_model.encoder.layers.11.self_attn.k_proj.weight", [1280, 1280], .float32, [], false⟩,
  ⟨key% "te2.text_model.encoder.layers.11.self_attn.out_proj.bias", [1280], .float32, [], false⟩,
  ⟨key% "te2.text_model.encoder.layers.11.self_attn.out_proj.weight", [1280, 1280], .float32, [], false⟩,
  ⟨key% "te2.text_model.encoder.layers.11.self_attn.q_proj.bias", [1280], .float32, [], false⟩,
  ⟨key% "te2.text_model.encoder.layers.11.self_attn.q_proj.weight", [1280, 1280], .float32, [], false⟩,
  ⟨key% "te2.text_model.encoder.layers.11.self_attn.v_proj.bias", [1280], .float32, [], false⟩,
  ⟨key% "te2.text_model.encoder.layers.11.self_attn.v_proj.weight", [1280, 1280], .float32, [], false⟩,
  ⟨key% "te2.text_model.encoder.layers.12.layer_norm1.bias", [1280], .float32, [], false⟩,
  ⟨key% "te2.text_model.encoder.layers.12.layer_norm1.weight", [1280], .float32, [], false⟩,
  ⟨key% "te2.text_model.encoder.layers.12.layer_norm2.bias", [1280], .float32, [], false⟩,
  ⟨key% "te2.text_model.encoder.layers.12.layer_norm2.weight", [1280], .float32, [], false⟩,
  ⟨key% "te2.text_model.encoder.layers.12.mlp.fc1.bias", [5120], .float32, [], false⟩,
  ⟨key% "te2.text_model.encoder.layers.12.mlp.fc1.weight", [5120, 1280], .float32, [], false⟩,
  ⟨key% "te2.text_model.encoder.layers.12.mlp.fc2.bias", [1280], .float32, [], false⟩,
  ⟨key% "te2.text_model.encoder.layers.12.mlp.fc2.weight", [1280, 5120], .float32, [], false⟩,
  ⟨key% "te2.text_model.encoder.layers.12.self_attn.k_proj.bias", [1280], .float32, [], false⟩,
  ⟨key% "te2.text_model.encoder.layers.12.self_attn.k_proj.weight", [1280, 1280], .float32, [], false⟩,
  ⟨key% "te2.text_model.encoder.layers.12.self_attn.out_proj.bias", [1280], .float32, [], false⟩,
  ⟨key% "te2.text_model.encoder.layers.12.self_attn.out_proj.weight", [1280, 1280], .float32, [], false⟩,
  ⟨key% "te2.text_model.encoder.layers.12.self_attn.q_proj.bias", [1280], .float32, [], false⟩,
  ⟨key% "te2.text_model.encoder.layers.12.self_attn.q_proj.weight", [1280, 1280], .float32, [], false⟩,
  ⟨key% "te2.text_model.encoder.layers.12.self_attn.v_proj.bias", [1280], .float32, [], false⟩,
  ⟨key% "te2.text_model.encoder.layers.12.self_attn.v_proj.weight", [1280, 1280], .float32, [], false⟩,
  ⟨key% "te2.text_model.encoder.layers.13.layer_norm1.bias", [1280], .float32, [], false⟩,
  ⟨key% "te2.text_model.encoder.layers.13.layer_norm1.weight", [1280], .float32, [], false⟩,
  ⟨key% "te2.text_model.encoder.layers.13.layer_norm2.bias", [1280], .float32, [], false⟩,
  ⟨key% "te2.text_model.encoder.layers.13.layer_norm2.weight", [1280], .float32, [], false⟩,
  ⟨key% "te2.text_model.encoder.layers.13.mlp.fc1.bias", [5120], .float32, [], false⟩,
  ⟨key% "te2.text_model.encoder.layers.13.mlp.fc1.weight", [5120, 1280], .float32, [], false⟩,
  ⟨key% "te2.text_model.encoder.layers.13.mlp.fc2.bias", [1280], .float32, [], false⟩,
  ⟨key% "te2.text_model.encoder.layers.13.mlp.fc2.weight", [1280, 5120], .float32, [], false⟩,
  ⟨key% "te2.text_model.encoder.layers.13.self_attn.k_proj.bias", [1280], .float32, [], false⟩,
  ⟨key% "te2.text_model.encoder.layers.13.self_attn.k_proj.weight", [1280, 1280], .float32, [], false⟩,
  ⟨key% "te2.text_model.encoder.layers.13.self_attn.out_proj.bias", [1280], .float32, [], false⟩,
  ⟨key% "te2.text_model.encoder.layers.13.self_attn.out_proj.weight", [1280, 1280], .float32, [], false⟩,
  ⟨key% "te2.text_model.encoder.layers.13.self_attn.q_proj.bias", [1280], .float32, [], false⟩,
  ⟨key% "te2.text_model.encoder.layers.13.self_attn.q_proj.weight", [1280, 1280], .float32, [], false⟩,
  ⟨key% "te2.text_model.encoder.layers.13.self_attn.v_proj.bias", [1280], .float32, [], false⟩,
  ⟨key% "te2.text_model.encoder.layers.13.self_attn.v_proj.weight", [1280, 1280], .float32, [], false⟩,
  ⟨key% "te2.text_model.encoder.layers.14.layer_norm1.bias", [1280], .float32, [], false⟩,
  ⟨key% "te2.text_model.encoder.layers.14.layer_norm1.weight", [1280], .float32, [], false⟩]
noncomputable def clip_g1 : List Entry := [
  ⟨key% "te2.text_model.encoder.layers.14.layer_norm2.bias", [1280], .float32, [], false⟩,
  ⟨key% "te2.text_model.encoder.layers.14.layer_norm2.weight", [1280], .float32, [], false⟩,
  ⟨key% "te2.text_model.encoder.layers.14.mlp.fc1.bias", [5120], .float32, [], false⟩,
  ⟨key% "te2.text_model.encoder.layers.14.mlp.fc1.weight", [5120, 1280], .float32, [], false⟩,
  ⟨key% "te2.text_model.encoder.layers.14.mlp.fc2.bias", [1280], .float32, [], false⟩,
  ⟨key% "te2.text_model.encoder.layers.14.mlp.fc2.weight", [1280, 5120], .float32, [], false⟩,
  ⟨key% "te2.text_model.encoder.layers.14.self_attn.k_proj.bias", [1280], .float32, [], false⟩,
  ⟨key% "te2.text_model.encoder.layers.14.self_attn.k_proj.weight", [1280, 1280], .float32, [], false⟩,
  ⟨key% "te2.text_model.encoder.layers.14.self_attn.out_proj.bias", [1280], .float32, [], false⟩,
  ⟨key% "te2.text_model.encoder.layers.14.self_attn.out_proj.weight", [1280, 1280], .float32, [], false⟩,
  ⟨key% "te2.text_model.encoder.layers.14.self_attn.q_proj.bias", [1280], .float32, [], false⟩,
  ⟨key% "te2.text_model.encoder.layers.14.self_attn.q_proj.weight", [1280, 1280], .float32, [], false⟩,
  ⟨key% "te2.text_model.encoder.layers.14.self_attn.v_proj.bias", [1280], .float32, [], false⟩,
  ⟨key% "te2.text_model.encoder.layers.14.self_attn.v_proj.weight", [1280, 1280], .float32, [], false⟩,
  ⟨key% "te2.text_model.encoder.layers.15.layer_norm1.bias", [1280], .float32, [], false⟩,
  ⟨key% "te2.text_model.encoder.layers.15.layer_norm1.weight", [1280], .float32, [], false⟩,
  ⟨key% "te2.text_model.encoder.layers.15.layer_norm2.bias", [1280], .float32, [], false⟩,
  ⟨key% "te2.text_model.encoder.layers.15.layer_norm2.weight", [1280], .float32, [], false⟩,
  ⟨key% "te2.text_model.encoder.layers.15.mlp.fc1.bias", [5120], .float32, [], false⟩,
  ⟨key% "te2.text_model.encoder.layers.15.mlp.fc1.weight", [5120, 1280], .float32, [], false⟩,
  ⟨key% "te2.text_model.encoder.layers.15.mlp.fc2.bias", [1280], .float32, [], false⟩,
  ⟨key% "te2.text_model.encoder.layers.15.mlp.fc2.weight", [1280, 5120], .float32, [], false⟩,
  ⟨key% "te2.text_model.encoder.layers.15.self_attn.k_proj.bias", [1280], .float32, [], false⟩,
  ⟨key% "te2.text_model.encoder.layers.15.self_attn.k_proj.weight", [1280, 1280], .float32, [], false⟩,
  ⟨key% "te2.text_model.encoder.layers.15.self_attn.out_proj.bias", [1280], .float32, [], false⟩,
  ⟨key% "te2.text_model.encoder.layers.15.self_attn.out_proj.weight", [1280, 1280], .float32, [], false⟩,
  ⟨key% "te2.text_model.encoder.layers.15.self_attn.q_proj.bias", [1280], .float32, [], false⟩,
  ⟨key% "te2.text_model.encoder.layers.15.self_attn.q_proj.weight", [1280, 1280], .float32, [], false⟩,
  ⟨key% "te2.text_model.encoder.layers.15.self_attn.v_proj.bias", [1280], .float32, [], false⟩,
  ⟨key% "te2.text_model.encoder.layers.15.self_attn.v_proj.weight", [1280, 1280], .float32, [], false⟩,
  ⟨key% "te2.text_model.encoder.layers.16.layer_norm1.bias", [1280], .float32, [], false⟩,
  ⟨key% "te2.text_model.encoder.layers.16.layer_norm1.weight", [1280], .float32, [], false⟩,
  ⟨key% "te2.text_model.encoder.layers.16.layer_norm2.bias", [1280], .float32, [], false⟩,
  ⟨key% "te2.text_model.encoder.layers.16.layer_norm2.weight", [1280], .float32, [], false⟩,
  ⟨key% "te2.text_model.encoder.layers.16.mlp.fc1.bias", [5120], .float32, [], false⟩,
  ⟨key% "te2.text_model.encoder.layers.16.mlp.fc1.weight", [5120, 1280], .float32, [], false⟩,
  ⟨key% "te2.text_model.encoder.layers.16.mlp.fc2.bias", [1280], .float32, [], false⟩,
  ⟨key% "te2.text_model.encoder.layers.16.mlp.fc2.weight", [1280, 5120], .float32, [], false⟩,
  ⟨key% "te2.text_model.encoder.layers.16.self_attn.k_proj.bias", [1280], .float32, [], false⟩,
  ⟨key% "te2.text_model.encoder.layers.16.self_attn.k_proj.weight", [1280, 1280], .float32, [], false⟩,
  ⟨key% "te2.text_model.encoder.layers.16.self_attn.out_proj.bias", [1280], .float32, [], false⟩,
  ⟨key% "te2.text_model.encoder.layers.16.self_attn.out_proj.weight", [1280, 1280], .float32, [], false⟩,
  ⟨key% "te2.text_model.encoder.layers.16.self_attn.q_proj.bias", [1280], .float32, [], false⟩,
  ⟨key% "te2.text_model.encoder.layers.16.self_attn.q_proj.weight", [1280, 1280], .float32, [], false⟩,
  ⟨key% "te2.text_model.encoder.layers.16.self_attn.v_proj.bias", [1280], .float32, [], false⟩,
  ⟨key% "te2.text_model.encoder.layers.16.self_attn.v_proj.weight", [1280, 1280], .float32, [], false⟩,
  ⟨key% "te2.text_model.encoder.layers.17.layer_norm1.bias", [1280], .float32, [], false⟩,
  ⟨key% "te2.text_model.encoder.layers.17.layer_norm1.weight", [1280], .float32, [], false⟩,
  ⟨key% "te2.text_model.encoder.layers.17.layer_norm2.bias", [1280], .float32, [], false⟩,
  ⟨key% "te2.text_model.encoder.layers.17.layer_norm2.weight", [1280], .float32, [], false⟩,
  ⟨key% "te2.text_model.encoder.layers.17.mlp.fc1.bias", [5120], .float32, [], false⟩,
  ⟨key% "te2.text_model.encoder.layers.17.mlp.fc1.weight", [5120, 1280], .float32, [], false⟩,
  ⟨key% "te2.text_model.encoder.layers.17.mlp.fc2.bias", [1280], .float32, [], false⟩,
  ⟨key% "te2.text_model.encoder.layers.17.mlp.fc2.weight", [1280, 5120], .float32, [], false⟩,
  ⟨key% "te2.text_model.encoder.layers.17.self_attn.k_proj.bias", [1280], .float32, [], false⟩,
  ⟨key% "te2.text_model.encoder.layers.17.self_attn.k_proj.weight", [1280, 1280], .float32, [], false⟩,
  ⟨key% "te2.text_model.encoder.layers.17.self_attn.out_proj.bias", [1280], .float32, [], false⟩,
  ⟨key% "te2.text_model.encoder.layers.17.self_attn.out_proj.weight", [1280, 1280], .float32, [], false⟩,
  ⟨key% "te2.text_model.encoder.layers.17.self_attn.q_proj.bias", [1280], .float32, [], false⟩,
  ⟨key% "te2.text_model.encoder.layers.17.self_attn.q_proj.weight", [1280, 1280], .float32, [], false⟩,
  ⟨key% "te2.text_model.encoder.layers.17.self_attn.v_proj.bias", [1280], .float32, [], false⟩,
  ⟨key% "te2.text_model.encoder.layers.17.self_attn.v_proj.weight", [1280, 1280], .float32, [], false⟩,
  ⟨key% "te2.text_model.encoder.layers.18.layer_norm1.bias", [1280], .float32, [], false⟩,
  ⟨key% "te2.text_model.encoder.layers.18.layer_norm1.weight", [1280], .float32, [], false⟩,
  ⟨key% "te2.text_model.encoder.layers.18.layer_norm2.bias", [1280], .float32, [], false⟩,
  ⟨key% "te2.text_model.encoder.layers.18.layer_norm2.weight", [1280], .float32, [], false⟩,
  ⟨key% "te2.text_model.encoder.layers.18.mlp.fc1.bias", [5120], .float32, [], false⟩,
  ⟨key% "te2.text_model.encoder.layers.18.mlp.fc1.weight", [5120, 1280], .float32, [], false⟩,
  ⟨key% "te2.text_model.encoder.layers.18.mlp.fc2.bias", [1280], .float32, [], false⟩,
  ⟨key% "te2.text_model.encoder.layers.18.mlp.fc2.weight", [1280, 5120], .float32, [], false⟩,
  ⟨key% "te2.text_model.encoder.layers.18.self_attn.k_proj.bias", [1280], .float32, [], false⟩,
  ⟨key% "te2.text_model.encoder.layers.18.self_attn.k_proj.weight", [1280, 1280], .float32, [], false⟩,
  ⟨key% "te2.text_model.encoder.layers.18.self_attn.out_proj.bias", [1280], .float32, [], false⟩,
  ⟨key% "te2.text_model.encoder.layers.18.self_attn.out_proj.weight", [1280, 1280], .float32, [], false⟩,
  ⟨key% "te2.text_model.encoder.layers.18.self_attn.q_proj.bias", [1280], .float32, [], false⟩,
  ⟨key% "te2.text_model.encoder.layers.18.self_attn.q_proj.weight", [1280, 1280], .float32, [], false⟩,
  ⟨key% "te2.text_model.encoder.layers.18.self_attn.v_proj.bias", [1280], .float32, [], false⟩,
  ⟨key% "te2.text_model.encoder.layers.18.self_attn.v_proj.weight", [1280, 1280], .float32, [], false⟩,
  ⟨key% "te2.text_model.encoder.layers.19.layer_norm1.bias", [1280], .float32, [], false⟩,
  ⟨key% "te2.text_model.encoder.layers.19.layer_norm1.weight", [1280], .float32, [], false⟩,
  ⟨key% "te2.text_model.encoder.layers.19.layer_norm2.bias", [1280], .float32, [], false⟩,
  ⟨key% "te2.text_model.encoder.layers.19.layer_norm2.weight", [1280], .float32, [], false⟩,
  ⟨key% "te2.text_model.encoder.layers.19.mlp.fc1.bias", [5120], .float32, [], false⟩,
  ⟨key% "te2.text_model.encoder.layers.19.mlp.fc1.weight", [5120, 1280], .float32, [], false⟩,
  ⟨key% "te2.text_model.encoder.layers.19.mlp.fc2.bias", [1280], .float32, [], false⟩,
  ⟨key% "te2.text_model.encoder.layers.19.mlp.fc2.weight", [1280, 5120], .float32, [], false⟩,
  ⟨key% "te2.text_model.encoder.layers.19.self_attn.k_proj.bias", [1280], .float32, [], false⟩,
  ⟨key% "te2.text_model.encoder.layers.19.self_attn.k_proj.weight", [1280, 1280], .float32, [], false⟩,
  ⟨key% "te2.text_model.encoder.layers.19.self_attn.out_proj.bias", [1280], .float32, [], false⟩,
  ⟨key% "te2.text_model.encoder.layers.19.self_attn.out_proj.weight", [1280, 1280], .float32, [], false⟩,
  ⟨key% "te2.text_model.encoder.layers.19.self_attn.q_proj.bias", [1280], .float32, [], false⟩,
  ⟨key% "te2.text_model.encoder.layers.19.self_attn.q_proj.weight", [1280, 1280], .float32, [], false⟩,
  ⟨key% "te2.text_model.encoder.layers.19.self_attn.v_proj.bias", [1280], .float32, [], false⟩,
  ⟨key% "te2.text_model.encoder.layers.19.self_attn.v_proj.weight", [1280, 1280], .float32, [], false⟩,
  ⟨key% "te2.text_model.encoder.layers.2.layer_norm1.bias", [1280], .float32, [], false⟩,
  ⟨key% "te2.text_model.encoder.layers.2.layer_norm1.weight", [1280], .float32, [], false⟩,
  ⟨key% "te2.text_model.encoder.layers.2.layer_norm2.bias", [1280], .float32, [], false⟩,
  ⟨key% "te2.text_model.encoder.layers.2.layer_norm2.weight", [1280], .float32, [], false⟩,
  ⟨key% "te2.text_model.encoder.layers.2.mlp.fc1.bias", [5120], .float32, [], false⟩,
  ⟨key% "te2.text_model.encoder.layers.2.mlp.fc1.weight", [5120, 1280], .float32, [], false⟩]
noncomputable def clip_g2 : List Entry := [
  ⟨key% "te2.text_model.encoder.layers.2.mlp.fc2.bias", [1280], .float32, [], false⟩,
  ⟨key% "te2.text_model.encoder.layers.2.mlp.fc2.weight", [1280, 5120], .float32, [], false⟩,
  ⟨key% "te2.text_model.encoder.layers.2.self_attn.k_proj.bias", [1280], .float32, [], false⟩,
  ⟨key% "te2.text_model.encoder.layers.2.self_attn.k_proj.weight", [1280, 1280], .float32, [], false⟩,
  ⟨key% "te2.text_model.encoder.layers.2.self_attn.out_proj.bias", [1280], .float32, [], false⟩,
  ⟨key% "te2.text_model.encoder.layers.2.self_attn.out_proj.weight", [1280, 1280], .float32, [], false⟩,
  ⟨key% "te2.text_model.encoder.layers.2.self_attn.q_proj.bias", [1280], .float32, [], false⟩,
  ⟨key% "te2.text_model.encoder.layers.2.self_attn.q_proj.weight", [1280, 1280], .float32, [], false⟩,
  ⟨key% "te2.text_model.encoder.layers.2.self_attn.v_proj.bias", [1280], .float32, [], false⟩,
  ⟨key% "te2.text_model.encoder.layers.2.self_attn.v_proj.weight", [1280, 1280], .float32, [], false⟩,
  ⟨key% "te2.text_model.encoder.layers.20.layer_norm1.bias", [1280], .float32, [], false⟩,
  ⟨key% "te2.text_model.encoder.layers.20.layer_norm1.weight", [1280], .float32, [], false⟩,
  ⟨key% "te2.text_model.encoder.layers.20.layer_norm2.bias", [1280], .float32, [], false⟩,
  ⟨key% "te2.text_model.encoder.layers.20.layer_norm2.weight", [1280], .float32, [], false⟩,
  ⟨key% "te2.text_model.encoder.layers.20.mlp.fc1.bias", [5120], .float32, [], false⟩,
  ⟨key% "te2.text_model.encoder.layers.20.mlp.fc1.weight", [5120, 1280], .float32, [], false⟩,
  ⟨key% "te2.text_model.encoder.layers.20.mlp.fc2.bias", [1280], .float32, [], false⟩,
  ⟨key% "te2.text_model.encoder.layers.20.mlp.fc2.weight", [1280, 5120], .float32, [], false⟩,
  ⟨key% "te2.text_model.encoder.layers.20.self_attn.k_proj.bias", [1280], .float32, [], false⟩,
  ⟨key% "te2.text_model.encoder.layers.20.self_attn.k_proj.weight", [1280, 1280], .float32, [], false⟩,
  ⟨key% "te2.text_model.encoder.layers.20.self_attn.out_proj.bias", [1280], .float32, [], false⟩,
  ⟨key% "te2.text_model.encoder.layers.20.self_attn.out_proj.weight", [1280, 1280], .float32, [], false⟩,
  ⟨key% "te2.text_model.encoder.layers.20.self_attn.q_proj.bias", [1280], .float32, [], false⟩,
  ⟨key% "te2.text_model.encoder.layers.20.self_attn.q_proj.weight", [1280, 1280], .float32, [], false⟩,
  ⟨key% "te2.text_model.encoder.layers.20.self_attn.v_proj.bias", [1280], .float32, [], false⟩,
  ⟨key% "te2.text_model.encoder.layers.20.self_attn.v_proj.weight", [1280, 1280], .float32, [], false⟩,
  ⟨key% "te2.text_model.encoder.layers.21.layer_norm1.bias", [1280], .float32, [], false⟩,
  ⟨key% "te2.text_model.encoder.layers.21.layer_norm1.weight", [1280], .float32, [], false⟩,
  ⟨key% "te2.text_model.encoder.layers.21.layer_norm2.bias", [1280], .float32, [], false⟩,
  ⟨key% "te2.text_model.encoder.layers.21.layer_norm2.weight", [1280], .float32, [], false⟩,
  ⟨key% "te2.text_model.encoder.layers.21.mlp.fc1.bias", [5120], .float32, [], false⟩,
  ⟨key% "te2.text_model.encoder.layers.21.mlp.fc1.weight", [5120, 1280], .float32, [], false⟩,
  ⟨key% "te2.text_model.encoder.layers.21.mlp.fc2.bias", [1280], .float32, [], false⟩,
  ⟨key% "te2.text_model.encoder.layers.21.mlp.fc2.weight", [1280, 5120], .float32, [], false⟩,
  ⟨key% "te2.text_model.encoder.layers.21.self_attn.k_proj.bias", [1280], .float32, [], false⟩,
  ⟨key% "te2.text_model.encoder.layers.21.self_attn.k_proj.weight", [1280, 1280], .float32, [], false⟩,
  ⟨key% "te2.text_model.encoder.layers.21.self_attn.out_proj.bias", [1280], .float32, [], false⟩,
  ⟨key% "te2.text_model.encoder.layers.21.self_attn.out_proj.weight", [1280, 1280], .float32, [], false⟩,
  ⟨key% "te2.text_model.encoder.layers.21.self_attn.q_proj.bias", [1280], .float32, [], false⟩,
  ⟨key% "te2.text_model.encoder.layers.21.self_attn.q_proj.weight", [1280, 1280], .float32, [], false⟩,
  ⟨key% "te2.text_model.encoder.layers.21.self_attn.v_proj.bias", [1280], .float32, [], false⟩,
  ⟨key% "te2.text_model.encoder.layers.21.self_attn.v_proj.weight", [1280, 1280], .float32, [], false⟩,
  ⟨key% "te2.text_model.encoder.layers.22.layer_norm1.bias", [1280], .float32, [], false⟩,
  ⟨key% "te2.text_model.encoder.layers.22.layer_norm1.weight", [1280], .float32, [], false⟩,
  ⟨key% "te2.text_model.encoder.layers.22.layer_norm2.bias", [1280], .float32, [], false⟩,
  ⟨key% "te2.text_model.encoder.layers.22.layer_norm2.weight", [1280], .float32, [], false⟩,
  ⟨key% "te2.text_model.encoder.layers.22.mlp.fc1.bias", [5120], .float32, [], false⟩,
  ⟨key% "te2.text_model.encoder.layers.22.mlp.fc1.weight", [5120, 1280], .float32, [], false⟩,
  ⟨key% "te2.text_model.encoder.layers.22.mlp.fc2.bias", [1280], .float32, [], false⟩,
  ⟨key% "te2.text_model.encoder.layers.22.mlp.fc2.weight", [1280, 5120], .float32, [], false⟩,
  ⟨key% "te2.text_model.encoder.layers.22.self_attn.k_proj.bias", [1280], .float32, [], false⟩,
  ⟨key% "te2.text_model.encoder.layers.22.self_attn.k_proj.weight", [1280, 1280], .float32, [], false⟩,
  ⟨key% "te2.text_model.encoder.layers.22.self_attn.out_proj.bias", [1280], .float32, [], false⟩,
  ⟨key% "te2.text_model.encoder.layers.22.self_attn.out_proj.weight", [1280, 1280], .float32, [], false⟩,
  ⟨key% "te2.text_model.encoder.layers.22.self_attn.q_proj.bias", [1280], .float32, [], false⟩,
  ⟨key% "te2.text_model.encoder.layers.22.self_attn.q_proj.weight", [1280, 1280], .float32, [], false⟩,
  ⟨key% "te2.text_model.encoder.layers.22.self_attn.v_proj.bias", [1280], .float32, [], false⟩,
  ⟨key% "te2.text_model.encoder.layers.22.self_attn.v_proj.weight", [1280, 1280], .float32, [], false⟩,
  ⟨key% "te2.text_model.encoder.layers.23.layer_norm1.bias", [1280], .float32, [], false⟩,
  ⟨key% "te2.text_model.encoder.layers.23.layer_norm1.weight", [1280], .float32, [], false⟩,
  ⟨key% "te2.text_model.encoder.layers.23.layer_norm2.bias", [1280], .float32, [], false⟩,
  ⟨key% "te2.text_model.encoder.layers.23.layer_norm2.weight", [1280], .float32, [], false⟩,
  ⟨key% "te2.text_model.encoder.layers.23.mlp.fc1.bias", [5120], .float32, [], false⟩,
  ⟨key% "te2.text_model.encoder.layers.23.mlp.fc1.weight", [5120, 1280], .float32, [], false⟩,
  ⟨key% "te2.text_model.encoder.layers.23.mlp.fc2.bias", [1280], .float32, [], false⟩,
  ⟨key% "te2.text_model.encoder.layers.23.mlp.fc2.weight", [1280, 5120], .float32, [], false⟩,
  ⟨key% "te2.text_model.encoder.layers.23.self_attn.k_proj.bias", [1280], .float32, [], false⟩,
  ⟨key% "te2.text_model.encoder.layers.23.self_attn.k_proj.weight", [1280, 1280], .float32, [], false⟩,
  ⟨key% "te2.text_model.encoder.layers.23.self_attn.out_proj.bias", [1280], .float32, [], false⟩,
  ⟨key% "te2.text_model.encoder.layers.23.self_attn.out_proj.weight", [1280, 1280], .float32, [], false⟩,
  ⟨key% "te2.text_model.encoder.layers.23.self_attn.q_proj.bias", [1280], .float32, [], false⟩,
  ⟨key% "te2.text_model.encoder.layers.23.self_attn.q_proj.weight", [1280, 1280], .float32, [], false⟩,
  ⟨key% "te2.text_model.encoder.layers.23.self_attn.v_proj.bias", [1280], .float32, [], false⟩,
  ⟨key% "te2.text_model.encoder.layers.23.self_attn.v_proj.weight", [1280, 1280], .float32, [], false⟩,
  ⟨key% "te2.text_model.encoder.layers.24.layer_norm1.bias", [1280], .float32, [], false⟩,
  ⟨key% "te2.text_model.encoder.layers.24.layer_norm1.weight", [1280], .float32, [], false⟩,
  ⟨key% "te2.text_model.encoder.layers.24.layer_norm2.bias", [1280], .float32, [], false⟩,
  ⟨key% "te2.text_model.encoder.layers.24.layer_norm2.weight", [1280], .float32, [], false⟩,
  ⟨key% "te2.text_model.encoder.layers.24.mlp.fc1.bias", [5120], .float32, [], false⟩,
  ⟨key% "te2.text_model.encoder.layers.24.mlp.fc1.weight", [5120, 1280], .float32, [], false⟩,
  ⟨key% "te2.text_model.encoder.layers.24.mlp.fc2.bias", [1280], .float32, [], false⟩,
  ⟨key% "te2.text_model.encoder.layers.24.mlp.fc2.weight", [1280, 5120], .float32, [], false⟩,
  ⟨key% "te2.text_model.encoder.layers.24.self_attn.k_proj.bias", [1280], .float32, [], false⟩,
  ⟨key% "te2.text_model.encoder.layers.24.self_attn.k_proj.weight", [1280, 1280], .float32, [], false⟩,
  ⟨key% "te2.text_model.encoder.layers.24.self_attn.out_proj.bias", [1280], .float32, [], false⟩,
  ⟨key% "te2.text_model.encoder.layers.24.self_attn.out_proj.weight", [1280, 1280], .float32, [], false⟩,
  ⟨key% "te2.text_model.encoder.layers.24.self_attn.q_proj.bias", [1280], .float32, [], false⟩,
  ⟨key% "te2.text_model.encoder.layers.24.self_attn.q_proj.weight", [1280, 1280], .float32, [], false⟩,
  ⟨key% "te2.text_model.encoder.layers.24.self_attn.v_proj.bias", [1280], .float32, [], false⟩,
  ⟨key% "te2.text_model.encoder.layers.24.self_attn.v_proj.weight", [1280, 1280], .float32, [], false⟩,
  ⟨key% "te2.text_model.encoder.layers.25.layer_norm1.bias", [1280], .float32, [], false⟩,
  ⟨key% "te2.text_model.encoder.layers.25.layer_norm1.weight", [1280], .float32, [], false⟩,
  ⟨key% "te2.text_model.encoder.layers.25.layer_norm2.bias", [1280], .float32, [], false⟩,
  ⟨key% "te2.text_model.encoder.layers.25.layer_norm2.weight", [1280], .float32, [], false⟩,
  ⟨key% "te2.text_model.encoder.layers.25.mlp.fc1.bias", [5120], .float32, [], false⟩,
  ⟨key% "te2.text_model.encoder.layers.25.mlp.fc1.weight", [5120, 1280], .float32, [], false⟩,
  ⟨key% "te2.text_model.encoder.layers.25.mlp.fc2.bias", [1280], .float32, [], false⟩,
  ⟨key% "te2.text_model.encoder.layers.25.mlp.fc2.weight", [1280, 5120], .float32, [], false⟩,
  ⟨key% "te2.text_model.encoder.layers.25.self_attn.k_proj.bias", [1280], .float32, [], false⟩,
  ⟨key% "te2.text_model.encoder.layers.25.self_attn.k_proj.weight", [1280, 1280], .float32, [], false⟩]
noncomputable def clip_g3 : List Entry := [
  ⟨key% "te2.text_model.encoder.layers.25.self_attn.out_proj.bias", [1280], .float32, [], false⟩,
  ⟨key% "te2.text_model.encoder.layers.25.self_attn.out_proj.weight", [1280, 1280], .float32, [], false⟩,
  ⟨key% "te2.text_model.encoder.layers.25.self_attn.q_proj.bias", [1280], .float32, [], false⟩,
  ⟨key% "te2.text_model.encoder.layers.25.self_attn.q_proj.weight", [1280, 1280], .float32, [], false⟩,
  ⟨key% "te2.text_model.encoder.layers.25.self_attn.v_proj.bias", [1280], .float32, [], false⟩,
  ⟨key% "te2.text_model.encoder.layers.25.self_attn.v_proj.weight", [1280, 1280], .float32, [], false⟩,
  ⟨key% "te2.text_model.encoder.layers.26.layer_norm1.bias", [1280], .float32, [], false⟩,
  ⟨key% "te2.text_model.encoder.layers.26.layer_norm1.weight", [1280], .float32, [], false⟩,
  ⟨key% "te2.text_model.encoder.layers.26.layer_norm2.bias", [1280], .float32, [], false⟩,
  ⟨key% "te2.text_model.encoder.layers.26.layer_norm2.weight", [1280], .float32, [], false⟩,
  ⟨key% "te2.text_model.encoder.layers.26.mlp.fc1.bias", [5120], .float32, [], false⟩,
  ⟨key% "te2.text_model.encoder.layers.26.mlp.fc1.weight", [5120, 1280], .float32, [], false⟩,
  ⟨key% "te2.text_model.encoder.layers.26.mlp.fc2.bias", [1280], .float32, [], false⟩,
  ⟨key% "te2.text_model.encoder.layers.26.mlp.fc2.weight", [1280, 5120], .float32, [], false⟩,
  ⟨key% "te2.text_model.encoder.layers.26.self_attn.k_proj.bias", [1280], .float32, [], false⟩,
  ⟨key% "te2.text_model.encoder.layers.26.self_attn.k_proj.weight", [1280, 1280], .float32, [], false⟩,
  ⟨key% "te2.text_model.encoder.layers.26.self_attn.out_proj.bias", [1280], .float32, [], false⟩,
  ⟨key% "te2.text_model.encoder.layers.26.self_attn.out_proj.weight", [1280, 1280], .float32, [], false⟩,
  ⟨key% "te2.text_model.encoder.layers.26.self_attn.q_proj.bias", [1280], .float32, [], false⟩,
  ⟨key% "te2.text_model.encoder.layers.26.self_attn.q_proj.weight", [1280, 1280], .float32, [], false⟩,
  ⟨key% "te2.text_model.encoder.layers.26.self_attn.v_proj.bias", [1280], .float32, [], false⟩,
  ⟨key% "te2.text_model.encoder.layers.26.self_attn.v_proj.weight", [1280, 1280], .float32, [], false⟩,
  ⟨key% "te2.text_model.encoder.layers.27.layer_norm1.bias", [1280], .float32, [], false⟩,
  ⟨key% "te2.text_model.encoder.layers.27.layer_norm1.weight", [1280], .float32, [], false⟩,
  ⟨key% "te2.text_model.encoder.layers.27.layer_norm2.bias", [1280], .float32, [], false⟩,
  ⟨key% "te2.text_model.encoder.layers.27.layer_norm2.weight", [1280], .float32, [], false⟩,
  ⟨key% "te2.text_model.encoder.layers.27.mlp.fc1.bias", [5120], .float32, [], false⟩,
  ⟨key% "te2.text_model.encoder.layers.27.mlp.fc1.weight", [5120, 1280], .float32, [], false⟩,
  ⟨key% "te2.text_model.encoder.layers.27.mlp.fc2.bias", [1280], .float32, [], false⟩,
  ⟨key% "te2.text_model.encoder.layers.27.mlp.fc2.weight", [1280, 5120], .float32, [], false⟩,
  ⟨key% "te2.text_model.encoder.layers.27.self_attn.k_proj.bias", [1280], .float32, [], false⟩,
  ⟨key% "te2.text_model.encoder.layers.27.self_attn.k_proj.weight", [1280, 1280], .float32, [], false⟩,
  ⟨key% "te2.text_model.encoder.layers.27.self_attn.out_proj.bias", [1280], .float32, [], false⟩,
  ⟨key% "te2.text_model.encoder.layers.27.self_attn.out_proj.weight", [1280, 1280], .float32, [], false⟩,
  ⟨key% "te2.text_model.encoder.layers.27.self_attn.q_proj.bias", [1280], .float32, [], false⟩,
  ⟨key% "te2.text_model.encoder.layers.27.self_attn.q_proj.weight", [1280, 1280], .float32, [], false⟩,
  ⟨key% "te2.text_model.encoder.layers.27.self_attn.v_proj.bias", [1280], .float32, [], false⟩,
  ⟨key% "te2.text_model.encoder.layers.27.self_attn.v_proj.weight", [1280, 1280], .float32, [], false⟩,
  ⟨key% "te2.text_model.encoder.layers.28.layer_norm1.bias", [1280], .float32, [], false⟩,
  ⟨key% "te2.text_model.encoder.layers.28.layer_norm1.weight", [1280], .float32, [], false⟩,
  ⟨key% "te2.text_model.encoder.layers.28.layer_norm2.bias", [1280], .float32, [], false⟩,
  ⟨key% "te2.text_model.encoder.layers.28.layer_norm2.weight", [1280], .float32, [], false⟩,
  ⟨key% "te2.text_model.encoder.layers.28.mlp.fc1.bias", [5120], .float32, [], false⟩,
  ⟨key% "te2.text_model.encoder.layers.28.mlp.fc1.weight", [5120, 1280], .float32, [], false⟩,
  ⟨key% "te2.text_model.encoder.layers.28.mlp.fc2.bias", [1280], .float32, [], false⟩,
  ⟨key% "te2.text_model.encoder.layers.28.mlp.fc2.weight", [1280, 5120], .float32, [], false⟩,
  ⟨key% "te2.text_model.encoder.layers.28.self_attn.k_proj.bias", [1280], .float32, [], false⟩,
  ⟨key% "te2.text_model.encoder.layers.28.self_attn.k_proj.weight", [1280, 1280], .float32, [], false⟩,
  ⟨key% "te2.text_model.encoder.layers.28.self_attn.out_proj.bias", [1280], .float32, [], false⟩,
  ⟨key% "te2.text_model.encoder.layers.28.self_attn.out_proj.weight", [1280, 1280], .float32, [], false⟩,
  ⟨key% "te2.text_model.encoder.layers.28.self_attn.q_proj.bias", [1280], .float32, [], false⟩,
  ⟨key% "te2.text_model.encoder.layers.28.self_attn.q_proj.weight", [1280, 1280], .float32, [], false⟩,
  ⟨key% "te2.text_model.encoder.layers.28.self_attn.v_proj.bias", [1280], .float32, [], false⟩,
  ⟨key% "te2.text_model.encoder.layers.28.self_attn.v_proj.weight", [1280, 1280], .float32, [], false⟩,
  ⟨key% "te2.text_model.encoder.layers.29.layer_norm1.bias", [1280], .float32, [], false⟩,
  ⟨key% "te2.text_model.encoder.layers.29.layer_norm1.weight", [1280], .float32, [], false⟩,
  ⟨key% "te2.text_model.encoder.layers.29.layer_norm2.bias", [1280], .float32, [], false⟩,
  ⟨key% "te2.text_model.encoder.layers.29.layer_norm2.weight", [1280], .float32, [], false⟩,
  ⟨key% "te2.text_model.encoder.layers.29.mlp.fc1.bias", [5120], .float32, [], false⟩,
  ⟨key% "te2.text_model.encoder.layers.29.mlp.fc1.weight", [5120, 1280], .float32, [], false⟩,
  ⟨key% "te2.text_model.encoder.layers.29.mlp.fc2.bias", [1280], .float32, [], false⟩,
  ⟨key% "te2.text_model.encoder.layers.29.mlp.fc2.weight", [1280, 5120], .float32, [], false⟩,
  ⟨key% "te2.text_model.encoder.layers.29.self_attn.k_proj.bias", [1280], .float32, [], false⟩,
  ⟨key% "te2.text_model.encoder.layers.29.self_attn.k_proj.weight", [1280, 1280], .float32, [], false⟩,
  ⟨key% "te2.text_model.encoder.layers.29.self_attn.out_proj.bias", [1280], .float32, [], false⟩,
  ⟨key% "te2.text_model.encoder.layers.29.self_attn.out_proj.weight", [1280, 1280], .float32, [], false⟩,
  ⟨key% "te2.text_model.encoder.layers.29.self_attn.q_proj.bias", [1280], .float32, [], false⟩,
  ⟨key% "te2.text_model.encoder.layers.29.self_attn.q_proj.weight", [1280, 1280], .float32, [], false⟩,
  ⟨key% "te2.text_model.encoder.layers.29.self_attn.v_proj.bias", [1280], .float32, [], false⟩,
  ⟨key% "te2.text_model.encoder.layers.29.self_attn.v_proj.weight", [1280, 1280], .float32, [], false⟩,
  ⟨key% "te2.text_model.encoder.layers.3.layer_norm1.bias", [1280], .float32, [], false⟩,
  ⟨key% "te2.text_model.encoder.layers.3.layer_norm1.weight", [1280], .float32, [], false⟩,
  ⟨key% "te2.text_model.encoder.layers.3.layer_norm2.bias", [1280], .float32, [], false⟩,
  ⟨key% "te2.text_model.encoder.layers.3.layer_norm2.weight", [1280], .float32, [], false⟩,
  ⟨key% "te2.text_model.encoder.layers.3.mlp.fc1.bias", [5120], .float32, [], false⟩,
  ⟨key% "te2.text_model.encoder.layers.3.mlp.fc1.weight", [5120, 1280], .float32, [], false⟩,
  ⟨key% "te2.text_model.encoder.layers.3.mlp.fc2.bias", [1280], .float32, [], false⟩,
  ⟨key% "te2.text_model.encoder.layers.3.mlp.fc2.weight", [1280, 5120], .float32, [], false⟩,
  ⟨key% "te2.text_model.encoder.layers.3.self_attn.k_proj.bias", [1280], .float32, [], false⟩,
  ⟨key% "te2.text_model.encoder.layers.3.self_attn.k_proj.weight", [1280, 1280], .float32, [], false⟩,
  ⟨key% "te2.text_model.encoder.layers.3.self_attn.out_proj.bias", [1280], .float32, [], false⟩,
  ⟨key% "te2.text_model.encoder.layers.3.self_attn.out_proj.weight", [1280, 1280], .float32, [], false⟩,
  ⟨key% "te2.text_model.encoder.layers.3.self_attn.q_proj.bias", [1280], .float32, [], false⟩,
  ⟨key% "te2.text_model.encoder.layers.3.self_attn.q_proj.weight", [1280, 1280], .float32, [], false⟩,
  ⟨key% "te2.text_model.encoder.layers.3.self_attn.v_proj.bias", [1280], .float32, [], false⟩,
  ⟨key% "te2.text_model.encoder.layers.3.self_attn.v_proj.weight", [1280, 1280], .float32, [], false⟩,
  ⟨key% "te2.text_model.encoder.layers.30.layer_norm1.bias", [1280], .float32, [], false⟩,
  ⟨key% "te2.text_model.encoder.layers.30.layer_norm1.weight", [1280], .float32, [], false⟩,
  ⟨key% "te2.text_model.encoder.layers.30.layer_norm2.bias", [1280], .float32, [], false⟩,
  ⟨key% "te2.text_model.encoder.layers.30.layer_norm2.weight", [1280], .float32, [], false⟩,
  ⟨key% "te2.text_model.encoder.layers.30.mlp.fc1.bias", [5120], .float32, [], false⟩,
  ⟨key% "te2.text_model.encoder.layers.30.mlp.fc1.weight", [5120, 1280], .float32, [], false⟩,
  ⟨key% "te2.text_model.encoder.layers.30.mlp.fc2.bias", [1280], .float32, [], false⟩,
  ⟨key% "te2.text_model.encoder.layers.30.mlp.fc2.weight", [1280, 5120], .float32, [], false⟩,
  ⟨key% "te2.text_model.encoder.layers.30.self_attn.k_proj.bias", [1280], .float32, [], false⟩,
  ⟨key% "te2.text_model.encoder.layers.30.self_attn.k_proj.weight", [1280, 1280], .float32, [], false⟩,
  ⟨key% "te2.text_model.encoder.layers.30.self_attn.out_proj.bias", [1280], .float32, [], false⟩,
  ⟨key% "te2.text_model.encoder.layers.30.self_attn.out_proj.weight", [1280, 1280], .float32, [], false⟩,
  ⟨key% "te2.text_model.encoder.layers.30.self_attn.q_proj.bias", [1280], .float32, [], false⟩,
  ⟨key% "te2.text_model.encoder.layers.30.self_attn.q_proj.weight", [1280, 1280], .float32, [], false⟩]
noncomputable def clip_g4 : List Entry := [
  ⟨key% "te2.text_model.encoder.layers.30.self_attn.v_proj.bias", [1280], .float32, [], false⟩,
  ⟨key% "te2.text_model.encoder.layers.30.self_attn.v_proj.weight", [1280, 1280], .float32, [], false⟩,
  ⟨key% "te2.text_model.encoder.layers.31.layer_norm1.bias", [1280], .float32, [], false⟩,
  ⟨key% "te2.text_model.encoder.layers.31.layer_norm1.weight", [1280], .float32, [], false⟩,
  ⟨key% "te2.text_model.encoder.layers.31.layer_norm2.bias", [1280], .float32, [], false⟩,
  ⟨key% "te2.text_model.encoder.layers.31.layer_norm2.weight", [1280], .float32, [], false⟩,
  ⟨key% "te2.text_model.encoder.layers.31.mlp.fc1.bias", [5120], .float32, [], false⟩,
  ⟨key% "te2.text_model.encoder.layers.31.mlp.fc1.weight", [5120, 1280], .float32, [], false⟩,
  ⟨key% "te2.text_model.encoder.layers.31.mlp.fc2.bias", [1280], .float32, [], false⟩,
  ⟨key% "te2.text_model.encoder.layers.31.mlp.fc2.weight", [1280, 5120], .float32, [], false⟩,
  ⟨key% "te2.text_model.encoder.layers.31.self_attn.k_proj.bias", [1280], .float32, [], false⟩,
  ⟨key% "te2.text_model.encoder.layers.31.self_attn.k_proj.weight", [1280, 1280], .float32, [], false⟩,
  ⟨key% "te2.text_model.encoder.layers.31.self_attn.out_proj.bias", [1280], .float32, [], false⟩,
  ⟨key% "te2.text_model.encoder.layers.31.self_attn.out_proj.weight", [1280, 1280], .float32, [], false⟩,
  ⟨key% "te2.text_model.encoder.layers.31.self_attn.q_proj.bias", [1280], .float32, [], false⟩,
  ⟨key% "te2.text_model.encoder.layers.31.self_attn.q_proj.weight", [1280, 1280], .float32, [], false⟩,
  ⟨key% "te2.text_model.encoder.layers.31.self_attn.v_proj.bias", [1280], .float32, [], false⟩,
  ⟨key% "te2.text_model.encoder.layers.31.self_attn.v_proj.weight", [1280, 1280], .float32, [], false⟩,
  ⟨key% "te2.text_model.encoder.layers.4.layer_norm1.bias", [1280], .float32, [], false⟩,
  ⟨key% "te2.text_model.encoder.layers.4.layer_norm1.weight", [1280], .float32, [], false⟩,
  ⟨key% "te2.text_model.encoder.layers.4.layer_norm2.bias", [1280], .float32, [], false⟩,
  ⟨key% "te2.text_model.encoder.layers.4.layer_norm2.weight", [1280], .float32, [], false⟩,
  ⟨key% "te2.text_model.encoder.layers.4.mlp.fc1.bias", [5120], .float32, [], false⟩,
  ⟨key% "te2.text_model.encoder.layers.4.mlp.fc1.weight", [5120, 1280], .float32, [], false⟩,
  ⟨key% "te2.text_model.encoder.layers.4.mlp.fc2.bias", [1280], .float32, [], false⟩,
  ⟨key% "te2.text_model.encoder.layers.4.mlp.fc2.weight", [1280, 5120], .float32, [], false⟩,
  ⟨key% "te2.text_model.encoder.layers.4.self_attn.k_proj.bias", [1280], .float32, [], false⟩,
  ⟨key% "te2.text_model.encoder.layers.4.self_attn.k_proj.weight", [1280, 1280], .float32, [], false⟩,
  ⟨key% "te2.text_model.encoder.layers.4.self_attn.out_proj.bias", [1280], .float32, [], false⟩,
  ⟨key% "te2.text_model.encoder.layers.4.self_attn.out_proj.weight", [1280, 1280], .float32, [], false⟩,
  ⟨key% "te2.text_model.encoder.layers.4.self_attn.q_proj.bias", [1280], .float32, [], false⟩,
  ⟨key% "te2.text_model.encoder.layers.4.self_attn.q_proj.weight", [1280, 1280], .float32, [], false⟩,
  ⟨key% "te2.text_model.encoder.layers.4.self_attn.v_proj.bias", [1280], .float32, [], false⟩,
  ⟨key% "te2.text_model.encoder.layers.4.self_attn.v_proj.weight", [1280, 1280], .float32, [], false⟩,
  ⟨key% "te2.text_model.encoder.layers.5.layer_norm1.bias", [1280], .float32, [], false⟩,
  ⟨key% "te2.text_model.encoder.layers.5.layer_norm1.weight", [1280], .float32, [], false⟩,
  ⟨key% "te2.text_model.encoder.layers.5.layer_norm2.bias", [1280], .float32, [], false⟩,
  ⟨key% "te2.text_model.encoder.layers.5.layer_norm2.weight", [1280], .float32, [], false⟩,
  ⟨key% "te2.text_model.encoder.layers.5.mlp.fc1.bias", [5120], .float32, [], false⟩,
  ⟨key% "te2.text_model.encoder.layers.5.mlp.fc1.weight", [5120, 1280], .float32, [], false⟩,
  ⟨key% "te2.text_model.encoder.layers.5.mlp.fc2.bias", [1280], .float32, [], false⟩,
  ⟨key% "te2.text_model.encoder.layers.5.mlp.fc2.weight", [1280, 5120], .float32, [], false⟩,
  ⟨key% "te2.text_model.encoder.layers.5.self_attn.k_proj.bias", [1280], .float32, [], false⟩,
  ⟨key% "te2.text_model.encoder.layers.5.self_attn.k_proj.weight", [1280, 1280], .float32, [], false⟩,
  ⟨key% "te2.text_model.encoder.layers.5.self_attn.out_proj.bias", [1280], .float32, [], false⟩,
  ⟨key% "te2.text_model.encoder.layers.5.self_attn.out_proj.weight", [1280, 1280], .float32, [], false⟩,
  ⟨key% "te2.text_model.encoder.layers.5.self_attn.q_proj.bias", [1280], .float32, [], false⟩,
  ⟨key% "te2.text_model.encoder.layers.5.self_attn.q_proj.weight", [1280, 1280], .float32, [], false⟩,
  ⟨key% "te2.text_model.encoder.layers.5.self_attn.v_proj.bias", [1280], .float32, [], false⟩,
  ⟨key% "te2.text_model.encoder.layers.5.self_attn.v_proj.weight", [1280, 1280], .float32, [], false⟩,
  ⟨key% "te2.text_model.encoder.layers.6.layer_norm1.bias", [1280], .float32, [], false⟩,
  ⟨key% "te2.text_model.encoder.layers.6.layer_norm1.weight", [1280], .float32, [], false⟩,
  ⟨key% "te2.text_model.encoder.layers.6.layer_norm2.bias", [1280], .float32, [], false⟩,
  ⟨key% "te2.text_model.encoder.layers.6.layer_norm2.weight", [1280], .float32, [], false⟩,
  ⟨key% "te2.text_model.encoder.layers.6.mlp.fc1.bias", [5120], .float32, [], false⟩,
  ⟨key% "te2.text_model.encoder.layers.6.mlp.fc1.weight", [5120, 1280], .float32, [], false⟩,
  ⟨key% "te2.text_model.encoder.layers.6.mlp.fc2.bias", [1280], .float32, [], false⟩,
  ⟨key% "te2.text_model.encoder.layers.6.mlp.fc2.weight", [1280, 5120], .float32, [], false⟩,
  ⟨key% "te2.text_model.encoder.layers.6.self_attn.k_proj.bias", [1280], .float32, [], false⟩,
  ⟨key% "te2.text_model.encoder.layers.6.self_attn.k_proj.weight", [1280, 1280], .float32, [], false⟩,
  ⟨key% "te2.text_model.encoder.layers.6.self_attn.out_proj.bias", [1280], .float32, [], false⟩,
  ⟨key% "te2.text_model.encoder.layers.6.self_attn.out_proj.weight", [1280, 1280], .float32, [], false⟩,
  ⟨key% "te2.text_model.encoder.layers.6.self_attn.q_proj.bias", [1280], .float32, [], false⟩,
  ⟨key% "te2.text_model.encoder.layers.6.self_attn.q_proj.weight", [1280, 1280], .float32, [], false⟩,
  ⟨key% "te2.text_model.encoder.layers.6.self_attn.v_proj.bias", [1280], .float32, [], false⟩,
  ⟨key% "te2.text_model.encoder.layers.6.self_attn.v_proj.weight", [1280, 1280], .float32, [], false⟩,
  ⟨key% "te2.text_model.encoder.layers.7.layer_norm1.bias", [1280], .float32, [], false⟩,
  ⟨key% "te2.text_model.encoder.layers.7.layer_norm1.weight", [1280], .float32, [], false⟩,
  ⟨key% "te2.text_model.encoder.layers.7.layer_norm2.bias", [1280], .float32, [], false⟩,
  ⟨key% "te2.text_model.encoder.layers.7.layer_norm2.weight", [1280], .float32, [], false⟩,
  ⟨key% "te2.text_model.encoder.layers.7.mlp.fc1.bias", [5120], .float32, [], false⟩,
  ⟨key% "te2.text_model.encoder.layers.7.mlp.fc1.weight", [5120, 1280], .float32, [], false⟩,
  ⟨key% "te2.text_model.encoder.layers.7.mlp.fc2.bias", [1280], .float32, [], false⟩,
  ⟨key% "te2.text_model.encoder.layers.7.mlp.fc2.weight", [1280, 5120], .float32, [], false⟩,
  ⟨key% "te2.text_model.encoder.layers.7.self_attn.k_proj.bias", [1280], .float32, [], false⟩,
  ⟨key% "te2.text_model.encoder.layers.7.self_attn.k_proj.weight", [1280, 1280], .float32, [], false⟩,
  ⟨key% "te2.text_model.encoder.layers.7.self_attn.out_proj.bias", [1280], .float32, [], false⟩,
  ⟨key% "te2.text_model.encoder.layers.7.self_attn.out_proj.weight", [1280, 1280], .float32, [], false⟩,
  ⟨key% "te2.text_model.encoder.layers.7.self_attn.q_proj.bias", [1280], .float32, [], false⟩,
  ⟨key% "te2.text_model.encoder.layers.7.self_attn.q_proj.weight", [1280, 1280], .float32, [], false⟩,
  ⟨key% "te2.text_model.encoder.layers.7.self_attn.v_proj.bias", [1280], .float32, [], false⟩,
  ⟨key% "te2.text_model.encoder.layers.7.self_attn.v_proj.weight", [1280, 1280], .float32, [], false⟩,
  ⟨key% "te2.text_model.encoder.layers.8.layer_norm1.bias", [1280], .float32, [], false⟩,
  ⟨key% "te2.text_model.encoder.layers.8.layer_norm1.weight", [1280], .float32, [], false⟩,
  ⟨key% "te2.text_model.encoder.layers.8.layer_norm2.bias", [1280], .float32, [], false⟩,
  ⟨key% "te2.text_model.encoder.layers.8.layer_norm2.weight", [1280], .float32, [], false⟩,
  ⟨key% "te2.text_model.encoder.layers.8.mlp.fc1.bias", [5120], .float32, [], false⟩,
  ⟨key% "te2.text_model.encoder.layers.8.mlp.fc1.weight", [5120, 1280], .float32, [], false⟩,
  ⟨key% "te2.text_model.encoder.layers.8.mlp.fc2.bias", [1280], .float32, [], false⟩,
  ⟨key% "te2.text_model.encoder.layers.8.mlp.fc2.weight", [1280, 5120], .float32, [], false⟩,
  ⟨key% "te2.text_model.encoder.layers.8.self_attn.k_proj.bias", [1280], .float32, [], false⟩,
  ⟨key% "te2.text_model.encoder.layers.8.self_attn.k_proj.weight", [1280, 1280], .float32, [], false⟩,
  ⟨key% "te2.text_model.encoder.layers.8.self_attn.out_proj.bias", [1280], .float32, [], false⟩,
  ⟨key% "te2.text_model.encoder.layers.8.self_attn.out_proj.weight", [1280, 1280], .float32, [], false⟩,
  ⟨key% "te2.text_model.encoder.layers.8.self_attn.q_proj.bias", [1280], .float32, [], false⟩,
  ⟨key% "te2.text_model.encoder.layers.8.self_attn.q_proj.weight", [1280, 1280], .float32, [], false⟩,
  ⟨key% "te2.text_model.encoder.layers.8.self_attn.v_proj.bias", [1280], .float32, [], false⟩,
  ⟨key% "te2.text_model.encoder.layers.8.self_attn.v_proj.weight", [1280, 1280], .float32, [], false⟩,
  ⟨key% "te2.text_model.encoder.layers.9.layer_norm1.bias", [1280], .float32, [], false⟩,
  ⟨key% "te2.text_model.encoder.layers.9.layer_norm1.weight", [1280], .float32, [], false⟩]
noncomputable def clip_g5 : List Entry := [
  ⟨key% "te2.text_model.encoder.layers.9.layer_norm2.bias", [1280], .float32, [], false⟩,
  ⟨key% "te2.text_model.encoder.layers.9.layer_norm2.weight", [1280], .float32, [], false⟩,
  ⟨key% "te2.text_model.encoder.layers.9.mlp.fc1.bias", [5120], .float32, [], false⟩,
  ⟨key% "te2.text_model.encoder.layers.9.mlp.fc1.weight", [5120, 1280], .float32, [], false⟩,
  ⟨key% "te2.text_model.encoder.layers.9.mlp.fc2.bias", [1280], .float32, [], false⟩,
  ⟨key% "te2.text_model.encoder.layers.9.mlp.fc2.weight", [1280, 5120], .float32, [], false⟩,
  ⟨key% "te2.text_model.encoder.layers.9.self_attn.k_proj.bias", [1280], .float32, [], false⟩,
  ⟨key% "te2.text_model.encoder.layers.9.self_attn.k_proj.weight", [1280, 1280], .float32, [], false⟩,
  ⟨key% "te2.text_model.encoder.layers.9.self_attn.out_proj.bias", [1280], .float32, [], false⟩,
  ⟨key% "te2.text_model.encoder.layers.9.self_attn.out_proj.weight", [1280, 1280], .float32, [], false⟩,
  ⟨key% "te2.text_model.encoder.layers.9.self_attn.q_proj.bias", [1280], .float32, [], false⟩,
  ⟨key% "te2.text_model.encoder.layers.9.self_attn.q_proj.weight", [1280, 1280], .float32, [], false⟩,
  ⟨key% "te2.text_model.encoder.layers.9.self_attn.v_proj.bias", [1280], .float32, [], false⟩,
  ⟨key% "te2.text_model.encoder.layers.9.self_attn.v_proj.weight", [1280, 1280], .float32, [], false⟩,
  ⟨key% "te2.text_model.final_layer_norm.bias", [1280], .float32, [], false⟩,
  ⟨key% "te2.text_model.final_layer_norm.weight", [1280], .float32, [], false⟩,
  ⟨key% "te2.text_projection.weight", [1280, 1280], .float32, [], false⟩]
/-- Component `clip_g`: 517 keys -/
noncomputable def clip_g : List Entry := clip_g0 ++ clip_g1 ++ clip_g2 ++ clip_g3 ++ clip_g4 ++ clip_g5

noncomputable def diffuser0 : List Entry := [
  ⟨key% "unet.input_blocks.0.0.bias", [320], .float32, [], false⟩,
  ⟨key% "unet.input_blocks.0.0.weight", [320, 4, 3, 3], .float32, [], false⟩,
  ⟨key% "unet.input_blocks.1.0.emb_layers.1.bias", [320], .float32, [], false⟩,
  ⟨key% "unet.input_blocks.1.0.emb_layers.1.weight", [320, 1280], .float32, [], false⟩,
  ⟨key% "unet.input_blocks.1.0.in_layers.0.bias", [320], .float32, [], false⟩,
  ⟨key% "unet.input_blocks.1.0.in_layers.0.weight", [320], .float32, [], false⟩,
  ⟨key% "unet.input_blocks.1.0.in_layers.2.bias", [320], .float32, [], false⟩,
  ⟨key% "unet.input_blocks.1.0.in_layers.2.weight", [320, 320, 3, 3], .float32, [], false⟩,
  ⟨key% "unet.input_blocks.1.0.out_layers.0.bias", [320], .float32, [], false⟩,
  ⟨key% "unet.input_blocks.1.0.out_layers.0.weight", [320], .float32, [], false⟩,
  ⟨key% "unet.input_blocks.1.0.out_layers.3.bias", [320], .float32, [], false⟩,
  ⟨key% "unet.input_blocks.1.0.out_layers.3.weight", [320, 320, 3, 3], .float32, [], false⟩,
  ⟨key% "unet.input_blocks.2.0.emb_layers.1.bias", [320], .float32, [], false⟩,
  ⟨key% "unet.input_blocks.2.0.emb_layers.1.weight", [320, 1280], .float32, [], false⟩,
  ⟨key% "unet.input_blocks.2.0.in_layers.0.bias", [320], .float32, [], false⟩,
  ⟨key% "unet.input_blocks.2.0.in_layers.0.weight", [320], .float32, [], false⟩,
  ⟨key% "unet.input_blocks.2.0.in_layers.2.bias", [320], .float32, [], false⟩,
  ⟨key% "unet.input_blocks.2.0.in_layers.2.weight", [320, 320, 3, 3], .float32, [], false⟩,
  ⟨key% "unet.input_blocks.2.0.out_layers.0.bias", [320], .float32, [], false⟩,
  ⟨key% "unet.input_blocks.2.0.out_layers.0.weight", [320], .float32, [], false⟩,
  ⟨key% "unet.input_blocks.2.0.out_layers.3.bias", [320], .float32, [], false⟩,
  ⟨key% "unet.input_blocks.2.0.out_layers.3.weight", [320, 320, 3, 3], .float32, [], false⟩,
  ⟨key% "unet.input_blocks.3.0.op.bias", [320], .float32, [], false⟩,
  ⟨key% "unet.input_blocks.3.0.op.weight", [320, 320, 3, 3], .float32, [], false⟩,
  ⟨key% "unet.input_blocks.4.0.emb_layers.1.bias", [640], .float32, [], false⟩,
  ⟨key% "unet.input_blocks.4.0.emb_layers.1.weight", [640, 1280], .float32, [], false⟩,
  ⟨key% "unet.input_blocks.4.0.in_layers.0.bias", [320], .float32, [], false⟩,
  ⟨key% "unet.input_blocks.4.0.in_layers.0.weight", [320], .float32, [], false⟩,
  ⟨key% "unet.input_blocks.4.0.in_layers.2.bias", [640], .float32, [], false⟩,
  ⟨key% "unet.input_blocks.4.0.in_layers.2.weight", [640, 320, 3, 3], .float32, [], false⟩,
  ⟨key% "unet.input_blocks.4.0.out_layers.0.bias", [640], .float32, [], false⟩,
  ⟨key% "unet.input_blocks.4.0.out_layers.0.weight", [640], .float32, [], false⟩,
  ⟨key% "unet.input_blocks.4.0.out_layers.3.bias", [640], .float32, [], false⟩,
  ⟨key% "unet.input_blocks.4.0.out_layers.3.weight", [640, 640, 3, 3], .float32, [], false⟩,
  ⟨key% "unet.input_blocks.4.0.skip_connection.bias", [640], .float32, [], false⟩,
  ⟨key% "unet.input_blocks.4.0.skip_connection.weight", [640, 320, 1, 1], .float32, [], false⟩,
  ⟨key% "unet.input_blocks.4.1.norm.bias", [640], .float32, [], false⟩,
  ⟨key% "unet.input_blocks.4.1.norm.weight", [640], .float32, [], false⟩,
  ⟨key% "unet.input_blocks.4.1.proj_in.bias", [640], .float32, [], false⟩,
  ⟨key% "unet.input_blocks.4.1.proj_in.weight", [640, 640], .float32, [], false⟩,
  ⟨key% "unet.input_blocks.4.1.proj_out.bias", [640], .float32, [], false⟩,
  ⟨key% "unet.input_blocks.4.1.proj_out.weight", [640, 640], .float32, [], false⟩,
  ⟨key% "unet.input_blocks.4.1.transformer_blocks.0.attn1.to_k.weight", [640, 640], .float32, [], false⟩,
  ⟨key% "unet.input_blocks.4.1.transformer_blocks.0.attn1.to_out.0.bias", [640], .float32, [], false⟩,
  ⟨key% "unet.input_blocks.4.1.transformer_blocks.0.attn1.to_out.0.weight", [640, 640], .float32, [], false⟩,
  ⟨key% "unet.input_blocks.4.1.transformer_blocks.0.attn1.to_q.weight", [640, 640], .float32, [], false⟩,
  ⟨key% "unet.input_blocks.4.1.transformer_blocks.0.attn1.to_v.weight", [640, 640], .float32, [], false⟩,
  ⟨key% "unet.input_blocks.4.1.transformer_blocks.0.attn2.to_k.weight", [640, 2048], .float32, [], false⟩,
  ⟨key% "unet.input_blocks.4.1.transformer_blocks.0.attn2.to_out.0.bias", [640], .float32, [], false⟩,
  ⟨key% "unet.input_blocks.4.1.transformer_blocks.0.attn2.to_out.0.weight", [640, 640], .float32, [], false⟩,
  ⟨key% "unet.input_blocks.4.1.transformer_blocks.0.attn2.to_q.weight", [640, 640], .float32, [], false⟩,
  ⟨key% "unet.input_blocks.4.1.transformer_blocks.0.attn2.to_v.weight", [640, 2048], .float32, [], false⟩,
  ⟨key% "unet.input_blocks.4.1.transformer_blocks.0.ff.net.0.proj.bias", [5120], .float32, [], false⟩,
  ⟨key% "unet.input_blocks.4.1.transformer_blocks.0.ff.net.0.proj.weight", [5120, 640], .float32, [], false⟩,
  ⟨key% "unet.input_blocks.4.1.transformer_blocks.0.ff.net.2.bias", [640], .float32, [], false⟩,
  ⟨key% "unet.input_blocks.4.1.transformer_blocks.0.ff.net.2.weight", [640, 2560], .float32, [], false⟩,
  ⟨key% "unet.input_blocks.4.1.transformer_blocks.0.norm1.bias", [640], .float32, [], false⟩,
  ⟨key% "unet.input_blocks.4.1.transformer_blocks.0.norm1.weight", [640], .float32, [], false⟩,
  ⟨key% "unet.input_blocks.4.1.transformer_blocks.0.norm2.bias", [640], .float32, [], false⟩,
  ⟨key% "unet.input_blocks.4.1.transformer_blocks.0.norm2.weight", [640], .float32, [], false⟩,
  ⟨key% "unet.input_blocks.4.1.transformer_blocks.0.norm3.bias", [640], .float32, [], false⟩,
  ⟨key% "unet.input_blocks.4.1.transformer_blocks.0.norm3.weight", [640], .float32, [], false⟩,
  ⟨key% "unet.input_blocks.4.1.transformer_blocks.1.attn1.to_k.weight", [640, 640], .float32, [], false⟩,
  ⟨key% "unet.input_blocks.4.1.transformer_blocks.1.attn1.to_out.0.bias", [640], .float32, [], false⟩,
  ⟨key% "unet.input_blocks.4.1.transformer_blocks.1.attn1.to_out.0.weight", [640, 640], .float32, [], false⟩,
  ⟨key% "unet.input_blocks.4.1.transformer_blocks.1.attn1.to_q.weight", [640, 640], .float32, [], false⟩,
  ⟨key% "unet.input_blocks.4.1.transformer_blocks.1.attn1.to_v.weight", [640, 640], .float32, [], false⟩,
  ⟨key% "unet.input_blocks.4.1.transformer_blocks.1.attn2.to_k.weight", [640, 2048], .float32, [], false⟩,
  ⟨key% "unet.input_blocks.4.1.transformer_blocks.1.attn2.to_out.0.bias", [640], .float32, [], false⟩,
  ⟨key% "unet.input_blocks.4.1.transformer_blocks.1.attn2.to_out.0.weight", [640, 640], .float32, [], false⟩,
  ⟨key% "unet.input_blocks.4.1.transformer_blocks.1.attn2.to_q.weight", [640, 640], .float32, [], false⟩,
  ⟨key% "unet.input_blocks.4.1.transformer_blocks.1.attn2.to_v.weight", [640, 2048], .float32, [], false⟩,
  ⟨key% "unet.input_blocks.4.1.transformer_blocks.1.ff.net.0.proj.bias", [5120], .float32, [], false⟩,
  ⟨key% "unet.input_blocks.4.1.transformer_blocks.1.ff.net.0.proj.weight", [5120, 640], .float32, [], false⟩,
  ⟨key% "unet.input_blocks.4.1.transformer_blocks.1.ff.net.2.bias", [640], .float32, [], false⟩,
  ⟨key% "unet.input_blocks.4.1.transformer_blocks.1.ff.net.2.weight", [640, 2560], .float32, [], false⟩,
  ⟨key% "unet.input_blocks.4.1.transformer_blocks.1.norm1.bias", [640], .float32, [], false⟩,
  ⟨key% "unet.input_blocks.4.1.transformer_blocks.1.norm1.weight", [640], .float32, [], false⟩,
  ⟨key% "unet.input_blocks.4.1.transformer_blocks.1.norm2.bias", [640], .float32, [], false⟩,
  ⟨key% "unet.input_blocks.4.1.transformer_blocks.1.norm2.weight", [640], .float32, [], false⟩,
  ⟨key% "unet.input_blocks.4.1.transformer_blocks.1.norm3.bias", [640], .float32, [], false⟩,
  ⟨key% "unet.input_blocks.4.1.transformer_blocks.1.norm3.weight", [640], .float32, [], false⟩,
  ⟨key% "unet.input_blocks.5.0.emb_layers.1.bias", [640], .float32, [], false⟩,
  ⟨key% "unet.input_blocks.5.0.emb_layers.1.weight", [640, 1280], .float32, [], false⟩,
  ⟨key% "unet.input_blocks.5.0.in_layers.0.bias", [640], .float32, [], false⟩,
  ⟨key% "unet.input_blocks.5.0.in_layers.0.weight", [640], .float32, [], false⟩,
  ⟨key% "unet.input_blocks.5.0.in_layers.2.bias", [640], .float32, [], false⟩,
  ⟨key% "unet.input_blocks.5.0.in_layers.2.weight", [640, 640, 3, 3], .float32, [], false⟩,
  ⟨key% "unet.input_blocks.5.0.out_layers.0.bias", [640], .float32, [], false⟩,
  ⟨key% "unet.input_blocks.5.0.out_layers.0.weight", [640], .float32, [], false⟩,
  ⟨key% "unet.input_blocks.5.0.out_layers.3.bias", [640], .float32, [], false⟩,
  ⟨key% "unet.input_blocks.5.0.out_layers.3.weight", [640, 640, 3, 3], .float32, [], false⟩,
  ⟨key% "unet.input_blocks.5.1.norm.bias", [640], .float32, [], false⟩,
  ⟨key% "unet.input_blocks.5.1.norm.weight", [640], .float32, [], false⟩,
  ⟨key% "unet.input_blocks.5.1.proj_in.bias", [640], .float32, [], false⟩,
  ⟨key% "unet.input_blocks.5.1.proj_in.weight", [640, 640], .float32, [], false⟩,
  ⟨key% "unet.input_blocks.5.1.proj_out.bias", [640], .float32, [], false⟩,
  ⟨key% "unet.input_blocks.5.1.proj_out.weight", [640, 640], .float32, [], false⟩,
  ⟨key% "unet.input_blocks.5.1.transformer_blocks.0.attn1.to_k.weight", [640, 640], .float32, [], false⟩,
  ⟨key% "unet.input_blocks.5.1.transformer_blocks.0.attn1.to_out.0.bias", [640], .float32, [], false⟩]
noncomputable def diffuser1 : List Entry := [
  ⟨key% "unet.input_blocks.5.1.transformer_blocks.0.attn1.to_out.0.weight", [640, 640], .float32, [], false⟩,
  ⟨key% "unet.input_blocks.5.1.transformer_blocks.0.attn1.to_q.weight", [640, 640], .float32, [], false⟩,
  ⟨key% "unet.input_blocks.5.1.transformer_blocks.0.attn1.to_v.weight", [640, 640], .float32, [], false⟩,
  ⟨key% "unet.input_blocks.5.1.transformer_blocks.0.attn2.to_k.weight", [640, 2048], .float32, [], false⟩,
  ⟨key% "unet.input_blocks.5.1.transformer_blocks.0.attn2.to_out.0.bias", [640], .float32, [], false⟩,
  ⟨key% "unet.input_blocks.5.1.transformer_blocks.0.attn2.to_out.0.weight", [640, 640], .float32, [], false⟩,
  ⟨key% "unet.input_blocks.5.1.transformer_blocks.0.attn2.to_q.weight", [640, 640], .float32, [], false⟩,
  ⟨key% "unet.input_blocks.5.1.transformer_blocks.0.attn2.to_v.weight", [640, 2048], .float32, [], false⟩,
  ⟨key% "unet.input_blocks.5.1.transformer_blocks.0.ff.net.0.proj.bias", [5120], .float32, [], false⟩,
  ⟨key% "unet.input_blocks.5.1.transformer_blocks.0.ff.net.0.proj.weight", [5120, 640], .float32, [], false⟩,
  ⟨key% "unet.input_blocks.5.1.transformer_blocks.0.ff.net.2.bias", [640], .float32, [], false⟩,
  ⟨key% "unet.input_blocks.5.1.transformer_blocks.0.ff.net.2.weight", [640, 2560], .float32, [], false⟩,
  ⟨key% "unet.input_blocks.5.1.transformer_blocks.0.norm1.bias", [640], .float32, [], false⟩,
  ⟨key% "unet.input_blocks.5.1.transformer_blocks.0.norm1.weight", [640], .float32, [], false⟩,
  ⟨key% "unet.input_blocks.5.1.transformer_blocks.0.norm2.bias", [640], .float32, [], false⟩,
  ⟨key% "unet.input_blocks.5.1.transformer_blocks.0.norm2.weight", [640], .float32, [], false⟩,
  ⟨key% "unet.input_blocks.5.1.transformer_blocks.0.norm3.bias", [640], .float32, [], false⟩,
  ⟨key% "unet.input_blocks.5.1.transformer_blocks.0.norm3.weight", [640], .float32, [], false⟩,
  ⟨key% "unet.input_blocks.5.1.transformer_blocks.1.attn1.to_k.weight", [640, 640], .float32, [], false⟩,
  ⟨key% "unet.input_blocks.5.1.transformer_blocks.1.attn1.to_out.0.bias", [640], .float32, [], false⟩,
  ⟨key% "unet.input_blocks.5.1.transformer_blocks.1.attn1.to_out.0.weight", [640, 640], .float32, [], false⟩,
  ⟨key% "unet.input_blocks.5.1.transformer_blocks.1.attn1.to_q.weight", [640, 640], .float32, [], false⟩,
  ⟨key% "unet.input_blocks.5.1.transformer_blocks.1.attn1.to_v.weight", [640, 640], .float32, [], false⟩,
  ⟨key% "unet.input_blocks.5.1.transformer_blocks.1.attn2.to_k.weight", [640, 2048], .float32, [], false⟩,
  ⟨key% "unet.input_blocks.5.1.transformer_blocks.1.attn2.to_out.0.bias", [640], .float32, [], false⟩,
  ⟨key% "unet.input_blocks.5.1.transformer_blocks.1.attn2.to_out.0.weight", [640, 640], .float32, [], false⟩,
  ⟨key% "unet.input_blocks.5.1.transformer_blocks.1.attn2.to_q.weight", [640, 640], .float32, [], false⟩,
  ⟨key% "unet.input_blocks.5.1.transformer_blocks.1.attn2.to_v.weight", [640, 2048], .float32, [], false⟩,
  ⟨key% "unet.input_blocks.5.1.transformer_blocks.1.ff.net.0.proj.bias", [5120], .float32, [], false⟩,
  ⟨key% "unet.input_blocks.5.1.transformer_blocks.1.ff.net.0.proj.weight", [5120, 640], .float32, [], false⟩,
  ⟨key% "unet.input_blocks.5.1.transformer_blocks.1.ff.net.2.bias", [640], .float32, [], false⟩,
  ⟨key% "unet.input_blocks.5.1.transformer_blocks.1.ff.net.2.weight", [640, 2560], .float32, [], false⟩,
  ⟨key% "unet.input_blocks.5.1.transformer_blocks.1.norm1.bias", [640], .float32, [], false⟩,
  ⟨key% "unet.input_blocks.5.1.transformer_blocks.1.norm1.weight", [640], .float32, [], false⟩,
  ⟨key% "unet.input_blocks.5.1.transformer_blocks.1.norm2.bias", [640], .float32, [], false⟩,
  ⟨key% "unet.input_blocks.5.1.transformer_blocks.1.norm2.weight", [640], .float32, [], false⟩,
  ⟨key% "unet.input_blocks.5.1.transformer_blocks.1.norm3.bias", [640], .float32, [], false⟩,
  ⟨key% "unet.input_blocks.5.1.transformer_blocks.1.norm3.weight", [640], .float32, [], false⟩,
  ⟨key% "unet.input_blocks.6.0.op.bias", [640], .float32, [], false⟩,
  ⟨key% "unet.input_blocks.6.0.op.weight", [640, 640, 3, 3], .float32, [], false⟩,
  ⟨key% "unet.input_blocks.7.0.emb_layers.1.bias", [1280], .float32, [], false⟩,
  ⟨key% "unet.input_blocks.7.0.emb_layers.1.weight", [1280, 1280], .float32, [], false⟩,
  ⟨key% "unet.input_blocks.7.0.in_layers.0.bias", [640], .float32, [], false⟩,
  ⟨key% "unet.input_blocks.7.0.in_layers.0.weight", [640], .float32, [], false⟩,
  ⟨key% "unet.input_blocks.7.0.in_layers.2.bias", [1280], .float32, [], false⟩,
  ⟨key% "unet.input_blocks.7.0.in_layers.2.weight", [1280, 640, 3, 3], .float32, [], false⟩,
  ⟨key% "unet.input_blocks.7.0.out_layers.0.bias", [1280], .float32, [], false⟩,
  ⟨key% "unet.input_blocks.7.0.out_layers.0.weight", [1280], .float32, [], false⟩,
  ⟨key% "unet.input_blocks.7.0.out_layers.3.bias", [1280], .float32, [], false⟩,
  ⟨key% "unet.input_blocks.7.0.out_layers.3.weight", [1280, 1280, 3, 3], .float32, [], false⟩,
  ⟨key% "unet.input_blocks.7.0.skip_connection.bias", [1280], .float32, [], false⟩,
  ⟨key% "unet.input_blocks.7.0.skip_connection.weight", [1280, 640, 1, 1], .float32, [], false⟩,
  ⟨key% "unet.input_blocks.7.1.norm.bias", [1280], .float32, [], false⟩,
  ⟨key% "unet.input_blocks.7.1.norm.weight", [1280], .float32, [], false⟩,
  ⟨key% "unet.input_blocks.7.1.proj_in.bias", [1280], .float32, [], false⟩,
  ⟨key% "unet.input_blocks.7.1.proj_in.weight", [1280, 1280], .float32, [], false⟩,
  ⟨key% "unet.input_blocks.7.1.proj_out.bias", [1280], .float32, [], false⟩,
  ⟨key% "unet.input_blocks.7.1.proj_out.weight", [1280, 1280], .float32, [], false⟩,
  ⟨key% "unet.input_blocks.7.1.transformer_blocks.0.attn1.to_k.weight", [1280, 1280], .float32, [], false⟩,
  ⟨key% "unet.input_blocks.7.1.transformer_blocks.0.attn1.to_out.0.bias", [1280], .float32, [], false⟩,
  ⟨key% "unet.input_blocks.7.1.transformer_blocks.0.attn1.to_out.0.weight", [1280, 1280], .float32, [], false⟩,
  ⟨key% "unet.input_blocks.7.1.transformer_blocks.0.attn1.to_q.weight", [1280, 1280], .float32, [], false⟩,
  ⟨key% "unet.input_blocks.7.1.transformer_blocks.0.attn1.to_v.weight", [1280, 1280], .float32, [], false⟩,
  ⟨key% "unet.input_blocks.7.1.transformer_blocks.0.attn2.to_k.weight", [1280, 2048], .float32, [], false⟩,
  ⟨key% "unet.input_blocks.7.1.transformer_blocks.0.attn2.to_out.0.bias", [1280], .float32, [], false⟩,
  ⟨key% "unet.input_blocks.7.1.transformer_blocks.0.attn2.to_out.0.weight", [1280, 1280], .float32, [], false⟩,
  ⟨key% "unet.input_blocks.7.1.transformer_blocks.0.attn2.to_q.weight", [1280, 1280], .float32, [], false⟩,
  ⟨key% "unet.input_blocks.7.1.transformer_blocks.0.attn2.to_v.weight", [1280, 2048], .float32, [], false⟩,
  ⟨key% "unet.input_blocks.7.1.transformer_blocks.0.ff.net.0.proj.bias", [10240], .float32, [], false⟩,
  ⟨key% "unet.input_blocks.7.1.transformer_blocks.0.ff.net.0.proj.weight", [10240, 1280], .float32, [], false⟩,
  ⟨key% "unet.input_blocks.7.1.transformer_blocks.0.ff.net.2.bias", [1280], .float32, [], false⟩,
  ⟨key% "unet.input_blocks.7.1.transformer_blocks.0.ff.net.2.weight", [1280, 5120], .float32, [], false⟩,
  ⟨key% "unet.input_blocks.7.1.transformer_blocks.0.norm1.bias", [1280], .float32, [], false⟩,
  ⟨key% "unet.input_blocks.7.1.transformer_blocks.0.norm1.weight", [1280], .float32, [], false⟩,
  ⟨key% "unet.input_blocks.7.1.transformer_blocks.0.norm2.bias", [1280], .float32, [], false⟩,
  ⟨key% "unet.input_blocks.7.1.transformer_blocks.0.norm2.weight", [1280], .float32, [], false⟩,
  ⟨key% "unet.input_blocks.7.1.transformer_blocks.0.norm3.bias", [1280], .float32, [], false⟩,
  ⟨key% "unet.input_blocks.7.1.transformer_blocks.0.norm3.weight", [1280], .float32, [], false⟩,
  ⟨key% "unet.input_blocks.7.1.transformer_blocks.1.attn1.to_k.weight", [1280, 1280], .float32, [], false⟩,
  ⟨key% "unet.input_blocks.7.1.transformer_blocks.1.attn1.to_out.0.bias", [1280], .float32, [], false⟩,
  ⟨key% "unet.input_blocks.7.1.transformer_blocks.1.attn1.to_out.0.weight", [1280, 1280], .float32, [], false⟩,
  ⟨key% "unet.input_blocks.7.1.transformer_blocks.1.attn1.to_q.weight", [1280, 1280], .float32, [], false⟩,
  ⟨key% "unet.input_blocks.7.1.transformer_blocks.1.attn1.to_v.weight", [1280, 1280], .float32, [], false⟩,
  ⟨key% "unet.input_blocks.7.1.transformer_blocks.1.attn2.to_k.weight", [1280, 2048], .float32, [], false⟩,
  ⟨key% "unet.input_blocks.7.1.transformer_blocks.1.attn2.to_out.0.bias", [1280], .float32, [], false⟩,
  ⟨key% "unet.input_blocks.7.1.transformer_blocks.1.attn2.to_out.0.weight", [1280, 1280], .float32, [], false⟩,
  ⟨key% "unet.input_blocks.7.1.transformer_blocks.1.attn2.to_q.weight", [1280, 1280], .float32, [], false⟩,
  ⟨key% "unet.input_blocks.7.1.transformer_blocks.1.attn2.to_v.weight", [1280, 2048], .float32, [], false⟩,
  ⟨key% "unet.input_blocks.7.1.transformer_blocks.1.ff.net.0.proj.bias", [10240], .float32, [], false⟩,
  ⟨key% "unet.input_blocks.7.1.transformer_blocks.1.ff.net.0.proj.weight", [10240, 1280], .float32, [], false⟩,
  ⟨key% "unet.input_blocks.7.1.transformer_blocks.1.ff.net.2.bias", [1280], .float32, [], false⟩,
  ⟨key% "unet.input_blocks.7.1.transformer_blocks.1.ff.net.2.weight", [1280, 5120], .float32, [], false⟩,
  ⟨key% "unet.input_blocks.7.1.transformer_blocks.1.norm1.bias", [1280], .float32, [], false⟩,
  ⟨key% "unet.input_blocks.7.1.transformer_blocks.1.norm1.weight", [1280], .float32, [], false⟩,
  ⟨key% "unet.input_blocks.7.1.transformer_blocks.1.norm2.bias", [1280], .float32, [], false⟩,
  ⟨key% "unet.input_blocks.7.1.transformer_blocks.1.norm2.weight", [1280], .float32, [], false⟩,
  ⟨key% "unet.input_blocks.7.1.transformer_blocks.1.norm3.bias", [1280], .float32, [], false⟩,
  ⟨key% "unet.input_blocks.7.1.transformer_blocks.1.norm3.weight", [1280], .float32, [], false⟩,
  ⟨key% "unet.input_blocks.7.1.transformer_blocks.2.attn1.to_k.weight", [1280, 1280], .float32, [], false⟩,
  ⟨key% "unet.input_blocks.7.1.transformer_blocks.2.attn1.to_out.0.bias", [1280], .float32, [], false⟩]
noncomputable def diffuser2 : List Entry := [
  ⟨key% "unet.input_blocks.7.1.transformer_blocks.2.attn1.to_out.0.weight", [1280, 1280], .float32, [], false⟩,
  ⟨key% "unet.input_blocks.7.1.transformer_blocks.2.attn1.to_q.weight", [1280, 1280], .float32, [], false⟩,
  ⟨key% "unet.input_blocks.7.1.transformer_blocks.2.attn1.to_v.weight", [1280, 1280], .float32, [], false⟩,
  ⟨key% "unet.input_blocks.7.1.transformer_blocks.2.attn2.to_k.weight", [1280, 2048], .float32, [], false⟩,
  ⟨key% "unet.input_blocks.7.1.transformer_blocks.2.attn2.to_out.0.bias", [1280], .float32, [], false⟩,
  ⟨key% "unet.input_blocks.7.1.transformer_blocks.2.attn2.to_out.0.weight", [1280, 1280], .float32, [], false⟩,
  ⟨key% "unet.input_blocks.7.1.transformer_blocks.2.attn2.to_q.weight", [1280, 1280], .float32, [], false⟩,
  ⟨key% "unet.input_blocks.7.1.transformer_blocks.2.attn2.to_v.weight", [1280, 2048], .float32, [], false⟩,
  ⟨key% "unet.input_blocks.7.1.transformer_blocks.2.ff.net.0.proj.bias", [10240], .float32, [], false⟩,
  ⟨key% "unet.input_blocks.7.1.transformer_blocks.2.ff.net.0.proj.weight", [10240, 1280], .float32, [], false⟩,
  ⟨key% "unet.input_blocks.7.1.transformer_blocks.2.ff.net.2.bias", [1280], .float32, [], false⟩,
  ⟨key% "unet.input_blocks.7.1.transformer_blocks.2.ff.net.2.weight", [1280, 5120], .float32, [], false⟩,
  ⟨key% "unet.input_blocks.7.1.transformer_blocks.2.norm1.bias", [1280], .float32, [], false⟩,
  ⟨key% "unet.input_blocks.7.1.transformer_blocks.2.norm1.weight", [1280], .float32, [], false⟩,
  ⟨key% "unet.input_blocks.7.1.transformer_blocks.2.norm2.bias", [1280], .float32, [], false⟩,
  ⟨key% "unet.input_blocks.7.1.transformer_blocks.2.norm2.weight", [1280], .float32, [], false⟩,
  ⟨key% "unet.input_blocks.7.1.transformer_blocks.2.norm3.bias", [1280], .float32, [], false⟩,
  ⟨key% "unet.input_blocks.7.1.transformer_blocks.2.norm3.weight", [1280], .float32, [], false⟩,
  ⟨key% "unet.input_blocks.7.1.transformer_blocks.3.attn1.to_k.weight", [1280, 1280], .float32, [], false⟩,
  ⟨key% "unet.input_blocks.7.1.transformer_blocks.3.attn1.to_out.0.bias", [1280], .float32, [], false⟩,
  ⟨key% "unet.input_blocks.7.1.transformer_blocks.3.attn1.to_out.0.weight", [1280, 1280], .float32, [], false⟩,
  ⟨key% "unet.input_blocks.7.1.transformer_blocks.3.attn1.to_q.weight", [1280, 1280], .float32, [], false⟩,
  ⟨key% "unet.input_blocks.7.1.transformer_blocks.3.attn1.to_v.weight", [1280, 1280], .float32, [], false⟩,
  ⟨key% "unet.input_blocks.7.1.transformer_blocks.3.attn2.to_k.weight", [1280, 2048], .float32, [], false⟩,
  ⟨key% "unet.input_blocks.7.1.transformer_blocks.3.attn2.to_out.0.bias", [1280], .float32, [], false⟩,
  ⟨key% "unet.input_blocks.7.1.transformer_blocks.3.attn2.to_out.0.weight", [1280, 1280], .float32, [], false⟩,
  ⟨key% "unet.input_blocks.7.1.transformer_blocks.3.attn2.to_q.weight", [1280, 1280], .float32, [], false⟩,
  ⟨key% "unet.input_blocks.7.1.transformer_blocks.3.attn2.to_v.weight", [1280, 2048], .float32, [], false⟩,
  ⟨key% "unet.input_blocks.7.1.transformer_blocks.3.ff.net.0.proj.bias", [10240], .float32, [], false⟩,
  ⟨key% "unet.input_blocks.7.1.transformer_blocks.3.ff.net.0.proj.weight", [10240, 1280], .float32, [], false⟩,
  ⟨key% "unet.input_blocks.7.1.transformer_blocks.3.ff.net.2.bias", [1280], .float32, [], false⟩,
  ⟨key% "unet.input_blocks.7.1.transformer_blocks.3.ff.net.2.weight", [1280, 5120], .float32, [], false⟩,
  ⟨key% "unet.input_blocks.7.1.transformer_blocks.3.norm1.bias", [1280], .float32, [], false⟩,
  ⟨key% "unet.input_blocks.7.1.transformer_blocks.3.norm1.weight", [1280], .float32, [], false⟩,
  ⟨key% "unet.input_blocks.7.1.transformer_blocks.3.norm2.bias", [1280], .float32, [], false⟩,
  ⟨key% "unet.input_blocks.7.1.transformer_blocks.3.norm2.weight", [1280], .float32, [], false⟩,
  ⟨key% "unet.input_blocks.7.1.transformer_blocks.3.norm3.bias", [1280], .float32, [], false⟩,
  ⟨key% "unet.input_blocks.7.1.transformer_blocks.3.norm3.weight", [1280], .float32, [], false⟩,
  ⟨key% "unet.input_blocks.7.1.transformer_blocks.4.attn1.to_k.weight", [1280, 1280], .float32, [], false⟩,
  ⟨key% "unet.input_blocks.7.1.transformer_blocks.4.attn1.to_out.0.bias", [1280], .float32, [], false⟩,
  ⟨key% "unet.input_blocks.7.1.transformer_blocks.4.attn1.to_out.0.weight", [1280, 1280], .float32, [], false⟩,
  ⟨key% "unet.input_blocks.7.1.transformer_blocks.4.attn1.to_q.weight", [1280, 1280], .float32, [], false⟩,
  ⟨key% "unet.input_blocks.7.1.transformer_blocks.4.attn1.to_v.weight", [1280, 1280], .float32, [], false⟩,
  ⟨key% "unet.input_blocks.7.1.transformer_blocks.4.attn2.to_k.weight", [1280, 2048], .float32, [], false⟩,
  ⟨key% "unet.input_blocks.7.1.transformer_blocks.4.attn2.to_out.0.bias", [1280], .float32, [], false⟩,
  ⟨key% "unet.input_blocks.7.1.transformer_blocks.4.attn2.to_out.0.weight", [1280, 1280], .float32, [], false⟩,
  ⟨key% "unet.input_blocks.7.1.transformer_blocks.4.attn2.to_q.weight", [1280, 1280], .float32, [], false⟩,
  ⟨key% "unet.input_blocks.7.1.transformer_blocks.4.attn2.to_v.weight", [1280, 2048], .float32, [], false⟩,
  ⟨key% "unet.input_blocks.7.1.transformer_blocks.4.ff.net.0.proj.bias", [10240], .float32, [], false⟩,
  ⟨key% "unet.input_blocks.7.1.transformer_blocks.4.ff.net.0.proj.weight", [10240, 1280], .float32, [], false⟩,
  ⟨key% "unet.input_blocks.7.1.transformer_blocks.4.ff.net.2.bias", [1280], .float32, [], false⟩,
  ⟨key% "unet.input_blocks.7.1.transformer_blocks.4.ff.net.2.weight", [1280, 5120], .float32, [], false⟩,
  ⟨key% "unet.input_blocks.7.1.transformer_blocks.4.norm1.bias", [1280], .float32, [], false⟩,
  ⟨key% "unet.input_blocks.7.1.transformer_blocks.4.norm1.weight", [1280], .float32, [], false⟩,
  ⟨key% "unet.input_blocks.7.1.transformer_blocks.4.norm2.bias", [1280], .float32, [], false⟩,
  ⟨key% "unet.input_blocks.7.1.transformer_blocks.4.norm2.weight", [1280], .float32, [], false⟩,
  ⟨key% "unet.input_blocks.7.1.transformer_blocks.4.norm3.bias", [1280], .float32, [], false⟩,
  ⟨key% "unet.input_blocks.7.1.transformer_blocks.4.norm3.weight", [1280], .float32, [], false⟩,
  ⟨key% "unet.input_blocks.7.1.transformer_blocks.5.attn1.to_k.weight", [1280, 1280], .float32, [], false⟩,
  ⟨key% "unet.input_blocks.7.1.transformer_blocks.5.attn1.to_out.0.bias", [1280], .float32, [], false⟩,
  ⟨key% "unet.input_blocks.7.1.transformer_blocks.5.attn1.to_out.0.weight", [1280, 1280], .float32, [], false⟩,
  ⟨key% "unet.input_blocks.7.1.transformer_blocks.5.attn1.to_q.weight", [1280, 1280], .float32, [], false⟩,
  ⟨key% "unet.input_blocks.7.1.transformer_blocks.5.attn1.to_v.weight", [1280, 1280], .float32, [], false⟩,
  ⟨key% "unet.input_blocks.7.1.transformer_blocks.5.attn2.to_k.weight", [1280, 2048], .float32, [], false⟩,
  ⟨key% "unet.input_blocks.7.1.transformer_blocks.5.attn2.to_out.0.bias", [1280], .float32, [], false⟩,
  ⟨key% "unet.input_blocks.7.1.transformer_blocks.5.attn2.to_out.0.weight", [1280, 1280], .float32, [], false⟩,
  ⟨key% "unet.input_blocks.7.1.transformer_blocks.5.attn2.to_q.weight", [1280, 1280], .float32, [], false⟩,
  ⟨key% "unet.input_blocks.7.1.transformer_blocks.5.attn2.to_v.weight", [1280, 2048], .float32, [], false⟩,
  ⟨key% "unet.input_blocks.7.1.transformer_blocks.5.ff.net.0.proj.bias", [10240], .float32, [], false⟩,
  ⟨key% "unet.input_blocks.7.1.transformer_blocks.5.ff.net.0.proj.weight", [10240, 1280], .float32, [], false⟩,
  ⟨key% "unet.input_blocks.7.1.transformer_blocks.5.ff.net.2.bias", [1280], .float32, [], false⟩,
  ⟨key% "unet.input_blocks.7.1.transformer_blocks.5.ff.net.2.weight", [1280, 5120], .float32, [], false⟩,
  ⟨key% "unet.input_blocks.7.1.transformer_blocks.5.norm1.bias", [1280], .float32, [], false⟩,
  ⟨key% "unet.input_blocks.7.1.transformer_blocks.5.norm1.weight", [1280], .float32, [], false⟩,
  ⟨key% "unet.input_blocks.7.1.transformer_blocks.5.norm2.bias", [1280], .float32, [], false⟩,
  ⟨key% "unet.input_blocks.7.1.transformer_blocks.5.norm2.weight", [1280], .float32, [], false⟩,
  ⟨key% "unet.input_blocks.7.1.transformer_blocks.5.norm3.bias", [1280], .float32, [], false⟩,
  ⟨key% "unet.input_blocks.7.1.transformer_blocks.5.norm3.weight", [1280], .float32, [], false⟩,
  ⟨key% "unet.input_blocks.7.1.transformer_blocks.6.attn1.to_k.weight", [1280, 1280], .float32, [], false⟩,
  ⟨key% "unet.input_blocks.7.1.transformer_blocks.6.attn1.to_out.0.bias", [1280], .float32, [], false⟩,
  ⟨key% "unet.input_blocks.7.1.transformer_blocks.6.attn1.to_out.0.weight", [1280, 1280], .float32, [], false⟩,
  ⟨key% "unet.input_blocks.7.1.transformer_blocks.6.attn1.to_q.weight", [1280, 1280], .float32, [], false⟩,
  ⟨key% "unet.input_blocks.7.1.transformer_blocks.6.attn1.to_v.weight", [1280, 1280], .float32, [], false⟩,
  ⟨key% "unet.input_blocks.7.1.transformer_blocks.6.attn2.to_k.weight", [1280, 2048], .float32, [], false⟩,
  ⟨key% "unet.input_blocks.7.1.transformer_blocks.6.attn2.to_out.0.bias", [1280], .float32, [], false⟩,
  ⟨key% "unet.input_blocks.7.1.transformer_blocks.6.attn2.to_out.0.weight", [1280, 1280], .float32, [], false⟩,
  ⟨key% "unet.input_blocks.7.1.transformer_blocks.6.attn2.to_q.weight", [1280, 1280], .float32, [], false⟩,
  ⟨key% "unet.input_blocks.7.1.transformer_blocks.6.attn2.to_v.weight", [1280, 2048], .float32, [], false⟩,
  ⟨key% "unet.input_blocks.7.1.transformer_blocks.6.ff.net.0.proj.bias", [10240], .float32, [], false⟩,
  ⟨key% "unet.input_blocks.7.1.transformer_blocks.6.ff.net.0.proj.weight", [10240, 1280], .float32, [], false⟩,
  ⟨key% "unet.input_blocks.7.1.transformer_blocks.6.ff.net.2.bias", [1280], .float32, [], false⟩,
  ⟨key% "unet.input_blocks.7.1.transformer_blocks.6.ff.net.2.weight", [1280, 5120], .float32, [], false⟩,
  ⟨key% "unet.input_blocks.7.1.transformer_blocks.6.norm1.bias", [1280], .float32, [], false⟩,
  ⟨key% "unet.input_blocks.7.1.transformer_blocks.6.norm1.weight", [1280], .float32, [], false⟩,
  ⟨key% "unet.input_blocks.7.1.transformer_blocks.6.norm2.bias", [1280], .float32, [], false⟩,
  ⟨key% "unet.input_blocks.7.1.transformer_blocks.6.norm2.weight", [1280], .float32, [], false⟩,
  ⟨key% "unet.input_blocks.7.1.transformer_blocks.6.norm3.bias", [1280], .float32, [], false⟩,
  ⟨key% "unet.input_blocks.7.1.transformer_blocks.6.norm3.weight", [1280], .float32, [], false⟩,
  ⟨key% "unet.input_blocks.7.1.transformer_blocks.7.attn1.to_k.weight", [1280, 1280], .float32, [], false⟩,
  ⟨key% "unet.input_blocks.7.1.transformer_blocks.7.attn1.to_out.0.bias", [1280], .float32, [], false⟩]
noncomputable def diffuser3 : List Entry := [
  ⟨key% "unet.input_blocks.7.1.transformer_blocks.7.attn1.to_out.0.weight", [1280, 1280], .float32, [], false⟩,
  ⟨key% "unet.input_blocks.7.1.transformer_blocks.7.attn1.to_q.weight", [1280, 1280], .float32, [], false⟩,
  ⟨key% "unet.input_blocks.7.1.transformer_blocks.7.attn1.to_v.weight", [1280, 1280], .float32, [], false⟩,
  ⟨key% "unet.input_blocks.7.1.transformer_blocks.7.attn2.to_k.weight", [1280, 2048], .float32, [], false⟩,
  ⟨key% "unet.input_blocks.7.1.transformer_blocks.7.attn2.to_out.0.bias", [1280], .float32, [], false⟩,
  ⟨key% "unet.input_blocks.7.1.transformer_blocks.7.attn2.to_out.0.weight", [1280, 1280], .float32, [], false⟩,
  ⟨key% "unet.input_blocks.7.1.transformer_blocks.7.attn2.to_q.weight", [1280, 1280], .float32, [], false⟩,
  ⟨key% "unet.input_blocks.7.1.transformer_blocks.7.attn2.to_v.weight", [1280, 2048], .float32, [], false⟩,
  ⟨key% "unet.input_blocks.7.1.transformer_blocks.7.ff.net.0.proj.bias", [10240], .float32, [], false⟩,
  ⟨key% "unet.input_blocks.7.1.transformer_blocks.7.ff.net.0.proj.weight", [10240, 1280], .float32, [], false⟩,
  ⟨key% "unet.input_blocks.7.1.transformer_blocks.7.ff.net.2.bias", [1280], .float32, [], false⟩,
  ⟨key% "unet.input_blocks.7.1.transformer_blocks.7.ff.net.2.weight", [1280, 5120], .float32, [], false⟩,
  ⟨key% "unet.input_blocks.7.1.transformer_blocks.7.norm1.bias", [1280], .float32, [], false⟩,
  ⟨key% "unet.input_blocks.7.1.transformer_blocks.7.norm1.weight", [1280], .float32, [], false⟩,
  ⟨key% "unet.input_blocks.7.1.transformer_blocks.7.norm2.bias", [1280], .float32, [], false⟩,
  ⟨key% "unet.input_blocks.7.1.transformer_blocks.7.norm2.weight", [1280], .float32, [], false⟩,
  ⟨key% "unet.input_blocks.7.1.transformer_blocks.7.norm3.bias", [1280], .float32, [], false⟩,
  ⟨key% "unet.input_blocks.7.1.transformer_blocks.7.norm3.weight", [1280], .float32, [], false⟩,
  ⟨key% "unet.input_blocks.7.1.transformer_blocks.8.attn1.to_k.weight", [1280, 1280], .float32, [], false⟩,
  ⟨key% "unet.input_blocks.7.1.transformer_blocks.8.attn1.to_out.0.bias", [1280], .float32, [], false⟩,
  ⟨key% "unet.input_blocks.7.1.transformer_blocks.8.attn1.to_out.0.weight", [1280, 1280], .float32, [], false⟩,
  ⟨key% "unet.input_blocks.7.1.transformer_blocks.8.attn1.to_q.weight", [1280, 1280], .float32, [], false⟩,
  ⟨key% "unet.input_blocks.7.1.transformer_blocks.8.attn1.to_v.weight", [1280, 1280], .float32, [], false⟩,
  ⟨key% "unet.input_blocks.7.1.transformer_blocks.8.attn2.to_k.weight", [1280, 2048], .float32, [], false⟩,
  ⟨key% "unet.input_blocks.7.1.transformer_blocks.8.attn2.to_out.0.bias", [1280], .float32, [], false⟩,
  ⟨key% "unet.input_blocks.7.1.transformer_blocks.8.attn2.to_out.0.weight", [1280, 1280], .float32, [], false⟩,
  ⟨key% "unet.input_blocks.7.1.transformer_blocks.8.attn2.to_q.weight", [1280, 1280], .float32, [], false⟩,
  ⟨key% "unet.input_blocks.7.1.transformer_blocks.8.attn2.to_v.weight", [1280, 2048], .float32, [], false⟩,
  ⟨key% "unet.input_blocks.7.1.transformer_blocks.8.ff.net.0.proj.bias", [10240], .float32, [], false⟩,
  ⟨key% "unet.input_blocks.7.1.transformer_blocks.8.ff.net.0.proj.weight", [10240, 1280], .float32, [], false⟩,
  ⟨key% "unet.input_blocks.7.1.transformer_blocks.8.ff.net.2.bias", [1280], .float32, [], false⟩,
  ⟨key% "unet.input_blocks.7.1.transformer_blocks.8.ff.net.2.weight", [1280, 5120], .float32, [], false⟩,
  ⟨key% "unet.input_blocks.7.1.transformer_blocks.8.norm1.bias", [1280], .float32, [], false⟩,
  ⟨key% "unet.input_blocks.7.1.transformer_blocks.8.norm1.weight", [1280], .float32, [], false⟩,
  ⟨key% "unet.input_blocks.7.1.transformer_blocks.8.norm2.bias", [1280], .float32, [], false⟩,
  ⟨key% "unet.input_blocks.7.1.transformer_blocks.8.norm2.weight", [1280], .float32, [], false⟩,
  ⟨key% "unet.input_blocks.7.1.transformer_blocks.8.norm3.bias", [1280], .float32, [], false⟩,
  ⟨key% "unet.input_blocks.7.1.transformer_blocks.8.norm3.weight", [1280], .float32, [], false⟩,
  ⟨key% "unet.input_blocks.7.1.transformer_blocks.9.attn1.to_k.weight", [1280, 1280], .float32, [], false⟩,
  ⟨key% "unet.input_blocks.7.1.transformer_blocks.9.attn1.to_out.0.bias", [1280], .float32, [], false⟩,
  ⟨key% "unet.input_blocks.7.1.transformer_blocks.9.attn1.to_out.0.weight", [1280, 1280], .float32, [], false⟩,
  ⟨key% "unet.input_blocks.7.1.transformer_blocks.9.attn1.to_q.weight", [1280, 1280], .float32, [], false⟩,
  ⟨key% "unet.input_blocks.7.1.transformer_blocks.9.attn1.to_v.weight", [1280, 1280], .float32, [], false⟩,
  ⟨key% "unet.input_blocks.7.1.transformer_blocks.9.attn2.to_k.weight", [1280, 2048], .float32, [], false⟩,
  ⟨key% "unet.input_blocks.7.1.transformer_blocks.9.attn2.to_out.0.bias", [1280], .float32, [], false⟩,
  ⟨key% "unet.input_blocks.7.1.transformer_blocks.9.attn2.to_out.0.weight", [1280, 1280], .float32, [], false⟩,
  ⟨key% "unet.input_blocks.7.1.transformer_blocks.9.attn2.to_q.weight", [1280, 1280], .float32, [], false⟩,
  ⟨key% "unet.input_blocks.7.1.transformer_blocks.9.attn2.to_v.weight", [1280, 2048], .float32, [], false⟩,
  ⟨key% "unet.input_blocks.7.1.transformer_blocks.9.ff.net.0.proj.bias", [10240], .float32, [], false⟩,
  ⟨key% "unet.input_blocks.7.1.transformer_blocks.9.ff.net.0.proj.weight", [10240, 1280], .float32, [], false⟩,
  ⟨key% "unet.input_blocks.7.1.transformer_blocks.9.ff.net.2.bias", [1280], .float32, [], false⟩,
  ⟨key% "unet.input_blocks.7.1.transformer_blocks.9.ff.net.2.weight", [1280, 5120], .float32, [], false⟩,
  ⟨key% "unet.input_blocks.7.1.transformer_blocks.9.norm1.bias", [1280], .float32, [], false⟩,
  ⟨key% "unet.input_blocks.7.1.transformer_blocks.9.norm1.weight", [1280], .float32, [], false⟩,
  ⟨key% "unet.input_blocks.7.1.transformer_blocks.9.norm2.bias", [1280], .float32, [], false⟩,
  ⟨key% "unet.input_blocks.7.1.transformer_blocks.9.norm2.weight", [1280], .float32, [], false⟩,
  ⟨key% "unet.input_blocks.7.1.transformer_blocks.9.norm3.bias", [1280], .float32, [], false⟩,
  ⟨key% "unet.input_blocks.7.1.transformer_blocks.9.norm3.weight", [1280], .float32, [], false⟩,
  ⟨key% "unet.input_blocks.8.0.emb_layers.1.bias", [1280], .float32, [], false⟩,
  ⟨key% "unet.input_blocks.8.0.emb_layers.1.weight", [1280, 1280], .float32, [], false⟩,
  ⟨key% "unet.input_blocks.8.0.in_layers.0.bias", [1280], .float32, [], false⟩,
  ⟨key% "unet.input_blocks.8.0.in_layers.0.weight", [1280], .float32, [], false⟩,
  ⟨key% "unet.input_blocks.8.0.in_layers.2.bias", [1280], .float32, [], false⟩,
  ⟨key% "unet.input_blocks.8.0.in_layers.2.weight", [1280, 1280, 3, 3], .float32, [], false⟩,
  ⟨key% "unet.input_blocks.8.0.out_layers.0.bias", [1280], .float32, [], false⟩,
  ⟨key% "unet.input_blocks.8.0.out_layers.0.weight", [1280], .float32, [], false⟩,
  ⟨key% "unet.input_blocks.8.0.out_layers.3.bias", [1280], .float32, [], false⟩,
  ⟨key% "unet.input_blocks.8.0.out_layers.3.weight", [1280, 1280, 3, 3], .float32, [], false⟩,
  ⟨key% "unet.input_blocks.8.1.norm.bias", [1280], .float32, [], false⟩,
  ⟨key% "unet.input_blocks.8.1.norm.weight", [1280], .float32, [], false⟩,
  ⟨key% "unet.input_blocks.8.1.proj_in.bias", [1280], .float32, [], false⟩,
  ⟨key% "unet.input_blocks.8.1.proj_in.weight", [1280, 1280], .float32, [], false⟩,
  ⟨key% "unet.input_blocks.8.1.proj_out.bias", [1280], .float32, [], false⟩,
  ⟨key% "unet.input_blocks.8.1.proj_out.weight", [1280, 1280], .float32, [], false⟩,
  ⟨key% "unet.input_blocks.8.1.transformer_blocks.0.attn1.to_k.weight", [1280, 1280], .float32, [], false⟩,
  ⟨key% "unet.input_blocks.8.1.transformer_blocks.0.attn1.to_out.0.bias", [1280], .float32, [], false⟩,
  ⟨key% "unet.input_blocks.8.1.transformer_blocks.0.attn1.to_out.0.weight", [1280, 1280], .float32, [], false⟩,
  ⟨key% "unet.input_blocks.8.1.transformer_blocks.0.attn1.to_q.weight", [1280, 1280], .float32, [], false⟩,
  ⟨key% "unet.input_blocks.8.1.transformer_blocks.0.attn1.to_v.weight", [1280, 1280], .float32, [], false⟩,
  ⟨key% "unet.input_blocks.8.1.transformer_blocks.0.attn2.to_k.weight", [1280, 2048], .float32, [], false⟩,
  ⟨key% "unet.input_blocks.8.1.transformer_blocks.0.attn2.to_out.0.bias", [1280], .float32, [], false⟩,
  ⟨key% "unet.input_blocks.8.1.transformer_blocks.0.attn2.to_out.0.weight", [1280, 1280], .float32, [], false⟩,
  ⟨key% "unet.input_blocks.8.1.transformer_blocks.0.attn2.to_q.weight", [1280, 1280], .float32, [], false⟩,
  ⟨key% "unet.input_blocks.8.1.transformer_blocks.0.attn2.to_v.weight", [1280, 2048], .float32, [], false⟩,
  ⟨key% "unet.input_blocks.8.1.transformer_blocks.0.ff.net.0.proj.bias", [10240], .float32, [], false⟩,
  ⟨key% "unet.input_blocks.8.1.transformer_blocks.0.ff.net.0.proj.weight", [10240, 1280], .float32, [], false⟩,
  ⟨key% "unet.input_blocks.8.1.transformer_blocks.0.ff.net.2.bias", [1280], .float32, [], false⟩,
  ⟨key% "unet.input_blocks.8.1.transformer_blocks.0.ff.net.2.weight", [1280, 5120], .float32, [], false⟩,
  ⟨key% "unet.input_blocks.8.1.transformer_blocks.0.norm1.bias", [1280], .float32, [], false⟩,
  ⟨key% "unet.input_blocks.8.1.transformer_blocks.0.norm1.weight", [1280], .float32, [], false⟩,
  ⟨key% "unet.input_blocks.8.1.transformer_blocks.0.norm2.bias", [1280], .float32, [], false⟩,
  ⟨key% "unet.input_blocks.8.1.transformer_blocks.0.norm2.weight", [1280], .float32, [], false⟩,
  ⟨key% "unet.input_blocks.8.1.transformer_blocks.0.norm3.bias", [1280], .float32, [], false⟩,
  ⟨key% "unet.input_blocks.8.1.transformer_blocks.0.norm3.weight", [1280], .float32, [], false⟩,
  ⟨key% "unet.input_blocks.8.1.transformer_blocks.1.attn1.to_k.weight", [1280, 1280], .float32, [], false⟩,
  ⟨key% "unet.input_blocks.8.1.transformer_blocks.1.attn1.to_out.0.bias", [1280], .float32, [], false⟩,
  ⟨key% "unet.input_blocks.8.1.transformer_blocks.1.attn1.to_out.0.weight", [1280, 1280], .float32, [], false⟩,
  ⟨key% "unet.input_blocks.8.1.transformer_blocks.1.attn1.to_q.weight", [1280, 1280], .float32, [], false⟩,
  ⟨key% "unet.input_blocks.8.1.transformer_blocks.1.attn1.to_v.weight", [1280, 1280], .float32, [], false⟩,
  ⟨key% "unet.input_blocks.8.1.transformer_blocks.1.attn2.to_k.weight", [1280, 2048], .float32, [], false⟩]
noncomputable def diffuser4 : List Entry := [
  ⟨key% "unet.input_blocks.8.1.transformer_blocks.1.attn2.to_out.0.bias", [1280], .float32, [], false⟩,
  ⟨key% "unet.input_blocks.8.1.transformer_blocks.1.attn2.to_out.0.weight", [1280, 1280], .float32, [], false⟩,
  ⟨key% "unet.input_blocks.8.1.transformer_blocks.1.attn2.to_q.weight", [1280, 1280], .float32, [], false⟩,
  ⟨key% "unet.input_blocks.8.1.transformer_blocks.1.attn2.to_v.weight", [1280, 2048], .float32, [], false⟩,
  ⟨key% "unet.input_blocks.8.1.transformer_blocks.1.ff.net.0.proj.bias", [10240], .float32, [], false⟩,
  ⟨key% "unet.input_blocks.8.1.transformer_blocks.1.ff.net.0.proj.weight", [10240, 1280], .float32, [], false⟩,
  ⟨key% "unet.input_blocks.8.1.transformer_blocks.1.ff.net.2.bias", [1280], .float32, [], false⟩,
  ⟨key% "unet.input_blocks.8.1.transformer_blocks.1.ff.net.2.weight", [1280, 5120], .float32, [], false⟩,
  ⟨key% "unet.input_blocks.8.1.transformer_blocks.1.norm1.bias", [1280], .float32, [], false⟩,
  ⟨key% "unet.input_blocks.8.1.transformer_blocks.1.norm1.weight", [1280], .float32, [], false⟩,
  ⟨key% "unet.input_blocks.8.1.transformer_blocks.1.norm2.bias", [1280], .float32, [], false⟩,
  ⟨key% "unet.input_blocks.8.1.transformer_blocks.1.norm2.weight", [1280], .float32, [], false⟩,
  ⟨key% "unet.input_blocks.8.1.transformer_blocks.1.norm3.bias", [1280], .float32, [], false⟩,
  ⟨key% "unet.input_blocks.8.1.transformer_blocks.1.norm3.weight", [1280], .float32, [], false⟩,
  ⟨key% "unet.input_blocks.8.1.transformer_blocks.2.attn1.to_k.weight", [1280, 1280], .float32, [], false⟩,
  ⟨key% "unet.input_blocks.8.1.transformer_blocks.2.attn1.to_out.0.bias", [1280], .float32, [], false⟩,
  ⟨key% "unet.input_blocks.8.1.transformer_blocks.2.attn1.to_out.0.weight", [1280, 1280], .float32, [], false⟩,
  ⟨key% "unet.input_blocks.8.1.transformer_blocks.2.attn1.to_q.weight", [1280, 1280], .float32, [], false⟩,
  ⟨key% "unet.input_blocks.8.1.transformer_blocks.2.attn1.to_v.weight", [1280, 1280], .float32, [], false⟩,
  ⟨key% "unet.input_blocks.8.1.transformer_blocks.2.attn2.to_k.weight", [1280, 2048], .float32, [], false⟩,
  ⟨key% "unet.input_blocks.8.1.transformer_blocks.2.attn2.to_out.0.bias", [1280], .float32, [], false⟩,
  ⟨key% "unet.input_blocks.8.1.transformer_blocks.2.attn2.to_out.0.weight", [1280, 1280], .float32, [], false⟩,
  ⟨key% "unet.input_blocks.8.1.transformer_blocks.2.attn2.to_q.weight", [1280, 1280], .float32, [], false⟩,
  ⟨key% "unet.input_blocks.8.1.transformer_blocks.2.attn2.to_v.weight", [1280, 2048], .float32, [], false⟩,
  ⟨key% "unet.input_blocks.8.1.transformer_blocks.2.ff.net.0.proj.bias", [10240], .float32, [], false⟩,
  ⟨key% "unet.input_blocks.8.1.transformer_blocks.2.ff.net.0.proj.weight", [10240, 1280], .float32, [], false⟩,
  ⟨key% "unet.input_blocks.8.1.transformer_blocks.2.ff.net.2.bias", [1280], .float32, [], false⟩,
  ⟨key% "unet.input_blocks.8.1.transformer_blocks.2.ff.net.2.weight", [1280, 5120], .float32, [], false⟩,
  ⟨key% "unet.input_blocks.8.1.transformer_blocks.2.norm1.bias", [1280], .float32, [], false⟩,
  ⟨key% "unet.input_blocks.8.1.transformer_blocks.2.norm1.weight", [1280], .float32, [], false⟩,
  ⟨key% "unet.input_blocks.8.1.transformer_blocks.2.norm2.bias", [1280], .float32, [], false⟩,
  ⟨key% "unet.input_blocks.8.1.transformer_blocks.2.norm2.weight", [1280], .float32, [], false⟩,
  ⟨key% "unet.input_blocks.8.1.transformer_blocks.2.norm3.bias", [1280], .float32, [], false⟩,
  ⟨key% "unet.input_blocks.8.1.transformer_blocks.2.norm3.weight", [1280], .float32, [], false⟩,
  ⟨key% "unet.input_blocks.8.1.transformer_blocks.3.attn1.to_k.weight", [1280, 1280], .float32, [], false⟩,
  ⟨key% "unet.input_blocks.8.1.transformer_blocks.3.attn1.to_out.0.bias", [1280], .float32, [], false⟩,
  ⟨key% "unet.input_blocks.8.1.transformer_blocks.3.attn1.to_out.0.weight", [1280, 1280], .float32, [], false⟩,
  ⟨key% "unet.input_blocks.8.1.transformer_blocks.3.attn1.to_q.weight", [1280, 1280], .float32, [], false⟩,
  ⟨key% "unet.input_blocks.8.1.transformer_blocks.3.attn1.to_v.weight", [1280, 1280], .float32, [], false⟩,
  ⟨key% "unet.input_blocks.8.1.transformer_blocks.3.attn2.to_k.weight", [1280, 2048], .float32, [], false⟩,
  ⟨key% "unet.input_blocks.8.1.transformer_blocks.3.attn2.to_out.0.bias", [1280], .float32, [], false⟩,
  ⟨key% "unet.input_blocks.8.1.transformer_blocks.3.attn2.to_out.0.weight", [1280, 1280], .float32, [], false⟩,
  ⟨key% "unet.input_blocks.8.1.transformer_blocks.3.attn2.to_q.weight", [1280, 1280], .float32, [], false⟩,
  ⟨key% "unet.input_blocks.8.1.transformer_blocks.3.attn2.to_v.weight", [1280, 2048], .float32, [], false⟩,
  ⟨key% "unet.input_blocks.8.1.transformer_blocks.3.ff.net.0.proj.bias", [10240], .float32, [], false⟩,
  ⟨key% "unet.input_blocks.8.1.transformer_blocks.3.ff.net.0.proj.weight", [10240, 1280], .float32, [], false⟩,
  ⟨key% "unet.input_blocks.8.1.transformer_blocks.3.ff.net.2.bias", [1280], .float32, [], false⟩,
  ⟨key% "unet.input_blocks.8.1.transformer_blocks.3.ff.net.2.weight", [1280, 5120], .float32, [], false⟩,
  ⟨key% "unet.input_blocks.8.1.transformer_blocks.3.norm1.bias", [1280], .float32, [], false⟩,
  ⟨key% "unet.input_blocks.8.1.transformer_blocks.3.norm1.weight", [1280], .float32, [], false⟩,
  ⟨key% "unet.input_blocks.8.1.transformer_blocks.3.norm2.bias", [1280], .float32, [], false⟩,
  ⟨key% "unet.input_blocks.8.1.transformer_blocks.3.norm2.weight", [1280], .float32, [], false⟩,
  ⟨key% "unet.input_blocks.8.1.transformer_blocks.3.norm3.bias", [1280], .float32, [], false⟩,
  ⟨key% "unet.input_blocks.8.1.transformer_blocks.3.norm3.weight", [1280], .float32, [], false⟩,
  ⟨key% "unet.input_blocks.8.1.transformer_blocks.4.attn1.to_k.weight", [1280, 1280], .float32, [], false⟩,
  ⟨key% "unet.input_blocks.8.1.transformer_blocks.4.attn1.to_out.0.bias", [1280], .float32, [], false⟩,
  ⟨key% "unet.input_blocks.8.1.transformer_blocks.4.attn1.to_out.0.weight", [1280, 1280], .float32, [], false⟩,
  ⟨key% "unet.input_blocks.8.1.transformer_blocks.4.attn1.to_q.weight", [1280, 1280], .float32, [], false⟩,
  ⟨key% "unet.input_blocks.8.1.transformer_blocks.4.attn1.to_v.weight", [1280, 1280], .float32, [], false⟩,
  ⟨key% "unet.input_blocks.8.1.transformer_blocks.4.attn2.to_k.weight", [1280, 2048], .float32, [], false⟩,
  ⟨key% "unet.input_blocks.8.1.transformer_blocks.4.attn2.to_out.0.bias", [1280], .float32, [], false⟩,
  ⟨key% "unet.input_blocks.8.1.transformer_blocks.4.attn2.to_out.0.weight", [1280, 1280], .float32, [], false⟩,
  ⟨key% "unet.input_blocks.8.1.transformer_blocks.4.attn2.to_q.weight", [1280, 1280], .float32, [], false⟩,
  ⟨key% "unet.input_blocks.8.1.transformer_blocks.4.attn2.to_v.weight", [1280, 2048], .float32, [], false⟩,
  ⟨key% "unet.input_blocks.8.1.transformer_blocks.4.ff.net.0.proj.bias", [10240], .float32, [], false⟩,
  ⟨key% "unet.input_blocks.8.1.transformer_blocks.4.ff.net.0.proj.weight", [10240, 1280], .float32, [], false⟩,
  ⟨key% "unet.input_blocks.8.1.transformer_blocks.4.ff.net.2.bias", [1280], .float32, [], false⟩,
  ⟨key% "unet.input_blocks.8.1.transformer_blocks.4.ff.net.2.weight", [1280, 5120], .float32, [], false⟩,
  ⟨key% "unet.input_blocks.8.1.transformer_blocks.4.norm1.bias", [1280], .float32, [], false⟩,
  ⟨key% "unet.input_blocks.8.1.transformer_blocks.4.norm1.weight", [1280], .float32, [], false⟩,
  ⟨key% "unet.input_blocks.8.1.transformer_blocks.4.norm2.bias", [1280], .float32, [], false⟩,
  ⟨key% "unet.input_blocks.8.1.transformer_blocks.4.norm2.weight", [1280], .float32, [], false⟩,
  ⟨key% "unet.input_blocks.8.1.transformer_blocks.4.norm3.bias", [1280], .float32, [], false⟩,
  ⟨key% "unet.input_blocks.8.1.transformer_blocks.4.norm3.weight", [1280], .float32, [], false⟩,
  ⟨key% "unet.input_blocks.8.1.transformer_blocks.5.attn1.to_k.weight", [1280, 1280], .float32, [], false⟩,
  ⟨key% "unet.input_blocks.8.1.transformer_blocks.5.attn1.to_out.0.bias", [1280], .float32, [], false⟩,
  ⟨key% "unet.input_blocks.8.1.transformer_blocks.5.attn1.to_out.0.weight", [1280, 1280], .float32, [], false⟩,
  ⟨key% "unet.input_blocks.8.1.transformer_blocks.5.attn1.to_q.weight", [1280, 1280], .float32, [], false⟩,
  ⟨key% "unet.input_blocks.8.1.transformer_blocks.5.attn1.to_v.weight", [1280, 1280], .float32, [], false⟩,
  ⟨key% "unet.input_blocks.8.1.transformer_blocks.5.attn2.to_k.weight", [1280, 2048], .float32, [], false⟩,
  ⟨key% "unet.input_blocks.8.1.transformer_blocks.5.attn2.to_out.0.bias", [1280], .float32, [], false⟩,
  ⟨key% "unet.input_blocks.8.1.transformer_blocks.5.attn2.to_out.0.weight", [1280, 1280], .float32, [], false⟩,
  ⟨key% "unet.input_blocks.8.1.transformer_blocks.5.attn2.to_q.weight", [1280, 1280], .float32, [], false⟩,
  ⟨key% "unet.input_blocks.8.1.transformer_blocks.5.attn2.to_v.weight", [1280, 2048], .float32, [], false⟩,
  ⟨key% "unet.input_blocks.8.1.transformer_blocks.5.ff.net.0.proj.bias", [10240], .float32, [], false⟩,
  ⟨key% "unet.input_blocks.8.1.transformer_blocks.5.ff.net.0.proj.weight", [10240, 1280], .float32, [], false⟩,
  ⟨key% "unet.input_blocks.8.1.transformer_blocks.5.ff.net.2.bias", [1280], .float32, [], false⟩,
  ⟨key% "unet.input_blocks.8.1.transformer_blocks.5.ff.net.2.weight", [1280, 5120], .float32, [], false⟩,
  ⟨key% "unet.input_blocks.8.1.transformer_blocks.5.norm1.bias", [1280], .float32, [], false⟩,
  ⟨key% "unet.input_blocks.8.1.transformer_blocks.5.norm1.weight", [1280], .float32, [], false⟩,
  ⟨key% "unet.input_blocks.8.1.transformer_blocks.5.norm2.bias", [1280], .float32, [], false⟩,
  ⟨key% "unet.input_blocks.8.1.transformer_blocks.5.norm2.weight", [1280], .float32, [], false⟩,
  ⟨key% "unet.input_blocks.8.1.transformer_blocks.5.norm3.bias", [1280], .float32, [], false⟩,
  ⟨key% "unet.input_blocks.8.1.transformer_blocks.5.norm3.weight", [1280], .float32, [], false⟩,
  ⟨key% "unet.input_blocks.8.1.transformer_blocks.6.attn1.to_k.weight", [1280, 1280], .float32, [], false⟩,
  ⟨key% "unet.input_blocks.8.1.transformer_blocks.6.attn1.to_out.0.bias", [1280], .float32, [], false⟩,
  ⟨key% "unet.input_blocks.8.1.transformer_blocks.6.attn1.to_out.0.weight", [1280, 1280], .float32, [], false⟩,
  ⟨key% "unet.input_blocks.8.1.transformer_blocks.6.attn1.to_q.weight", [1280, 1280], .float32, [], false⟩,
  ⟨key% "unet.input_blocks.8.1.transformer_blocks.6.attn1.to_v.weight", [1280, 1280], .float32, [], false⟩,
  ⟨key% "unet.input_blocks.8.1.transformer_blocks.6.attn2.to_k.weight", [1280, 2048], .float32, [], false⟩]
noncomputable def diffuser5 : List Entry := [
  ⟨key% "unet.input_blocks.8.1.transformer_blocks.6.attn2.to_out.0.bias", [1280], .float32, [], false⟩,
  ⟨key% "unet.input_blocks.8.1.transformer_blocks.6.attn2.to_out.0.weight", [1280, 1280], .float32, [], false⟩,
  ⟨key% "unet.input_blocks.8.1.transformer_blocks.6.attn2.to_q.weight", [1280, 1280], .float32, [], false⟩,
  ⟨key% "unet.input_blocks.8.1.transformer_blocks.6.attn2.to_v.weight", [1280, 2048], .float32, [], false⟩,
  ⟨key% "unet.input_blocks.8.1.transformer_blocks.6.ff.net.0.proj.bias", [10240], .float32, [], false⟩,
  ⟨key% "unet.input_blocks.8.1.transformer_blocks.6.ff.net.0.proj.weight", [10240, 1280], .float32, [], false⟩,
  ⟨key% "unet.input_blocks.8.1.transformer_blocks.6.ff.net.2.bias", [1280], .float32, [], false⟩,
  ⟨key% "unet.input_blocks.8.1.transformer_blocks.6.ff.net.2.weight", [1280, 5120], .float32, [], false⟩,
  ⟨key% "unet.input_blocks.8.1.transformer_blocks.6.norm1.bias", [1280], .float32, [], false⟩,
  ⟨key% "unet.input_blocks.8.1.transformer_blocks.6.norm1.weight", [1280], .float32, [], false⟩,
  ⟨key% "unet.input_blocks.8.1.transformer_blocks.6.norm2.bias", [1280], .float32, [], false⟩,
  ⟨key% "unet.input_blocks.8.1.transformer_blocks.6.norm2.weight", [1280], .float32, [], false⟩,
  ⟨key% "unet.input_blocks.8.1.transformer_blocks.6.norm3.bias", [1280], .float32, [], false⟩,
  ⟨key% "unet.input_blocks.8.1.transformer_blocks.6.norm3.weight", [1280], .float32, [], false⟩,
  ⟨key% "unet.input_blocks.8.1.transformer_blocks.7.attn1.to_k.weight", [1280, 1280], .float32, [], false⟩,
  ⟨key% "unet.input_blocks.8.1.transformer_blocks.7.attn1.to_out.0.bias", [1280], .float32, [], false⟩,
  ⟨key% "unet.input_blocks.8.1.transformer_blocks.7.attn1.to_out.0.weight", [1280, 1280], .float32, [], false⟩,
  ⟨key% "unet.input_blocks.8.1.transformer_blocks.7.attn1.to_q.weight", [1280, 1280], .float32, [], false⟩,
  ⟨key% "unet.input_blocks.8.1.transformer_blocks.7.attn1.to_v.weight", [1280, 1280], .float32, [], false⟩,
  ⟨key% "unet.input_blocks.8.1.transformer_blocks.7.attn2.to_k.weight", [1280, 2048], .float32, [], false⟩,
  ⟨key% "unet.input_blocks.8.1.transformer_blocks.7.attn2.to_out.0.bias", [1280], .float32, [], false⟩,
  ⟨key% "unet.input_blocks.8.1.transformer_blocks.7.attn2.to_out.0.weight", [1280, 1280], .float32, [], false⟩,
  ⟨key% "unet.input_blocks.8.1.transformer_blocks.7.attn2.to_q.weight", [1280, 1280], .float32, [], false⟩,
  ⟨key% "unet.input_blocks.8.1.transformer_blocks.7.attn2.to_v.weight", [1280, 2048], .float32, [], false⟩,
  ⟨key% "unet.input_blocks.8.1.transformer_blocks.7.ff.net.0.proj.bias", [10240], .float32, [], false⟩,
  ⟨key% "unet.input_blocks.8.1.transformer_blocks.7.ff.net.0.proj.weight", [10240, 1280], .float32, [], false⟩,
  ⟨key% "unet.input_blocks.8.1.transformer_blocks.7.ff.net.2.bias", [1280], .float32, [], false⟩,
  ⟨key% "unet.input_blocks.8.1.transformer_blocks.7.ff.net.2.weight", [1280, 5120], .float32, [], false⟩,
  ⟨key% "unet.input_blocks.8.1.transformer_blocks.7.norm1.bias", [1280], .float32, [], false⟩,
  ⟨key% "unet.input_blocks.8.1.transformer_blocks.7.norm1.weight", [1280], .float32, [], false⟩,
  ⟨key% "unet.input_blocks.8.1.transformer_blocks.7.norm2.bias", [1280], .float32, [], false⟩,
  ⟨key% "unet.input_blocks.8.1.transformer_blocks.7.norm2.weight", [1280], .float32, [], false⟩,
  ⟨key% "unet.input_blocks.8.1.transformer_blocks.7.norm3.bias", [1280], .float32, [], false⟩,
  ⟨key% "unet.input_blocks.8.1.transformer_blocks.7.norm3.weight", [1280], .float32, [], false⟩,
  ⟨key% "unet.input_blocks.8.1.transformer_blocks.8.attn1.to_k.weight", [1280, 1280], .float32, [], false⟩,
  ⟨key% "unet.input_blocks.8.1.transformer_blocks.8.attn1.to_out.0.bias", [1280], .float32, [], false⟩,
  ⟨key% "unet.input_blocks.8.1.transformer_blocks.8.attn1.to_out.0.weight", [1280, 1280], .float32, [], false⟩,
  ⟨key% "unet.input_blocks.8.1.transformer_blocks.8.attn1.to_q.weight", [1280, 1280], .float32, [], false⟩,
  ⟨key% "unet.input_blocks.8.1.transformer_blocks.8.attn1.to_v.weight", [1280, 1280], .float32, [], false⟩,
  ⟨key% "unet.input_blocks.8.1.transformer_blocks.8.attn2.to_k.weight", [1280, 2048], .float32, [], false⟩,
  ⟨key% "unet.input_blocks.8.1.transformer_blocks.8.attn2.to_out.0.bias", [1280], .float32, [], false⟩,
  ⟨key% "unet.input_blocks.8.1.transformer_blocks.8.attn2.to_out.0.weight", [1280, 1280], .float32, [], false⟩,
  ⟨key% "unet.input_blocks.8.1.transformer_blocks.8.attn2.to_q.weight", [1280, 1280], .float32, [], false⟩,
  ⟨key% "unet.input_blocks.8.1.transformer_blocks.8.attn2.to_v.weight", [1280, 2048], .float32, [], false⟩,
  ⟨key% "unet.input_blocks.8.1.transformer_blocks.8.ff.net.0.proj.bias", [10240], .float32, [], false⟩,
  ⟨key% "unet.input_blocks.8.1.transformer_blocks.8.ff.net.0.proj.weight", [10240, 1280], .float32, [], false⟩,
  ⟨key% "unet.input_blocks.8.1.transformer_blocks.8.ff.net.2.bias", [1280], .float32, [], false⟩,
  ⟨key% "unet.input_blocks.8.1.transformer_blocks.8.ff.net.2.weight", [1280, 5120], .float32, [], false⟩,
  ⟨key% "unet.input_blocks.8.1.transformer_blocks.8.norm1.bias", [1280], .float32, [], false⟩,
  ⟨key% "unet.input_blocks.8.1.transformer_blocks.8.norm1.weight", [1280], .float32, [], false⟩,
  ⟨key% "unet.input_blocks.8.1.transformer_blocks.8.norm2.bias", [1280], .float32, [], false⟩,
  ⟨key% "unet.input_blocks.8.1.transformer_blocks.8.norm2.weight", [1280], .float32, [], false⟩,
  ⟨key% "unet.input_blocks.8.1.transformer_blocks.8.norm3.bias", [1280], .float32, [], false⟩,
  ⟨key% "unet.input_blocks.8.1.transformer_blocks.8.norm3.weight", [1280], .float32, [], false⟩,
  ⟨key% "unet.input_blocks.8.1.transformer_blocks.9.attn1.to_k.weight", [1280, 1280], .float32, [], false⟩,
  ⟨key% "unet.input_blocks.8.1.transformer_blocks.9.attn1.to_out.0.bias", [1280], .float32, [], false⟩,
  ⟨key% "unet.input_blocks.8.1.transformer_blocks.9.attn1.to_out.0.weight", [1280, 1280], .float32, [], false⟩,
  ⟨key% "unet.input_blocks.8.1.transformer_blocks.9.attn1.to_q.weight", [1280, 1280], .float32, [], false⟩,
  ⟨key% "unet.input_blocks.8.1.transformer_blocks.9.attn1.to_v.weight", [1280, 1280], .float32, [], false⟩,
  ⟨key% "unet.input_blocks.8.1.transformer_blocks.9.attn2.to_k.weight", [1280, 2048], .float32, [], false⟩,
  ⟨key% "unet.input_blocks.8.1.transformer_blocks.9.attn2.to_out.0.bias", [1280], .float32, [], false⟩,
  ⟨key% "unet.input_blocks.8.1.transformer_blocks.9.attn2.to_out.0.weight", [1280, 1280], .float32, [], false⟩,
  ⟨key% "unet.input_blocks.8.1.transformer_blocks.9.attn2.to_q.weight", [1280, 1280], .float32, [], false⟩,
  ⟨key% "unet.input_blocks.8.1.transformer_blocks.9.attn2.to_v.weight", [1280, 2048], .float32, [], false⟩,
  ⟨key% "unet.input_blocks.8.1.transformer_blocks.9.ff.net.0.proj.bias", [10240], .float32, [], false⟩,
  ⟨key% "unet.input_blocks.8.1.transformer_blocks.9.ff.net.0.proj.weight", [10240, 1280], .float32, [], false⟩,
  ⟨key% "unet.input_blocks.8.1.transformer_blocks.9.ff.net.2.bias", [1280], .float32, [], false⟩,
  ⟨key% "unet.input_blocks.8.1.transformer_blocks.9.ff.net.2.weight", [1280, 5120], .float32, [], false⟩,
  ⟨key% "unet.input_blocks.8.1.transformer_blocks.9.norm1.bias", [1280], .float32, [], false⟩,
  ⟨key% "unet.input_blocks.8.1.transformer_blocks.9.norm1.weight", [1280], .float32, [], false⟩,
  ⟨key% "unet.input_blocks.8.1.transformer_blocks.9.norm2.bias", [1280], .float32, [], false⟩,
  ⟨key% "unet.input_blocks.8.1.transformer_blocks.9.norm2.weight", [1280], .float32, [], false⟩,
  ⟨key% "unet.input_blocks.8.1.transformer_blocks.9.norm3.bias", [1280], .float32, [], false⟩,
  ⟨key% "unet.input_blocks.8.1.transformer_blocks.9.norm3.weight", [1280], .float32, [], false⟩,
  ⟨key% "unet.label_emb.0.0.bias", [1280], .float32, [], false⟩,
  ⟨key% "unet.label_emb.0.0.weight", [1280, 2816], .float32, [], false⟩,
  ⟨key% "unet.label_emb.0.2.bias", [1280], .float32, [], false⟩,
  ⟨key% "unet.label_emb.0.2.weight", [1280, 1280], .float32, [], false⟩,
  ⟨key% "unet.middle_block.0.emb_layers.1.bias", [1280], .float32, [], false⟩,
  ⟨key% "unet.middle_block.0.emb_layers.1.weight", [1280, 1280], .float32, [], false⟩,
  ⟨key% "unet.middle_block.0.in_layers.0.bias", [1280], .float32, [], false⟩,
  ⟨key% "unet.middle_block.0.in_layers.0.weight", [1280], .float32, [], false⟩,
  ⟨key% "unet.middle_block.0.in_layers.2.bias", [1280], .float32, [], false⟩,
  ⟨key% "unet.middle_block.0.in_layers.2.weight", [1280, 1280, 3, 3], .float32, [], false⟩,
  ⟨key% "unet.middle_block.0.out_layers.0.bias", [1280], .float32, [], false⟩,
  ⟨key% "unet.middle_block.0.out_layers.0.weight", [1280], .float32, [], false⟩,
  ⟨key% "unet.middle_block.0.out_layers.3.bias", [1280], .float32, [], false⟩,
  ⟨key% "unet.middle_block.0.out_layers.3.weight", [1280, 1280, 3, 3], .float32, [], false⟩,
  ⟨key% "unet.middle_block.1.norm.bias", [1280], .float32, [], false⟩,
  ⟨key% "unet.middle_block.1.norm.weight", [1280], .float32, [], false⟩,
  ⟨key% "unet.middle_block.1.proj_in.bias", [1280], .float32, [], false⟩,
  ⟨key% "unet.middle_block.1.proj_in.weight", [1280, 1280], .float32, [], false⟩,
  ⟨key% "unet.middle_block.1.proj_out.bias", [1280], .float32, [], false⟩,
  ⟨key% "unet.middle_block.1.proj_out.weight", [1280, 1280], .float32, [], false⟩,
  ⟨key% "unet.middle_block.1.transformer_blocks.0.attn1.to_k.weight", [1280, 1280], .float32, [], false⟩,
  ⟨key% "unet.middle_block.1.transformer_blocks.0.attn1.to_out.0.bias", [1280], .float32, [], false⟩,
  ⟨key% "unet.middle_block.1.transformer_blocks.0.attn1.to_out.0.weight", [1280, 1280], .float32, [], false⟩,
  ⟨key% "unet.middle_block.1.transformer_blocks.0.attn1.to_q.weight", [1280, 1280], .float32, [], false⟩,
  ⟨key% "unet.middle_block.1.transformer_blocks.0.attn1.to_v.weight", [1280, 1280], .float32, [], false⟩,
  ⟨key% "unet.middle_block.1.transformer_blocks.0.attn2.to_k.weight", [1280, 2048], .float32, [], false⟩]
noncomputable def diffuser6 : List Entry := [
  ⟨key% "unet.middle_block.1.transformer_blocks.0.attn2.to_out.0.bias", [1280], .float32, [], false⟩,
  ⟨key% "unet.middle_block.1.transformer_blocks.0.attn2.to_out.0.weight", [1280, 1280], .float32, [], false⟩,
  ⟨key% "unet.middle_block.1.transformer_blocks.0.attn2.to_q.weight", [1280, 1280], .float32, [], false⟩,
  ⟨key% "unet.middle_block.1.transformer_blocks.0.attn2.to_v.weight", [1280, 2048], .float32, [], false⟩,
  ⟨key% "unet.middle_block.1.transformer_blocks.0.ff.net.0.proj.bias", [10240], .float32, [], false⟩,
  ⟨key% "unet.middle_block.1.transformer_blocks.0.ff.net.0.proj.weight", [10240, 1280], .float32, [], false⟩,
  ⟨key% "unet.middle_block.1.transformer_blocks.0.ff.net.2.bias", [1280], .float32, [], false⟩,
  ⟨key% "unet.middle_block.1.transformer_blocks.0.ff.net.2.weight", [1280, 5120], .float32, [], false⟩,
  ⟨key% "unet.middle_block.1.transformer_blocks.0.norm1.bias", [1280], .float32, [], false⟩,
  ⟨key% "unet.middle_block.1.transformer_blocks.0.norm1.weight", [1280], .float32, [], false⟩,
  ⟨key% "unet.middle_block.1.transformer_blocks.0.norm2.bias", [1280], .float32, [], false⟩,
  ⟨key% "unet.middle_block.1.transformer_blocks.0.norm2.weight", [1280], .float32, [], false⟩,
  ⟨key% "unet.middle_block.1.transformer_blocks.0.norm3.bias", [1280], .float32, [], false⟩,
  ⟨key% "unet.middle_block.1.transformer_blocks.0.norm3.weight", [1280], .float32, [], false⟩,
  ⟨key% "unet.middle_block.1.transformer_blocks.1.attn1.to_k.weight", [1280, 1280], .float32, [], false⟩,
  ⟨key% "unet.middle_block.1.transformer_blocks.1.attn1.to_out.0.bias", [1280], .float32, [], false⟩,
  ⟨key% "unet.middle_block.1.transformer_blocks.1.attn1.to_out.0.weight", [1280, 1280], .float32, [], false⟩,
  ⟨key% "unet.middle_block.1.transformer_blocks.1.attn1.to_q.weight", [1280, 1280], .float32, [], false⟩,
  ⟨key% "unet.middle_block.1.transformer_blocks.1.attn1.to_v.weight", [1280, 1280], .float32, [], false⟩,
  ⟨key% "unet.middle_block.1.transformer_blocks.1.attn2.to_k.weight", [1280, 2048], .float32, [], false⟩,
  ⟨key% "unet.middle_block.1.transformer_blocks.1.attn2.to_out.0.bias", [1280], .float32, [], false⟩,
  ⟨key% "unet.middle_block.1.transformer_blocks.1.attn2.to_out.0.weight", [1280, 1280], .float32, [], false⟩,
  ⟨key% "unet.middle_block.1.transformer_blocks.1.attn2.to_q.weight", [1280, 1280], .float32, [], false⟩,
  ⟨key% "unet.middle_block.1.transformer_blocks.1.attn2.to_v.weight", [1280, 2048], .float32, [], false⟩,
  ⟨key% "unet.middle_block.1.transformer_blocks.1.ff.net.0.proj.bias", [10240], .float32, [], false⟩,
  ⟨key% "unet.middle_block.1.transformer_blocks.1.ff.net.0.proj.weight", [10240, 1280], .float32, [], false⟩,
  ⟨key% "unet.middle_block.1.transformer_blocks.1.ff.net.2.bias", [1280], .float32, [], false⟩,
  ⟨key% "unet.middle_block.1.transformer_blocks.1.ff.net.2.weight", [1280, 5120], .float32, [], false⟩,
  ⟨key% "unet.middle_block.1.transformer_blocks.1.norm1.bias", [1280], .float32, [], false⟩,
  ⟨key% "unet.middle_block.1.transformer_blocks.1.norm1.weight", [1280], .float32, [], false⟩,
  ⟨key% "unet.middle_block.1.transformer_blocks.1.norm2.bias", [1280], .float32, [], false⟩,
  ⟨key% "unet.middle_block.1.transformer_blocks.1.norm2.weight", [1280], .float32, [], false⟩,
  ⟨key% "unet.middle_block.1.transformer_blocks.1.norm3.bias", [1280], .float32, [], false⟩,
  ⟨key% "unet.middle_block.1.transformer_blocks.1.norm3.weight", [1280], .float32, [], false⟩,
  ⟨key% "unet.middle_block.1.transformer_blocks.2.attn1.to_k.weight", [1280, 1280], .float32, [], false⟩,
  ⟨key% "unet.middle_block.1.transformer_blocks.2.attn1.to_out.0.bias", [1280], .float32, [], false⟩,
  ⟨key% "unet.middle_block.1.transformer_blocks.2.attn1.to_out.0.weight", [1280, 1280], .float32, [], false⟩,
  ⟨key% "unet.middle_block.1.transformer_blocks.2.attn1.to_q.weight", [1280, 1280], .float32, [], false⟩,
  ⟨key% "unet.middle_block.1.transformer_blocks.2.attn1.to_v.weight", [1280, 1280], .float32, [], false⟩,
  ⟨key% "unet.middle_block.1.transformer_blocks.2.attn2.to_k.weight", [1280, 2048], .float32, [], false⟩,
  ⟨key% "unet.middle_block.1.transformer_blocks.2.attn2.to_out.0.bias", [1280], .float32, [], false⟩,
  ⟨key% "unet.middle_block.1.transformer_blocks.2.attn2.to_out.0.weight", [1280, 1280], .float32, [], false⟩,
  ⟨key% "unet.middle_block.1.transformer_blocks.2.attn2.to_q.weight", [1280, 1280], .float32, [], false⟩,
  ⟨key% "unet.middle_block.1.transformer_blocks.2.attn2.to_v.weight", [1280, 2048], .float32, [], false⟩,
  ⟨key% "unet.middle_block.1.transformer_blocks.2.ff.net.0.proj.bias", [10240], .float32, [], false⟩,
  ⟨key% "unet.middle_block.1.transformer_blocks.2.ff.net.0.proj.weight", [10240, 1280], .float32, [], false⟩,
  ⟨key% "unet.middle_block.1.transformer_blocks.2.ff.net.2.bias", [1280], .float32, [], false⟩,
  ⟨key% "unet.middle_block.1.transformer_blocks.2.ff.net.2.weight", [1280, 5120], .float32, [], false⟩,
  ⟨key% "unet.middle_block.1.transformer_blocks.2.norm1.bias", [1280], .float32, [], false⟩,
  ⟨key% "unet.middle_block.1.transformer_blocks.2.norm1.weight", [1280], .float32, [], false⟩,
  ⟨key% "unet.middle_block.1.transformer_blocks.2.norm2.bias", [1280], .float32, [], false⟩,
  ⟨key% "unet.middle_block.1.transformer_blocks.2.norm2.weight", [1280], .float32, [], false⟩,
  ⟨key% "unet.middle_block.1.transformer_blocks.2.norm3.bias", [1280], .float32, [], false⟩,
  ⟨key% "unet.middle_block.1.transformer_blocks.2.norm3.weight", [1280], .float32, [], false⟩,
  ⟨key% "unet.middle_block.1.transformer_blocks.3.attn1.to_k.weight", [1280, 1280], .float32, [], false⟩,
  ⟨key% "unet.middle_block.1.transformer_blocks.3.attn1.to_out.0.bias", [1280], .float32, [], false⟩,
  ⟨key% "unet.middle_block.1.transformer_blocks.3.attn1.to_out.0.weight", [1280, 1280], .float32, [], false⟩,
  ⟨key% "unet.middle_block.1.transformer_blocks.3.attn1.to_q.weight", [1280, 1280], .float32, [], false⟩,
  ⟨key% "unet.middle_block.1.transformer_blocks.3.attn1.to_v.weight", [1280, 1280], .float32, [], false⟩,
  ⟨key% "unet.middle_block.1.transformer_blocks.3.attn2.to_k.weight", [1280, 2048], .float32, [], false⟩,
  ⟨key% "unet.middle_block.1.transformer_blocks.3.attn2.to_out.0.bias", [1280], .float32, [], false⟩,
  ⟨key% "unet.middle_block.1.transformer_blocks.3.attn2.to_out.0.weight", [1280, 1280], .float32, [], false⟩,
  ⟨key% "unet.middle_block.1.transformer_blocks.3.attn2.to_q.weight", [1280, 1280], .float32, [], false⟩,
  ⟨key% "unet.middle_block.1.transformer_blocks.3.attn2.to_v.weight", [1280, 2048], .float32, [], false⟩,
  ⟨key% "unet.middle_block.1.transformer_blocks.3.ff.net.0.proj.bias", [10240], .float32, [], false⟩,
  ⟨key% "unet.middle_block.1.transformer_blocks.3.ff.net.0.proj.weight", [10240, 1280], .float32, [], false⟩,
  ⟨key% "unet.middle_block.1.transformer_blocks.3.ff.net.2.bias", [1280], .float32, [], false⟩,
  ⟨key% "unet.middle_block.1.transformer_blocks.3.ff.net.2.weight", [1280, 5120], .float32, [], false⟩,
  ⟨key% "unet.middle_block.1.transformer_blocks.3.norm1.bias", [1280], .float32, [], false⟩,
  ⟨key% "unet.middle_block.1.transformer_blocks.3.norm1.weight", [1280], .float32, [], false⟩,
  ⟨key% "unet.middle_block.1.transformer_blocks.3.norm2.bias", [1280], .float32, [], false⟩,
  ⟨key% "unet.middle_block.1.transformer_blocks.3.norm2.weight", [1280], .float32, [], false⟩,
  ⟨key% "unet.middle_block.1.transformer_blocks.3.norm3.bias", [1280], .float32, [], false⟩,
  ⟨key% "unet.middle_block.1.transformer_blocks.3.norm3.weight", [1280], .float32, [], false⟩,
  ⟨key% "unet.middle_block.1.transformer_blocks.4.attn1.to_k.weight", [1280, 1280], .float32, [], false⟩,
  ⟨key% "unet.middle_block.1.transformer_blocks.4.attn1.to_out.0.bias", [1280], .float32, [], false⟩,
  ⟨key% "unet.middle_block.1.transformer_blocks.4.attn1.to_out.0.weight", [1280, 1280], .float32, [], false⟩,
  ⟨key% "unet.middle_block.1.transformer_blocks.4.attn1.to_q.weight", [1280, 1280], .float32, [], false⟩,
  ⟨key% "unet.middle_block.1.transformer_blocks.4.attn1.to_v.weight", [1280, 1280], .float32, [], false⟩,
  ⟨key% "unet.middle_block.1.transformer_blocks.4.attn2.to_k.weight", [1280, 2048], .float32, [], false⟩,
  ⟨key% "unet.middle_block.1.transformer_blocks.4.attn2.to_out.0.bias", [1280], .float32, [], false⟩,
  ⟨key% "unet.middle_block.1.transformer_blocks.4.attn2.to_out.0.weight", [1280, 1280], .float32, [], false⟩,
  ⟨key% "unet.middle_block.1.transformer_blocks.4.attn2.to_q.weight", [1280, 1280], .float32, [], false⟩,
  ⟨key% "unet.middle_block.1.transformer_blocks.4.attn2.to_v.weight", [1280, 2048], .float32, [], false⟩,
  ⟨key% "unet.middle_block.1.transformer_blocks.4.ff.net.0.proj.bias", [10240], .float32, [], false⟩,
  ⟨key% "unet.middle_block.1.transformer_blocks.4.ff.net.0.proj.weight", [10240, 1280], .float32, [], false⟩,
  ⟨key% "unet.middle_block.1.transformer_blocks.4.ff.net.2.bias", [1280], .float32, [], false⟩,
  ⟨key% "unet.middle_block.1.transformer_blocks.4.ff.net.2.weight", [1280, 5120], .float32, [], false⟩,
  ⟨key% "unet.middle_block.1.transformer_blocks.4.norm1.bias", [1280], .float32, [], false⟩,
  ⟨key% "unet.middle_block.1.transformer_blocks.4.norm1.weight", [1280], .float32, [], false⟩,
  ⟨key% "unet.middle_block.1.transformer_blocks.4.norm2.bias", [1280], .float32, [], false⟩,
  ⟨key% "unet.middle_block.1.transformer_blocks.4.norm2.weight", [1280], .float32, [], false⟩,
  ⟨key% "unet.middle_block.1.transformer_blocks.4.norm3.bias", [1280], .float32, [], false⟩,
  ⟨key% "unet.middle_block.1.transformer_blocks.4.norm3.weight", [1280], .float32, [], false⟩,
  ⟨key% "unet.middle_block.1.transformer_blocks.5.attn1.to_k.weight", [1280, 1280], .float32, [], false⟩,
  ⟨key% "unet.middle_block.1.transformer_blocks.5.attn1.to_out.0.bias", [1280], .float32, [], false⟩,
  ⟨key% "unet.middle_block.1.transformer_blocks.5.attn1.to_out.0.weight", [1280, 1280], .float32, [], false⟩,
  ⟨key% "unet.middle_block.1.transformer_blocks.5.attn1.to_q.weight", [1280, 1280], .float32, [], false⟩,
  ⟨key% "unet.middle_block.1.transformer_blocks.5.attn1.to_v.weight", [1280, 1280], .float32, [], false⟩,
  ⟨key% "unet.middle_block.1.transformer_blocks.5.attn2.to_k.weight", [1280, 2048], .float32, [], false⟩]
noncomputable def diffuser7 : List Entry := [
  ⟨key% "unet.middle_block.1.transformer_blocks.5.attn2.to_out.0.bias", [1280], .float32, [], false⟩,
  ⟨key% "unet.middle_block.1.transformer_blocks.5.attn2.to_out.0.weight", [1280, 1280], .float32, [], false⟩,
  ⟨key% "unet.middle_block.1.transformer_blocks.5.attn2.to_q.weight", [1280, 1280], .float32, [], false⟩,
  ⟨key% "unet.middle_block.1.transformer_blocks.5.attn2.to_v.weight", [1280, 2048], .float32, [], false⟩,
  ⟨key% "unet.middle_block.1.transformer_blocks.5.ff.net.0.proj.bias", [10240], .float32, [], false⟩,
  ⟨key% "unet.middle_block.1.transformer_blocks.5.ff.net.0.proj.weight", [10240, 1280], .float32, [], false⟩,
  ⟨key% "unet.middle_block.1.transformer_blocks.5.ff.net.2.bias", [1280], .float32, [], false⟩,
  ⟨key% "unet.middle_block.1.transformer_blocks.5.ff.net.2.weight", [1280, 5120], .float32, [], false⟩,
  ⟨key% "unet.middle_block.1.transformer_blocks.5.norm1.bias", [1280], .float32, [], false⟩,
  ⟨key% "unet.middle_block.1.transformer_blocks.5.norm1.weight", [1280], .float32, [], false⟩,
  ⟨key% "unet.middle_block.1.transformer_blocks.5.norm2.bias", [1280], .float32, [], false⟩,
  ⟨key% "unet.middle_block.1.transformer_blocks.5.norm2.weight", [1280], .float32, [], false⟩,
  ⟨key% "unet.middle_block.1.transformer_blocks.5.norm3.bias", [1280], .float32, [], false⟩,
  ⟨key% "unet.middle_block.1.transformer_blocks.5.norm3.weight", [1280], .float32, [], false⟩,
  ⟨key% "unet.middle_block.1.transformer_blocks.6.attn1.to_k.weight", [1280, 1280], .float32, [], false⟩,
  ⟨key% "unet.middle_block.1.transformer_blocks.6.attn1.to_out.0.bias", [1280], .float32, [], false⟩,
  ⟨key% "unet.middle_block.1.transformer_blocks.6.attn1.to_out.0.weight", [1280, 1280], .float32, [], false⟩,
  ⟨key% "unet.middle_block.1.transformer_blocks.6.attn1.to_q.weight", [1280, 1280], .float32, [], false⟩,
  ⟨key% "unet.middle_block.1.transformer_blocks.6.attn1.to_v.weight", [1280, 1280], .float32, [], false⟩,
  ⟨key% "unet.middle_block.1.transformer_blocks.6.attn2.to_k.weight", [1280, 2048], .float32, [], false⟩,
  ⟨key% "unet.middle_block.1.transformer_blocks.6.attn2.to_out.0.bias", [1280], .float32, [], false⟩,
  ⟨key% "unet.middle_block.1.transformer_blocks.6.attn2.to_out.0.weight", [1280, 1280], .float32, [], false⟩,
  ⟨key% "unet.middle_block.1.transformer_blocks.6.attn2.to_q.weight", [1280, 1280], .float32, [], false⟩,
  ⟨key% "unet.middle_block.1.transformer_blocks.6.attn2.to_v.weight", [1280, 2048], .float32, [], false⟩,
  ⟨key% "unet.middle_block.1.transformer_blocks.6.ff.net.0.proj.bias", [10240], .float32, [], false⟩,
  ⟨key% "unet.middle_block.1.transformer_blocks.6.ff.net.0.proj.weight", [10240, 1280], .float32, [], false⟩,
  ⟨key% "unet.middle_block.1.transformer_blocks.6.ff.net.2.bias", [1280], .float32, [], false⟩,
  ⟨key% "unet.middle_block.1.transformer_blocks.6.ff.net.2.weight", [1280, 5120], .float32, [], false⟩,
  ⟨key% "unet.middle_block.1.transformer_blocks.6.norm1.bias", [1280], .float32, [], false⟩,
  ⟨key% "unet.middle_block.1.transformer_blocks.6.norm1.weight", [1280], .float32, [], false⟩,
  ⟨key% "unet.middle_block.1.transformer_blocks.6.norm2.bias", [1280], .float32, [], false⟩,
  ⟨key% "unet.middle_block.1.transformer_blocks.6.norm2.weight", [1280], .float32, [], false⟩,
  ⟨key% "unet.middle_block.1.transformer_blocks.6.norm3.bias", [1280], .float32, [], false⟩,
  ⟨key% "unet.middle_block.1.transformer_blocks.6.norm3.weight", [1280], .float32, [], false⟩,
  ⟨key% "unet.middle_block.1.transformer_blocks.7.attn1.to_k.weight", [1280, 1280], .float32, [], false⟩,
  ⟨key% "unet.middle_block.1.transformer_blocks.7.attn1.to_out.0.bias", [1280], .float32, [], false⟩,
  ⟨key% "unet.middle_block.1.transformer_blocks.7.attn1.to_out.0.weight", [1280, 1280], .float32, [], false⟩,
  ⟨key% "unet.middle_block.1.transformer_blocks.7.attn1.to_q.weight", [1280, 1280], .float32, [], false⟩,
  ⟨key% "unet.middle_block.1.transformer_blocks.7.attn1.to_v.weight", [1280, 1280], .float32, [], false⟩,
  ⟨key% "unet.middle_block.1.transformer_blocks.7.attn2.to_k.weight", [1280, 2048], .float32, [], false⟩,
  ⟨key% "unet.middle_block.1.transformer_blocks.7.attn2.to_out.0.bias", [1280], .float32, [], false⟩,
  ⟨key% "unet.middle_block.1.transformer_blocks.7.attn2.to_out.0.weight", [1280, 1280], .float32, [], false⟩,
  ⟨key% "unet.middle_block.1.transformer_blocks.7.attn2.to_q.weight", [1280, 1280], .float32, [], false⟩,
  ⟨key% "unet.middle_block.1.transformer_blocks.7.attn2.to_v.weight", [1280, 2048], .float32, [], false⟩,
  ⟨key% "unet.middle_block.1.transformer_blocks.7.ff.net.0.proj.bias", [10240], .float32, [], false⟩,
  ⟨key% "unet.middle_block.1.transformer_blocks.7.ff.net.0.proj.weight", [10240, 1280], .float32, [], false⟩,
  ⟨key% "unet.middle_block.1.transformer_blocks.7.ff.net.2.bias", [1280], .float32, [], false⟩,
  ⟨key% "unet.middle_block.1.transformer_blocks.7.ff.net.2.weight", [1280, 5120], .float32, [], false⟩,
  ⟨key% "unet.middle_block.1.transformer_blocks.7.norm1.bias", [1280], .float32, [], false⟩,
  ⟨key% "unet.middle_block.1.transformer_blocks.7.norm1.weight", [1280], .float32, [], false⟩,
  ⟨key% "unet.middle_block.1.transformer_blocks.7.norm2.bias", [1280], .float32, [], false⟩,
  ⟨key% "unet.middle_block.1.transformer_blocks.7.norm2.weight", [1280], .float32, [], false⟩,
  ⟨key% "unet.middle_block.1.transformer_blocks.7.norm3.bias", [1280], .float32, [], false⟩,
  ⟨key% "unet.middle_block.1.transformer_blocks.7.norm3.weight", [1280], .float32, [], false⟩,
  ⟨key% "unet.middle_block.1.transformer_blocks.8.attn1.to_k.weight", [1280, 1280], .float32, [], false⟩,
  ⟨key% "unet.middle_block.1.transformer_blocks.8.attn1.to_out.0.bias", [1280], .float32, [], false⟩,
  ⟨key% "unet.middle_block.1.transformer_blocks.8.attn1.to_out.0.weight", [1280, 1280], .float32, [], false⟩,
  ⟨key% "unet.middle_block.1.transformer_blocks.8.attn1.to_q.weight", [1280, 1280], .float32, [], false⟩,
  ⟨key% "unet.middle_block.1.transformer_blocks.8.attn1.to_v.weight", [1280, 1280], .float32, [], false⟩,
  ⟨key% "unet.middle_block.1.transformer_blocks.8.attn2.to_k.weight", [1280, 2048], .float32, [], false⟩,
  ⟨key% "unet.middle_block.1.transformer_blocks.8.attn2.to_out.0.bias", [1280], .float32, [], false⟩,
  ⟨key% "unet.middle_block.1.transformer_blocks.8.attn2.to_out.0.weight", [1280, 1280], .float32, [], false⟩,
  ⟨key% "unet.middle_block.1.transformer_blocks.8.attn2.to_q.weight", [1280, 1280], .float32, [], false⟩,
  ⟨key% "unet.middle_block.1.transformer_blocks.8.attn2.to_v.weight", [1280, 2048], .float32, [], false⟩,
  ⟨key% "unet.middle_block.1.transformer_blocks.8.ff.net.0.proj.bias", [10240], .float32, [], false⟩,
  ⟨key% "unet.middle_block.1.transformer_blocks.8.ff.net.0.proj.weight", [10240, 1280], .float32, [], false⟩,
  ⟨key% "unet.middle_block.1.transformer_blocks.8.ff.net.2.bias", [1280], .float32, [], false⟩,
  ⟨key% "unet.middle_block.1.transformer_blocks.8.ff.net.2.weight", [1280, 5120], .float32, [], false⟩,
  ⟨key% "unet.middle_block.1.transformer_blocks.8.norm1.bias", [1280], .float32, [], false⟩,
  ⟨key% "unet.middle_block.1.transformer_blocks.8.norm1.weight", [1280], .float32, [], false⟩,
  ⟨key% "unet.middle_block.1.transformer_blocks.8.norm2.bias", [1280], .float32, [], false⟩,
  ⟨key% "unet.middle_block.1.transformer_blocks.8.norm2.weight", [1280], .float32, [], false⟩,
  ⟨key% "unet.middle_block.1.transformer_blocks.8.norm3.bias", [1280], .float32, [], false⟩,
  ⟨key% "unet.middle_block.1.transformer_blocks.8.norm3.weight", [1280], .float32, [], false⟩,
  ⟨key% "unet.middle_block.1.transformer_blocks.9.attn1.to_k.weight", [1280, 1280], .float32, [], false⟩,
  ⟨key% "unet.middle_block.1.transformer_blocks.9.attn1.to_out.0.bias", [1280], .float32, [], false⟩,
  ⟨key% "unet.middle_block.1.transformer_blocks.9.attn1.to_out.0.weight", [1280, 1280], .float32, [], false⟩,
  ⟨key% "unet.middle_block.1.transformer_blocks.9.attn1.to_q.weight", [1280, 1280], .float32, [], false⟩,
  ⟨key% "unet.middle_block.1.transformer_blocks.9.attn1.to_v.weight", [1280, 1280], .float32, [], false⟩,
  ⟨key% "unet.middle_block.1.transformer_blocks.9.attn2.to_k.weight", [1280, 2048], .float32, [], false⟩,
  ⟨key% "unet.middle_block.1.transformer_blocks.9.attn2.to_out.0.bias", [1280], .float32, [], false⟩,
  ⟨key% "unet.middle_block.1.transformer_blocks.9.attn2.to_out.0.weight", [1280, 1280], .float32, [], false⟩,
  ⟨key% "unet.middle_block.1.transformer_blocks.9.attn2.to_q.weight", [1280, 1280], .float32, [], false⟩,
  ⟨key% "unet.middle_block.1.transformer_blocks.9.attn2.to_v.weight", [1280, 2048], .float32, [], false⟩,
  ⟨key% "unet.middle_block.1.transformer_blocks.9.ff.net.0.proj.bias", [10240], .float32, [], false⟩,
  ⟨key% "unet.middle_block.1.transformer_blocks.9.ff.net.0.proj.weight", [10240, 1280], .float32, [], false⟩,
  ⟨key% "unet.middle_block.1.transformer_blocks.9.ff.net.2.bias", [1280], .float32, [], false⟩,
  ⟨key% "unet.middle_block.1.transformer_blocks.9.ff.net.2.weight", [1280, 5120], .float32, [], false⟩,
  ⟨key% "unet.middle_block.1.transformer_blocks.9.norm1.bias", [1280], .float32, [], false⟩,
  ⟨key% "unet.middle_block.1.transformer_blocks.9.norm1.weight", [1280], .float32, [], false⟩,
  ⟨key% "unet.middle_block.1.transformer_blocks.9.norm2.bias", [1280], .float32, [], false⟩,
  ⟨key% "unet.middle_block.1.transformer_blocks.9.norm2.weight", [1280], .float32, [], false⟩,
  ⟨key% "unet.middle_block.1.transformer_blocks.9.norm3.bias", [1280], .float32, [], false⟩,
  ⟨key% "unet.middle_block.1.transformer_blocks.9.norm3.weight", [1280], .float32, [], false⟩,
  ⟨key% "unet.middle_block.2.emb_layers.1.bias", [1280], .float32, [], false⟩,
  ⟨key% "unet.middle_block.2.emb_layers.1.weight", [1280, 1280], .float32, [], false⟩,
  ⟨key% "unet.middle_block.2.in_layers.0.bias", [1280], .float32, [], false⟩,
  ⟨key% "unet.middle_block.2.in_layers.0.weight", [1280], .float32, [], false⟩,
  ⟨key% "unet.middle_block.2.in_layers.2.bias", [1280], .float32, [], false⟩,
  ⟨key% "unet.middle_block.2.in_layers.2.weight", [1280, 1280, 3, 3], .float32, [], false⟩]
noncomputable def diffuser8 : List Entry := [
  ⟨key% "unet.middle_block.2.out_layers.0.bias", [1280], .float32, [], false⟩,
  ⟨key% "unet.middle_block.2.out_layers.0.weight", [1280], .float32, [], false⟩,
  ⟨key% "unet.middle_block.2.out_layers.3.bias", [1280], .float32, [], false⟩,
  ⟨key% "unet.middle_block.2.out_layers.3.weight", [1280, 1280, 3, 3], .float32, [], false⟩,
  ⟨key% "unet.out.0.bias", [320], .float32, [], false⟩,
  ⟨key% "unet.out.0.weight", [320], .float32, [], false⟩,
  ⟨key% "unet.out.2.bias", [4], .float32, [], false⟩,
  ⟨key% "unet.out.2.weight", [4, 320, 3, 3], .float32, [], false⟩,
  ⟨key% "unet.output_blocks.0.0.emb_layers.1.bias", [1280], .float32, [], false⟩,
  ⟨key% "unet.output_blocks.0.0.emb_layers.1.weight", [1280, 1280], .float32, [], false⟩,
  ⟨key% "unet.output_blocks.0.0.in_layers.0.bias", [2560], .float32, [], false⟩,
  ⟨key% "unet.output_blocks.0.0.in_layers.0.weight", [2560], .float32, [], false⟩,
  ⟨key% "unet.output_blocks.0.0.in_layers.2.bias", [1280], .float32, [], false⟩,
  ⟨key% "unet.output_blocks.0.0.in_layers.2.weight", [1280, 2560, 3, 3], .float32, [], false⟩,
  ⟨key% "unet.output_blocks.0.0.out_layers.0.bias", [1280], .float32, [], false⟩,
  ⟨key% "unet.output_blocks.0.0.out_layers.0.weight", [1280], .float32, [], false⟩,
  ⟨key% "unet.output_blocks.0.0.out_layers.3.bias", [1280], .float32, [], false⟩,
  ⟨key% "unet.output_blocks.0.0.out_layers.3.weight", [1280, 1280, 3, 3], .float32, [], false⟩,
  ⟨key% "unet.output_blocks.0.0.skip_connection.bias", [1280], .float32, [], false⟩,
  ⟨key% "unet.output_blocks.0.0.skip_connection.weight", [1280, 2560, 1, 1], .float32, [], false⟩,
  ⟨key% "unet.output_blocks.0.1.norm.bias", [1280], .float32, [], false⟩,
  ⟨key% "unet.output_blocks.0.1.norm.weight", [1280], .float32, [], false⟩,
  ⟨key% "unet.output_blocks.0.1.proj_in.bias", [1280], .float32, [], false⟩,
  ⟨key% "unet.output_blocks.0.1.proj_in.weight", [1280, 1280], .float32, [], false⟩,
  ⟨key% "unet.output_blocks.0.1.proj_out.bias", [1280], .float32, [], false⟩,
  ⟨key% "unet.output_blocks.0.1.proj_out.weight", [1280, 1280], .float32, [], false⟩,
  ⟨key% "unet.output_blocks.0.1.transformer_blocks.0.attn1.to_k.weight", [1280, 1280], .float32, [], false⟩,
  ⟨key% "unet.output_blocks.0.1.transformer_blocks.0.attn1.to_out.0.bias", [1280], .float32, [], false⟩,
  ⟨key% "unet.output_blocks.0.1.transformer_blocks.0.attn1.to_out.0.weight", [1280, 1280], .float32, [], false⟩,
  ⟨key% "unet.output_blocks.0.1.transformer_blocks.0.attn1.to_q.weight", [1280, 1280], .float32, [], false⟩,
  ⟨key% "unet.output_blocks.0.1.transformer_blocks.0.attn1.to_v.weight", [1280, 1280], .float32, [], false⟩,
  ⟨key% "unet.output_blocks.0.1.transformer_blocks.0.attn2.to_k.weight", [1280, 2048], .float32, [], false⟩,
  ⟨key% "unet.output_blocks.0.1.transformer_blocks.0.attn2.to_out.0.bias", [1280], .float32, [], false⟩,
  ⟨key% "unet.output_blocks.0.1.transformer_blocks.0.attn2.to_out.0.weight", [1280, 1280], .float32, [], false⟩,
  ⟨key% "unet.output_blocks.0.1.transformer_blocks.0.attn2.to_q.weight", [1280, 1280], .float32, [], false⟩,
  ⟨key% "unet.output_blocks.0.1.transformer_blocks.0.attn2.to_v.weight", [1280, 2048], .float32, [], false⟩,
  ⟨key% "unet.output_blocks.0.1.transformer_blocks.0.ff.net.0.proj.bias", [10240], .float32, [], false⟩,
  ⟨key% "unet.output_blocks.0.1.transformer_blocks.0.ff.net.0.proj.weight", [10240, 1280], .float32, [], false⟩,
  ⟨key% "unet.output_blocks.0.1.transformer_blocks.0.ff.net.2.bias", [1280], .float32, [], false⟩,
  ⟨key% "unet.output_blocks.0.1.transformer_blocks.0.ff.net.2.weight", [1280, 5120], .float32, [], false⟩,
  ⟨key% "unet.output_blocks.0.1.transformer_blocks.0.norm1.bias", [1280], .float32, [], false⟩,
  ⟨key% "unet.output_blocks.0.1.transformer_blocks.0.norm1.weight", [1280], .float32, [], false⟩,
  ⟨key% "unet.output_blocks.0.1.transformer_blocks.0.norm2.bias", [1280], .float32, [], false⟩,
  ⟨key% "unet.output_blocks.0.1.transformer_blocks.0.norm2.weight", [1280], .float32, [], false⟩,
  ⟨key% "unet.output_blocks.0.1.transformer_blocks.0.norm3.bias", [1280], .float32, [], false⟩,
  ⟨key% "unet.output_blocks.0.1.transformer_blocks.0.norm3.weight", [1280], .float32, [], false⟩,
  ⟨key% "unet.output_blocks.0.1.transformer_blocks.1.attn1.to_k.weight", [1280, 1280], .float32, [], false⟩,
  ⟨key% "unet.output_blocks.0.1.transformer_blocks.1.attn1.to_out.0.bias", [1280], .float32, [], false⟩,
  ⟨key% "unet.output_blocks.0.1.transformer_blocks.1.attn1.to_out.0.weight", [1280, 1280], .float32, [], false⟩,
  ⟨key% "unet.output_blocks.0.1.transformer_blocks.1.attn1.to_q.weight", [1280, 1280], .float32, [], false⟩,
  ⟨key% "unet.output_blocks.0.1.transformer_blocks.1.attn1.to_v.weight", [1280, 1280], .float32, [], false⟩,
  ⟨key% "unet.output_blocks.0.1.transformer_blocks.1.attn2.to_k.weight", [1280, 2048], .float32, [], false⟩,
  ⟨key% "unet.output_blocks.0.1.transformer_blocks.1.attn2.to_out.0.bias", [1280], .float32, [], false⟩,
  ⟨key% "unet.output_blocks.0.1.transformer_blocks.1.attn2.to_out.0.weight", [1280, 1280], .float32, [], false⟩,
  ⟨key% "unet.output_blocks.0.1.transformer_blocks.1.attn2.to_q.weight", [1280, 1280], .float32, [], false⟩,
  ⟨key% "unet.output_blocks.0.1.transformer_blocks.1.attn2.to_v.weight", [1280, 2048], .float32, [], false⟩,
  ⟨key% "unet.output_blocks.0.1.transformer_blocks.1.ff.net.0.proj.bias", [10240], .float32, [], false⟩,
  ⟨key% "unet.output_blocks.0.1.transformer_blocks.1.ff.net.0.proj.weight", [10240, 1280], .float32, [], false⟩,
  ⟨key% "unet.output_blocks.0.1.transformer_blocks.1.ff.net.2.bias", [1280], .float32, [], false⟩,
  ⟨key% "unet.output_blocks.0.1.transformer_blocks.1.ff.net.2.weight", [1280, 5120], .float32, [], false⟩,
  ⟨key% "unet.output_blocks.0.1.transformer_blocks.1.norm1.bias", [1280], .float32, [], false⟩,
  ⟨key% "unet.output_blocks.0.1.transformer_blocks.1.norm1.weight", [1280], .float32, [], false⟩,
  ⟨key% "unet.output_blocks.0.1.transformer_blocks.1.norm2.bias", [1280], .float32, [], false⟩,
  ⟨key% "unet.output_blocks.0.1.transformer_blocks.1.norm2.weight", [1280], .float32, [], false⟩,
  ⟨key% "unet.output_blocks.0.1.transformer_blocks.1.norm3.bias", [1280], .float32, [], false⟩,
  ⟨key% "unet.output_blocks.0.1.transformer_blocks.1.norm3.weight", [1280], .float32, [], false⟩,
  ⟨key% "unet.output_blocks.0.1.transformer_blocks.2.attn1.to_k.weight", [1280, 1280], .float32, [], false⟩,
  ⟨key% "unet.output_blocks.0.1.transformer_blocks.2.attn1.to_out.0.bias", [1280], .float32, [], false⟩,
  ⟨key% "unet.output_blocks.0.1.transformer_blocks.2.attn1.to_out.0.weight", [1280, 1280], .float32, [], false⟩,
  ⟨key% "unet.output_blocks.0.1.transformer_blocks.2.attn1.to_q.weight", [1280, 1280], .float32, [], false⟩,
  ⟨key% "unet.output_blocks.0.1.transformer_blocks.2.attn1.to_v.weight", [1280, 1280], .float32, [], false⟩,
  ⟨key% "unet.output_blocks.0.1.transformer_blocks.2.attn2.to_k.weight", [1280, 2048], .float32, [], false⟩,
  ⟨key% "unet.output_blocks.0.1.transformer_blocks.2.attn2.to_out.0.bias", [1280], .float32, [], false⟩,
  ⟨key% "unet.output_blocks.0.1.transformer_blocks.2.attn2.to_out.0.weight", [1280, 1280], .float32, [], false⟩,
  ⟨key% "unet.output_blocks.0.1.transformer_blocks.2.attn2.to_q.weight", [1280, 1280], .float32, [], false⟩,
  ⟨key% "unet.output_blocks.0.1.transformer_blocks.2.attn2.to_v.weight", [1280, 2048], .float32, [], false⟩,
  ⟨key% "unet.output_blocks.0.1.transformer_blocks.2.ff.net.0.proj.bias", [10240], .float32, [], false⟩,
  ⟨key% "unet.output_blocks.0.1.transformer_blocks.2.ff.net.0.proj.weight", [10240, 1280], .float32, [], false⟩,
  ⟨key% "unet.output_blocks.0.1.transformer_blocks.2.ff.net.2.bias", [1280], .float32, [], false⟩,
  ⟨key% "unet.output_blocks.0.1.transformer_blocks.2.ff.net.2.weight", [1280, 5120], .float32, [], false⟩,
  ⟨key% "unet.output_blocks.0.1.transformer_blocks.2.norm1.bias", [1280], .float32, [], false⟩,
  ⟨key% "unet.output_blocks.0.1.transformer_blocks.2.norm1.weight", [1280], .float32, [], false⟩,
  ⟨key% "unet.output_blocks.0.1.transformer_blocks.2.norm2.bias", [1280], .float32, [], false⟩,
  ⟨key% "unet.output_blocks.0.1.transformer_blocks.2.norm2.weight", [1280], .float32, [], false⟩,
  ⟨key% "unet.output_blocks.0.1.transformer_blocks.2.norm3.bias", [1280], .float32, [], false⟩,
  ⟨key% "unet.output_blocks.0.1.transformer_blocks.2.norm3.weight", [1280], .float32, [], false⟩,
  ⟨key% "unet.output_blocks.0.1.transformer_blocks.3.attn1.to_k.weight", [1280, 1280], .float32, [], false⟩,
  ⟨key% "unet.output_blocks.0.1.transformer_blocks.3.attn1.to_out.0.bias", [1280], .float32, [], false⟩,
  ⟨key% "unet.output_blocks.0.1.transformer_blocks.3.attn1.to_out.0.weight", [1280, 1280], .float32, [], false⟩,
  ⟨key% "unet.output_blocks.0.1.transformer_blocks.3.attn1.to_q.weight", [1280, 1280], .float32, [], false⟩,
  ⟨key% "unet.output_blocks.0.1.transformer_blocks.3.attn1.to_v.weight", [1280, 1280], .float32, [], false⟩,
  ⟨key% "unet.output_blocks.0.1.transformer_blocks.3.attn2.to_k.weight", [1280, 2048], .float32, [], false⟩,
  ⟨key% "unet.output_blocks.0.1.transformer_blocks.3.attn2.to_out.0.bias", [1280], .float32, [], false⟩,
  ⟨key% "unet.output_blocks.0.1.transformer_blocks.3.attn2.to_out.0.weight", [1280, 1280], .float32, [], false⟩,
  ⟨key% "unet.output_blocks.0.1.transformer_blocks.3.attn2.to_q.weight", [1280, 1280], .float32, [], false⟩,
  ⟨key% "unet.output_blocks.0.1.transformer_blocks.3.attn2.to_v.weight", [1280, 2048], .float32, [], false⟩,
  ⟨key% "unet.output_blocks.0.1.transformer_blocks.3.ff.net.0.proj.bias", [10240], .float32, [], false⟩,
  ⟨key% "unet.output_blocks.0.1.transformer_blocks.3.ff.net.0.proj.weight", [10240, 1280], .float32, [], false⟩,
  ⟨key% "unet.output_blocks.0.1.transformer_blocks.3.ff.net.2.bias", [1280], .float32, [], false⟩,
  ⟨key% "unet.output_blocks.0.1.transformer_blocks.3.ff.net.2.weight", [1280, 5120], .float32, [], false⟩]
noncomputable def diffuser9 : List Entry := [
  ⟨key% "unet.output_blocks.0.1.transformer_blocks.3.norm1.bias", [1280], .float32, [], false⟩,
  ⟨key% "unet.output_blocks.0.1.transformer_blocks.3.norm1.weight", [1280], .float32, [], false⟩,
  ⟨key% "unet.output_blocks.0.1.transformer_blocks.3.norm2.bias", [1280], .float32, [], false⟩,
  ⟨key% "unet.output_blocks.0.1.transformer_blocks.3.norm2.weight", [1280], .float32, [], false⟩,
  ⟨key% "unet.output_blocks.0.1.transformer_blocks.3.norm3.bias", [1280], .float32, [], false⟩,
  ⟨key% "unet.output_blocks.0.1.transformer_blocks.3.norm3.weight", [1280], .float32, [], false⟩,
  ⟨key% "unet.output_blocks.0.1.transformer_blocks.4.attn1.to_k.weight", [1280, 1280], .float32, [], false⟩,
  ⟨key% "unet.output_blocks.0.1.transformer_blocks.4.attn1.to_out.0.bias", [1280], .float32, [], false⟩,
  ⟨key% "unet.output_blocks.0.1.transformer_blocks.4.attn1.to_out.0.weight", [1280, 1280], .float32, [], false⟩,
  ⟨key% "unet.output_blocks.0.1.transformer_blocks.4.attn1.to_q.weight", [1280, 1280], .float32, [], false⟩,
  ⟨key% "unet.output_blocks.0.1.transformer_blocks.4.attn1.to_v.weight", [1280, 1280], .float32, [], false⟩,
  ⟨key% "unet.output_blocks.0.1.transformer_blocks.4.attn2.to_k.weight", [1280, 2048], .float32, [], false⟩,
  ⟨key% "unet.output_blocks.0.1.transformer_blocks.4.attn2.to_out.0.bias", [1280], .float32, [], false⟩,
  ⟨key% "unet.output_blocks.0.1.transformer_blocks.4.attn2.to_out.0.weight", [1280, 1280], .float32, [], false⟩,
  ⟨key% "unet.output_blocks.0.1.transformer_blocks.4.attn2.to_q.weight", [1280, 1280], .float32, [], false⟩,
  ⟨key% "unet.output_blocks.0.1.transformer_blocks.4.attn2.to_v.weight", [1280, 2048], .float32, [], false⟩,
  ⟨key% "unet.output_blocks.0.1.transformer_blocks.4.ff.net.0.proj.bias", [10240], .float32, [], false⟩,
  ⟨key% "unet.output_blocks.0.1.transformer_blocks.4.ff.net.0.proj.weight", [10240, 1280], .float32, [], false⟩,
  ⟨key% "unet.output_blocks.0.1.transformer_blocks.4.ff.net.2.bias", [1280], .float32, [], false⟩,
  ⟨key% "unet.output_blocks.0.1.transformer_blocks.4.ff.net.2.weight", [1280, 5120], .float32, [], false⟩,
  ⟨key% "unet.output_blocks.0.1.transformer_blocks.4.norm1.bias", [1280], .float32, [], false⟩,
  ⟨key% "unet.output_blocks.0.1.transformer_blocks.4.norm1.weight", [1280], .float32, [], false⟩,
  ⟨key% "unet.output_blocks.0.1.transformer_blocks.4.norm2.bias", [1280], .float32, [], false⟩,
  ⟨key% "unet.output_blocks.0.1.transformer_blocks.4.norm2.weight", [1280], .float32, [], false⟩,
  ⟨key% "unet.output_blocks.0.1.transformer_blocks.4.norm3.bias", [1280], .float32, [], false⟩,
  ⟨key% "unet.output_blocks.0.1.transformer_blocks.4.norm3.weight", [1280], .float32, [], false⟩,
  ⟨key% "unet.output_blocks.0.1.transformer_blocks.5.attn1.to_k.weight", [1280, 1280], .float32, [], false⟩,
  ⟨key% "unet.output_blocks.0.1.transformer_blocks.5.attn1.to_out.0.bias", [1280], .float32, [], false⟩,
  ⟨key% "unet.output_blocks.0.1.transformer_blocks.5.attn1.to_out.0.weight", [1280, 1280], .float32, [], false⟩,
  ⟨key% "unet.output_blocks.0.1.transformer_blocks.5.attn1.to_q.weight", [1280, 1280], .float32, [], false⟩,
  ⟨key% "unet.output_blocks.0.1.transformer_blocks.5.attn1.to_v.weight", [1280, 1280], .float32, [], false⟩,
  ⟨key% "unet.output_blocks.0.1.transformer_blocks.5.attn2.to_k.weight", [1280, 2048], .float32, [], false⟩,
  ⟨key% "unet.output_blocks.0.1.transformer_blocks.5.attn2.to_out.0.bias", [1280], .float32, [], false⟩,
  ⟨key% "unet.output_blocks.0.1.transformer_blocks.5.attn2.to_out.0.weight", [1280, 1280], .float32, [], false⟩,
  ⟨key% "unet.output_blocks.0.1.transformer_blocks.5.attn2.to_q.weight", [1280, 1280], .float32, [], false⟩,
  ⟨key% "unet.output_blocks.0.1.transformer_blocks.5.attn2.to_v.weight", [1280, 2048], .float32, [], false⟩,
  ⟨key% "unet.output_blocks.0.1.transformer_blocks.5.ff.net.0.proj.bias", [10240], .float32, [], false⟩,
  ⟨key% "unet.output_blocks.0.1.transformer_blocks.5.ff.net.0.proj.weight", [10240, 1280], .float32, [], false⟩,
  ⟨key% "unet.output_blocks.0.1.transformer_blocks.5.ff.net.2.bias", [1280], .float32, [], false⟩,
  ⟨key% "unet.output_blocks.0.1.transformer_blocks.5.ff.net.2.weight", [1280, 5120], .float32, [], false⟩,
  ⟨key% "unet.output_blocks.0.1.transformer_blocks.5.norm1.bias", [1280], .float32, [], false⟩,
  ⟨key% "unet.output_blocks.0.1.transformer_blocks.5.norm1.weight", [1280], .float32, [], false⟩,
  ⟨key% "unet.output_blocks.0.1.transformer_blocks.5.norm2.bias", [1280], .float32, [], false⟩,
  ⟨key% "unet.output_blocks.0.1.transformer_blocks.5.norm2.weight", [1280], .float32, [], false⟩,
  ⟨key% "unet.output_blocks.0.1.transformer_blocks.5.norm3.bias", [1280], .float32, [], false⟩,
  ⟨key% "unet.output_blocks.0.1.transformer_blocks.5.norm3.weight", [1280], .float32, [], false⟩,
  ⟨key% "unet.output_blocks.0.1.transformer_blocks.6.attn1.to_k.weight", [1280, 1280], .float32, [], false⟩,
  ⟨key% "unet.output_blocks.0.1.transformer_blocks.6.attn1.to_out.0.bias", [1280], .float32, [], false⟩,
  ⟨key% "unet.output_blocks.0.1.transformer_blocks.6.attn1.to_out.0.weight", [1280, 1280], .float32, [], false⟩,
  ⟨key% "unet.output_blocks.0.1.transformer_blocks.6.attn1.to_q.weight", [1280, 1280], .float32, [], false⟩,
  ⟨key% "unet.output_blocks.0.1.transformer_blocks.6.attn1.to_v.weight", [1280, 1280], .float32, [], false⟩,
  ⟨key% "unet.output_blocks.0.1.transformer_blocks.6.attn2.to_k.weight", [1280, 2048], .float32, [], false⟩,
  ⟨key% "unet.output_blocks.0.1.transformer_blocks.6.attn2.to_out.0.bias", [1280], .float32, [], false⟩,
  ⟨key% "unet.output_blocks.0.1.transformer_blocks.6.attn2.to_out.0.weight", [1280, 1280], .float32, [], false⟩,
  ⟨key% "unet.output_blocks.0.1.transformer_blocks.6.attn2.to_q.weight", [1280, 1280], .float32, [], false⟩,
  ⟨key% "unet.output_blocks.0.1.transformer_blocks.6.attn2.to_v.weight", [1280, 2048], .float32, [], false⟩,
  ⟨key% "unet.output_blocks.0.1.transformer_blocks.6.ff.net.0.proj.bias", [10240], .float32, [], false⟩,
  ⟨key% "unet.output_blocks.0.1.transformer_blocks.6.ff.net.0.proj.weight", [10240, 1280], .float32, [], false⟩,
  ⟨key% "unet.output_blocks.0.1.transformer_blocks.6.ff.net.2.bias", [1280], .float32, [], false⟩,
  ⟨key% "unet.output_blocks.0.1.transformer_blocks.6.ff.net.2.weight", [1280, 5120], .float32, [], false⟩,
  ⟨key% "unet.output_blocks.0.1.transformer_blocks.6.norm1.bias", [1280], .float32, [], false⟩,
  ⟨key% "unet.output_blocks.0.1.transformer_blocks.6.norm1.weight", [1280], .float32, [], false⟩,
  ⟨key% "unet.output_blocks.0.1.transformer_blocks.6.norm2.bias", [1280], .float32, [], false⟩,
  ⟨key% "unet.output_blocks.0.1.transformer_blocks.6.norm2.weight", [1280], .float32, [], false⟩,
  ⟨key% "unet.output_blocks.0.1.transformer_blocks.6.norm3.bias", [1280], .float32, [], false⟩,
  ⟨key% "unet.output_blocks.0.1.transformer_blocks.6.norm3.weight", [1280], .float32, [], false⟩,
  ⟨key% "unet.output_blocks.0.1.transformer_blocks.7.attn1.to_k.weight", [1280, 1280], .float32, [], false⟩,
  ⟨key% "unet.output_blocks.0.1.transformer_blocks.7.attn1.to_out.0.bias", [1280], .float32, [], false⟩,
  ⟨key% "unet.output_blocks.0.1.transformer_blocks.7.attn1.to_out.0.weight", [1280, 1280], .float32, [], false⟩,
  ⟨key% "unet.output_blocks.0.1.transformer_blocks.7.attn1.to_q.weight", [1280, 1280], .float32, [], false⟩,
  ⟨key% "unet.output_blocks.0.1.transformer_blocks.7.attn1.to_v.weight", [1280, 1280], .float32, [], false⟩,
  ⟨key% "unet.output_blocks.0.1.transformer_blocks.7.attn2.to_k.weight", [1280, 2048], .float32, [], false⟩,
  ⟨key% "unet.output_blocks.0.1.transformer_blocks.7.attn2.to_out.0.bias", [1280], .float32, [], false⟩,
  ⟨key% "unet.output_blocks.0.1.transformer_blocks.7.attn2.to_out.0.weight", [1280, 1280], .float32, [], false⟩,
  ⟨key% "unet.output_blocks.0.1.transformer_blocks.7.attn2.to_q.weight", [1280, 1280], .float32, [], false⟩,
  ⟨key% "unet.output_blocks.0.1.transformer_blocks.7.attn2.to_v.weight", [1280, 2048], .float32, [], false⟩,
  ⟨key% "unet.output_blocks.0.1.transformer_blocks.7.ff.net.0.proj.bias", [10240], .float32, [], false⟩,
  ⟨key% "unet.output_blocks.0.1.transformer_blocks.7.ff.net.0.proj.weight", [10240, 1280], .float32, [], false⟩,
  ⟨key% "unet.output_blocks.0.1.transformer_blocks.7.ff.net.2.bias", [1280], .float32, [], false⟩,
  ⟨key% "unet.output_blocks.0.1.transformer_blocks.7.ff.net.2.weight", [1280, 5120], .float32, [], false⟩,
  ⟨key% "unet.output_blocks.0.1.transformer_blocks.7.norm1.bias", [1280], .float32, [], false⟩,
  ⟨key% "unet.output_blocks.0.1.transformer_blocks.7.norm1.weight", [1280], .float32, [], false⟩,
  ⟨key% "unet.output_blocks.0.1.transformer_blocks.7.norm2.bias", [1280], .float32, [], false⟩,
  ⟨key% "unet.output_blocks.0.1.transformer_blocks.7.norm2.weight", [1280], .float32, [], false⟩,
  ⟨key% "unet.output_blocks.0.1.transformer_blocks.7.norm3.bias", [1280], .float32, [], false⟩,
  ⟨key% "unet.output_blocks.0.1.transformer_blocks.7.norm3.weight", [1280], .float32, [], false⟩,
  ⟨key% "unet.output_blocks.0.1.transformer_blocks.8.attn1.to_k.weight", [1280, 1280], .float32, [], false⟩,
  ⟨key% "unet.output_blocks.0.1.transformer_blocks.8.attn1.to_out.0.bias", [1280], .float32, [], false⟩,
  ⟨key% "unet.output_blocks.0.1.transformer_blocks.8.attn1.to_out.0.weight", [1280, 1280], .float32, [], false⟩,
  ⟨key% "unet.output_blocks.0.1.transformer_blocks.8.attn1.to_q.weight", [1280, 1280], .float32, [], false⟩,
  ⟨key% "unet.output_blocks.0.1.transformer_blocks.8.attn1.to_v.weight", [1280, 1280], .float32, [], false⟩,
  ⟨key% "unet.output_blocks.0.1.transformer_blocks.8.attn2.to_k.weight", [1280, 2048], .float32, [], false⟩,
  ⟨key% "unet.output_blocks.0.1.transformer_blocks.8.attn2.to_out.0.bias", [1280], .float32, [], false⟩,
  ⟨key% "unet.output_blocks.0.1.transformer_blocks.8.attn2.to_out.0.weight", [1280, 1280], .float32, [], false⟩,
  ⟨key% "unet.output_blocks.0.1.transformer_blocks.8.attn2.to_q.weight", [1280, 1280], .float32, [], false⟩,
  ⟨key% "unet.output_blocks.0.1.transformer_blocks.8.attn2.to_v.weight", [1280, 2048], .float32, [], false⟩,
  ⟨key% "unet.output_blocks.0.1.transformer_blocks.8.ff.net.0.proj.bias", [10240], .float32, [], false⟩,
  ⟨key% "unet.output_blocks.0.1.transformer_blocks.8.ff.net.0.proj.weight", [10240, 1280], .float32, [], false⟩,
  ⟨key% "unet.output_blocks.0.1.transformer_blocks.8.ff.net.2.bias", [1280], .float32, [], false⟩,
  ⟨key% "unet.output_blocks.0.1.transformer_blocks.8.ff.net.2.weight", [1280, 5120], .float32, [], false⟩]
noncomputable def diffuser10 : List Entry := [
  ⟨key% "unet.output_blocks.0.1.transformer_blocks.8.norm1.bias", [1280], .float32, [], false⟩,
  ⟨key% "unet.output_blocks.0.1.transformer_blocks.8.norm1.weight", [1280], .float32, [], false⟩,
  ⟨key% "unet.output_blocks.0.1.transformer_blocks.8.norm2.bias", [1280], .float32, [], false⟩,
  ⟨key% "unet.output_blocks.0.1.transformer_blocks.8.norm2.weight", [1280], .float32, [], false⟩,
  ⟨key% "unet.output_blocks.0.1.transformer_blocks.8.norm3.bias", [1280], .float32, [], false⟩,
  ⟨key% "unet.output_blocks.0.1.transformer_blocks.8.norm3.weight", [1280], .float32, [], false⟩,
  ⟨key% "unet.output_blocks.0.1.transformer_blocks.9.attn1.to_k.weight", [1280, 1280], .float32, [], false⟩,
  ⟨key% "unet.output_blocks.0.1.transformer_blocks.9.attn1.to_out.0.bias", [1280], .float32, [], false⟩,
  ⟨key% "unet.output_blocks.0.1.transformer_blocks.9.attn1.to_out.0.weight", [1280, 1280], .float32, [], false⟩,
  ⟨key% "unet.output_blocks.0.1.transformer_blocks.9.attn1.to_q.weight", [1280, 1280], .float32, [], false⟩,
  ⟨key% "unet.output_blocks.0.1.transformer_blocks.9.attn1.to_v.weight", [1280, 1280], .float32, [], false⟩,
  ⟨key% "unet.output_blocks.0.1.transformer_blocks.9.attn2.to_k.weight", [1280, 2048], .float32, [], false⟩,
  ⟨key% "unet.output_blocks.0.1.transformer_blocks.9.attn2.to_out.0.bias", [1280], .float32, [], false⟩,
  ⟨key% "unet.output_blocks.0.1.transformer_blocks.9.attn2.to_out.0.weight", [1280, 1280], .float32, [], false⟩,
  ⟨key% "unet.output_blocks.0.1.transformer_blocks.9.attn2.to_q.weight", [1280, 1280], .float32, [], false⟩,
  ⟨key% "unet.output_blocks.0.1.transformer_blocks.9.attn2.to_v.weight", [1280, 2048], .float32, [], false⟩,
  ⟨key% "unet.output_blocks.0.1.transformer_blocks.9.ff.net.0.proj.bias", [10240], .float32, [], false⟩,
  ⟨key% "unet.output_blocks.0.1.transformer_blocks.9.ff.net.0.proj.weight", [10240, 1280], .float32, [], false⟩,
  ⟨key% "unet.output_blocks.0.1.transformer_blocks.9.ff.net.2.bias", [1280], .float32, [], false⟩,
  ⟨key% "unet.output_blocks.0.1.transformer_blocks.9.ff.net.2.weight", [1280, 5120], .float32, [], false⟩,
  ⟨key% "unet.output_blocks.0.1.transformer_blocks.9.norm1.bias", [1280], .float32, [], false⟩,
  ⟨key% "unet.output_blocks.0.1.transformer_blocks.9.norm1.weight", [1280], .float32, [], false⟩,
  ⟨key% "unet.output_blocks.0.1.transformer_blocks.9.norm2.bias", [1280], .float32, [], false⟩,
  ⟨key% "unet.output_blocks.0.1.transformer_blocks.9.norm2.weight", [1280], .float32, [], false⟩,
  ⟨key% "unet.output_blocks.0.1.transformer_blocks.9.norm3.bias", [1280], .float32, [], false⟩,
  ⟨key% "unet.output_blocks.0.1.transformer_blocks.9.norm3.weight", [1280], .float32, [], false⟩,
  ⟨key% "unet.output_blocks.1.0.emb_layers.1.bias", [1280], .float32, [], false⟩,
  ⟨key% "unet.output_blocks.1.0.emb_layers.1.weight", [1280, 1280], .float32, [], false⟩,
  ⟨key% "unet.output_blocks.1.0.in_layers.0.bias", [2560], .float32, [], false⟩,
  ⟨key% "unet.output_blocks.1.0.in_layers.0.weight", [2560], .float32, [], false⟩,
  ⟨key% "unet.output_blocks.1.0.in_layers.2.bias", [1280], .float32, [], false⟩,
  ⟨key% "unet.output_blocks.1.0.in_layers.2.weight", [1280, 2560, 3, 3], .float32, [], false⟩,
  ⟨key% "unet.output_blocks.1.0.out_layers.0.bias", [1280], .float32, [], false⟩,
  ⟨key% "unet.output_blocks.1.0.out_layers.0.weight", [1280], .float32, [], false⟩,
  ⟨key% "unet.output_blocks.1.0.out_layers.3.bias", [1280], .float32, [], false⟩,
  ⟨key% "unet.output_blocks.1.0.out_layers.3.weight", [1280, 1280, 3, 3], .float32, [], false⟩,
  ⟨key% "unet.output_blocks.1.0.skip_connection.bias", [1280], .float32, [], false⟩,
  ⟨key% "unet.output_blocks.1.0.skip_connection.weight", [1280, 2560, 1, 1], .float32, [], false⟩,
  ⟨key% "unet.output_blocks.1.1.norm.bias", [1280], .float32, [], false⟩,
  ⟨key% "unet.output_blocks.1.1.norm.weight", [1280], .float32, [], false⟩,
  ⟨key% "unet.output_blocks.1.1.proj_in.bias", [1280], .float32, [], false⟩,
  ⟨key% "unet.output_blocks.1.1.proj_in.weight", [1280, 1280], .float32, [], false⟩,
  ⟨key% "unet.output_blocks.1.1.proj_out.bias", [1280], .float32, [], false⟩,
  ⟨key% "unet.output_blocks.1.1.proj_out.weight", [1280, 1280], .float32, [], false⟩,
  ⟨key% "unet.output_blocks.1.1.transformer_blocks.0.attn1.to_k.weight", [1280, 1280], .float32, [], false⟩,
  ⟨key% "unet.output_blocks.1.1.transformer_blocks.0.attn1.to_out.0.bias", [1280], .float32, [], false⟩,
  ⟨key% "unet.output_blocks.1.1.transformer_blocks.0.attn1.to_out.0.weight", [1280, 1280], .float32, [], false⟩,
  ⟨key% "unet.output_blocks.1.1.transformer_blocks.0.attn1.to_q.weight", [1280, 1280], .float32, [], false⟩,
  ⟨key% "unet.output_blocks.1.1.transformer_blocks.0.attn1.to_v.weight", [1280, 1280], .float32, [], false⟩,
  ⟨key% "unet.output_blocks.1.1.transformer_blocks.0.attn2.to_k.weight", [1280, 2048], .float32, [], false⟩,
  ⟨key% "unet.output_blocks.1.1.transformer_blocks.0.attn2.to_out.0.bias", [1280], .float32, [], false⟩,
  ⟨key% "unet.output_blocks.1.1.transformer_blocks.0.attn2.to_out.0.weight", [1280, 1280], .float32, [], false⟩,
  ⟨key% "unet.output_blocks.1.1.transformer_blocks.0.attn2.to_q.weight", [1280, 1280], .float32, [], false⟩,
  ⟨key% "unet.output_blocks.1.1.transformer_blocks.0.attn2.to_v.weight", [1280, 2048], .float32, [], false⟩,
  ⟨key% "unet.output_blocks.1.1.transformer_blocks.0.ff.net.0.proj.bias", [10240], .float32, [], false⟩,
  ⟨key% "unet.output_blocks.1.1.transformer_blocks.0.ff.net.0.proj.weight", [10240, 1280], .float32, [], false⟩,
  ⟨key% "unet.output_blocks.1.1.transformer_blocks.0.ff.net.2.bias", [1280], .float32, [], false⟩,
  ⟨key% "unet.output_blocks.1.1.transformer_blocks.0.ff.net.2.weight", [1280, 5120], .float32, [], false⟩,
  ⟨key% "unet.output_blocks.1.1.transformer_blocks.0.norm1.bias", [1280], .float32, [], false⟩,
  ⟨key% "unet.output_blocks.1.1.transformer_blocks.0.norm1.weight", [1280], .float32, [], false⟩,
  ⟨key% "unet.output_blocks.1.1.transformer_blocks.0.norm2.bias", [1280], .float32, [], false⟩,
  ⟨key% "unet.output_blocks.1.1.transformer_blocks.0.norm2.weight", [1280], .float32, [], false⟩,
  ⟨key% "unet.output_blocks.1.1.transformer_blocks.0.norm3.bias", [1280], .float32, [], false⟩,
  ⟨key% "unet.output_blocks.1.1.transformer_blocks.0.norm3.weight", [1280], .float32, [], false⟩,
  ⟨key% "unet.output_blocks.1.1.transformer_blocks.1.attn1.to_k.weight", [1280, 1280], .float32, [], false⟩,
  ⟨key% "unet.output_blocks.1.1.transformer_blocks.1.attn1.to_out.0.bias", [1280], .float32, [], false⟩,
  ⟨key% "unet.output_blocks.1.1.transformer_blocks.1.attn1.to_out.0.weight", [1280, 1280], .float32, [], false⟩,
  ⟨key% "unet.output_blocks.1.1.transformer_blocks.1.attn1.to_q.weight", [1280, 1280], .float32, [], false⟩,
  ⟨key% "unet.output_blocks.1.1.transformer_blocks.1.attn1.to_v.weight", [1280, 1280], .float32, [], false⟩,
  ⟨key% "unet.output_blocks.1.1.transformer_blocks.1.attn2.to_k.weight", [1280, 2048], .float32, [], false⟩,
  ⟨key% "unet.output_blocks.1.1.transformer_blocks.1.attn2.to_out.0.bias", [1280], .float32, [], false⟩,
  ⟨key% "unet.output_blocks.1.1.transformer_blocks.1.attn2.to_out.0.weight", [1280, 1280], .float32, [], false⟩,
  ⟨key% "unet.output_blocks.1.1.transformer_blocks.1.attn2.to_q.weight", [1280, 1280], .float32, [], false⟩,
  ⟨key% "unet.output_blocks.1.1.transformer_blocks.1.attn2.to_v.weight", [1280, 2048], .float32, [], false⟩,
  ⟨key% "unet.output_blocks.1.1.transformer_blocks.1.ff.net.0.proj.bias", [10240], .float32, [], false⟩,
  ⟨key% "unet.output_blocks.1.1.transformer_blocks.1.ff.net.0.proj.weight", [10240, 1280], .float32, [], false⟩,
  ⟨key% "unet.output_blocks.1.1.transformer_blocks.1.ff.net.2.bias", [1280], .float32, [], false⟩,
  ⟨key% "unet.output_blocks.1.1.transformer_blocks.1.ff.net.2.weight", [1280, 5120], .float32, [], false⟩,
  ⟨key% "unet.output_blocks.1.1.transformer_blocks.1.norm1.bias", [1280], .float32, [], false⟩,
  ⟨key% "unet.output_blocks.1.1.transformer_blocks.1.norm1.weight", [1280], .float32, [], false⟩,
  ⟨key% "unet.output_blocks.1.1.transformer_blocks.1.norm2.bias", [1280], .float32, [], false⟩,
  ⟨key% "unet.output_blocks.1.1.transformer_blocks.1.norm2.weight", [1280], .float32, [], false⟩,
  ⟨key% "unet.output_blocks.1.1.transformer_blocks.1.norm3.bias", [1280], .float32, [], false⟩,
  ⟨key% "unet.output_blocks.1.1.transformer_blocks.1.norm3.weight", [1280], .float32, [], false⟩,
  ⟨key% "unet.output_blocks.1.1.transformer_blocks.2.attn1.to_k.weight", [1280, 1280], .float32, [], false⟩,
  ⟨key% "unet.output_blocks.1.1.transformer_blocks.2.attn1.to_out.0.bias", [1280], .float32, [], false⟩,
  ⟨key% "unet.output_blocks.1.1.transformer_blocks.2.attn1.to_out.0.weight", [1280, 1280], .float32, [], false⟩,
  ⟨key% "unet.output_blocks.1.1.transformer_blocks.2.attn1.to_q.weight", [1280, 1280], .float32, [], false⟩,
  ⟨key% "unet.output_blocks.1.1.transformer_blocks.2.attn1.to_v.weight", [1280, 1280], .float32, [], false⟩,
  ⟨key% "unet.output_blocks.1.1.transformer_blocks.2.attn2.to_k.weight", [1280, 2048], .float32, [], false⟩,
  ⟨key% "unet.output_blocks.1.1.transformer_blocks.2.attn2.to_out.0.bias", [1280], .float32, [], false⟩,
  ⟨key% "unet.output_blocks.1.1.transformer_blocks.2.attn2.to_out.0.weight", [1280, 1280], .float32, [], false⟩,
  ⟨key% "unet.output_blocks.1.1.transformer_blocks.2.attn2.to_q.weight", [1280, 1280], .float32, [], false⟩,
  ⟨key% "unet.output_blocks.1.1.transformer_blocks.2.attn2.to_v.weight", [1280, 2048], .float32, [], false⟩,
  ⟨key% "unet.output_blocks.1.1.transformer_blocks.2.ff.net.0.proj.bias", [10240], .float32, [], false⟩,
  ⟨key% "unet.output_blocks.1.1.transformer_blocks.2.ff.net.0.proj.weight", [10240, 1280], .float32, [], false⟩,
  ⟨key% "unet.output_blocks.1.1.transformer_blocks.2.ff.net.2.bias", [1280], .float32, [], false⟩,
  ⟨key% "unet.output_blocks.1.1.transformer_blocks.2.ff.net.2.weight", [1280, 5120], .float32, [], false⟩,
  ⟨key% "unet.output_blocks.1.1.transformer_blocks.2.norm1.bias", [1280], .float32, [], false⟩,
  ⟨key% "unet.output_blocks.1.1.transformer_blocks.2.norm1.weight", [1280], .float32, [], false⟩]
noncomputable def diffuser11 : List Entry := [
  ⟨key% "unet.output_blocks.1.1.transformer_blocks.2.norm2.bias", [1280], .float32, [], false⟩,
  ⟨key% "unet.output_blocks.1.1.transformer_blocks.2.norm2.weight", [1280], .float32, [], false⟩,
  ⟨key% "unet.output_blocks.1.1.transformer_blocks.2.norm3.bias", [1280], .float32, [], false⟩,
  ⟨key% "unet.output_blocks.1.1.transformer_blocks.2.norm3.weight", [1280], .float32, [], false⟩,
  ⟨key% "unet.output_blocks.1.1.transformer_blocks.3.attn1.to_k.weight", [1280, 1280], .float32, [], false⟩,
  ⟨key% "unet.output_blocks.1.1.transformer_blocks.3.attn1.to_out.0.bias", [1280], .float32, [], false⟩,
  ⟨key% "unet.output_blocks.1.1.transformer_blocks.3.attn1.to_out.0.weight", [1280, 1280], .float32, [], false⟩,
  ⟨key% "unet.output_blocks.1.1.transformer_blocks.3.attn1.to_q.weight", [1280, 1280], .float32, [], false⟩,
  ⟨key% "unet.output_blocks.1.1.transformer_blocks.3.attn1.to_v.weight", [1280, 1280], .float32, [], false⟩,
  ⟨key% "unet.output_blocks.1.1.transformer_blocks.3.attn2.to_k.weight", [1280, 2048], .float32, [], false⟩,
  ⟨key% "unet.output_blocks.1.1.transformer_blocks.3.attn2.to_out.0.bias", [1280], .float32, [], false⟩,
  ⟨key% "unet.output_blocks.1.1.transformer_blocks.3.attn2.to_out.0.weight", [1280, 1280], .float32, [], false⟩,
  ⟨key% "unet.output_blocks.1.1.transformer_blocks.3.attn2.to_q.weight", [1280, 1280], .float32, [], false⟩,
  ⟨key% "unet.output_blocks.1.1.transformer_blocks.3.attn2.to_v.weight", [1280, 2048], .float32, [], false⟩,
  ⟨key% "unet.output_blocks.1.1.transformer_blocks.3.ff.net.0.proj.bias", [10240], .float32, [], false⟩,
  ⟨key% "unet.output_blocks.1.1.transformer_blocks.3.ff.net.0.proj.weight", [10240, 1280], .float32, [], false⟩,
  ⟨key% "unet.output_blocks.1.1.transformer_blocks.3.ff.net.2.bias", [1280], .float32, [], false⟩,
  ⟨key% "unet.output_blocks.1.1.transformer_blocks.3.ff.net.2.weight", [1280, 5120], .float32, [], false⟩,
  ⟨key% "unet.output_blocks.1.1.transformer_blocks.3.norm1.bias", [1280], .float32, [], false⟩,
  ⟨key% "unet.output_blocks.1.1.transformer_blocks.3.norm1.weight", [1280], .float32, [], false⟩,
  ⟨key% "unet.output_blocks.1.1.transformer_blocks.3.norm2.bias", [1280], .float32, [], false⟩,
  ⟨key% "unet.output_blocks.1.1.transformer_blocks.3.norm2.weight", [1280], .float32, [], false⟩,
  ⟨key% "unet.output_blocks.1.1.transformer_blocks.3.norm3.bias", [1280], .float32, [], false⟩,
  ⟨key% "unet.output_blocks.1.1.transformer_blocks.3.norm3.weight", [1280], .float32, [], false⟩,
  ⟨key% "unet.output_blocks.1.1.transformer_blocks.4.attn1.to_k.weight", [1280, 1280], .float32, [], false⟩,
  ⟨key% "unet.output_blocks.1.1.transformer_blocks.4.attn1.to_out.0.bias", [1280], .float32, [], false⟩,
  ⟨key% "unet.output_blocks.1.1.transformer_blocks.4.attn1.to_out.0.weight", [1280, 1280], .float32, [], false⟩,
  ⟨key% "unet.output_blocks.1.1.transformer_blocks.4.attn1.to_q.weight", [1280, 1280], .float32, [], false⟩,
  ⟨key% "unet.output_blocks.1.1.transformer_blocks.4.attn1.to_v.weight", [1280, 1280], .float32, [], false⟩,
  ⟨key% "unet.output_blocks.1.1.transformer_blocks.4.attn2.to_k.weight", [1280, 2048], .float32, [], false⟩,
  ⟨key% "unet.output_blocks.1.1.transformer_blocks.4.attn2.to_out.0.bias", [1280], .float32, [], false⟩,
  ⟨key% "unet.output_blocks.1.1.transformer_blocks.4.attn2.to_out.0.weight", [1280, 1280], .float32, [], false⟩,
  ⟨key% "unet.output_blocks.1.1.transformer_blocks.4.attn2.to_q.weight", [1280, 1280], .float32, [], false⟩,
  ⟨key% "unet.output_blocks.1.1.transformer_blocks.4.attn2.to_v.weight", [1280, 2048], .float32, [], false⟩,
  ⟨key% "unet.output_blocks.1.1.transformer_blocks.4.ff.net.0.proj.bias", [10240], .float32, [], false⟩,
  ⟨key% "unet.output_blocks.1.1.transformer_blocks.4.ff.net.0.proj.weight", [10240, 1280], .float32, [], false⟩,
  ⟨key% "unet.output_blocks.1.1.transformer_blocks.4.ff.net.2.bias", [1280], .float32, [], false⟩,
  ⟨key% "unet.output_blocks.1.1.transformer_blocks.4.ff.net.2.weight", [1280, 5120], .float32, [], false⟩,
  ⟨key% "unet.output_blocks.1.1.transformer_blocks.4.norm1.bias", [1280], .float32, [], false⟩,
  ⟨key% "unet.output_blocks.1.1.transformer_blocks.4.norm1.weight", [1280], .float32, [], false⟩,
  ⟨key% "unet.output_blocks.1.1.transformer_blocks.4.norm2.bias", [1280], .float32, [], false⟩,
  ⟨key% "unet.output_blocks.1.1.transformer_blocks.4.norm2.weight", [1280], .float32, [], false⟩,
  ⟨key% "unet.output_blocks.1.1.transformer_blocks.4.norm3.bias", [1280], .float32, [], false⟩,
  ⟨key% "unet.output_blocks.1.1.transformer_blocks.4.norm3.weight", [1280], .float32, [], false⟩,
  ⟨key% "unet.output_blocks.1.1.transformer_blocks.5.attn1.to_k.weight", [1280, 1280], .float32, [], false⟩,
  ⟨key% "unet.output_blocks.1.1.transformer_blocks.5.attn1.to_out.0.bias", [1280], .float32, [], false⟩,
  ⟨key% "unet.output_blocks.1.1.transformer_blocks.5.attn1.to_out.0.weight", [1280, 1280], .float32, [], false⟩,
  ⟨key% "unet.output_blocks.1.1.transformer_blocks.5.attn1.to_q.weight", [1280, 1280], .float32, [], false⟩,
  ⟨key% "unet.output_blocks.1.1.transformer_blocks.5.attn1.to_v.weight", [1280, 1280], .float32, [], false⟩,
  ⟨key% "unet.output_blocks.1.1.transformer_blocks.5.attn2.to_k.weight", [1280, 2048], .float32, [], false⟩,
  ⟨key% "unet.output_blocks.1.1.transformer_blocks.5.attn2.to_out.0.bias", [1280], .float32, [], false⟩,
  ⟨key% "unet.output_blocks.1.1.transformer_blocks.5.attn2.to_out.0.weight", [1280, 1280], .float32, [], false⟩,
  ⟨key% "unet.output_blocks.1.1.transformer_blocks.5.attn2.to_q.weight", [1280, 1280], .float32, [], false⟩,
  ⟨key% "unet.output_blocks.1.1.transformer_blocks.5.attn2.to_v.weight", [1280, 2048], .float32, [], false⟩,
  ⟨key% "unet.output_blocks.1.1.transformer_blocks.5.ff.net.0.proj.bias", [10240], .float32, [], false⟩,
  ⟨key% "unet.output_blocks.1.1.transformer_blocks.5.ff.net.0.proj.weight", [10240, 1280], .float32, [], false⟩,
  ⟨key% "unet.output_blocks.1.1.transformer_blocks.5.ff.net.2.bias", [1280], .float32, [], false⟩,
  ⟨key% "unet.output_blocks.1.1.transformer_blocks.5.ff.net.2.weight", [1280, 5120], .float32, [], false⟩,
  ⟨key% "unet.output_blocks.1.1.transformer_blocks.5.norm1.bias", [1280], .float32, [], false⟩,
  ⟨key% "unet.output_blocks.1.1.transformer_blocks.5.norm1.weight", [1280], .float32, [], false⟩,
  ⟨key% "unet.output_blocks.1.1.transformer_blocks.5.norm2.bias", [1280], .float32, [], false⟩,
  ⟨key% "unet.output_blocks.1.1.transformer_blocks.5.norm2.weight", [1280], .float32, [], false⟩,
  ⟨key% "unet.output_blocks.1.1.transformer_blocks.5.norm3.bias", [1280], .float32, [], false⟩,
  ⟨key% "unet.output_blocks.1.1.transformer_blocks.5.norm3.weight", [1280], .float32, [], false⟩,
  ⟨key% "unet.output_blocks.1.1.transformer_blocks.6.attn1.to_k.weight", [1280, 1280], .float32, [], false⟩,
  ⟨key% "unet.output_blocks.1.1.transformer_blocks.6.attn1.to_out.0.bias", [1280], .float32, [], false⟩,
  ⟨key% "unet.output_blocks.1.1.transformer_blocks.6.attn1.to_out.0.weight", [1280, 1280], .float32, [], false⟩,
  ⟨key% "unet.output_blocks.1.1.transformer_blocks.6.attn1.to_q.weight", [1280, 1280], .float32, [], false⟩,
  ⟨key% "unet.output_blocks.1.1.transformer_blocks.6.attn1.to_v.weight", [1280, 1280], .float32, [], false⟩,
  ⟨key% "unet.output_blocks.1.1.transformer_blocks.6.attn2.to_k.weight", [1280, 2048], .float32, [], false⟩,
  ⟨key% "unet.output_blocks.1.1.transformer_blocks.6.attn2.to_out.0.bias", [1280], .float32, [], false⟩,
  ⟨key% "unet.output_blocks.1.1.transformer_blocks.6.attn2.to_out.0.weight", [1280, 1280], .float32, [], false⟩,
  ⟨key% "unet.output_blocks.1.1.transformer_blocks.6.attn2.to_q.weight", [1280, 1280], .float32, [], false⟩,
  ⟨key% "unet.output_blocks.1.1.transformer_blocks.6.attn2.to_v.weight", [1280, 2048], .float32, [], false⟩,
  ⟨key% "unet.output_blocks.1.1.transformer_blocks.6.ff.net.0.proj.bias", [10240], .float32, [], false⟩,
  ⟨key% "unet.output_blocks.1.1.transformer_blocks.6.ff.net.0.proj.weight", [10240, 1280], .float32, [], false⟩,
  ⟨key% "unet.output_blocks.1.1.transformer_blocks.6.ff.net.2.bias", [1280], .float32, [], false⟩,
  ⟨key% "unet.output_blocks.1.1.transformer_blocks.6.ff.net.2.weight", [1280, 5120], .float32, [], false⟩,
  ⟨key% "unet.output_blocks.1.1.transformer_blocks.6.norm1.bias", [1280], .float32, [], false⟩,
  ⟨key% "unet.output_blocks.1.1.transformer_blocks.6.norm1.weight", [1280], .float32, [], false⟩,
  ⟨key% "unet.output_blocks.1.1.transformer_blocks.6.norm2.bias", [1280], .float32, [], false⟩,
  ⟨key% "unet.output_blocks.1.1.transformer_blocks.6.norm2.weight", [1280], .float32, [], false⟩,
  ⟨key% "unet.output_blocks.1.1.transformer_blocks.6.norm3.bias", [1280], .float32, [], false⟩,
  ⟨key% "unet.output_blocks.1.1.transformer_blocks.6.norm3.weight", [1280], .float32, [], false⟩,
  ⟨key% "unet.output_blocks.1.1.transformer_blocks.7.attn1.to_k.weight", [1280, 1280], .float32, [], false⟩,
  ⟨key% "unet.output_blocks.1.1.transformer_blocks.7.attn1.to_out.0.bias", [1280], .float32, [], false⟩,
  ⟨key% "unet.output_blocks.1.1.transformer_blocks.7.attn1.to_out.0.weight", [1280, 1280], .float32, [], false⟩,
  ⟨key% "unet.output_blocks.1.1.transformer_blocks.7.attn1.to_q.weight", [1280, 1280], .float32, [], false⟩,
  ⟨key% "unet.output_blocks.1.1.transformer_blocks.7.attn1.to_v.weight", [1280, 1280], .float32, [], false⟩,
  ⟨key% "unet.output_blocks.1.1.transformer_blocks.7.attn2.to_k.weight", [1280, 2048], .float32, [], false⟩,
  ⟨key% "unet.output_blocks.1.1.transformer_blocks.7.attn2.to_out.0.bias", [1280], .float32, [], false⟩,
  ⟨key% "unet.output_blocks.1.1.transformer_blocks.7.attn2.to_out.0.weight", [1280, 1280], .float32, [], false⟩,
  ⟨key% "unet.output_blocks.1.1.transformer_blocks.7.attn2.to_q.weight", [1280, 1280], .float32, [], false⟩,
  ⟨key% "unet.output_blocks.1.1.transformer_blocks.7.attn2.to_v.weight", [1280, 2048], .float32, [], false⟩,
  ⟨key% "unet.output_blocks.1.1.transformer_blocks.7.ff.net.0.proj.bias", [10240], .float32, [], false⟩,
  ⟨key% "unet.output_blocks.1.1.transformer_blocks.7.ff.net.0.proj.weight", [10240, 1280], .float32, [], false⟩,
  ⟨key% "unet.output_blocks.1.1.transformer_blocks.7.ff.net.2.bias", [1280], .float32, [], false⟩,
  ⟨key% "unet.output_blocks.1.1.transformer_blocks.7.ff.net.2.weight", [1280, 5120], .float32, [], false⟩,
  ⟨key% "unet.output_blocks.1.1.transformer_blocks.7.norm1.bias", [1280], .float32, [], false⟩,
  ⟨key% "unet.output_blocks.1.1.transformer_blocks.7.norm1.weight", [1280], .float32, [], false⟩]
noncomputable def diffuser12 : List Entry := [
  ⟨key% "unet.output_blocks.1.1.transformer_blocks.7.norm2.bias", [1280], .float32, [], false⟩,
  ⟨key% "unet.output_blocks.1.1.transformer_blocks.7.norm2.weight", [1280], .float32, [], false⟩,
  ⟨key% "unet.output_blocks.1.1.transformer_blocks.7.norm3.bias", [1280], .float32, [], false⟩,
  ⟨key% "unet.output_blocks.1.1.transformer_blocks.7.norm3.weight", [1280], .float32, [], false⟩,
  ⟨key% "unet.output_blocks.1.1.transformer_blocks.8.attn1.to_k.weight", [1280, 1280], .float32, [], false⟩,
  ⟨key% "unet.output_blocks.1.1.transformer_blocks.8.attn1.to_out.0.bias", [1280], .float32, [], false⟩,
  ⟨key% "unet.output_blocks.1.1.transformer_blocks.8.attn1.to_out.0.weight", [1280, 1280], .float32, [], false⟩,
  ⟨key% "unet.output_blocks.1.1.transformer_blocks.8.attn1.to_q.weight", [1280, 1280], .float32, [], false⟩,
  ⟨key% "unet.output_blocks.1.1.transformer_blocks.8.attn1.to_v.weight", [1280, 1280], .float32, [], false⟩,
  ⟨key% "unet.output_blocks.1.1.transformer_blocks.8.attn2.to_k.weight", [1280, 2048], .float32, [], false⟩,
  ⟨key% "unet.output_blocks.1.1.transformer_blocks.8.attn2.to_out.0.bias", [1280], .float32, [], false⟩,
  ⟨key% "unet.output_blocks.1.1.transformer_blocks.8.attn2.to_out.0.weight", [1280, 1280], .float32, [], false⟩,
  ⟨key% "unet.output_blocks.1.1.transformer_blocks.8.attn2.to_q.weight", [1280, 1280], .float32, [], false⟩,
  ⟨key% "unet.output_blocks.1.1.transformer_blocks.8.attn2.to_v.weight", [1280, 2048], .float32, [], false⟩,
  ⟨key% "unet.output_blocks.1.1.transformer_blocks.8.ff.net.0.proj.bias", [10240], .float32, [], false⟩,
  ⟨key% "unet.output_blocks.1.1.transformer_blocks.8.ff.net.0.proj.weight", [10240, 1280], .float32, [], false⟩,
  ⟨key% "unet.output_blocks.1.1.transformer_blocks.8.ff.net.2.bias", [1280], .float32, [], false⟩,
  ⟨key% "unet.output_blocks.1.1.transformer_blocks.8.ff.net.2.weight", [1280, 5120], .float32, [], false⟩,
  ⟨key% "unet.output_blocks.1.1.transformer_blocks.8.norm1.bias", [1280], .float32, [], false⟩,
  ⟨key% "unet.output_blocks.1.1.transformer_blocks.8.norm1.weight", [1280], .float32, [], false⟩,
  ⟨key% "unet.output_blocks.1.1.transformer_blocks.8.norm2.bias", [1280], .float32, [], false⟩,
  ⟨key% "unet.output_blocks.1.1.transformer_blocks.8.norm2.weight", [1280], .float32, [], false⟩,
  ⟨key% "unet.output_blocks.1.1.transformer_blocks.8.norm3.bias", [1280], .float32, [], false⟩,
  ⟨key% "unet.output_blocks.1.1.transformer_blocks.8.norm3.weight", [1280], .float32, [], false⟩,
  ⟨key% "unet.output_blocks.1.1.transformer_blocks.9.attn1.to_k.weight", [1280, 1280], .float32, [], false⟩,
  ⟨key% "unet.output_blocks.1.1.transformer_blocks.9.attn1.to_out.0.bias", [1280], .float32, [], false⟩,
  ⟨key% "unet.output_blocks.1.1.transformer_blocks.9.attn1.to_out.0.weight", [1280, 1280], .float32, [], false⟩,
  ⟨key% "unet.output_blocks.1.1.transformer_blocks.9.attn1.to_q.weight", [1280, 1280], .float32, [], false⟩,
  ⟨key% "unet.output_blocks.1.1.transformer_blocks.9.attn1.to_v.weight", [1280, 1280], .float32, [], false⟩,
  ⟨key% "unet.output_blocks.1.1.transformer_blocks.9.attn2.to_k.weight", [1280, 2048], .float32, [], false⟩,
  ⟨key% "unet.output_blocks.1.1.transformer_blocks.9.attn2.to_out.0.bias", [1280], .float32, [], false⟩,
  ⟨key% "unet.output_blocks.1.1.transformer_blocks.9.attn2.to_out.0.weight", [1280, 1280], .float32, [], false⟩,
  ⟨key% "unet.output_blocks.1.1.transformer_blocks.9.attn2.to_q.weight", [1280, 1280], .float32, [], false⟩,
  ⟨key% "unet.output_blocks.1.1.transformer_blocks.9.attn2.to_v.weight", [1280, 2048], .float32, [], false⟩,
  ⟨key% "unet.output_blocks.1.1.transformer_blocks.9.ff.net.0.proj.bias", [10240], .float32, [], false⟩,
  ⟨key% "unet.output_blocks.1.1.transformer_blocks.9.ff.net.0.proj.weight", [10240, 1280], .float32, [], false⟩,
  ⟨key% "unet.output_blocks.1.1.transformer_blocks.9.ff.net.2.bias", [1280], .float32, [], false⟩,
  ⟨key% "unet.output_blocks.1.1.transformer_blocks.9.ff.net.2.weight", [1280, 5120], .float32, [], false⟩,
  ⟨key% "unet.output_blocks.1.1.transformer_blocks.9.norm1.bias", [1280], .float32, [], false⟩,
  ⟨key% "unet.output_blocks.1.1.transformer_blocks.9.norm1.weight", [1280], .float32, [], false⟩,
  ⟨key% "unet.output_blocks.1.1.transformer_blocks.9.norm2.bias", [1280], .float32, [], false⟩,
  ⟨key% "unet.output_blocks.1.1.transformer_blocks.9.norm2.weight", [1280], .float32, [], false⟩,
  ⟨key% "unet.output_blocks.1.1.transformer_blocks.9.norm3.bias", [1280], .float32, [], false⟩,
  ⟨key% "unet.output_blocks.1.1.transformer_blocks.9.norm3.weight", [1280], .float32, [], false⟩,
  ⟨key% "unet.output_blocks.2.0.emb_layers.1.bias", [1280], .float32, [], false⟩,
  ⟨key% "unet.output_blocks.2.0.emb_layers.1.weight", [1280, 1280], .float32, [], false⟩,
  ⟨key% "unet.output_blocks.2.0.in_layers.0.bias", [1920], .float32, [], false⟩,
  ⟨key% "unet.output_blocks.2.0.in_layers.0.weight", [1920], .float32, [], false⟩,
  ⟨key% "unet.output_blocks.2.0.in_layers.2.bias", [1280], .float32, [], false⟩,
  ⟨key% "unet.output_blocks.2.0.in_layers.2.weight", [1280, 1920, 3, 3], .float32, [], false⟩,
  ⟨key% "unet.output_blocks.2.0.out_layers.0.bias", [1280], .float32, [], false⟩,
  ⟨key% "unet.output_blocks.2.0.out_layers.0.weight", [1280], .float32, [], false⟩,
  ⟨key% "unet.output_blocks.2.0.out_layers.3.bias", [1280], .float32, [], false⟩,
  ⟨key% "unet.output_blocks.2.0.out_layers.3.weight", [1280, 1280, 3, 3], .float32, [], false⟩,
  ⟨key% "unet.output_blocks.2.0.skip_connection.bias", [1280], .float32, [], false⟩,
  ⟨key% "unet.output_blocks.2.0.skip_connection.weight", [1280, 1920, 1, 1], .float32, [], false⟩,
  ⟨key% "unet.output_blocks.2.1.norm.bias", [1280], .float32, [], false⟩,
  ⟨key% "unet.output_blocks.2.1.norm.weight", [1280], .float32, [], false⟩,
  ⟨key% "unet.output_blocks.2.1.proj_in.bias", [1280], .float32, [], false⟩,
  ⟨key% "unet.output_blocks.2.1.proj_in.weight", [1280, 1280], .float32, [], false⟩,
  ⟨key% "unet.output_blocks.2.1.proj_out.bias", [1280], .float32, [], false⟩,
  ⟨key% "unet.output_blocks.2.1.proj_out.weight", [1280, 1280], .float32, [], false⟩,
  ⟨key% "unet.output_blocks.2.1.transformer_blocks.0.attn1.to_k.weight", [1280, 1280], .float32, [], false⟩,
  ⟨key% "unet.output_blocks.2.1.transformer_blocks.0.attn1.to_out.0.bias", [1280], .float32, [], false⟩,
  ⟨key% "unet.output_blocks.2.1.transformer_blocks.0.attn1.to_out.0.weight", [1280, 1280], .float32, [], false⟩,
  ⟨key% "unet.output_blocks.2.1.transformer_blocks.0.attn1.to_q.weight", [1280, 1280], .float32, [], false⟩,
  ⟨key% "unet.output_blocks.2.1.transformer_blocks.0.attn1.to_v.weight", [1280, 1280], .float32, [], false⟩,
  ⟨key% "unet.output_blocks.2.1.transformer_blocks.0.attn2.to_k.weight", [1280, 2048], .float32, [], false⟩,
  ⟨key% "unet.output_blocks.2.1.transformer_blocks.0.attn2.to_out.0.bias", [1280], .float32, [], false⟩,
  ⟨key% "unet.output_blocks.2.1.transformer_blocks.0.attn2.to_out.0.weight", [1280, 1280], .float32, [], false⟩,
  ⟨key% "unet.output_blocks.2.1.transformer_blocks.0.attn2.to_q.weight", [1280, 1280], .float32, [], false⟩,
  ⟨key% "unet.output_blocks.2.1.transformer_blocks.0.attn2.to_v.weight", [1280, 2048], .float32, [], false⟩,
  ⟨key% "unet.output_blocks.2.1.transformer_blocks.0.ff.net.0.proj.bias", [10240], .float32, [], false⟩,
  ⟨key% "unet.output_blocks.2.1.transformer_blocks.0.ff.net.0.proj.weight", [10240, 1280], .float32, [], false⟩,
  ⟨key% "unet.output_blocks.2.1.transformer_blocks.0.ff.net.2.bias", [1280], .float32, [], false⟩,
  ⟨key% "unet.output_blocks.2.1.transformer_blocks.0.ff.net.2.weight", [1280, 5120], .float32, [], false⟩,
  ⟨key% "unet.output_blocks.2.1.transformer_blocks.0.norm1.bias", [1280], .float32, [], false⟩,
  ⟨key% "unet.output_blocks.2.1.transformer_blocks.0.norm1.weight", [1280], .float32, [], false⟩,
  ⟨key% "unet.output_blocks.2.1.transformer_blocks.0.norm2.bias", [1280], .float32, [], false⟩,
  ⟨key% "unet.output_blocks.2.1.transformer_blocks.0.norm2.weight", [1280], .float32, [], false⟩,
  ⟨key% "unet.output_blocks.2.1.transformer_blocks.0.norm3.bias", [1280], .float32, [], false⟩,
  ⟨key% "unet.output_blocks.2.1.transformer_blocks.0.norm3.weight", [1280], .float32, [], false⟩,
  ⟨key% "unet.output_blocks.2.1.transformer_blocks.1.attn1.to_k.weight", [1280, 1280], .float32, [], false⟩,
  ⟨key% "unet.output_blocks.2.1.transformer_blocks.1.attn1.to_out.0.bias", [1280], .float32, [], false⟩,
  ⟨key% "unet.output_blocks.2.1.transformer_blocks.1.attn1.to_out.0.weight", [1280, 1280], .float32, [], false⟩,
  ⟨key% "unet.output_blocks.2.1.transformer_blocks.1.attn1.to_q.weight", [1280, 1280], .float32, [], false⟩,
  ⟨key% "unet.output_blocks.2.1.transformer_blocks.1.attn1.to_v.weight", [1280, 1280], .float32, [], false⟩,
  ⟨key% "unet.output_blocks.2.1.transformer_blocks.1.attn2.to_k.weight", [1280, 2048], .float32, [], false⟩,
  ⟨key% "unet.output_blocks.2.1.transformer_blocks.1.attn2.to_out.0.bias", [1280], .float32, [], false⟩,
  ⟨key% "unet.output_blocks.2.1.transformer_blocks.1.attn2.to_out.0.weight", [1280, 1280], .float32, [], false⟩,
  ⟨key% "unet.output_blocks.2.1.transformer_blocks.1.attn2.to_q.weight", [1280, 1280], .float32, [], false⟩,
  ⟨key% "unet.output_blocks.2.1.transformer_blocks.1.attn2.to_v.weight", [1280, 2048], .float32, [], false⟩,
  ⟨key% "unet.output_blocks.2.1.transformer_blocks.1.ff.net.0.proj.bias", [10240], .float32, [], false⟩,
  ⟨key% "unet.output_blocks.2.1.transformer_blocks.1.ff.net.0.proj.weight", [10240, 1280], .float32, [], false⟩,
  ⟨key% "unet.output_blocks.2.1.transformer_blocks.1.ff.net.2.bias", [1280], .float32, [], false⟩,
  ⟨key% "unet.output_blocks.2.1.transformer_blocks.1.ff.net.2.weight", [1280, 5120], .float32, [], false⟩,
  ⟨key% "unet.output_blocks.2.1.transformer_blocks.1.norm1.bias", [1280], .float32, [], false⟩,
  ⟨key% "unet.output_blocks.2.1.transformer_blocks.1.norm1.weight", [1280], .float32, [], false⟩,
  ⟨key% "unet.output_blocks.2.1.transformer_blocks.1.norm2.bias", [1280], .float32, [], false⟩,
  ⟨key% "unet.output_blocks.2.1.transformer_blocks.1.norm2.weight", [1280], .float32, [], false⟩]
noncomputable def diffuser13 : List Entry := [
  ⟨key% "unet.output_blocks.2.1.transformer_blocks.1.norm3.bias", [1280], .float32, [], false⟩,
  ⟨key% "unet.output_blocks.2.1.transformer_blocks.1.norm3.weight", [1280], .float32, [], false⟩,
  ⟨key% "unet.output_blocks.2.1.transformer_blocks.2.attn1.to_k.weight", [1280, 1280], .float32, [], false⟩,
  ⟨key% "unet.output_blocks.2.1.transformer_blocks.2.attn1.to_out.0.bias", [1280], .float32, [], false⟩,
  ⟨key% "unet.output_blocks.2.1.transformer_blocks.2.attn1.to_out.0.weight", [1280, 1280], .float32, [], false⟩,
  ⟨key% "unet.output_blocks.2.1.transformer_blocks.2.attn1.to_q.weight", [1280, 1280], .float32, [], false⟩,
  ⟨key% "unet.output_blocks.2.1.transformer_blocks.2.attn1.to_v.weight", [1280, 1280], .float32, [], false⟩,
  ⟨key% "unet.output_blocks.2.1.transformer_blocks.2.attn2.to_k.weight", [1280, 2048], .float32, [], false⟩,
  ⟨key% "unet.output_blocks.2.1.transformer_blocks.2.attn2.to_out.0.bias", [1280], .float32, [], false⟩,
  ⟨key% "unet.output_blocks.2.1.transformer_blocks.2.attn2.to_out.0.weight", [1280, 1280], .float32, [], false⟩,
  ⟨key% "unet.output_blocks.2.1.transformer_blocks.2.attn2.to_q.weight", [1280, 1280], .float32, [], false⟩,
  ⟨key% "unet.output_blocks.2.1.transformer_blocks.2.attn2.to_v.weight", [1280, 2048], .float32, [], false⟩,
  ⟨key% "unet.output_blocks.2.1.transformer_blocks.2.ff.net.0.proj.bias", [10240], .float32, [], false⟩,
  ⟨key% "unet.output_blocks.2.1.transformer_blocks.2.ff.net.0.proj.weight", [10240, 1280], .float32, [], false⟩,
  ⟨key% "unet.output_blocks.2.1.transformer_blocks.2.ff.net.2.bias", [1280], .float32, [], false⟩,
  ⟨key% "unet.output_blocks.2.1.transformer_blocks.2.ff.net.2.weight", [1280, 5120], .float32, [], false⟩,
  ⟨key% "unet.output_blocks.2.1.transformer_blocks.2.norm1.bias", [1280], .float32, [], false⟩,
  ⟨key% "unet.output_blocks.2.1.transformer_blocks.2.norm1.weight", [1280], .float32, [], false⟩,
  ⟨key% "unet.output_blocks.2.1.transformer_blocks.2.norm2.bias", [1280], .float32, [], false⟩,
  ⟨key% "unet.output_blocks.2.1.transformer_blocks.2.norm2.weight", [1280], .float32, [], false⟩,
  ⟨key% "unet.output_blocks.2.1.transformer_blocks.2.norm3.bias", [1280], .float32, [], false⟩,
  ⟨key% "unet.output_blocks.2.1.transformer_blocks.2.norm3.weight", [1280], .float32, [], false⟩,
  ⟨key% "unet.output_blocks.2.1.transformer_blocks.3.attn1.to_k.weight", [1280, 1280], .float32, [], false⟩,
  ⟨key% "unet.output_blocks.2.1.transformer_blocks.3.attn1.to_out.0.bias", [1280], .float32, [], false⟩,
  ⟨key% "unet.output_blocks.2.1.transformer_blocks.3.attn1.to_out.0.weight", [1280, 1280], .float32, [], false⟩,
  ⟨key% "unet.output_blocks.2.1.transformer_blocks.3.attn1.to_q.weight", [1280, 1280], .float32, [], false⟩,
  ⟨key% "unet.output_blocks.2.1.transformer_blocks.3.attn1.to_v.weight", [1280, 1280], .float32, [], false⟩,
  ⟨key% "unet.output_blocks.2.1.transformer_blocks.3.attn2.to_k.weight", [1280, 2048], .float32, [], false⟩,
  ⟨key% "unet.output_blocks.2.1.transformer_blocks.3.attn2.to_out.0.bias", [1280], .float32, [], false⟩,
  ⟨key% "unet.output_blocks.2.1.transformer_blocks.3.attn2.to_out.0.weight", [1280, 1280], .float32, [], false⟩,
  ⟨key% "unet.output_blocks.2.1.transformer_blocks.3.attn2.to_q.weight", [1280, 1280], .float32, [], false⟩,
  ⟨key% "unet.output_blocks.2.1.transformer_blocks.3.attn2.to_v.weight", [1280, 2048], .float32, [], false⟩,
  ⟨key% "unet.output_blocks.2.1.transformer_blocks.3.ff.net.0.proj.bias", [10240], .float32, [], false⟩,
  ⟨key% "unet.output_blocks.2.1.transformer_blocks.3.ff.net.0.proj.weight", [10240, 1280], .float32, [], false⟩,
  ⟨key% "unet.output_blocks.2.1.transformer_blocks.3.ff.net.2.bias", [1280], .float32, [], false⟩,
  ⟨key% "unet.output_blocks.2.1.transformer_blocks.3.ff.net.2.weight", [1280, 5120], .float32, [], false⟩,
  ⟨key% "unet.output_blocks.2.1.transformer_blocks.3.norm1.bias", [1280], .float32, [], false⟩,
  ⟨key% "unet.output_blocks.2.1.transformer_blocks.3.norm1.weight", [1280], .float32, [], false⟩,
  ⟨key% "unet.output_blocks.2.1.transformer_blocks.3.norm2.bias", [1280], .float32, [], false⟩,
  ⟨key% "unet.output_blocks.2.1.transformer_blocks.3.norm2.weight", [1280], .float32, [], false⟩,
  ⟨key% "unet.output_blocks.2.1.transformer_blocks.3.norm3.bias", [1280], .float32, [], false⟩,
  ⟨key% "unet.output_blocks.2.1.transformer_blocks.3.norm3.weight", [1280], .float32, [], false⟩,
  ⟨key% "unet.output_blocks.2.1.transformer_blocks.4.attn1.to_k.weight", [1280, 1280], .float32, [], false⟩,
  ⟨key% "unet.output_blocks.2.1.transformer_blocks.4.attn1.to_out.0.bias", [1280], .float32, [], false⟩,
  ⟨key% "unet.output_blocks.2.1.transformer_blocks.4.attn1.to_out.0.weight", [1280, 1280], .float32, [], false⟩,
  ⟨key% "unet.output_blocks.2.1.transformer_blocks.4.attn1.to_q.weight", [1280, 1280], .float32, [], false⟩,
  ⟨key% "unet.output_blocks.2.1.transformer_blocks.4.attn1.to_v.weight", [1280, 1280], .float32, [], false⟩,
  ⟨key% "unet.output_blocks.2.1.transformer_blocks.4.attn2.to_k.weight", [1280, 2048], .float32, [], false⟩,
  ⟨key% "unet.output_blocks.2.1.transformer_blocks.4.attn2.to_out.0.bias", [1280], .float32, [], false⟩,
  ⟨key% "unet.output_blocks.2.1.transformer_blocks.4.attn2.to_out.0.weight", [1280, 1280], .float32, [], false⟩,
  ⟨key% "unet.output_blocks.2.1.transformer_blocks.4.attn2.to_q.weight", [1280, 1280], .float32, [], false⟩,
  ⟨key% "unet.output_blocks.2.1.transformer_blocks.4.attn2.to_v.weight", [1280, 2048], .float32, [], false⟩,
  ⟨key% "unet.output_blocks.2.1.transformer_blocks.4.ff.net.0.proj.bias", [10240], .float32, [], false⟩,
  ⟨key% "unet.output_blocks.2.1.transformer_blocks.4.ff.net.0.proj.weight", [10240, 1280], .float32, [], false⟩,
  ⟨key% "unet.output_blocks.2.1.transformer_blocks.4.ff.net.2.bias", [1280], .float32, [], false⟩,
  ⟨key% "unet.output_blocks.2.1.transformer_blocks.4.ff.net.2.weight", [1280, 5120], .float32, [], false⟩,
  ⟨key% "unet.output_blocks.2.1.transformer_blocks.4.norm1.bias", [1280], .float32, [], false⟩,
  ⟨key% "unet.output_blocks.2.1.transformer_blocks.4.norm1.weight", [1280], .float32, [], false⟩,
  ⟨key% "unet.output_blocks.2.1.transformer_blocks.4.norm2.bias", [1280], .float32, [], false⟩,
  ⟨key% "unet.output_blocks.2.1.transformer_blocks.4.norm2.weight", [1280], .float32, [], false⟩,
  ⟨key% "unet.output_blocks.2.1.transformer_blocks.4.norm3.bias", [1280], .float32, [], false⟩,
  ⟨key% "unet.output_blocks.2.1.transformer_blocks.4.norm3.weight", [1280], .float32, [], false⟩,
  ⟨key% "unet.output_blocks.2.1.transformer_blocks.5.attn1.to_k.weight", [1280, 1280], .float32, [], false⟩,
  ⟨key% "unet.output_blocks.2.1.transformer_blocks.5.attn1.to_out.0.bias", [1280], .float32, [], false⟩,
  ⟨key% "unet.output_blocks.2.1.transformer_blocks.5.attn1.to_out.0.weight", [1280, 1280], .float32, [], false⟩,
  ⟨key% "unet.output_blocks.2.1.transformer_blocks.5.attn1.to_q.weight", [1280, 1280], .float32, [], false⟩,
  ⟨key% "unet.output_blocks.2.1.transformer_blocks.5.attn1.to_v.weight", [1280, 1280], .float32, [], false⟩,
  ⟨key% "unet.output_blocks.2.1.transformer_blocks.5.attn2.to_k.weight", [1280, 2048], .float32, [], false⟩,
  ⟨key% "unet.output_blocks.2.1.transformer_blocks.5.attn2.to_out.0.bias", [1280], .float32, [], false⟩,
  ⟨key% "unet.output_blocks.2.1.transformer_blocks.5.attn2.to_out.0.weight", [1280, 1280], .float32, [], false⟩,
  ⟨key% "unet.output_blocks.2.1.transformer_blocks.5.attn2.to_q.weight", [1280, 1280], .float32, [], false⟩,
  ⟨key% "unet.output_blocks.2.1.transformer_blocks.5.attn2.to_v.weight", [1280, 2048], .float32, [], false⟩,
  ⟨key% "unet.output_blocks.2.1.transformer_blocks.5.ff.net.0.proj.bias", [10240], .float32, [], false⟩,
  ⟨key% "unet.output_blocks.2.1.transformer_blocks.5.ff.net.0.proj.weight", [10240, 1280], .float32, [], false⟩,
  ⟨key% "unet.output_blocks.2.1.transformer_blocks.5.ff.net.2.bias", [1280], .float32, [], false⟩,
  ⟨key% "unet.output_blocks.2.1.transformer_blocks.5.ff.net.2.weight", [1280, 5120], .float32, [], false⟩,
  ⟨key% "unet.output_blocks.2.1.transformer_blocks.5.norm1.bias", [1280], .float32, [], false⟩,
  ⟨key% "unet.output_blocks.2.1.transformer_blocks.5.norm1.weight", [1280], .float32, [], false⟩,
  ⟨key% "unet.output_blocks.2.1.transformer_blocks.5.norm2.bias", [1280], .float32, [], false⟩,
  ⟨key% "unet.output_blocks.2.1.transformer_blocks.5.norm2.weight", [1280], .float32, [], false⟩,
  ⟨key% "unet.output_blocks.2.1.transformer_blocks.5.norm3.bias", [1280], .float32, [], false⟩,
  ⟨key% "unet.output_blocks.2.1.transformer_blocks.5.norm3.weight", [1280], .float32, [], false⟩,
  ⟨key% "unet.output_blocks.2.1.transformer_blocks.6.attn1.to_k.weight", [1280, 1280], .float32, [], false⟩,
  ⟨key% "unet.output_blocks.2.1.transformer_blocks.6.attn1.to_out.0.bias", [1280], .float32, [], false⟩,
  ⟨key% "unet.output_blocks.2.1.transformer_blocks.6.attn1.to_out.0.weight", [1280, 1280], .float32, [], false⟩,
  ⟨key% "unet.output_blocks.2.1.transformer_blocks.6.attn1.to_q.weight", [1280, 1280], .float32, [], false⟩,
  ⟨key% "unet.output_blocks.2.1.transformer_blocks.6.attn1.to_v.weight", [1280, 1280], .float32, [], false⟩,
  ⟨key% "unet.output_blocks.2.1.transformer_blocks.6.attn2.to_k.weight", [1280, 2048], .float32, [], false⟩,
  ⟨key% "unet.output_blocks.2.1.transformer_blocks.6.attn2.to_out.0.bias", [1280], .float32, [], false⟩,
  ⟨key% "unet.output_blocks.2.1.transformer_blocks.6.attn2.to_out.0.weight", [1280, 1280], .float32, [], false⟩,
  ⟨key% "unet.output_blocks.2.1.transformer_blocks.6.attn2.to_q.weight", [1280, 1280], .float32, [], false⟩,
  ⟨key% "unet.output_blocks.2.1.transformer_blocks.6.attn2.to_v.weight", [1280, 2048], .float32, [], false⟩,
  ⟨key% "unet.output_blocks.2.1.transformer_blocks.6.ff.net.0.proj.bias", [10240], .float32, [], false⟩,
  ⟨key% "unet.output_blocks.2.1.transformer_blocks.6.ff.net.0.proj.weight", [10240, 1280], .float32, [], false⟩,
  ⟨key% "unet.output_blocks.2.1.transformer_blocks.6.ff.net.2.bias", [1280], .float32, [], false⟩,
  ⟨key% "unet.output_blocks.2.1.transformer_blocks.6.ff.net.2.weight", [1280, 5120], .float32, [], false⟩,
  ⟨key% "unet.output_blocks.2.1.transformer_blocks.6.norm1.bias", [1280], .float32, [], false⟩,
  ⟨key% "unet.output_blocks.2.1.transformer_blocks.6.norm1.weight", [1280], .float32, [], false⟩,
  ⟨key% "unet.output_blocks.2.1.transformer_blocks.6.norm2.bias", [1280], .float32, [], false⟩,
  ⟨key% "unet.output_blocks.2.1.transformer_blocks.6.norm2.weight", [1280], .float32, [], false⟩]
noncomputable def diffuser14 : List Entry := [
  ⟨key% "unet.output_blocks.2.1.transformer_blocks.6.norm3.bias", [1280], .float32, [], false⟩,
  ⟨key% "unet.output_blocks.2.1.transformer_blocks.6.norm3.weight", [1280], .float32, [], false⟩,
  ⟨key% "unet.output_blocks.2.1.transformer_blocks.7.attn1.to_k.weight", [1280, 1280], .float32, [], false⟩,
  ⟨key% "unet.output_blocks.2.1.transformer_blocks.7.attn1.to_out.0.bias", [1280], .float32, [], false⟩,
  ⟨key% "unet.output_blocks.2.1.transformer_blocks.7.attn1.to_out.0.weight", [1280, 1280], .float32, [], false⟩,
  ⟨key% "unet.output_blocks.2.1.transformer_blocks.7.attn1.to_q.weight", [1280, 1280], .float32, [], false⟩,
  ⟨key% "unet.output_blocks.2.1.transformer_blocks.7.attn1.to_v.weight", [1280, 1280], .float32, [], false⟩,
  ⟨key% "unet.output_blocks.2.1.transformer_blocks.7.attn2.to_k.weight", [1280, 2048], .float32, [], false⟩,
  ⟨key% "unet.output_blocks.2.1.transformer_blocks.7.attn2.to_out.0.bias", [1280], .float32, [], false⟩,
  ⟨key% "unet.output_blocks.2.1.transformer_blocks.7.attn2.to_out.0.weight", [1280, 1280], .float32, [], false⟩,
  ⟨key% "unet.output_blocks.2.1.transformer_blocks.7.attn2.to_q.weight", [1280, 1280], .float32, [], false⟩,
  ⟨key% "unet.output_blocks.2.1.transformer_blocks.7.attn2.to_v.weight", [1280, 2048], .float32, [], false⟩,
  ⟨key% "unet.output_blocks.2.1.transformer_blocks.7.ff.net.0.proj.bias", [10240], .float32, [], false⟩,
  ⟨key% "unet.output_blocks.2.1.transformer_blocks.7.ff.net.0.proj.weight", [10240, 1280], .float32, [], false⟩,
  ⟨key% "unet.output_blocks.2.1.transformer_blocks.7.ff.net.2.bias", [1280], .float32, [], false⟩,
  ⟨key% "unet.output_blocks.2.1.transformer_blocks.7.ff.net.2.weight", [1280, 5120], .float32, [], false⟩,
  ⟨key% "unet.output_blocks.2.1.transformer_blocks.7.norm1.bias", [1280], .float32, [], false⟩,
  ⟨key% "unet.output_blocks.2.1.transformer_blocks.7.norm1.weight", [1280], .float32, [], false⟩,
  ⟨key% "unet.output_blocks.2.1.transformer_blocks.7.norm2.bias", [1280], .float32, [], false⟩,
  ⟨key% "unet.output_blocks.2.1.transformer_blocks.7.norm2.weight", [1280], .float32, [], false⟩,
  ⟨key% "unet.output_blocks.2.1.transformer_blocks.7.norm3.bias", [1280], .float32, [], false⟩,
  ⟨key% "unet.output_blocks.2.1.transformer_blocks.7.norm3.weight", [1280], .float32, [], false⟩,
  ⟨key% "unet.output_blocks.2.1.transformer_blocks.8.attn1.to_k.weight", [1280, 1280], .float32, [], false⟩,
  ⟨key% "unet.output_blocks.2.1.transformer_blocks.8.attn1.to_out.0.bias", [1280], .float32, [], false⟩,
  ⟨key% "unet.output_blocks.2.1.transformer_blocks.8.attn1.to_out.0.weight", [1280, 1280], .float32, [], false⟩,
  ⟨key% "unet.output_blocks.2.1.transformer_blocks.8.attn1.to_q.weight", [1280, 1280], .float32, [], false⟩,
  ⟨key% "unet.output_blocks.2.1.transformer_blocks.8.attn1.to_v.weight", [1280, 1280], .float32, [], false⟩,
  ⟨key% "unet.output_blocks.2.1.transformer_blocks.8.attn2.to_k.weight", [1280, 2048], .float32, [], false⟩,
  ⟨key% "unet.output_blocks.2.1.transformer_blocks.8.attn2.to_out.0.bias", [1280], .float32, [], false⟩,
  ⟨key% "unet.output_blocks.2.1.transformer_blocks.8.attn2.to_out.0.weight", [1280, 1280], .float32, [], false⟩,
  ⟨key% "unet.output_blocks.2.1.transformer_blocks.8.attn2.to_q.weight", [1280, 1280], .float32, [], false⟩,
  ⟨key% "unet.output_blocks.2.1.transformer_blocks.8.attn2.to_v.weight", [1280, 2048], .float32, [], false⟩,
  ⟨key% "unet.output_blocks.2.1.transformer_blocks.8.ff.net.0.proj.bias", [10240], .float32, [], false⟩,
  ⟨key% "unet.output_blocks.2.1.transformer_blocks.8.ff.net.0.proj.weight", [10240, 1280], .float32, [], false⟩,
  ⟨key% "unet.output_blocks.2.1.transformer_blocks.8.ff.net.2.bias", [1280], .float32, [], false⟩,
  ⟨key% "unet.output_blocks.2.1.transformer_blocks.8.ff.net.2.weight", [1280, 5120], .float32, [], false⟩,
  ⟨key% "unet.output_blocks.2.1.transformer_blocks.8.norm1.bias", [1280], .float32, [], false⟩,
  ⟨key% "unet.output_blocks.2.1.transformer_blocks.8.norm1.weight", [1280], .float32, [], false⟩,
  ⟨key% "unet.output_blocks.2.1.transformer_blocks.8.norm2.bias", [1280], .float32, [], false⟩,
  ⟨key% "unet.output_blocks.2.1.transformer_blocks.8.norm2.weight", [1280], .float32, [], false⟩,
  ⟨key% "unet.output_blocks.2.1.transformer_blocks.8.norm3.bias", [1280], .float32, [], false⟩,
  ⟨key% "unet.output_blocks.2.1.transformer_blocks.8.norm3.weight", [1280], .float32, [], false⟩,
  ⟨key% "unet.output_blocks.2.1.transformer_blocks.9.attn1.to_k.weight", [1280, 1280], .float32, [], false⟩,
  ⟨key% "unet.output_blocks.2.1.transformer_blocks.9.attn1.to_out.0.bias", [1280], .float32, [], false⟩,
  ⟨key% "unet.output_blocks.2.1.transformer_blocks.9.attn1.to_out.0.weight", [1280, 1280], .float32, [], false⟩,
  ⟨key% "unet.output_blocks.2.1.transformer_blocks.9.attn1.to_q.weight", [1280, 1280], .float32, [], false⟩,
  ⟨key% "unet.output_blocks.2.1.transformer_blocks.9.attn1.to_v.weight", [1280, 1280], .float32, [], false⟩,
  ⟨key% "unet.output_blocks.2.1.transformer_blocks.9.attn2.to_k.weight", [1280, 2048], .float32, [], false⟩,
  ⟨key% "unet.output_blocks.2.1.transformer_blocks.9.attn2.to_out.0.bias", [1280], .float32, [], false⟩,
  ⟨key% "unet.output_blocks.2.1.transformer_blocks.9.attn2.to_out.0.weight", [1280, 1280], .float32, [], false⟩,
  ⟨key% "unet.output_blocks.2.1.transformer_blocks.9.attn2.to_q.weight", [1280, 1280], .float32, [], false⟩,
  ⟨key% "unet.output_blocks.2.1.transformer_blocks.9.attn2.to_v.weight", [1280, 2048], .float32, [], false⟩,
  ⟨key% "unet.output_blocks.2.1.transformer_blocks.9.ff.net.0.proj.bias", [10240], .float32, [], false⟩,
  ⟨key% "unet.output_blocks.2.1.transformer_blocks.9.ff.net.0.proj.weight", [10240, 1280], .float32, [], false⟩,
  ⟨key% "unet.output_blocks.2.1.transformer_blocks.9.ff.net.2.bias", [1280], .float32, [], false⟩,
  ⟨key% "unet.output_blocks.2.1.transformer_blocks.9.ff.net.2.weight", [1280, 5120], .float32, [], false⟩,
  ⟨key% "unet.output_blocks.2.1.transformer_blocks.9.norm1.bias", [1280], .float32, [], false⟩,
  ⟨key% "unet.output_blocks.2.1.transformer_blocks.9.norm1.weight", [1280], .float32, [], false⟩,
  ⟨key% "unet.output_blocks.2.1.transformer_blocks.9.norm2.bias", [1280], .float32, [], false⟩,
  ⟨key% "unet.output_blocks.2.1.transformer_blocks.9.norm2.weight", [1280], .float32, [], false⟩,
  ⟨key% "unet.output_blocks.2.1.transformer_blocks.9.norm3.bias", [1280], .float32, [], false⟩,
  ⟨key% "unet.output_blocks.2.1.transformer_blocks.9.norm3.weight", [1280], .float32, [], false⟩,
  ⟨key% "unet.output_blocks.2.2.conv.bias", [1280], .float32, [], false⟩,
  ⟨key% "unet.output_blocks.2.2.conv.weight", [1280, 1280, 3, 3], .float32, [], false⟩,
  ⟨key% "unet.output_blocks.3.0.emb_layers.1.bias", [640], .float32, [], false⟩,
  ⟨key% "unet.output_blocks.3.0.emb_layers.1.weight", [640, 1280], .float32, [], false⟩,
  ⟨key% "unet.output_blocks.3.0.in_layers.0.bias", [1920], .float32, [], false⟩,
  ⟨key% "unet.output_blocks.3.0.in_layers.0.weight", [1920], .float32, [], false⟩,
  ⟨key% "unet.output_blocks.3.0.in_layers.2.bias", [640], .float32, [], false⟩,
  ⟨key% "unet.output_blocks.3.0.in_layers.2.weight", [640, 1920, 3, 3], .float32, [], false⟩,
  ⟨key% "unet.output_blocks.3.0.out_layers.0.bias", [640], .float32, [], false⟩,
  ⟨key% "unet.output_blocks.3.0.out_layers.0.weight", [640], .float32, [], false⟩,
  ⟨key% "unet.output_blocks.3.0.out_layers.3.bias", [640], .float32, [], false⟩,
  ⟨key% "unet.output_blocks.3.0.out_layers.3.weight", [640, 640, 3, 3], .float32, [], false⟩,
  ⟨key% "unet.output_blocks.3.0.skip_connection.bias", [640], .float32, [], false⟩,
  ⟨key% "unet.output_blocks.3.0.skip_connection.weight", [640, 1920, 1, 1], .float32, [], false⟩,
  ⟨key% "unet.output_blocks.3.1.norm.bias", [640], .float32, [], false⟩,
  ⟨key% "unet.output_blocks.3.1.norm.weight", [640], .float32, [], false⟩,
  ⟨key% "unet.output_blocks.3.1.proj_in.bias", [640], .float32, [], false⟩,
  ⟨key% "unet.output_blocks.3.1.proj_in.weight", [640, 640], .float32, [], false⟩,
  ⟨key% "unet.output_blocks.3.1.proj_out.bias", [640], .float32, [], false⟩,
  ⟨key% "unet.output_blocks.3.1.proj_out.weight", [640, 640], .float32, [], false⟩,
  ⟨key% "unet.output_blocks.3.1.transformer_blocks.0.attn1.to_k.weight", [640, 640], .float32, [], false⟩,
  ⟨key% "unet.output_blocks.3.1.transformer_blocks.0.attn1.to_out.0.bias", [640], .float32, [], false⟩,
  ⟨key% "unet.output_blocks.3.1.transformer_blocks.0.attn1.to_out.0.weight", [640, 640], .float32, [], false⟩,
  ⟨key% "unet.output_blocks.3.1.transformer_blocks.0.attn1.to_q.weight", [640, 640], .float32, [], false⟩,
  ⟨key% "unet.output_blocks.3.1.transformer_blocks.0.attn1.to_v.weight", [640, 640], .float32, [], false⟩,
  ⟨key% "unet.output_blocks.3.1.transformer_blocks.0.attn2.to_k.weight", [640, 2048], .float32, [], false⟩,
  ⟨key% "unet.output_blocks.3.1.transformer_blocks.0.attn2.to_out.0.bias", [640], .float32, [], false⟩,
  ⟨key% "unet.output_blocks.3.1.transformer_blocks.0.attn2.to_out.0.weight", [640, 640], .float32, [], false⟩,
  ⟨key% "unet.output_blocks.3.1.transformer_blocks.0.attn2.to_q.weight", [640, 640], .float32, [], false⟩,
  ⟨key% "unet.output_blocks.3.1.transformer_blocks.0.attn2.to_v.weight", [640, 2048], .float32, [], false⟩,
  ⟨key% "unet.output_blocks.3.1.transformer_blocks.0.ff.net.0.proj.bias", [5120], .float32, [], false⟩,
  ⟨key% "unet.output_blocks.3.1.transformer_blocks.0.ff.net.0.proj.weight", [5120, 640], .float32, [], false⟩,
  ⟨key% "unet.output_blocks.3.1.transformer_blocks.0.ff.net.2.bias", [640], .float32, [], false⟩,
  ⟨key% "unet.output_blocks.3.1.transformer_blocks.0.ff.net.2.weight", [640, 2560], .float32, [], false⟩,
  ⟨key% "unet.output_blocks.3.1.transformer_blocks.0.norm1.bias", [640], .float32, [], false⟩,
  ⟨key% "unet.output_blocks.3.1.transformer_blocks.0.norm1.weight", [640], .float32, [], false⟩,
  ⟨key% "unet.output_blocks.3.1.transformer_blocks.0.norm2.bias", [640], .float32, [], false⟩,
  ⟨key% "unet.output_blocks.3.1.transformer_blocks.0.norm2.weight", [640], .float32, [], false⟩]
noncomputable def diffuser15 : List Entry := [
  ⟨key% "unet.output_blocks.3.1.transformer_blocks.0.norm3.bias", [640], .float32, [], false⟩,
  ⟨key% "unet.output_blocks.3.1.transformer_blocks.0.norm3.weight", [640], .float32, [], false⟩,
  ⟨key% "unet.output_blocks.3.1.transformer_blocks.1.attn1.to_k.weight", [640, 640], .float32, [], false⟩,
  ⟨key% "unet.output_blocks.3.1.transformer_blocks.1.attn1.to_out.0.bias", [640], .float32, [], false⟩,
  ⟨key% "unet.output_blocks.3.1.transformer_blocks.1.attn1.to_out.0.weight", [640, 640], .float32, [], false⟩,
  ⟨key% "unet.output_blocks.3.1.transformer_blocks.1.attn1.to_q.weight", [640, 640], .float32, [], false⟩,
  ⟨key% "unet.output_blocks.3.1.transformer_blocks.1.attn1.to_v.weight", [640, 640], .float32, [], false⟩,
  ⟨key% "unet.output_blocks.3.1.transformer_blocks.1.attn2.to_k.weight", [640, 2048], .float32, [], false⟩,
  ⟨key% "unet.output_blocks.3.1.transformer_blocks.1.attn2.to_out.0.bias", [640], .float32, [], false⟩,
  ⟨key% "unet.output_blocks.3.1.transformer_blocks.1.attn2.to_out.0.weight", [640, 640], .float32, [], false⟩,
  ⟨key% "unet.output_blocks.3.1.transformer_blocks.1.attn2.to_q.weight", [640, 640], .float32, [], false⟩,
  ⟨key% "unet.output_blocks.3.1.transformer_blocks.1.attn2.to_v.weight", [640, 2048], .float32, [], false⟩,
  ⟨key% "unet.output_blocks.3.1.transformer_blocks.1.ff.net.0.proj.bias", [5120], .float32, [], false⟩,
  ⟨key% "unet.output_blocks.3.1.transformer_blocks.1.ff.net.0.proj.weight", [5120, 640], .float32, [], false⟩,
  ⟨key% "unet.output_blocks.3.1.transformer_blocks.1.ff.net.2.bias", [640], .float32, [], false⟩,
  ⟨key% "unet.output_blocks.3.1.transformer_blocks.1.ff.net.2.weight", [640, 2560], .float32, [], false⟩,
  ⟨key% "unet.output_blocks.3.1.transformer_blocks.1.norm1.bias", [640], .float32, [], false⟩,
  ⟨key% "unet.output_blocks.3.1.transformer_blocks.1.norm1.weight", [640], .float32, [], false⟩,
  ⟨key% "unet.output_blocks.3.1.transformer_blocks.1.norm2.bias", [640], .float32, [], false⟩,
  ⟨key% "unet.output_blocks.3.1.transformer_blocks.1.norm2.weight", [640], .float32, [], false⟩,
  ⟨key% "unet.output_blocks.3.1.transformer_blocks.1.norm3.bias", [640], .float32, [], false⟩,
  ⟨key% "unet.output_blocks.3.1.transformer_blocks.1.norm3.weight", [640], .float32, [], false⟩,
  ⟨key% "unet.output_blocks.4.0.emb_layers.1.bias", [640], .float32, [], false⟩,
  ⟨key% "unet.output_blocks.4.0.emb_layers.1.weight", [640, 1280], .float32, [], false⟩,
  ⟨key% "unet.output_blocks.4.0.in_layers.0.bias", [1280], .float32, [], false⟩,
  ⟨key% "unet.output_blocks.4.0.in_layers.0.weight", [1280], .float32, [], false⟩,
  ⟨key% "unet.output_blocks.4.0.in_layers.2.bias", [640], .float32, [], false⟩,
  ⟨key% "unet.output_blocks.4.0.in_layers.2.weight", [640, 1280, 3, 3], .float32, [], false⟩,
  ⟨key% "unet.output_blocks.4.0.out_layers.0.bias", [640], .float32, [], false⟩,
  ⟨key% "unet.output_blocks.4.0.out_layers.0.weight", [640], .float32, [], false⟩,
  ⟨key% "unet.output_blocks.4.0.out_layers.3.bias", [640], .float32, [], false⟩,
  ⟨key% "unet.output_blocks.4.0.out_layers.3.weight", [640, 640, 3, 3], .float32, [], false⟩,
  ⟨key% "unet.output_blocks.4.0.skip_connection.bias", [640], .float32, [], false⟩,
  ⟨key% "unet.output_blocks.4.0.skip_connection.weight", [640, 1280, 1, 1], .float32, [], false⟩,
  ⟨key% "unet.output_blocks.4.1.norm.bias", [640], .float32, [], false⟩,
  ⟨key% "unet.output_blocks.4.1.norm.weight", [640], .float32, [], false⟩,
  ⟨key% "unet.output_blocks.4.1.proj_in.bias", [640], .float32, [], false⟩,
  ⟨key% "unet.output_blocks.4.1.proj_in.weight", [640, 640], .float32, [], false⟩,
  ⟨key% "unet.output_blocks.4.1.proj_out.bias", [640], .float32, [], false⟩,
  ⟨key% "unet.output_blocks.4.1.proj_out.weight", [640, 640], .float32, [], false⟩,
  ⟨key% "unet.output_blocks.4.1.transformer_blocks.0.attn1.to_k.weight", [640, 640], .float32, [], false⟩,
  ⟨key% "unet.output_blocks.4.1.transformer_blocks.0.attn1.to_out.0.bias", [640], .float32, [], false⟩,
  ⟨key% "unet.output_blocks.4.1.transformer_blocks.0.attn1.to_out.0.weight", [640, 640], .float32, [], false⟩,
  ⟨key% "unet.output_blocks.4.1.transformer_blocks.0.attn1.to_q.weight", [640, 640], .float32, [], false⟩,
  ⟨key% "unet.output_blocks.4.1.transformer_blocks.0.attn1.to_v.weight", [640, 640], .float32, [], false⟩,
  ⟨key% "unet.output_blocks.4.1.transformer_blocks.0.attn2.to_k.weight", [640, 2048], .float32, [], false⟩,
  ⟨key% "unet.output_blocks.4.1.transformer_blocks.0.attn2.to_out.0.bias", [640], .float32, [], false⟩,
  ⟨key% "unet.output_blocks.4.1.transformer_blocks.0.attn2.to_out.0.weight", [640, 640], .float32, [], false⟩,
  ⟨key% "unet.output_blocks.4.1.transformer_blocks.0.attn2.to_q.weight", [640, 640], .float32, [], false⟩,
  ⟨key% "unet.output_blocks.4.1.transformer_blocks.0.attn2.to_v.weight", [640, 2048], .float32, [], false⟩,
  ⟨key% "unet.output_blocks.4.1.transformer_blocks.0.ff.net.0.proj.bias", [5120], .float32, [], false⟩,
  ⟨key% "unet.output_blocks.4.1.transformer_blocks.0.ff.net.0.proj.weight", [5120, 640], .float32, [], false⟩,
  ⟨key% "unet.output_blocks.4.1.transformer_blocks.0.ff.net.2.bias", [640], .float32, [], false⟩,
  ⟨key% "unet.output_blocks.4.1.transformer_blocks.0.ff.net.2.weight", [640, 2560], .float32, [], false⟩,
  ⟨key% "unet.output_blocks.4.1.transformer_blocks.0.norm1.bias", [640], .float32, [], false⟩,
  ⟨key% "unet.output_blocks.4.1.transformer_blocks.0.norm1.weight", [640], .float32, [], false⟩,
  ⟨key% "unet.output_blocks.4.1.transformer_blocks.0.norm2.bias", [640], .float32, [], false⟩,
  ⟨key% "unet.output_blocks.4.1.transformer_blocks.0.norm2.weight", [640], .float32, [], false⟩,
  ⟨key% "unet.output_blocks.4.1.transformer_blocks.0.norm3.bias", [640], .float32, [], false⟩,
  ⟨key% "unet.output_blocks.4.1.transformer_blocks.0.norm3.weight", [640], .float32, [], false⟩,
  ⟨key% "unet.output_blocks.4.1.transformer_blocks.1.attn1.to_k.weight", [640, 640], .float32, [], false⟩,
  ⟨key% "unet.output_blocks.4.1.transformer_blocks.1.attn1.to_out.0.bias", [640], .float32, [], false⟩,
  ⟨key% "unet.output_blocks.4.1.transformer_blocks.1.attn1.to_out.0.weight", [640, 640], .float32, [], false⟩,
  ⟨key% "unet.output_blocks.4.1.transformer_blocks.1.attn1.to_q.weight", [640, 640], .float32, [], false⟩,
  ⟨key% "unet.output_blocks.4.1.transformer_blocks.1.attn1.to_v.weight", [640, 640], .float32, [], false⟩,
  ⟨key% "unet.output_blocks.4.1.transformer_blocks.1.attn2.to_k.weight", [640, 2048], .float32, [], false⟩,
  ⟨key% "unet.output_blocks.4.1.transformer_blocks.1.attn2.to_out.0.bias", [640], .float32, [], false⟩,
  ⟨key% "unet.output_blocks.4.1.transformer_blocks.1.attn2.to_out.0.weight", [640, 640], .float32, [], false⟩,
  ⟨key% "unet.output_blocks.4.1.transformer_blocks.1.attn2.to_q.weight", [640, 640], .float32, [], false⟩,
  ⟨key% "unet.output_blocks.4.1.transformer_blocks.1.attn2.to_v.weight", [640, 2048], .float32, [], false⟩,
  ⟨key% "unet.output_blocks.4.1.transformer_blocks.1.ff.net.0.proj.bias", [5120], .float32, [], false⟩,
  ⟨key% "unet.output_blocks.4.1.transformer_blocks.1.ff.net.0.proj.weight", [5120, 640], .float32, [], false⟩,
  ⟨key% "unet.output_blocks.4.1.transformer_blocks.1.ff.net.2.bias", [640], .float32, [], false⟩,
  ⟨key% "unet.output_blocks.4.1.transformer_blocks.1.ff.net.2.weight", [640, 2560], .float32, [], false⟩,
  ⟨key% "unet.output_blocks.4.1.transformer_blocks.1.norm1.bias", [640], .float32, [], false⟩,
  ⟨key% "unet.output_blocks.4.1.transformer_blocks.1.norm1.weight", [640], .float32, [], false⟩,
  ⟨key% "unet.output_blocks.4.1.transformer_blocks.1.norm2.bias", [640], .float32, [], false⟩,
  ⟨key% "unet.output_blocks.4.1.transformer_blocks.1.norm2.weight", [640], .float32, [], false⟩,
  ⟨key% "unet.output_blocks.4.1.transformer_blocks.1.norm3.bias", [640], .float32, [], false⟩,
  ⟨key% "unet.output_blocks.4.1.transformer_blocks.1.norm3.weight", [640], .float32, [], false⟩,
  ⟨key% "unet.output_blocks.5.0.emb_layers.1.bias", [640], .float32, [], false⟩,
  ⟨key% "unet.output_blocks.5.0.emb_layers.1.weight", [640, 1280], .float32, [], false⟩,
  ⟨key% "unet.output_blocks.5.0.in_layers.0.bias", [960], .float32, [], false⟩,
  ⟨key% "unet.output_blocks.5.0.in_layers.0.weight", [960], .float32, [], false⟩,
  ⟨key% "unet.output_blocks.5.0.in_layers.2.bias", [640], .float32, [], false⟩,
  ⟨key% "unet.output_blocks.5.0.in_layers.2.weight", [640, 960, 3, 3], .float32, [], false⟩,
  ⟨key% "unet.output_blocks.5.0.out_layers.0.bias", [640], .float32, [], false⟩,
  ⟨key% "unet.output_blocks.5.0.out_layers.0.weight", [640], .float32, [], false⟩,
  ⟨key% "unet.output_blocks.5.0.out_layers.3.bias", [640], .float32, [], false⟩,
  ⟨key% "unet.output_blocks.5.0.out_layers.3.weight", [640, 640, 3, 3], .float32, [], false⟩,
  ⟨key% "unet.output_blocks.5.0.skip_connection.bias", [640], .float32, [], false⟩,
  ⟨key% "unet.output_blocks.5.0.skip_connection.weight", [640, 960, 1, 1], .float32, [], false⟩,
  ⟨key% "unet.output_blocks.5.1.norm.bias", [640], .float32, [], false⟩,
  ⟨key% "unet.output_blocks.5.1.norm.weight", [640], .float32, [], false⟩,
  ⟨key% "unet.output_blocks.5.1.proj_in.bias", [640], .float32, [], false⟩,
  ⟨key% "unet.output_blocks.5.1.proj_in.weight", [640, 640], .float32, [], false⟩,
  ⟨key% "unet.output_blocks.5.1.proj_out.bias", [640], .float32, [], false⟩,
  ⟨key% "unet.output_blocks.5.1.proj_out.weight", [640, 640], .float32, [], false⟩,
  ⟨key% "unet.output_blocks.5.1.transformer_blocks.0.attn1.to_k.weight", [640, 640], .float32, [], false⟩,
  ⟨key% "unet.output_blocks.5.1.transformer_blocks.0.attn1.to_out.0.bias", [640], .float32, [], false⟩]
noncomputable def diffuser16 : List Entry := [
  ⟨key% "unet.output_blocks.5.1.transformer_blocks.0.attn1.to_out.0.weight", [640, 640], .float32, [], false⟩,
  ⟨key% "unet.output_blocks.5.1.transformer_blocks.0.attn1.to_q.weight", [640, 640], .float32, [], false⟩,
  ⟨key% "unet.output_blocks.5.1.transformer_blocks.0.attn1.to_v.weight", [640, 640], .float32, [], false⟩,
  ⟨key% "unet.output_blocks.5.1.transformer_blocks.0.attn2.to_k.weight", [640, 2048], .float32, [], false⟩,
  ⟨key% "unet.output_blocks.5.1.transformer_blocks.0.attn2.to_out.0.bias", [640], .float32, [], false⟩,
  ⟨key% "unet.output_blocks.5.1.transformer_blocks.0.attn2.to_out.0.weight", [640, 640], .float32, [], false⟩,
  ⟨key% "unet.output_blocks.5.1.transformer_blocks.0.attn2.to_q.weight", [640, 640], .float32, [], false⟩,
  ⟨key% "unet.output_blocks.5.1.transformer_blocks.0.attn2.to_v.weight", [640, 2048], .float32, [], false⟩,
  ⟨key% "unet.output_blocks.5.1.transformer_blocks.0.ff.net.0.proj.bias", [5120], .float32, [], false⟩,
  ⟨key% "unet.output_blocks.5.1.transformer_blocks.0.ff.net.0.proj.weight", [5120, 640], .float32, [], false⟩,
  ⟨key% "unet.output_blocks.5.1.transformer_blocks.0.ff.net.2.bias", [640], .float32, [], false⟩,
  ⟨key% "unet.output_blocks.5.1.transformer_blocks.0.ff.net.2.weight", [640, 2560], .float32, [], false⟩,
  ⟨key% "unet.output_blocks.5.1.transformer_blocks.0.norm1.bias", [640], .float32, [], false⟩,
  ⟨key% "unet.output_blocks.5.1.transformer_blocks.0.norm1.weight", [640], .float32, [], false⟩,
  ⟨key% "unet.output_blocks.5.1.transformer_blocks.0.norm2.bias", [640], .float32, [], false⟩,
  ⟨key% "unet.output_blocks.5.1.transformer_blocks.0.norm2.weight", [640], .float32, [], false⟩,
  ⟨key% "unet.output_blocks.5.1.transformer_blocks.0.norm3.bias", [640], .float32, [], false⟩,
  ⟨key% "unet.output_blocks.5.1.transformer_blocks.0.norm3.weight", [640], .float32, [], false⟩,
  ⟨key% "unet.output_blocks.5.1.transformer_blocks.1.attn1.to_k.weight", [640, 640], .float32, [], false⟩,
  ⟨key% "unet.output_blocks.5.1.transformer_blocks.1.attn1.to_out.0.bias", [640], .float32, [], false⟩,
  ⟨key% "unet.output_blocks.5.1.transformer_blocks.1.attn1.to_out.0.weight", [640, 640], .float32, [], false⟩,
  ⟨key% "unet.output_blocks.5.1.transformer_blocks.1.attn1.to_q.weight", [640, 640], .float32, [], false⟩,
  ⟨key% "unet.output_blocks.5.1.transformer_blocks.1.attn1.to_v.weight", [640, 640], .float32, [], false⟩,
  ⟨key% "unet.output_blocks.5.1.transformer_blocks.1.attn2.to_k.weight", [640, 2048], .float32, [], false⟩,
  ⟨key% "unet.output_blocks.5.1.transformer_blocks.1.attn2.to_out.0.bias", [640], .float32, [], false⟩,
  ⟨key% "unet.output_blocks.5.1.transformer_blocks.1.attn2.to_out.0.weight", [640, 640], .float32, [], false⟩,
  ⟨key% "unet.output_blocks.5.1.transformer_blocks.1.attn2.to_q.weight", [640, 640], .float32, [], false⟩,
  ⟨key% "unet.output_blocks.5.1.transformer_blocks.1.attn2.to_v.weight", [640, 2048], .float32, [], false⟩,
  ⟨key% "unet.output_blocks.5.1.transformer_blocks.1.ff.net.0.proj.bias", [5120], .float32, [], false⟩,
  ⟨key% "unet.output_blocks.5.1.transformer_blocks.1.ff.net.0.proj.weight", [5120, 640], .float32, [], false⟩,
  ⟨key% "unet.output_blocks.5.1.transformer_blocks.1.ff.net.2.bias", [640], .float32, [], false⟩,
  ⟨key% "unet.output_blocks.5.1.transformer_blocks.1.ff.net.2.weight", [640, 2560], .float32, [], false⟩,
  ⟨key% "unet.output_blocks.5.1.transformer_blocks.1.norm1.bias", [640], .float32, [], false⟩,
  ⟨key% "unet.output_blocks.5.1.transformer_blocks.1.norm1.weight", [640], .float32, [], false⟩,
  ⟨key% "unet.output_blocks.5.1.transformer_blocks.1.norm2.bias", [640], .float32, [], false⟩,
  ⟨key% "unet.output_blocks.5.1.transformer_blocks.1.norm2.weight", [640], .float32, [], false⟩,
  ⟨key% "unet.output_blocks.5.1.transformer_blocks.1.norm3.bias", [640], .float32, [], false⟩,
  ⟨key% "unet.output_blocks.5.1.transformer_blocks.1.norm3.weight", [640], .float32, [], false⟩,
  ⟨key% "unet.output_blocks.5.2.conv.bias", [640], .float32, [], false⟩,
  ⟨key% "unet.output_blocks.5.2.conv.weight", [640, 640, 3, 3], .float32, [], false⟩,
  ⟨key% "unet.output_blocks.6.0.emb_layers.1.bias", [320], .float32, [], false⟩,
  ⟨key% "unet.output_blocks.6.0.emb_layers.1.weight", [320, 1280], .float32, [], false⟩,
  ⟨key% "unet.output_blocks.6.0.in_layers.0.bias", [960], .float32, [], false⟩,
  ⟨key% "unet.output_blocks.6.0.in_layers.0.weight", [960], .float32, [], false⟩,
  ⟨key% "unet.output_blocks.6.0.in_layers.2.bias", [320], .float32, [], false⟩,
  ⟨key% "unet.output_blocks.6.0.in_layers.2.weight", [320, 960, 3, 3], .float32, [], false⟩,
  ⟨key% "unet.output_blocks.6.0.out_layers.0.bias", [320], .float32, [], false⟩,
  ⟨key% "unet.output_blocks.6.0.out_layers.0.weight", [320], .float32, [], false⟩,
  ⟨key% "unet.output_blocks.6.0.out_layers.3.bias", [320], .float32, [], false⟩,
  ⟨key% "unet.output_blocks.6.0.out_layers.3.weight", [320, 320, 3, 3], .float32, [], false⟩,
  ⟨key% "unet.output_blocks.6.0.skip_connection.bias", [320], .float32, [], false⟩,
  ⟨key% "unet.output_blocks.6.0.skip_connection.weight", [320, 960, 1, 1], .float32, [], false⟩,
  ⟨key% "unet.output_blocks.7.0.emb_layers.1.bias", [320], .float32, [], false⟩,
  ⟨key% "unet.output_blocks.7.0.emb_layers.1.weight", [320, 1280], .float32, [], false⟩,
  ⟨key% "unet.output_blocks.7.0.in_layers.0.bias", [640], .float32, [], false⟩,
  ⟨key% "unet.output_blocks.7.0.in_layers.0.weight", [640], .float32, [], false⟩,
  ⟨key% "unet.output_blocks.7.0.in_layers.2.bias", [320], .float32, [], false⟩,
  ⟨key% "unet.output_blocks.7.0.in_layers.2.weight", [320, 640, 3, 3], .float32, [], false⟩,
  ⟨key% "unet.output_blocks.7.0.out_layers.0.bias", [320], .float32, [], false⟩,
  ⟨key% "unet.output_blocks.7.0.out_layers.0.weight", [320], .float32, [], false⟩,
  ⟨key% "unet.output_blocks.7.0.out_layers.3.bias", [320], .float32, [], false⟩,
  ⟨key% "unet.output_blocks.7.0.out_layers.3.weight", [320, 320, 3, 3], .float32, [], false⟩,
  ⟨key% "unet.output_blocks.7.0.skip_connection.bias", [320], .float32, [], false⟩,
  ⟨key% "unet.output_blocks.7.0.skip_connection.weight", [320, 640, 1, 1], .float32, [], false⟩,
  ⟨key% "unet.output_blocks.8.0.emb_layers.1.bias", [320], .float32, [], false⟩,
  ⟨key% "unet.output_blocks.8.0.emb_layers.1.weight", [320, 1280], .float32, [], false⟩,
  ⟨key% "unet.output_blocks.8.0.in_layers.0.bias", [640], .float32, [], false⟩,
  ⟨key% "unet.output_blocks.8.0.in_layers.0.weight", [640], .float32, [], false⟩,
  ⟨key% "unet.output_blocks.8.0.in_layers.2.bias", [320], .float32, [], false⟩,
  ⟨key% "unet.output_blocks.8.0.in_layers.2.weight", [320, 640, 3, 3], .float32, [], false⟩,
  ⟨key% "unet.output_blocks.8.0.out_layers.0.bias", [320], .float32, [], false⟩,
  ⟨key% "unet.output_blocks.8.0.out_layers.0.weight", [320], .float32, [], false⟩,
  ⟨key% "unet.output_blocks.8.0.out_layers.3.bias", [320], .float32, [], false⟩,
  ⟨key% "unet.output_blocks.8.0.out_layers.3.weight", [320, 320, 3, 3], .float32, [], false⟩,
  ⟨key% "unet.output_blocks.8.0.skip_connection.bias", [320], .float32, [], false⟩,
  ⟨key% "unet.output_blocks.8.0.skip_connection.weight", [320, 640, 1, 1], .float32, [], false⟩,
  ⟨key% "unet.time_embed.0.bias", [1280], .float32, [], false⟩,
  ⟨key% "unet.time_embed.0.weight", [1280, 320], .float32, [], false⟩,
  ⟨key% "unet.time_embed.2.bias", [1280], .float32, [], false⟩,
  ⟨key% "unet.time_embed.2.weight", [1280, 1280], .float32, [], false⟩]
/-- Component `diffuser`: 1680 keys -/
noncomputable def diffuser : List Entry := diffuser0 ++ diffuser1 ++ diffuser2 ++ diffuser3 ++ diffuser4 ++ diffuser5 ++ diffuser6 ++ diffuser7 ++ diffuser8 ++ diffuser9 ++ diffuser10 ++ diffuser11 ++ diffuser12 ++ diffuser13 ++ diffuser14 ++ diffuser15 ++ diffuser16

/-- The config as written in the file: its identifier and its components -/
noncomputable def table : Table := ⟨key% "sdxl-kohya", [(key% "vae", vae), (key% "clip_l", clip_l), (key% "clip_g", clip_g), (key% "diffuser", diffuser)]⟩

end Verif.Data.SdxlKohya
