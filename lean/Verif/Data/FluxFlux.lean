import Verif.Data.Entry

/-!
# Keys of `flux-flux.yaml`

Generated by tools/gen_tables.py from sd_mecha/extensions/builtin/model_configs/flux-flux.yaml.
-/
namespace Verif.Data.FluxFlux


noncomputable def diffuser0 : List Entry := [
  ⟨key% "model.diffusion_model.double_blocks.0.img_attn.norm.key_norm.scale", [128], .bfloat16, [], false⟩,
  ⟨key% "model.diffusion_model.double_blocks.0.img_attn.norm.query_norm.scale", [128], .bfloat16, [], false⟩,
  ⟨key% "model.diffusion_model.double_blocks.0.img_attn.proj.bias", [3072], .bfloat16, [], false⟩,
  ⟨key% "model.diffusion_model.double_blocks.0.img_attn.proj.weight", [3072, 3072], .bfloat16, [], false⟩,
  ⟨key% "model.diffusion_model.double_blocks.0.img_attn.qkv.bias", [9216], .bfloat16, [], false⟩,
  ⟨key% "model.diffusion_model.double_blocks.0.img_attn.qkv.weight", [9216, 3072], .bfloat16, [], false⟩,
  ⟨key% "model.diffusion_model.double_blocks.0.img_mlp.0.bias", [12288], .bfloat16, [], false⟩,
  ⟨key% "model.diffusion_model.double_blocks.0.img_mlp.0.weight", [12288, 3072], .bfloat16, [], false⟩,
  ⟨key% "model.diffusion_model.double_blocks.0.img_mlp.2.bias", [3072], .bfloat16, [], false⟩,
  ⟨key% "model.diffusion_model.double_blocks.0.img_mlp.2.weight", [3072, 12288], .bfloat16, [], false⟩,
  ⟨key% "model.diffusion_model.double_blocks.0.img_mod.lin.bias", [18432], .bfloat16, [], false⟩,
  ⟨key% "model.diffusion_model.double_blocks.0.img_mod.lin.weight", [18432, 3072], .bfloat16, [], false⟩,
  ⟨key% "model.diffusion_model.double_blocks.0.txt_attn.norm.key_norm.scale", [128], .bfloat16, [], false⟩,
  ⟨key% "model.diffusion_model.double_blocks.0.txt_attn.norm.query_norm.scale", [128], .bfloat16, [], false⟩,
  ⟨key% "model.diffusion_model.double_blocks.0.txt_attn.proj.bias", [3072], .bfloat16, [], false⟩,
  ⟨key% "model.diffusion_model.double_blocks.0.txt_attn.proj.weight", [3072, 3072], .bfloat16, [], false⟩,
  ⟨key% "model.diffusion_model.double_blocks.0.txt_attn.qkv.bias", [9216], .bfloat16, [], false⟩,
  ⟨key% "model.diffusion_model.double_blocks.0.txt_attn.qkv.weight", [9216, 3072], .bfloat16, [], false⟩,
  ⟨key% "model.diffusion_model.double_blocks.0.txt_mlp.0.bias", [12288], .bfloat16, [], false⟩,
  ⟨key% "model.diffusion_model.double_blocks.0.txt_mlp.0.weight", [12288, 3072], .bfloat16, [], false⟩,
  ⟨key% "model.diffusion_model.double_blocks.0.txt_mlp.2.bias", [3072], .bfloat16, [], false⟩,
  ⟨key% "model.diffusion_model.double_blocks.0.txt_mlp.2.weight", [3072, 12288], .bfloat16, [], false⟩,
  ⟨key% "model.diffusion_model.double_blocks.0.txt_mod.lin.bias", [18432], .bfloat16, [], false⟩,
  ⟨key% "model.diffusion_model.double_blocks.0.txt_mod.lin.weight", [18432, 3072], .bfloat16, [], false⟩,
  ⟨key% "model.diffusion_model.double_blocks.1.img_attn.norm.key_norm.scale", [128], .bfloat16, [], false⟩,
  ⟨key% "model.diffusion_model.double_blocks.1.img_attn.norm.query_norm.scale", [128], .bfloat16, [], false⟩,
  ⟨key% "model.diffusion_model.double_blocks.1.img_attn.proj.bias", [3072], .bfloat16, [], false⟩,
  ⟨key% "model.diffusion_model.double_blocks.1.img_attn.proj.weight", [3072, 3072], .bfloat16, [], false⟩,
  ⟨key% "model.diffusion_model.double_blocks.1.img_attn.qkv.bias", [9216], .bfloat16, [], false⟩,
  ⟨key% "model.diffusion_model.double_blocks.1.img_attn.qkv.weight", [9216, 3072], .bfloat16, [], false⟩,
  ⟨key% "model.diffusion_model.double_blocks.1.img_mlp.0.bias", [12288], .bfloat16, [], false⟩,
  ⟨key% "model.diffusion_model.double_blocks.1.img_mlp.0.weight", [12288, 3072], .bfloat16, [], false⟩,
  ⟨key% "model.diffusion_model.double_blocks.1.img_mlp.2.bias", [3072], .bfloat16, [], false⟩,
  ⟨key% "model.diffusion_model.double_blocks.1.img_mlp.2.weight", [3072, 12288], .bfloat16, [], false⟩,
  ⟨key% "model.diffusion_model.double_blocks.1.img_mod.lin.bias", [18432], .bfloat16, [], false⟩,
  ⟨key% "model.diffusion_model.double_blocks.1.img_mod.lin.weight", [18432, 3072], .bfloat16, [], false⟩,
  ⟨key% "model.diffusion_model.double_blocks.1.txt_attn.norm.key_norm.scale", [128], .bfloat16, [], false⟩,
  ⟨key% "model.diffusion_model.double_blocks.1.txt_attn.norm.query_norm.scale", [128], .bfloat16, [], false⟩,
  ⟨key% "model.diffusion_model.double_blocks.1.txt_attn.proj.bias", [3072], .bfloat16, [], false⟩,
  ⟨key% "model.diffusion_model.double_blocks.1.txt_attn.proj.weight", [3072, 3072], .bfloat16, [], false⟩,
  ⟨key% "model.diffusion_model.double_blocks.1.txt_attn.qkv.bias", [9216], .bfloat16, [], false⟩,
  ⟨key% "model.diffusion_model.double_blocks.1.txt_attn.qkv.weight", [9216, 3072], .bfloat16, [], false⟩,
  ⟨key% "model.diffusion_model.double_blocks.1.txt_mlp.0.bias", [12288], .bfloat16, [], false⟩,
  ⟨key% "model.diffusion_model.double_blocks.1.txt_mlp.0.weight", [12288, 3072], .bfloat16, [], false⟩,
  ⟨key% "model.diffusion_model.double_blocks.1.txt_mlp.2.bias", [3072], .bfloat16, [], false⟩,
  ⟨key% "model.diffusion_model.double_blocks.1.txt_mlp.2.weight", [3072, 12288], .bfloat16, [], false⟩,
  ⟨key% "model.diffusion_model.double_blocks.1.txt_mod.lin.bias", [18432], .bfloat16, [], false⟩,
  ⟨key% "model.diffusion_model.double_blocks.1.txt_mod.lin.weight", [18432, 3072], .bfloat16, [], false⟩,
  ⟨key% "model.diffusion_model.double_blocks.10.img_attn.norm.key_norm.scale", [128], .bfloat16, [], false⟩,
  ⟨key% "model.diffusion_model.double_blocks.10.img_attn.norm.query_norm.scale", [128], .bfloat16, [], false⟩,
  ⟨key% "model.diffusion_model.double_blocks.10.img_attn.proj.bias", [3072], .bfloat16, [], false⟩,
  ⟨key% "model.diffusion_model.double_blocks.10.img_attn.proj.weight", [3072, 3072], .bfloat16, [], false⟩,
  ⟨key% "model.diffusion_model.double_blocks.10.img_attn.qkv.bias", [9216], .bfloat16, [], false⟩,
  ⟨key% "model.diffusion_model.double_blocks.10.img_attn.qkv.weight", [9216, 3072], .bfloat16, [], false⟩,
  ⟨key% "model.diffusion_model.double_blocks.10.img_mlp.0.bias", [12288], .bfloat16, [], false⟩,
  ⟨key% "model.diffusion_model.double_blocks.10.img_mlp.0.weight", [12288, 3072], .bfloat16, [], false⟩,
  ⟨key% "model.diffusion_model.double_blocks.10.img_mlp.2.bias", [3072], .bfloat16, [], false⟩,
  ⟨key% "model.diffusion_model.double_blocks.10.img_mlp.2.weight", [3072, 12288], .bfloat16, [], false⟩,
  ⟨key% "model.diffusion_model.double_blocks.10.img_mod.lin.bias", [18432], .bfloat16, [], false⟩,
  ⟨key% "model.diffusion_model.double_blocks.10.img_mod.lin.weight", [18432, 3072], .bfloat16, [], false⟩,
  ⟨key% "model.diffusion_model.double_blocks.10.txt_attn.norm.key_norm.scale", [128], .bfloat16, [], false⟩,
  ⟨key% "model.diffusion_model.double_blocks.10.txt_attn.norm.query_norm.scale", [128], .bfloat16, [], false⟩,
  ⟨key% "model.diffusion_model.double_blocks.10.txt_attn.proj.bias", [3072], .bfloat16, [], false⟩,
  ⟨key% "model.diffusion_model.double_blocks.10.txt_attn.proj.weight", [3072, 3072], .bfloat16, [], false⟩,
  ⟨key% "model.diffusion_model.double_blocks.10.txt_attn.qkv.bias", [9216], .bfloat16, [], false⟩,
  ⟨key% "model.diffusion_model.double_blocks.10.txt_attn.qkv.weight", [9216, 3072], .bfloat16, [], false⟩,
  ⟨key% "model.diffusion_model.double_blocks.10.txt_mlp.0.bias", [12288], .bfloat16, [], false⟩,
  ⟨key% "model.diffusion_model.double_blocks.10.txt_mlp.0.weight", [12288, 3072], .bfloat16, [], false⟩,
  ⟨key% "model.diffusion_model.double_blocks.10.txt_mlp.2.bias", [3072], .bfloat16, [], false⟩,
  ⟨key% "model.diffusion_model.double_blocks.10.txt_mlp.2.weight", [3072, 12288], .bfloat16, [], false⟩,
  ⟨key% "model.diffusion_model.double_blocks.10.txt_mod.lin.bias", [18432], .bfloat16, [], false⟩,
  ⟨key% "model.diffusion_model.double_blocks.10.txt_mod.lin.weight", [18432, 3072], .bfloat16, [], false⟩,
  ⟨key% "model.diffusion_model.double_blocks.11.img_attn.norm.key_norm.scale", [128], .bfloat16, [], false⟩,
  ⟨key% "model.diffusion_model.double_blocks.11.img_attn.norm.query_norm.scale", [128], .bfloat16, [], false⟩,
  ⟨key% "model.diffusion_model.double_blocks.11.img_attn.proj.bias", [3072], .bfloat16, [], false⟩,
  ⟨key% "model.diffusion_model.double_blocks.11.img_attn.proj.weight", [3072, 3072], .bfloat16, [], false⟩,
  ⟨key% "model.diffusion_model.double_blocks.11.img_attn.qkv.bias", [9216], .bfloat16, [], false⟩,
  ⟨key% "model.diffusion_model.double_blocks.11.img_attn.qkv.weight", [9216, 3072], .bfloat16, [], false⟩,
  ⟨key% "model.diffusion_model.double_blocks.11.img_mlp.0.bias", [12288], .bfloat16, [], false⟩,
  ⟨key% "model.diffusion_model.double_blocks.11.img_mlp.0.weight", [12288, 3072], .bfloat16, [], false⟩,
  ⟨key% "model.diffusion_model.double_blocks.11.img_mlp.2.bias", [3072], .bfloat16, [], false⟩,
  ⟨key% "model.diffusion_model.double_blocks.11.img_mlp.2.weight", [3072, 12288], .bfloat16, [], false⟩,
  ⟨key% "model.diffusion_model.double_blocks.11.img_mod.lin.bias", [18432], .bfloat16, [], false⟩,
  ⟨key% "model.diffusion_model.double_blocks.11.img_mod.lin.weight", [18432, 3072], .bfloat16, [], false⟩,
  ⟨key% "model.diffusion_model.double_blocks.11.txt_attn.norm.key_norm.scale", [128], .bfloat16, [], false⟩,
  ⟨key% "model.diffusion_model.double_blocks.11.txt_attn.norm.query_norm.scale", [128], .bfloat16, [], false⟩,
  ⟨key% "model.diffusion_model.double_blocks.11.txt_attn.proj.bias", [3072], .bfloat16, [], false⟩,
  ⟨key% "model.diffusion_model.double_blocks.11.txt_attn.proj.weight", [3072, 3072], .bfloat16, [], false⟩,
  ⟨key% "model.diffusion_model.double_blocks.11.txt_attn.qkv.bias", [9216], .bfloat16, [], false⟩,
  ⟨key% "model.diffusion_model.double_blocks.11.txt_attn.qkv.weight", [9216, 3072], .bfloat16, [], false⟩,
  ⟨key% "model.diffusion_model.double_blocks.11.txt_mlp.0.bias", [12288], .bfloat16, [], false⟩,
  ⟨key% "model.diffusion_model.double_blocks.11.txt_mlp.0.weight", [12288, 3072], .bfloat16, [], false⟩,
  ⟨key% "model.diffusion_model.double_blocks.11.txt_mlp.2.bias", [3072], .bfloat16, [], false⟩,
  ⟨key% "model.diffusion_model.double_blocks.11.txt_mlp.2.weight", [3072, 12288], .bfloat16, [], false⟩,
  ⟨key% "model.diffusion_model.double_blocks.11.txt_mod.lin.bias", [18432], .bfloat16, [], false⟩,
  ⟨key% "model.diffusion_model.double_blocks.11.txt_mod.lin.weight", [18432, 3072], .bfloat16, [], false⟩,
  ⟨key% "model.diffusion_model.double_blocks.12.img_attn.norm.key_norm.scale", [128], .bfloat16, [], false⟩,
  ⟨key% "model.diffusion_model.double_blocks.12.img_attn.norm.query_norm.scale", [128], .bfloat16, [], false⟩,
  ⟨key% "model.diffusion_model.double_blocks.12.img_attn.proj.bias", [3072], .bfloat16, [], false⟩,
  ⟨key% "model.diffusion_model.double_blocks.12.img_attn.proj.weight", [3072, 3072], .bfloat16, [], false⟩]
noncomputable def diffuser1 : List Entry := [
  ⟨key% "model.diffusion_model.double_blocks.12.img_attn.qkv.bias", [9216], .bfloat16, [], false⟩,
  ⟨key% "model.diffusion_model.double_blocks.12.img_attn.qkv.weight", [9216, 3072], .bfloat16, [], false⟩,
  ⟨key% "model.diffusion_model.double_blocks.12.img_mlp.0.bias", [12288], .bfloat16, [], false⟩,
  ⟨key% "model.diffusion_model.double_blocks.12.img_mlp.0.weight", [12288, 3072], .bfloat16, [], false⟩,
  ⟨key% "model.diffusion_model.double_blocks.12.img_mlp.2.bias", [3072], .bfloat16, [], false⟩,
  ⟨key% "model.diffusion_model.double_blocks.12.img_mlp.2.weight", [3072, 12288], .bfloat16, [], false⟩,
  ⟨key% "model.diffusion_model.double_blocks.12.img_mod.lin.bias", [18432], .bfloat16, [], false⟩,
  ⟨key% "model.diffusion_model.double_blocks.12.img_mod.lin.weight", [18432, 3072], .bfloat16, [], false⟩,
  ⟨key% "model.diffusion_model.double_blocks.12.txt_attn.norm.key_norm.scale", [128], .bfloat16, [], false⟩,
  ⟨key% "model.diffusion_model.double_blocks.12.txt_attn.norm.query_norm.scale", [128], .bfloat16, [], false⟩,
  ⟨key% "model.diffusion_model.double_blocks.12.txt_attn.proj.bias", [3072], .bfloat16, [], false⟩,
  ⟨key% "model.diffusion_model.double_blocks.12.txt_attn.proj.weight", [3072, 3072], .bfloat16, [], false⟩,
  ⟨key% "model.diffusion_model.double_blocks.12.txt_attn.qkv.bias", [9216], .bfloat16, [], false⟩,
  ⟨key% "model.diffusion_model.double_blocks.12.txt_attn.qkv.weight", [9216, 3072], .bfloat16, [], false⟩,
  ⟨key% "model.diffusion_model.double_blocks.12.txt_mlp.0.bias", [12288], .bfloat16, [], false⟩,
  ⟨key% "model.diffusion_model.double_blocks.12.txt_mlp.0.weight", [12288, 3072], .bfloat16, [], false⟩,
  ⟨key% "model.diffusion_model.double_blocks.12.txt_mlp.2.bias", [3072], .bfloat16, [], false⟩,
  ⟨key% "model.diffusion_model.double_blocks.12.txt_mlp.2.weight", [3072, 12288], .bfloat16, [], false⟩,
  ⟨key% "model.diffusion_model.double_blocks.12.txt_mod.lin.bias", [18432], .bfloat16, [], false⟩,
  ⟨key% "model.diffusion_model.double_blocks.12.txt_mod.lin.weight", [18432, 3072], .bfloat16, [], false⟩,
  ⟨key% "model.diffusion_model.double_blocks.13.img_attn.norm.key_norm.scale", [128], .bfloat16, [], false⟩,
  ⟨key% "model.diffusion_model.double_blocks.13.img_attn.norm.query_norm.scale", [128], .bfloat16, [], false⟩,
  ⟨key% "model.diffusion_model.double_blocks.13.img_attn.proj.bias", [3072], .bfloat16, [], false⟩,
  ⟨key% "model.diffusion_model.double_blocks.13.img_attn.proj.weight", [3072, 3072], .bfloat16, [], false⟩,
  ⟨key% "model.diffusion_model.double_blocks.13.img_attn.qkv.bias", [9216], .bfloat16, [], false⟩,
  ⟨key% "model.diffusion_model.double_blocks.13.img_attn.qkv.weight", [9216, 3072], .bfloat16, [], false⟩,
  ⟨key% "model.diffusion_model.double_blocks.13.img_mlp.0.bias", [12288], .bfloat16, [], false⟩,
  ⟨key% "model.diffusion_model.double_blocks.13.img_mlp.0.weight", [12288, 3072], .bfloat16, [], false⟩,
  ⟨key% "model.diffusion_model.double_blocks.13.img_mlp.2.bias", [3072], .bfloat16, [], false⟩,
  ⟨key% "model.diffusion_model.double_blocks.13.img_mlp.2.weight", [3072, 12288], .bfloat16, [], false⟩,
  ⟨key% "model.diffusion_model.double_blocks.13.img_mod.lin.bias", [18432], .bfloat16, [], false⟩,
  ⟨key% "model.diffusion_model.double_blocks.13.img_mod.lin.weight", [18432, 3072], .bfloat16, [], false⟩,
  ⟨key% "model.diffusion_model.double_blocks.13.txt_attn.norm.key_norm.scale", [128], .bfloat16, [], false⟩,
  ⟨key% "model.diffusion_model.double_blocks.13.txt_attn.norm.query_norm.scale", [128], .bfloat16, [], false⟩,
  ⟨key% "model.diffusion_model.double_blocks.13.txt_attn.proj.bias", [3072], .bfloat16, [], false⟩,
  ⟨key% "model.diffusion_model.double_blocks.13.txt_attn.proj.weight", [3072, 3072], .bfloat16, [], false⟩,
  ⟨key% "model.diffusion_model.double_blocks.13.txt_attn.qkv.bias", [9216], .bfloat16, [], false⟩,
  ⟨key% "model.diffusion_model.double_blocks.13.txt_attn.qkv.weight", [9216, 3072], .bfloat16, [], false⟩,
  ⟨key% "model.diffusion_model.double_blocks.13.txt_mlp.0.bias", [12288], .bfloat16, [], false⟩,
  ⟨key% "model.diffusion_model.double_blocks.13.txt_mlp.0.weight", [12288, 3072], .bfloat16, [], false⟩,
  ⟨key% "model.diffusion_model.double_blocks.13.txt_mlp.2.bias", [3072], .bfloat16, [], false⟩,
  ⟨key% "model.diffusion_model.double_blocks.13.txt_mlp.2.weight", [3072, 12288], .bfloat16, [], false⟩,
  ⟨key% "model.diffusion_model.double_blocks.13.txt_mod.lin.bias", [18432], .bfloat16, [], false⟩,
  ⟨key% "model.diffusion_model.double_blocks.13.txt_mod.lin.weight", [18432, 3072], .bfloat16, [], false⟩,
  ⟨key% "model.diffusion_model.double_blocks.14.img_attn.norm.key_norm.scale", [128], .bfloat16, [], false⟩,
  ⟨key% "model.diffusion_model.double_blocks.14.img_attn.norm.query_norm.scale", [128], .bfloat16, [], false⟩,
  ⟨key% "model.diffusion_model.double_blocks.14.img_attn.proj.bias", [3072], .bfloat16, [], false⟩,
  ⟨key% "model.diffusion_model.double_blocks.14.img_attn.proj.weight", [3072, 3072], .bfloat16, [], false⟩,
  ⟨key% "model.diffusion_model.double_blocks.14.img_attn.qkv.bias", [9216], .bfloat16, [], false⟩,
  ⟨key% "model.diffusion_model.double_blocks.14.img_attn.qkv.weight", [9216, 3072], .bfloat16, [], false⟩,
  ⟨key% "model.diffusion_model.double_blocks.14.img_mlp.0.bias", [12288], .bfloat16, [], false⟩,
  ⟨key% "model.diffusion_model.double_blocks.14.img_mlp.0.weight", [12288, 3072], .bfloat16, [], false⟩,
  ⟨key% "model.diffusion_model.double_blocks.14.img_mlp.2.bias", [3072], .bfloat16, [], false⟩,
  ⟨key% "model.diffusion_model.double_blocks.14.img_mlp.2.weight", [3072, 12288], .bfloat16, [], false⟩,
  ⟨key% "model.diffusion_model.double_blocks.14.img_mod.lin.bias", [18432], .bfloat16, [], false⟩,
  ⟨key% "model.diffusion_model.double_blocks.14.img_mod.lin.weight", [18432, 3072], .bfloat16, [], false⟩,
  ⟨key% "model.diffusion_model.double_blocks.14.txt_attn.norm.key_norm.scale", [128], .bfloat16, [], false⟩,
  ⟨key% "model.diffusion_model.double_blocks.14.txt_attn.norm.query_norm.scale", [128], .bfloat16, [], false⟩,
  ⟨key% "model.diffusion_model.double_blocks.14.txt_attn.proj.bias", [3072], .bfloat16, [], false⟩,
  ⟨key% "model.diffusion_model.double_blocks.14.txt_attn.proj.weight", [3072, 3072], .bfloat16, [], false⟩,
  ⟨key% "model.diffusion_model.double_blocks.14.txt_attn.qkv.bias", [9216], .bfloat16, [], false⟩,
  ⟨key% "model.diffusion_model.double_blocks.14.txt_attn.qkv.weight", [9216, 3072], .bfloat16, [], false⟩,
  ⟨key% "model.diffusion_model.double_blocks.14.txt_mlp.0.bias", [12288], .bfloat16, [], false⟩,
  ⟨key% "model.diffusion_model.double_blocks.14.txt_mlp.0.weight", [12288, 3072], .bfloat16, [], false⟩,
  ⟨key% "model.diffusion_model.double_blocks.14.txt_mlp.2.bias", [3072], .bfloat16, [], false⟩,
  ⟨key% "model.diffusion_model.double_blocks.14.txt_mlp.2.weight", [3072, 12288], .bfloat16, [], false⟩,
  ⟨key% "model.diffusion_model.double_blocks.14.txt_mod.lin.bias", [18432], .bfloat16, [], false⟩,
  ⟨key% "model.diffusion_model.double_blocks.14.txt_mod.lin.weight", [18432, 3072], .bfloat16, [], false⟩,
  ⟨key% "model.diffusion_model.double_blocks.15.img_attn.norm.key_norm.scale", [128], .bfloat16, [], false⟩,
  ⟨key% "model.diffusion_model.double_blocks.15.img_attn.norm.query_norm.scale", [128], .bfloat16, [], false⟩,
  ⟨key% "model.diffusion_model.double_blocks.15.img_attn.proj.bias", [3072], .bfloat16, [], false⟩,
  ⟨key% "model.diffusion_model.double_blocks.15.img_attn.proj.weight", [3072, 3072], .bfloat16, [], false⟩,
  ⟨key% "model.diffusion_model.double_blocks.15.img_attn.qkv.bias", [9216], .bfloat16, [], false⟩,
  ⟨key% "model.diffusion_model.double_blocks.15.img_attn.qkv.weight", [9216, 3072], .bfloat16, [], false⟩,
  ⟨key% "model.diffusion_model.double_blocks.15.img_mlp.0.bias", [12288], .bfloat16, [], false⟩,
  ⟨key% "model.diffusion_model.double_blocks.15.img_mlp.0.weight", [12288, 3072], .bfloat16, [], false⟩,
  ⟨key% "model.diffusion_model.double_blocks.15.img_mlp.2.bias", [3072], .bfloat16, [], false⟩,
  ⟨key% "model.diffusion_model.double_blocks.15.img_mlp.2.weight", [3072, 12288], .bfloat16, [], false⟩,
  ⟨key% "model.diffusion_model.double_blocks.15.img_mod.lin.bias", [18432], .bfloat16, [], false⟩,
  ⟨key% "model.diffusion_model.double_blocks.15.img_mod.lin.weight", [18432, 3072], .bfloat16, [], false⟩,
  ⟨key% "model.diffusion_model.double_blocks.15.txt_attn.norm.key_norm.scale", [128], .bfloat16, [], false⟩,
  ⟨key% "model.diffusion_model.double_blocks.15.txt_attn.norm.query_norm.scale", [128], .bfloat16, [], false⟩,
  ⟨key% "model.diffusion_model.double_blocks.15.txt_attn.proj.bias", [3072], .bfloat16, [], false⟩,
  ⟨key% "model.diffusion_model.double_blocks.15.txt_attn.proj.weight", [3072, 3072], .bfloat16, [], false⟩,
  ⟨key% "model.diffusion_model.double_blocks.15.txt_attn.qkv.bias", [9216], .bfloat16, [], false⟩,
  ⟨key% "model.diffusion_model.double_blocks.15.txt_attn.qkv.weight", [9216, 3072], .bfloat16, [], false⟩,
  ⟨key% "model.diffusion_model.double_blocks.15.txt_mlp.0.bias", [12288], .bfloat16, [], false⟩,
  ⟨key% "model.diffusion_model.double_blocks.15.txt_mlp.0.weight", [12288, 3072], .bfloat16, [], false⟩,
  ⟨key% "model.diffusion_model.double_blocks.15.txt_mlp.2.bias", [3072], .bfloat16, [], false⟩,
  ⟨key% "model.diffusion_model.double_blocks.15.txt_mlp.2.weight", [3072, 12288], .bfloat16, [], false⟩,
  ⟨key% "model.diffusion_model.double_blocks.15.txt_mod.lin.bias", [18432], .bfloat16, [], false⟩,
  ⟨key% "model.diffusion_model.double_blocks.15.txt_mod.lin.weight", [18432, 3072], .bfloat16, [], false⟩,
  ⟨key% "model.diffusion_model.double_blocks.16.img_attn.norm.key_norm.scale", [128], .bfloat16, [], false⟩,
  ⟨key% "model.diffusion_model.double_blocks.16.img_attn.norm.query_norm.scale", [128], .bfloat16, [], false⟩,
  ⟨key% "model.diffusion_model.double_blocks.16.img_attn.proj.bias", [3072], .bfloat16, [], false⟩,
  ⟨key% "model.diffusion_model.double_blocks.16.img_attn.proj.weight", [3072, 3072], .bfloat16, [], false⟩,
  ⟨key% "model.diffusion_model.double_blocks.16.img_attn.qkv.bias", [9216], .bfloat16, [], false⟩,
  ⟨key% "model.diffusion_model.double_blocks.16.img_attn.qkv.weight", [9216, 3072], .bfloat16, [], false⟩,
  ⟨key% "model.diffusion_model.double_blocks.16.img_mlp.0.bias", [12288], .bfloat16, [], false⟩,
  ⟨key% "model.diffusion_model.double_blocks.16.img_mlp.0.weight", [12288, 3072], .bfloat16, [], false⟩]
noncomputable def diffuser2 : List Entry := [
  ⟨key% "model.diffusion_model.double_blocks.16.img_mlp.2.bias", [3072], .bfloat16, [], false⟩,
  ⟨key% "model.diffusion_model.double_blocks.16.img_mlp.2.weight", [3072, 12288], .bfloat16, [], false⟩,
  ⟨key% "model.diffusion_model.double_blocks.16.img_mod.lin.bias", [18432], .bfloat16, [], false⟩,
  ⟨key% "model.diffusion_model.double_blocks.16.img_mod.lin.weight", [18432, 3072], .bfloat16, [], false⟩,
  ⟨key% "model.diffusion_model.double_blocks.16.txt_attn.norm.key_norm.scale", [128], .bfloat16, [], false⟩,
  ⟨key% "model.diffusion_model.double_blocks.16.txt_attn.norm.query_norm.scale", [128], .bfloat16, [], false⟩,
  ⟨key% "model.diffusion_model.double_blocks.16.txt_attn.proj.bias", [3072], .bfloat16, [], false⟩,
  ⟨key% "model.diffusion_model.double_blocks.16.txt_attn.proj.weight", [3072, 3072], .bfloat16, [], false⟩,
  ⟨key% "model.diffusion_model.double_blocks.16.txt_attn.qkv.bias", [9216], .bfloat16, [], false⟩,
  ⟨key% "model.diffusion_model.double_blocks.16.txt_attn.qkv.weight", [9216, 3072], .bfloat16, [], false⟩,
  ⟨key% "model.diffusion_model.double_blocks.16.txt_mlp.0.bias", [12288], .bfloat16, [], false⟩,
  ⟨key% "model.diffusion_model.double_blocks.16.txt_mlp.0.weight", [12288, 3072], .bfloat16, [], false⟩,
  ⟨key% "model.diffusion_model.double_blocks.16.txt_mlp.2.bias", [3072], .bfloat16, [], false⟩,
  ⟨key% "model.diffusion_model.double_blocks.16.txt_mlp.2.weight", [3072, 12288], .bfloat16, [], false⟩,
  ⟨key% "model.diffusion_model.double_blocks.16.txt_mod.lin.bias", [18432], .bfloat16, [], false⟩,
  ⟨key% "model.diffusion_model.double_blocks.16.txt_mod.lin.weight", [18432, 3072], .bfloat16, [], false⟩,
  ⟨key% "model.diffusion_model.double_blocks.17.img_attn.norm.key_norm.scale", [128], .bfloat16, [], false⟩,
  ⟨key% "model.diffusion_model.double_blocks.17.img_attn.norm.query_norm.scale", [128], .bfloat16, [], false⟩,
  ⟨key% "model.diffusion_model.double_blocks.17.img_attn.proj.bias", [3072], .bfloat16, [], false⟩,
  ⟨key% "model.diffusion_model.double_blocks.17.img_attn.proj.weight", [3072, 3072], .bfloat16, [], false⟩,
  ⟨key% "model.diffusion_model.double_blocks.17.img_attn.qkv.bias", [9216], .bfloat16, [], false⟩,
  ⟨key% "model.diffusion_model.double_blocks.17.img_attn.qkv.weight", [9216, 3072], .bfloat16, [], false⟩,
  ⟨key% "model.diffusion_model.double_blocks.17.img_mlp.0.bias", [12288], .bfloat16, [], false⟩,
  ⟨key% "model.diffusion_model.double_blocks.17.img_mlp.0.weight", [12288, 3072], .bfloat16, [], false⟩,
  ⟨key% "model.diffusion_model.double_blocks.17.img_mlp.2.bias", [3072], .bfloat16, [], false⟩,
  ⟨key% "model.diffusion_model.double_blocks.17.img_mlp.2.weight", [3072, 12288], .bfloat16, [], false⟩,
  ⟨key% "model.diffusion_model.double_blocks.17.img_mod.lin.bias", [18432], .bfloat16, [], false⟩,
  ⟨key% "model.diffusion_model.double_blocks.17.img_mod.lin.weight", [18432, 3072], .bfloat16, [], false⟩,
  ⟨key% "model.diffusion_model.double_blocks.17.txt_attn.norm.key_norm.scale", [128], .bfloat16, [], false⟩,
  ⟨key% "model.diffusion_model.double_blocks.17.txt_attn.norm.query_norm.scale", [128], .bfloat16, [], false⟩,
  ⟨key% "model.diffusion_model.double_blocks.17.txt_attn.proj.bias", [3072], .bfloat16, [], false⟩,
  ⟨key% "model.diffusion_model.double_blocks.17.txt_attn.proj.weight", [3072, 3072], .bfloat16, [], false⟩,
  ⟨key% "model.diffusion_model.double_blocks.17.txt_attn.qkv.bias", [9216], .bfloat16, [], false⟩,
  ⟨key% "model.diffusion_model.double_blocks.17.txt_attn.qkv.weight", [9216, 3072], .bfloat16, [], false⟩,
  ⟨key% "model.diffusion_model.double_blocks.17.txt_mlp.0.bias", [12288], .bfloat16, [], false⟩,
  ⟨key% "model.diffusion_model.double_blocks.17.txt_mlp.0.weight", [12288, 3072], .bfloat16, [], false⟩,
  ⟨key% "model.diffusion_model.double_blocks.17.txt_mlp.2.bias", [3072], .bfloat16, [], false⟩,
  ⟨key% "model.diffusion_model.double_blocks.17.txt_mlp.2.weight", [3072, 12288], .bfloat16, [], false⟩,
  ⟨key% "model.diffusion_model.double_blocks.17.txt_mod.lin.bias", [18432], .bfloat16, [], false⟩,
  ⟨key% "model.diffusion_model.double_blocks.17.txt_mod.lin.weight", [18432, 3072], .bfloat16, [], false⟩,
  ⟨key% "model.diffusion_model.double_blocks.18.img_attn.norm.key_norm.scale", [128], .bfloat16, [], false⟩,
  ⟨key% "model.diffusion_model.double_blocks.18.img_attn.norm.query_norm.scale", [128], .bfloat16, [], false⟩,
  ⟨key% "model.diffusion_model.double_blocks.18.img_attn.proj.bias", [3072], .bfloat16, [], false⟩,
  ⟨key% "model.diffusion_model.double_blocks.18.img_attn.proj.weight", [3072, 3072], .bfloat16, [], false⟩,
  ⟨key% "model.diffusion_model.double_blocks.18.img_attn.qkv.bias", [9216], .bfloat16, [], false⟩,
  ⟨key% "model.diffusion_model.double_blocks.18.img_attn.qkv.weight", [9216, 3072], .bfloat16, [], false⟩,
  ⟨key% "model.diffusion_model.double_blocks.18.img_mlp.0.bias", [12288], .bfloat16, [], false⟩,
  ⟨key% "model.diffusion_model.double_blocks.18.img_mlp.0.weight", [12288, 3072], .bfloat16, [], false⟩,
  ⟨key% "model.diffusion_model.double_blocks.18.img_mlp.2.bias", [3072], .bfloat16, [], false⟩,
  ⟨key% "model.diffusion_model.double_blocks.18.img_mlp.2.weight", [3072, 12288], .bfloat16, [], false⟩,
  ⟨key% "model.diffusion_model.double_blocks.18.img_mod.lin.bias", [18432], .bfloat16, [], false⟩,
  ⟨key% "model.diffusion_model.double_blocks.18.img_mod.lin.weight", [18432, 3072], .bfloat16, [], false⟩,
  ⟨key% "model.diffusion_model.double_blocks.18.txt_attn.norm.key_norm.scale", [128], .bfloat16, [], false⟩,
  ⟨key% "model.diffusion_model.double_blocks.18.txt_attn.norm.query_norm.scale", [128], .bfloat16, [], false⟩,
  ⟨key% "model.diffusion_model.double_blocks.18.txt_attn.proj.bias", [3072], .bfloat16, [], false⟩,
  ⟨key% "model.diffusion_model.double_blocks.18.txt_attn.proj.weight", [3072, 3072], .bfloat16, [], false⟩,
  ⟨key% "model.diffusion_model.double_blocks.18.txt_attn.qkv.bias", [9216], .bfloat16, [], false⟩,
  ⟨key% "model.diffusion_model.double_blocks.18.txt_attn.qkv.weight", [9216, 3072], .bfloat16, [], false⟩,
  ⟨key% "model.diffusion_model.double_blocks.18.txt_mlp.0.bias", [12288], .bfloat16, [], false⟩,
  ⟨key% "model.diffusion_model.double_blocks.18.txt_mlp.0.weight", [12288, 3072], .bfloat16, [], false⟩,
  ⟨key% "model.diffusion_model.double_blocks.18.txt_mlp.2.bias", [3072], .bfloat16, [], false⟩,
  ⟨key% "model.diffusion_model.double_blocks.18.txt_mlp.2.weight", [3072, 12288], .bfloat16, [], false⟩,
  ⟨key% "model.diffusion_model.double_blocks.18.txt_mod.lin.bias", [18432], .bfloat16, [], false⟩,
  ⟨key% "model.diffusion_model.double_blocks.18.txt_mod.lin.weight", [18432, 3072], .bfloat16, [], false⟩,
  ⟨key% "model.diffusion_model.double_blocks.2.img_attn.norm.key_norm.scale", [128], .bfloat16, [], false⟩,
  ⟨key% "model.diffusion_model.double_blocks.2.img_attn.norm.query_norm.scale", [128], .bfloat16, [], false⟩,
  ⟨key% "model.diffusion_model.double_blocks.2.img_attn.proj.bias", [3072], .bfloat16, [], false⟩,
  ⟨key% "model.diffusion_model.double_blocks.2.img_attn.proj.weight", [3072, 3072], .bfloat16, [], false⟩,
  ⟨key% "model.diffusion_model.double_blocks.2.img_attn.qkv.bias", [9216], .bfloat16, [], false⟩,
  ⟨key% "model.diffusion_model.double_blocks.2.img_attn.qkv.weight", [9216, 3072], .bfloat16, [], false⟩,
  ⟨key% "model.diffusion_model.double_blocks.2.img_mlp.0.bias", [12288], .bfloat16, [], false⟩,
  ⟨key% "model.diffusion_model.double_blocks.2.img_mlp.0.weight", [12288, 3072], .bfloat16, [], false⟩,
  ⟨key% "model.diffusion_model.double_blocks.2.img_mlp.2.bias", [3072], .bfloat16, [], false⟩,
  ⟨key% "model.diffusion_model.double_blocks.2.img_mlp.2.weight", [3072, 12288], .bfloat16, [], false⟩,
  ⟨key% "model.diffusion_model.double_blocks.2.img_mod.lin.bias", [18432], .bfloat16, [], false⟩,
  ⟨key% "model.diffusion_model.double_blocks.2.img_mod.lin.weight", [18432, 3072], .bfloat16, [], false⟩,
  ⟨key% "model.diffusion_model.double_blocks.2.txt_attn.norm.key_norm.scale", [128], .bfloat16, [], false⟩,
  ⟨key% "model.diffusion_model.double_blocks.2.txt_attn.norm.query_norm.scale", [128], .bfloat16, [], false⟩,
  ⟨key% "model.diffusion_model.double_blocks.2.txt_attn.proj.bias", [3072], .bfloat16, [], false⟩,
  ⟨key% "model.diffusion_model.double_blocks.2.txt_attn.proj.weight", [3072, 3072], .bfloat16, [], false⟩,
  ⟨key% "model.diffusion_model.double_blocks.2.txt_attn.qkv.bias", [9216], .bfloat16, [], false⟩,
  ⟨key% "model.diffusion_model.double_blocks.2.txt_attn.qkv.weight", [9216, 3072], .bfloat16, [], false⟩,
  ⟨key% "model.diffusion_model.double_blocks.2.txt_mlp.0.bias", [12288], .bfloat16, [], false⟩,
  ⟨key% "model.diffusion_model.double_blocks.2.txt_mlp.0.weight", [12288, 3072], .bfloat16, [], false⟩,
  ⟨key% "model.diffusion_model.double_blocks.2.txt_mlp.2.bias", [3072], .bfloat16, [], false⟩,
  ⟨key% "model.diffusion_model.double_blocks.2.txt_mlp.2.weight", [3072, 12288], .bfloat16, [], false⟩,
  ⟨key% "model.diffusion_model.double_blocks.2.txt_mod.lin.bias", [18432], .bfloat16, [], false⟩,
  ⟨key% "model.diffusion_model.double_blocks.2.txt_mod.lin.weight", [18432, 3072], .bfloat16, [], false⟩,
  ⟨key% "model.diffusion_model.double_blocks.3.img_attn.norm.key_norm.scale", [128], .bfloat16, [], false⟩,
  ⟨key% "model.diffusion_model.double_blocks.3.img_attn.norm.query_norm.scale", [128], .bfloat16, [], false⟩,
  ⟨key% "model.diffusion_model.double_blocks.3.img_attn.proj.bias", [3072], .bfloat16, [], false⟩,
  ⟨key% "model.diffusion_model.double_blocks.3.img_attn.proj.weight", [3072, 3072], .bfloat16, [], false⟩,
  ⟨key% "model.diffusion_model.double_blocks.3.img_attn.qkv.bias", [9216], .bfloat16, [], false⟩,
  ⟨key% "model.diffusion_model.double_blocks.3.img_attn.qkv.weight", [9216, 3072], .bfloat16, [], false⟩,
  ⟨key% "model.diffusion_model.double_blocks.3.img_mlp.0.bias", [12288], .bfloat16, [], false⟩,
  ⟨key% "model.diffusion_model.double_blocks.3.img_mlp.0.weight", [12288, 3072], .bfloat16, [], false⟩,
  ⟨key% "model.diffusion_model.double_blocks.3.img_mlp.2.bias", [3072], .bfloat16, [], false⟩,
  ⟨key% "model.diffusion_model.double_blocks.3.img_mlp.2.weight", [3072, 12288], .bfloat16, [], false⟩,
  ⟨key% "model.diffusion_model.double_blocks.3.img_mod.lin.bias", [18432], .bfloat16, [], false⟩,
  ⟨key% "model.diffusion_model.double_blocks.3.img_mod.lin.weight", [18432, 3072], .bfloat16, [], false⟩]
noncomputable def diffuser3 : List Entry := [
  ⟨key% "model.diffusion_model.double_blocks.3.txt_attn.norm.key_norm.scale", [128], .bfloat16, [], false⟩,
  ⟨key% "model.diffusion_model.double_blocks.3.txt_attn.norm.query_norm.scale", [128], .bfloat16, [], false⟩,
  ⟨key% "model.diffusion_model.double_blocks.3.txt_attn.proj.bias", [3072], .bfloat16, [], false⟩,
  ⟨key% "model.diffusion_model.double_blocks.3.txt_attn.proj.weight", [3072, 3072], .bfloat16, [], false⟩,
  ⟨key% "model.diffusion_model.double_blocks.3.txt_attn.qkv.bias", [9216], .bfloat16, [], false⟩,
  ⟨key% "model.diffusion_model.double_blocks.3.txt_attn.qkv.weight", [9216, 3072], .bfloat16, [], false⟩,
  ⟨key% "model.diffusion_model.double_blocks.3.txt_mlp.0.bias", [12288], .bfloat16, [], false⟩,
  ⟨key% "model.diffusion_model.double_blocks.3.txt_mlp.0.weight", [12288, 3072], .bfloat16, [], false⟩,
  ⟨key% "model.diffusion_model.double_blocks.3.txt_mlp.2.bias", [3072], .bfloat16, [], false⟩,
  ⟨key% "model.diffusion_model.double_blocks.3.txt_mlp.2.weight", [3072, 12288], .bfloat16, [], false⟩,
  ⟨key% "model.diffusion_model.double_blocks.3.txt_mod.lin.bias", [18432], .bfloat16, [], false⟩,
  ⟨key% "model.diffusion_model.double_blocks.3.txt_mod.lin.weight", [18432, 3072], .bfloat16, [], false⟩,
  ⟨key% "model.diffusion_model.double_blocks.4.img_attn.norm.key_norm.scale", [128], .bfloat16, [], false⟩,
  ⟨key% "model.diffusion_model.double_blocks.4.img_attn.norm.query_norm.scale", [128], .bfloat16, [], false⟩,
  ⟨key% "model.diffusion_model.double_blocks.4.img_attn.proj.bias", [3072], .bfloat16, [], false⟩,
  ⟨key% "model.diffusion_model.double_blocks.4.img_attn.proj.weight", [3072, 3072], .bfloat16, [], false⟩,
  ⟨key% "model.diffusion_model.double_blocks.4.img_attn.qkv.bias", [9216], .bfloat16, [], false⟩,
  ⟨key% "model.diffusion_model.double_blocks.4.img_attn.qkv.weight", [9216, 3072], .bfloat16, [], false⟩,
  ⟨key% "model.diffusion_model.double_blocks.4.img_mlp.0.bias", [12288], .bfloat16, [], false⟩,
  ⟨key% "model.diffusion_model.double_blocks.4.img_mlp.0.weight", [12288, 3072], .bfloat16, [], false⟩,
  ⟨key% "model.diffusion_model.double_blocks.4.img_mlp.2.bias", [3072], .bfloat16, [], false⟩,
  ⟨key% "model.diffusion_model.double_blocks.4.img_mlp.2.weight", [3072, 12288], .bfloat16, [], false⟩,
  ⟨key% "model.diffusion_model.double_blocks.4.img_mod.lin.bias", [18432], .bfloat16, [], false⟩,
  ⟨key% "model.diffusion_model.double_blocks.4.img_mod.lin.weight", [18432, 3072], .bfloat16, [], false⟩,
  ⟨key% "model.diffusion_model.double_blocks.4.txt_attn.norm.key_norm.scale", [128], .bfloat16, [], false⟩,
  ⟨key% "model.diffusion_model.double_blocks.4.txt_attn.norm.query_norm.scale", [128], .bfloat16, [], false⟩,
  ⟨key% "model.diffusion_model.double_blocks.4.txt_attn.proj.bias", [3072], .bfloat16, [], false⟩,
  ⟨key% "model.diffusion_model.double_blocks.4.txt_attn.proj.weight", [3072, 3072], .bfloat16, [], false⟩,
  ⟨key% "model.diffusion_model.double_blocks.4.txt_attn.qkv.bias", [9216], .bfloat16, [], false⟩,
  ⟨key% "model.diffusion_model.double_blocks.4.txt_attn.qkv.weight", [9216, 3072], .bfloat16, [], false⟩,
  ⟨key% "model.diffusion_model.double_blocks.4.txt_mlp.0.bias", [12288], .bfloat16, [], false⟩,
  ⟨key% "model.diffusion_model.double_blocks.4.txt_mlp.0.weight", [12288, 3072], .bfloat16, [], false⟩,
  ⟨key% "model.diffusion_model.double_blocks.4.txt_mlp.2.bias", [3072], .bfloat16, [], false⟩,
  ⟨key% "model.diffusion_model.double_blocks.4.txt_mlp.2.weight", [3072, 12288], .bfloat16, [], false⟩,
  ⟨key% "model.diffusion_model.double_blocks.4.txt_mod.lin.bias", [18432], .bfloat16, [], false⟩,
  ⟨key% "model.diffusion_model.double_blocks.4.txt_mod.lin.weight", [18432, 3072], .bfloat16, [], false⟩,
  ⟨key% "model.diffusion_model.double_blocks.5.img_attn.norm.key_norm.scale", [128], .bfloat16, [], false⟩,
  ⟨key% "model.diffusion_model.double_blocks.5.img_attn.norm.query_norm.scale", [128], .bfloat16, [], false⟩,
  ⟨key% "model.diffusion_model.double_blocks.5.img_attn.proj.bias", [3072], .bfloat16, [], false⟩,
  ⟨key% "model.diffusion_model.double_blocks.5.img_attn.proj.weight", [3072, 3072], .bfloat16, [], false⟩,
  ⟨key% "model.diffusion_model.double_blocks.5.img_attn.qkv.bias", [9216], .bfloat16, [], false⟩,
  ⟨key% "model.diffusion_model.double_blocks.5.img_attn.qkv.weight", [9216, 3072], .bfloat16, [], false⟩,
  ⟨key% "model.diffusion_model.double_blocks.5.img_mlp.0.bias", [12288], .bfloat16, [], false⟩,
  ⟨key% "model.diffusion_model.double_blocks.5.img_mlp.0.weight", [12288, 3072], .bfloat16, [], false⟩,
  ⟨key% "model.diffusion_model.double_blocks.5.img_mlp.2.bias", [3072], .bfloat16, [], false⟩,
  ⟨key% "model.diffusion_model.double_blocks.5.img_mlp.2.weight", [3072, 12288], .bfloat16, [], false⟩,
  ⟨key% "model.diffusion_model.double_blocks.5.img_mod.lin.bias", [18432], .bfloat16, [], false⟩,
  ⟨key% "model.diffusion_model.double_blocks.5.img_mod.lin.weight", [18432, 3072], .bfloat16, [], false⟩,
  ⟨key% "model.diffusion_model.double_blocks.5.txt_attn.norm.key_norm.scale", [128], .bfloat16, [], false⟩,
  ⟨key% "model.diffusion_model.double_blocks.5.txt_attn.norm.query_norm.scale", [128], .bfloat16, [], false⟩,
  ⟨key% "model.diffusion_model.double_blocks.5.txt_attn.proj.bias", [3072], .bfloat16, [], false⟩,
  ⟨key% "model.diffusion_model.double_blocks.5.txt_attn.proj.weight", [3072, 3072], .bfloat16, [], false⟩,
  ⟨key% "model.diffusion_model.double_blocks.5.txt_attn.qkv.bias", [9216], .bfloat16, [], false⟩,
  ⟨key% "model.diffusion_model.double_blocks.5.txt_attn.qkv.weight", [9216, 3072], .bfloat16, [], false⟩,
  ⟨key% "model.diffusion_model.double_blocks.5.txt_mlp.0.bias", [12288], .bfloat16, [], false⟩,
  ⟨key% "model.diffusion_model.double_blocks.5.txt_mlp.0.weight", [12288, 3072], .bfloat16, [], false⟩,
  ⟨key% "model.diffusion_model.double_blocks.5.txt_mlp.2.bias", [3072], .bfloat16, [], false⟩,
  ⟨key% "model.diffusion_model.double_blocks.5.txt_mlp.2.weight", [3072, 12288], .bfloat16, [], false⟩,
  ⟨key% "model.diffusion_model.double_blocks.5.txt_mod.lin.bias", [18432], .bfloat16, [], false⟩,
  ⟨key% "model.diffusion_model.double_blocks.5.txt_mod.lin.weight", [18432, 3072], .bfloat16, [], false⟩,
  ⟨key% "model.diffusion_model.double_blocks.6.img_attn.norm.key_norm.scale", [128], .bfloat16, [], false⟩,
  ⟨key% "model.diffusion_model.double_blocks.6.img_attn.norm.query_norm.scale", [128], .bfloat16, [], false⟩,
  ⟨key% "model.diffusion_model.double_blocks.6.img_attn.proj.bias", [3072], .bfloat16, [], false⟩,
  ⟨key% "model.diffusion_model.double_blocks.6.img_attn.proj.weight", [3072, 3072], .bfloat16, [], false⟩,
  ⟨key% "model.diffusion_model.double_blocks.6.img_attn.qkv.bias", [9216], .bfloat16, [], false⟩,
  ⟨key% "model.diffusion_model.double_blocks.6.img_attn.qkv.weight", [9216, 3072], .bfloat16, [], false⟩,
  ⟨key% "model.diffusion_model.double_blocks.6.img_mlp.0.bias", [12288], .bfloat16, [], false⟩,
  ⟨key% "model.diffusion_model.double_blocks.6.img_mlp.0.weight", [12288, 3072], .bfloat16, [], false⟩,
  ⟨key% "model.diffusion_model.double_blocks.6.img_mlp.2.bias", [3072], .bfloat16, [], false⟩,
  ⟨key% "model.diffusion_model.double_blocks.6.img_mlp.2.weight", [3072, 12288], .bfloat16, [], false⟩,
  ⟨key% "model.diffusion_model.double_blocks.6.img_mod.lin.bias", [18432], .bfloat16, [], false⟩,
  ⟨key% "model.diffusion_model.double_blocks.6.img_mod.lin.weight", [18432, 3072], .bfloat16, [], false⟩,
  ⟨key% "model.diffusion_model.double_blocks.6.txt_attn.norm.key_norm.scale", [128], .bfloat16, [], false⟩,
  ⟨key% "model.diffusion_model.double_blocks.6.txt_attn.norm.query_norm.scale", [128], .bfloat16, [], false⟩,
  ⟨key% "model.diffusion_model.double_blocks.6.txt_attn.proj.bias", [3072], .bfloat16, [], false⟩,
  ⟨key% "model.diffusion_model.double_blocks.6.txt_attn.proj.weight", [3072, 3072], .bfloat16, [], false⟩,
  ⟨key% "model.diffusion_model.double_blocks.6.txt_attn.qkv.bias", [9216], .bfloat16, [], false⟩,
  ⟨key% "model.diffusion_model.double_blocks.6.txt_attn.qkv.weight", [9216, 3072], .bfloat16, [], false⟩,
  ⟨key% "model.diffusion_model.double_blocks.6.txt_mlp.0.bias", [12288], .bfloat16, [], false⟩,
  ⟨key% "model.diffusion_model.double_blocks.6.txt_mlp.0.weight", [12288, 3072], .bfloat16, [], false⟩,
  ⟨key% "model.diffusion_model.double_blocks.6.txt_mlp.2.bias", [3072], .bfloat16, [], false⟩,
  ⟨key% "model.diffusion_model.double_blocks.6.txt_mlp.2.weight", [3072, 12288], .bfloat16, [], false⟩,
  ⟨key% "model.diffusion_model.double_blocks.6.txt_mod.lin.bias", [18432], .bfloat16, [], false⟩,
  ⟨key% "model.diffusion_model.double_blocks.6.txt_mod.lin.weight", [18432, 3072], .bfloat16, [], false⟩,
  ⟨key% "model.diffusion_model.double_blocks.7.img_attn.norm.key_norm.scale", [128], .bfloat16, [], false⟩,
  ⟨key% "model.diffusion_model.double_blocks.7.img_attn.norm.query_norm.scale", [128], .bfloat16, [], false⟩,
  ⟨key% "model.diffusion_model.double_blocks.7.img_attn.proj.bias", [3072], .bfloat16, [], false⟩,
  ⟨key% "model.diffusion_model.double_blocks.7.img_attn.proj.weight", [3072, 3072], .bfloat16, [], false⟩,
  ⟨key% "model.diffusion_model.double_blocks.7.img_attn.qkv.bias", [9216], .bfloat16, [], false⟩,
  ⟨key% "model.diffusion_model.double_blocks.7.img_attn.qkv.weight", [9216, 3072], .bfloat16, [], false⟩,
  ⟨key% "model.diffusion_model.double_blocks.7.img_mlp.0.bias", [12288], .bfloat16, [], false⟩,
  ⟨key% "model.diffusion_model.double_blocks.7.img_mlp.0.weight", [12288, 3072], .bfloat16, [], false⟩,
  ⟨key% "model.diffusion_model.double_blocks.7.img_mlp.2.bias", [3072], .bfloat16, [], false⟩,
  ⟨key% "model.diffusion_model.double_blocks.7.img_mlp.2.weight", [3072, 12288], .bfloat16, [], false⟩,
  ⟨key% "model.diffusion_model.double_blocks.7.img_mod.lin.bias", [18432], .bfloat16, [], false⟩,
  ⟨key% "model.diffusion_model.double_blocks.7.img_mod.lin.weight", [18432, 3072], .bfloat16, [], false⟩,
  ⟨key% "model.diffusion_model.double_blocks.7.txt_attn.norm.key_norm.scale", [128], .bfloat16, [], false⟩,
  ⟨key% "model.diffusion_model.double_blocks.7.txt_attn.norm.query_norm.scale", [128], .bfloat16, [], false⟩,
  ⟨key% "model.diffusion_model.double_blocks.7.txt_attn.proj.bias", [3072], .bfloat16, [], false⟩,
  ⟨key% "model.diffusion_model.double_blocks.7.txt_attn.proj.weight", [3072, 3072], .bfloat16, [], false⟩]
noncomputable def diffuser4 : List Entry := [
  ⟨key% "model.diffusion_model.double_blocks.7.txt_attn.qkv.bias", [9216], .bfloat16, [], false⟩,
  ⟨key% "model.diffusion_model.double_blocks.7.txt_attn.qkv.weight", [9216, 3072], .bfloat16, [], false⟩,
  ⟨key% "model.diffusion_model.double_blocks.7.txt_mlp.0.bias", [12288], .bfloat16, [], false⟩,
  ⟨key% "model.diffusion_model.double_blocks.7.txt_mlp.0.weight", [12288, 3072], .bfloat16, [], false⟩,
  ⟨key% "model.diffusion_model.double_blocks.7.txt_mlp.2.bias", [3072], .bfloat16, [], false⟩,
  ⟨key% "model.diffusion_model.double_blocks.7.txt_mlp.2.weight", [3072, 12288], .bfloat16, [], false⟩,
  ⟨key% "model.diffusion_model.double_blocks.7.txt_mod.lin.bias", [18432], .bfloat16, [], false⟩,
  ⟨key% "model.diffusion_model.double_blocks.7.txt_mod.lin.weight", [18432, 3072], .bfloat16, [], false⟩,
  ⟨key% "model.diffusion_model.double_blocks.8.img_attn.norm.key_norm.scale", [128], .bfloat16, [], false⟩,
  ⟨key% "model.diffusion_model.double_blocks.8.img_attn.norm.query_norm.scale", [128], .bfloat16, [], false⟩,
  ⟨key% "model.diffusion_model.double_blocks.8.img_attn.proj.bias", [3072], .bfloat16, [], false⟩,
  ⟨key% "model.diffusion_model.double_blocks.8.img_attn.proj.weight", [3072, 3072], .bfloat16, [], false⟩,
  ⟨key% "model.diffusion_model.double_blocks.8.img_attn.qkv.bias", [9216], .bfloat16, [], false⟩,
  ⟨key% "model.diffusion_model.double_blocks.8.img_attn.qkv.weight", [9216, 3072], .bfloat16, [], false⟩,
  ⟨key% "model.diffusion_model.double_blocks.8.img_mlp.0.bias", [12288], .bfloat16, [], false⟩,
  ⟨key% "model.diffusion_model.double_blocks.8.img_mlp.0.weight", [12288, 3072], .bfloat16, [], false⟩,
  ⟨key% "model.diffusion_model.double_blocks.8.img_mlp.2.bias", [3072], .bfloat16, [], false⟩,
  ⟨key% "model.diffusion_model.double_blocks.8.img_mlp.2.weight", [3072, 12288], .bfloat16, [], false⟩,
  ⟨key% "model.diffusion_model.double_blocks.8.img_mod.lin.bias", [18432], .bfloat16, [], false⟩,
  ⟨key% "model.diffusion_model.double_blocks.8.img_mod.lin.weight", [18432, 3072], .bfloat16, [], false⟩,
  ⟨key% "model.diffusion_model.double_blocks.8.txt_attn.norm.key_norm.scale", [128], .bfloat16, [], false⟩,
  ⟨key% "model.diffusion_model.double_blocks.8.txt_attn.norm.query_norm.scale", [128], .bfloat16, [], false⟩,
  ⟨key% "model.diffusion_model.double_blocks.8.txt_attn.proj.bias", [3072], .bfloat16, [], false⟩,
  ⟨key% "model.diffusion_model.double_blocks.8.txt_attn.proj.weight", [3072, 3072], .bfloat16, [], false⟩,
  ⟨key% "model.diffusion_model.double_blocks.8.txt_attn.qkv.bias", [9216], .bfloat16, [], false⟩,
  ⟨key% "model.diffusion_model.double_blocks.8.txt_attn.qkv.weight", [9216, 3072], .bfloat16, [], false⟩,
  ⟨key% "model.diffusion_model.double_blocks.8.txt_mlp.0.bias", [12288], .bfloat16, [], false⟩,
  ⟨key% "model.diffusion_model.double_blocks.8.txt_mlp.0.weight", [12288, 3072], .bfloat16, [], false⟩,
  ⟨key% "model.diffusion_model.double_blocks.8.txt_mlp.2.bias", [3072], .bfloat16, [], false⟩,
  ⟨key% "model.diffusion_model.double_blocks.8.txt_mlp.2.weight", [3072, 12288], .bfloat16, [], false⟩,
  ⟨key% "model.diffusion_model.double_blocks.8.txt_mod.lin.bias", [18432], .bfloat16, [], false⟩,
  ⟨key% "model.diffusion_model.double_blocks.8.txt_mod.lin.weight", [18432, 3072], .bfloat16, [], false⟩,
  ⟨key% "model.diffusion_model.double_blocks.9.img_attn.norm.key_norm.scale", [128], .bfloat16, [], false⟩,
  ⟨key% "model.diffusion_model.double_blocks.9.img_attn.norm.query_norm.scale", [128], .bfloat16, [], false⟩,
  ⟨key% "model.diffusion_model.double_blocks.9.img_attn.proj.bias", [3072], .bfloat16, [], false⟩,
  ⟨key% "model.diffusion_model.double_blocks.9.img_attn.proj.weight", [3072, 3072], .bfloat16, [], false⟩,
  ⟨key% "model.diffusion_model.double_blocks.9.img_attn.qkv.bias", [9216], .bfloat16, [], false⟩,
  ⟨key% "model.diffusion_model.double_blocks.9.img_attn.qkv.weight", [9216, 3072], .bfloat16, [], false⟩,
  ⟨key% "model.diffusion_model.double_blocks.9.img_mlp.0.bias", [12288], .bfloat16, [], false⟩,
  ⟨key% "model.diffusion_model.double_blocks.9.img_mlp.0.weight", [12288, 3072], .bfloat16, [], false⟩,
  ⟨key% "model.diffusion_model.double_blocks.9.img_mlp.2.bias", [3072], .bfloat16, [], false⟩,
  ⟨key% "model.diffusion_model.double_blocks.9.img_mlp.2.weight", [3072, 12288], .bfloat16, [], false⟩,
  ⟨key% "model.diffusion_model.double_blocks.9.img_mod.lin.bias", [18432], .bfloat16, [], false⟩,
  ⟨key% "model.diffusion_model.double_blocks.9.img_mod.lin.weight", [18432, 3072], .bfloat16, [], false⟩,
  ⟨key% "model.diffusion_model.double_blocks.9.txt_attn.norm.key_norm.scale", [128], .bfloat16, [], false⟩,
  ⟨key% "model.diffusion_model.double_blocks.9.txt_attn.norm.query_norm.scale", [128], .bfloat16, [], false⟩,
  ⟨key% "model.diffusion_model.double_blocks.9.txt_attn.proj.bias", [3072], .bfloat16, [], false⟩,
  ⟨key% "model.diffusion_model.double_blocks.9.txt_attn.proj.weight", [3072, 3072], .bfloat16, [], false⟩,
  ⟨key% "model.diffusion_model.double_blocks.9.txt_attn.qkv.bias", [9216], .bfloat16, [], false⟩,
  ⟨key% "model.diffusion_model.double_blocks.9.txt_attn.qkv.weight", [9216, 3072], .bfloat16, [], false⟩,
  ⟨key% "model.diffusion_model.double_blocks.9.txt_mlp.0.bias", [12288], .bfloat16, [], false⟩,
  ⟨key% "model.diffusion_model.double_blocks.9.txt_mlp.0.weight", [12288, 3072], .bfloat16, [], false⟩,
  ⟨key% "model.diffusion_model.double_blocks.9.txt_mlp.2.bias", [3072], .bfloat16, [], false⟩,
  ⟨key% "model.diffusion_model.double_blocks.9.txt_mlp.2.weight", [3072, 12288], .bfloat16, [], false⟩,
  ⟨key% "model.diffusion_model.double_blocks.9.txt_mod.lin.bias", [18432], .bfloat16, [], false⟩,
  ⟨key% "model.diffusion_model.double_blocks.9.txt_mod.lin.weight", [18432, 3072], .bfloat16, [], false⟩,
  ⟨key% "model.diffusion_model.final_layer.adaLN_modulation.1.bias", [6144], .bfloat16, [], false⟩,
  ⟨key% "model.diffusion_model.final_layer.adaLN_modulation.1.weight", [6144, 3072], .bfloat16, [], false⟩,
  ⟨key% "model.diffusion_model.final_layer.linear.bias", [64], .bfloat16, [], false⟩,
  ⟨key% "model.diffusion_model.final_layer.linear.weight", [64, 3072], .bfloat16, [], false⟩,
  ⟨key% "model.diffusion_model.guidance_in.in_layer.bias", [3072], .bfloat16, [], false⟩,
  ⟨key% "model.diffusion_model.guidance_in.in_layer.weight", [3072, 256], .bfloat16, [], false⟩,
  ⟨key% "model.diffusion_model.guidance_in.out_layer.bias", [3072], .bfloat16, [], false⟩,
  ⟨key% "model.diffusion_model.guidance_in.out_layer.weight", [3072, 3072], .bfloat16, [], false⟩,
  ⟨key% "model.diffusion_model.img_in.bias", [3072], .bfloat16, [], false⟩,
  ⟨key% "model.diffusion_model.img_in.weight", [3072, 64], .bfloat16, [], false⟩,
  ⟨key% "model.diffusion_model.single_blocks.0.linear1.bias", [21504], .bfloat16, [], false⟩,
  ⟨key% "model.diffusion_model.single_blocks.0.linear1.weight", [21504, 3072], .bfloat16, [], false⟩,
  ⟨key% "model.diffusion_model.single_blocks.0.linear2.bias", [3072], .bfloat16, [], false⟩,
  ⟨key% "model.diffusion_model.single_blocks.0.linear2.weight", [3072, 15360], .bfloat16, [], false⟩,
  ⟨key% "model.diffusion_model.single_blocks.0.modulation.lin.bias", [9216], .bfloat16, [], false⟩,
  ⟨key% "model.diffusion_model.single_blocks.0.modulation.lin.weight", [9216, 3072], .bfloat16, [], false⟩,
  ⟨key% "model.diffusion_model.single_blocks.0.norm.key_norm.scale", [128], .bfloat16, [], false⟩,
  ⟨key% "model.diffusion_model.single_blocks.0.norm.query_norm.scale", [128], .bfloat16, [], false⟩,
  ⟨key% "model.diffusion_model.single_blocks.1.linear1.bias", [21504], .bfloat16, [], false⟩,
  ⟨key% "model.diffusion_model.single_blocks.1.linear1.weight", [21504, 3072], .bfloat16, [], false⟩,
  ⟨key% "model.diffusion_model.single_blocks.1.linear2.bias", [3072], .bfloat16, [], false⟩,
  ⟨key% "model.diffusion_model.single_blocks.1.linear2.weight", [3072, 15360], .bfloat16, [], false⟩,
  ⟨key% "model.diffusion_model.single_blocks.1.modulation.lin.bias", [9216], .bfloat16, [], false⟩,
  ⟨key% "model.diffusion_model.single_blocks.1.modulation.lin.weight", [9216, 3072], .bfloat16, [], false⟩,
  ⟨key% "model.diffusion_model.single_blocks.1.norm.key_norm.scale", [128], .bfloat16, [], false⟩,
  ⟨key% "model.diffusion_model.single_blocks.1.norm.query_norm.scale", [128], .bfloat16, [], false⟩,
  ⟨key% "model.diffusion_model.single_blocks.10.linear1.bias", [21504], .bfloat16, [], false⟩,
  ⟨key% "model.diffusion_model.single_blocks.10.linear1.weight", [21504, 3072], .bfloat16, [], false⟩,
  ⟨key% "model.diffusion_model.single_blocks.10.linear2.bias", [3072], .bfloat16, [], false⟩,
  ⟨key% "model.diffusion_model.single_blocks.10.linear2.weight", [3072, 15360], .bfloat16, [], false⟩,
  ⟨key% "model.diffusion_model.single_blocks.10.modulation.lin.bias", [9216], .bfloat16, [], false⟩,
  ⟨key% "model.diffusion_model.single_blocks.10.modulation.lin.weight", [9216, 3072], .bfloat16, [], false⟩,
  ⟨key% "model.diffusion_model.single_blocks.10.norm.key_norm.scale", [128], .bfloat16, [], false⟩,
  ⟨key% "model.diffusion_model.single_blocks.10.norm.query_norm.scale", [128], .bfloat16, [], false⟩,
  ⟨key% "model.diffusion_model.single_blocks.11.linear1.bias", [21504], .bfloat16, [], false⟩,
  ⟨key% "model.diffusion_model.single_blocks.11.linear1.weight", [21504, 3072], .bfloat16, [], false⟩,
  ⟨key% "model.diffusion_model.single_blocks.11.linear2.bias", [3072], .bfloat16, [], false⟩,
  ⟨key% "model.diffusion_model.single_blocks.11.linear2.weight", [3072, 15360], .bfloat16, [], false⟩,
  ⟨key% "model.diffusion_model.single_blocks.11.modulation.lin.bias", [9216], .bfloat16, [], false⟩,
  ⟨key% "model.diffusion_model.single_blocks.11.modulation.lin.weight", [9216, 3072], .bfloat16, [], false⟩,
  ⟨key% "model.diffusion_model.single_blocks.11.norm.key_norm.scale", [128], .bfloat16, [], false⟩,
  ⟨key% "model.diffusion_model.single_blocks.11.norm.query_norm.scale", [128], .bfloat16, [], false⟩,
  ⟨key% "model.diffusion_model.single_blocks.12.linear1.bias", [21504], .bfloat16, [], false⟩,
  ⟨key% "model.diffusion_model.single_blocks.12.linear1.weight", [21504, 3072], .bfloat16, [], false⟩]
noncomputable def diffuser5 : List Entry := [
  ⟨key% "model.diffusion_model.single_blocks.12.linear2.bias", [3072], .bfloat16, [], false⟩,
  ⟨key% "model.diffusion_model.single_blocks.12.linear2.weight", [3072, 15360], .bfloat16, [], false⟩,
  ⟨key% "model.diffusion_model.single_blocks.12.modulation.lin.bias", [9216], .bfloat16, [], false⟩,
  ⟨key% "model.diffusion_model.single_blocks.12.modulation.lin.weight", [9216, 3072], .bfloat16, [], false⟩,
  ⟨key% "model.diffusion_model.single_blocks.12.norm.key_norm.scale", [128], .bfloat16, [], false⟩,
  ⟨key% "model.diffusion_model.single_blocks.12.norm.query_norm.scale", [128], .bfloat16, [], false⟩,
  ⟨key% "model.diffusion_model.single_blocks.13.linear1.bias", [21504], .bfloat16, [], false⟩,
  ⟨key% "model.diffusion_model.single_blocks.13.linear1.weight", [21504, 3072], .bfloat16, [], false⟩,
  ⟨key% "model.diffusion_model.single_blocks.13.linear2.bias", [3072], .bfloat16, [], false⟩,
  ⟨key% "model.diffusion_model.single_blocks.13.linear2.weight", [3072, 15360], .bfloat16, [], false⟩,
  ⟨key% "model.diffusion_model.single_blocks.13.modulation.lin.bias", [9216], .bfloat16, [], false⟩,
  ⟨key% "model.diffusion_model.single_blocks.13.modulation.lin.weight", [9216, 3072], .bfloat16, [], false⟩,
  ⟨key% "model.diffusion_model.single_blocks.13.norm.key_norm.scale", [128], .bfloat16, [], false⟩,
  ⟨key% "model.diffusion_model.single_blocks.13.norm.query_norm.scale", [128], .bfloat16, [], false⟩,
  ⟨key% "model.diffusion_model.single_blocks.14.linear1.bias", [21504], .bfloat16, [], false⟩,
  ⟨key% "model.diffusion_model.single_blocks.14.linear1.weight", [21504, 3072], .bfloat16, [], false⟩,
  ⟨key% "model.diffusion_model.single_blocks.14.linear2.bias", [3072], .bfloat16, [], false⟩,
  ⟨key% "model.diffusion_model.single_blocks.14.linear2.weight", [3072, 15360], .bfloat16, [], false⟩,
  ⟨key% "model.diffusion_model.single_blocks.14.modulation.lin.bias", [9216], .bfloat16, [], false⟩,
  ⟨key% "model.diffusion_model.single_blocks.14.modulation.lin.weight", [9216, 3072], .bfloat16, [], false⟩,
  ⟨key% "model.diffusion_model.single_blocks.14.norm.key_norm.scale", [128], .bfloat16, [], false⟩,
  ⟨key% "model.diffusion_model.single_blocks.14.norm.query_norm.scale", [128], .bfloat16, [], false⟩,
  ⟨key% "model.diffusion_model.single_blocks.15.linear1.bias", [21504], .bfloat16, [], false⟩,
  ⟨key% "model.diffusion_model.single_blocks.15.linear1.weight", [21504, 3072], .bfloat16, [], false⟩,
  ⟨key% "model.diffusion_model.single_blocks.15.linear2.bias", [3072], .bfloat16, [], false⟩,
  ⟨key% "model.diffusion_model.single_blocks.15.linear2.weight", [3072, 15360], .bfloat16, [], false⟩,
  ⟨key% "model.diffusion_model.single_blocks.15.modulation.lin.bias", [9216], .bfloat16, [], false⟩,
  ⟨key% "model.diffusion_model.single_blocks.15.modulation.lin.weight", [9216, 3072], .bfloat16, [], false⟩,
  ⟨key% "model.diffusion_model.single_blocks.15.norm.key_norm.scale", [128], .bfloat16, [], false⟩,
  ⟨key% "model.diffusion_model.single_blocks.15.norm.query_norm.scale", [128], .bfloat16, [], false⟩,
  ⟨key% "model.diffusion_model.single_blocks.16.linear1.bias", [21504], .bfloat16, [], false⟩,
  ⟨key% "model.diffusion_model.single_blocks.16.linear1.weight", [21504, 3072], .bfloat16, [], false⟩,
  ⟨key% "model.diffusion_model.single_blocks.16.linear2.bias", [3072], .bfloat16, [], false⟩,
  ⟨key% "model.diffusion_model.single_blocks.16.linear2.weight", [3072, 15360], .bfloat16, [], false⟩,
  ⟨key% "model.diffusion_model.single_blocks.16.modulation.lin.bias", [9216], .bfloat16, [], false⟩,
  ⟨key% "model.diffusion_model.single_blocks.16.modulation.lin.weight", [9216, 3072], .bfloat16, [], false⟩,
  ⟨key% "model.diffusion_model.single_blocks.16.norm.key_norm.scale", [128], .bfloat16, [], false⟩,
  ⟨key% "model.diffusion_model.single_blocks.16.norm.query_norm.scale", [128], .bfloat16, [], false⟩,
  ⟨key% "model.diffusion_model.single_blocks.17.linear1.bias", [21504], .bfloat16, [], false⟩,
  ⟨key% "model.diffusion_model.single_blocks.17.linear1.weight", [21504, 3072], .bfloat16, [], false⟩,
  ⟨key% "model.diffusion_model.single_blocks.17.linear2.bias", [3072], .bfloat16, [], false⟩,
  ⟨key% "model.diffusion_model.single_blocks.17.linear2.weight", [3072, 15360], .bfloat16, [], false⟩,
  ⟨key% "model.diffusion_model.single_blocks.17.modulation.lin.bias", [9216], .bfloat16, [], false⟩,
  ⟨key% "model.diffusion_model.single_blocks.17.modulation.lin.weight", [9216, 3072], .bfloat16, [], false⟩,
  ⟨key% "model.diffusion_model.single_blocks.17.norm.key_norm.scale", [128], .bfloat16, [], false⟩,
  ⟨key% "model.diffusion_model.single_blocks.17.norm.query_norm.scale", [128], .bfloat16, [], false⟩,
  ⟨key% "model.diffusion_model.single_blocks.18.linear1.bias", [21504], .bfloat16, [], false⟩,
  ⟨key% "model.diffusion_model.single_blocks.18.linear1.weight", [21504, 3072], .bfloat16, [], false⟩,
  ⟨key% "model.diffusion_model.single_blocks.18.linear2.bias", [3072], .bfloat16, [], false⟩,
  ⟨key% "model.diffusion_model.single_blocks.18.linear2.weight", [3072, 15360], .bfloat16, [], false⟩,
  ⟨key% "model.diffusion_model.single_blocks.18.modulation.lin.bias", [9216], .bfloat16, [], false⟩,
  ⟨key% "model.diffusion_model.single_blocks.18.modulation.lin.weight", [9216, 3072], .bfloat16, [], false⟩,
  ⟨key% "model.diffusion_model.single_blocks.18.norm.key_norm.scale", [128], .bfloat16, [], false⟩,
  ⟨key% "model.diffusion_model.single_blocks.18.norm.query_norm.scale", [128], .bfloat16, [], false⟩,
  ⟨key% "model.diffusion_model.single_blocks.19.linear1.bias", [21504], .bfloat16, [], false⟩,
  ⟨key% "model.diffusion_model.single_blocks.19.linear1.weight", [21504, 3072], .bfloat16, [], false⟩,
  ⟨key% "model.diffusion_model.single_blocks.19.linear2.bias", [3072], .bfloat16, [], false⟩,
  ⟨key% "model.diffusion_model.single_blocks.19.linear2.weight", [3072, 15360], .bfloat16, [], false⟩,
  ⟨key% "model.diffusion_model.single_blocks.19.modulation.lin.bias", [9216], .bfloat16, [], false⟩,
  ⟨key% "model.diffusion_model.single_blocks.19.modulation.lin.weight", [9216, 3072], .bfloat16, [], false⟩,
  ⟨key% "model.diffusion_model.single_blocks.19.norm.key_norm.scale", [128], .bfloat16, [], false⟩,
  ⟨key% "model.diffusion_model.single_blocks.19.norm.query_norm.scale", [128], .bfloat16, [], false⟩,
  ⟨key% "model.diffusion_model.single_blocks.2.linear1.bias", [21504], .bfloat16, [], false⟩,
  ⟨key% "model.diffusion_model.single_blocks.2.linear1.weight", [21504, 3072], .bfloat16, [], false⟩,
  ⟨key% "model.diffusion_model.single_blocks.2.linear2.bias", [3072], .bfloat16, [], false⟩,
  ⟨key% "model.diffusion_model.single_blocks.2.linear2.weight", [3072, 15360], .bfloat16, [], false⟩,
  ⟨key% "model.diffusion_model.single_blocks.2.modulation.lin.bias", [9216], .bfloat16, [], false⟩,
  ⟨key% "model.diffusion_model.single_blocks.2.modulation.lin.weight", [9216, 3072], .bfloat16, [], false⟩,
  ⟨key% "model.diffusion_model.single_blocks.2.norm.key_norm.scale", [128], .bfloat16, [], false⟩,
  ⟨key% "model.diffusion_model.single_blocks.2.norm.query_norm.scale", [128], .bfloat16, [], false⟩,
  ⟨key% "model.diffusion_model.single_blocks.20.linear1.bias", [21504], .bfloat16, [], false⟩,
  ⟨key% "model.diffusion_model.single_blocks.20.linear1.weight", [21504, 3072], .bfloat16, [], false⟩,
  ⟨key% "model.diffusion_model.single_blocks.20.linear2.bias", [3072], .bfloat16, [], false⟩,
  ⟨key% "model.diffusion_model.single_blocks.20.linear2.weight", [3072, 15360], .bfloat16, [], false⟩,
  ⟨key% "model.diffusion_model.single_blocks.20.modulation.lin.bias", [9216], .bfloat16, [], false⟩,
  ⟨key% "model.diffusion_model.single_blocks.20.modulation.lin.weight", [9216, 3072], .bfloat16, [], false⟩,
  ⟨key% "model.diffusion_model.single_blocks.20.norm.key_norm.scale", [128], .bfloat16, [], false⟩,
  ⟨key% "model.diffusion_model.single_blocks.20.norm.query_norm.scale", [128], .bfloat16, [], false⟩,
  ⟨key% "model.diffusion_model.single_blocks.21.linear1.bias", [21504], .bfloat16, [], false⟩,
  ⟨key% "model.diffusion_model.single_blocks.21.linear1.weight", [21504, 3072], .bfloat16, [], false⟩,
  ⟨key% "model.diffusion_model.single_blocks.21.linear2.bias", [3072], .bfloat16, [], false⟩,
  ⟨key% "model.diffusion_model.single_blocks.21.linear2.weight", [3072, 15360], .bfloat16, [], false⟩,
  ⟨key% "model.diffusion_model.single_blocks.21.modulation.lin.bias", [9216], .bfloat16, [], false⟩,
  ⟨key% "model.diffusion_model.single_blocks.21.modulation.lin.weight", [9216, 3072], .bfloat16, [], false⟩,
  ⟨key% "model.diffusion_model.single_blocks.21.norm.key_norm.scale", [128], .bfloat16, [], false⟩,
  ⟨key% "model.diffusion_model.single_blocks.21.norm.query_norm.scale", [128], .bfloat16, [], false⟩,
  ⟨key% "model.diffusion_model.single_blocks.22.linear1.bias", [21504], .bfloat16, [], false⟩,
  ⟨key% "model.diffusion_model.single_blocks.22.linear1.weight", [21504, 3072], .bfloat16, [], false⟩,
  ⟨key% "model.diffusion_model.single_blocks.22.linear2.bias", [3072], .bfloat16, [], false⟩,
  ⟨key% "model.diffusion_model.single_blocks.22.linear2.weight", [3072, 15360], .bfloat16, [], false⟩,
  ⟨key% "model.diffusion_model.single_blocks.22.modulation.lin.bias", [9216], .bfloat16, [], false⟩,
  ⟨key% "model.diffusion_model.single_blocks.22.modulation.lin.weight", [9216, 3072], .bfloat16, [], false⟩,
  ⟨key% "model.diffusion_model.single_blocks.22.norm.key_norm.scale", [128], .bfloat16, [], false⟩,
  ⟨key% "model.diffusion_model.single_blocks.22.norm.query_norm.scale", [128], .bfloat16, [], false⟩,
  ⟨key% "model.diffusion_model.single_blocks.23.linear1.bias", [21504], .bfloat16, [], false⟩,
  ⟨key% "model.diffusion_model.single_blocks.23.linear1.weight", [21504, 3072], .bfloat16, [], false⟩,
  ⟨key% "model.diffusion_model.single_blocks.23.linear2.bias", [3072], .bfloat16, [], false⟩,
  ⟨key% "model.diffusion_model.single_blocks.23.linear2.weight", [3072, 15360], .bfloat16, [], false⟩,
  ⟨key% "model.diffusion_model.single_blocks.23.modulation.lin.bias", [9216], .bfloat16, [], false⟩,
  ⟨key% "model.diffusion_model.single_blocks.23.modulation.lin.weight", [9216, 3072], .bfloat16, [], false⟩]
noncomputable def diffuser6 : List Entry := [
  ⟨key% "model.diffusion_model.single_blocks.23.norm.key_norm.scale", [128], .bfloat16, [], false⟩,
  ⟨key% "model.diffusion_model.single_blocks.23.norm.query_norm.scale", [128], .bfloat16, [], false⟩,
  ⟨key% "model.diffusion_model.single_blocks.24.linear1.bias", [21504], .bfloat16, [], false⟩,
  ⟨key% "model.diffusion_model.single_blocks.24.linear1.weight", [21504, 3072], .bfloat16, [], false⟩,
  ⟨key% "model.diffusion_model.single_blocks.24.linear2.bias", [3072], .bfloat16, [], false⟩,
  ⟨key% "model.diffusion_model.single_blocks.24.linear2.weight", [3072, 15360], .bfloat16, [], false⟩,
  ⟨key% "model.diffusion_model.single_blocks.24.modulation.lin.bias", [9216], .bfloat16, [], false⟩,
  ⟨key% "model.diffusion_model.single_blocks.24.modulation.lin.weight", [9216, 3072], .bfloat16, [], false⟩,
  ⟨key% "model.diffusion_model.single_blocks.24.norm.key_norm.scale", [128], .bfloat16, [], false⟩,
  ⟨key% "model.diffusion_model.single_blocks.24.norm.query_norm.scale", [128], .bfloat16, [], false⟩,
  ⟨key% "model.diffusion_model.single_blocks.25.linear1.bias", [21504], .bfloat16, [], false⟩,
  ⟨key% "model.diffusion_model.single_blocks.25.linear1.weight", [21504, 3072], .bfloat16, [], false⟩,
  ⟨key% "model.diffusion_model.single_blocks.25.linear2.bias", [3072], .bfloat16, [], false⟩,
  ⟨key% "model.diffusion_model.single_blocks.25.linear2.weight", [3072, 15360], .bfloat16, [], false⟩,
  ⟨key% "model.diffusion_model.single_blocks.25.modulation.lin.bias", [9216], .bfloat16, [], false⟩,
  ⟨key% "model.diffusion_model.single_blocks.25.modulation.lin.weight", [9216, 3072], .bfloat16, [], false⟩,
  ⟨key% "model.diffusion_model.single_blocks.25.norm.key_norm.scale", [128], .bfloat16, [], false⟩,
  ⟨key% "model.diffusion_model.single_blocks.25.norm.query_norm.scale", [128], .bfloat16, [], false⟩,
  ⟨key% "model.diffusion_model.single_blocks.26.linear1.bias", [21504], .bfloat16, [], false⟩,
  ⟨key% "model.diffusion_model.single_blocks.26.linear1.weight", [21504, 3072], .bfloat16, [], false⟩,
  ⟨key% "model.diffusion_model.single_blocks.26.linear2.bias", [3072], .bfloat16, [], false⟩,
  ⟨key% "model.diffusion_model.single_blocks.26.linear2.weight", [3072, 15360], .bfloat16, [], false⟩,
  ⟨key% "model.diffusion_model.single_blocks.26.modulation.lin.bias", [9216], .bfloat16, [], false⟩,
  ⟨key% "model.diffusion_model.single_blocks.26.modulation.lin.weight", [9216, 3072], .bfloat16, [], false⟩,
  ⟨key% "model.diffusion_model.single_blocks.26.norm.key_norm.scale", [128], .bfloat16, [], false⟩,
  ⟨key% "model.diffusion_model.single_blocks.26.norm.query_norm.scale", [128], .bfloat16, [], false⟩,
  ⟨key% "model.diffusion_model.single_blocks.27.linear1.bias", [21504], .bfloat16, [], false⟩,
  ⟨key% "model.diffusion_model.single_blocks.27.linear1.weight", [21504, 3072], .bfloat16, [], false⟩,
  ⟨key% "model.diffusion_model.single_blocks.27.linear2.bias", [3072], .bfloat16, [], false⟩,
  ⟨key% "model.diffusion_model.single_blocks.27.linear2.weight", [3072, 15360], .bfloat16, [], false⟩,
  ⟨key% "model.diffusion_model.single_blocks.27.modulation.lin.bias", [9216], .bfloat16, [], false⟩,
  ⟨key% "model.diffusion_model.single_blocks.27.modulation.lin.weight", [9216, 3072], .bfloat16, [], false⟩,
  ⟨key% "model.diffusion_model.single_blocks.27.norm.key_norm.scale", [128], .bfloat16, [], false⟩,
  ⟨key% "model.diffusion_model.single_blocks.27.norm.query_norm.scale", [128], .bfloat16, [], false⟩,
  ⟨key% "model.diffusion_model.single_blocks.28.linear1.bias", [21504], .bfloat16, [], false⟩,
  ⟨key% "model.diffusion_model.single_blocks.28.linear1.weight", [21504, 3072], .bfloat16, [], false⟩,
  ⟨key% "model.diffusion_model.single_blocks.28.linear2.bias", [3072], .bfloat16, [], false⟩,
  ⟨key% "model.diffusion_model.single_blocks.28.linear2.weight", [3072, 15360], .bfloat16, [], false⟩,
  ⟨key% "model.diffusion_model.single_blocks.28.modulation.lin.bias", [9216], .bfloat16, [], false⟩,
  ⟨key% "model.diffusion_model.single_blocks.28.modulation.lin.weight", [9216, 3072], .bfloat16, [], false⟩,
  ⟨key% "model.diffusion_model.single_blocks.28.norm.key_norm.scale", [128], .bfloat16, [], false⟩,
  ⟨key% "model.diffusion_model.single_blocks.28.norm.query_norm.scale", [128], .bfloat16, [], false⟩,
  ⟨key% "model.diffusion_model.single_blocks.29.linear1.bias", [21504], .bfloat16, [], false⟩,
  ⟨key% "model.diffusion_model.single_blocks.29.linear1.weight", [21504, 3072], .bfloat16, [], false⟩,
  ⟨key% "model.diffusion_model.single_blocks.29.linear2.bias", [3072], .bfloat16, [], false⟩,
  ⟨key% "model.diffusion_model.single_blocks.29.linear2.weight", [3072, 15360], .bfloat16, [], false⟩,
  ⟨key% "model.diffusion_model.single_blocks.29.modulation.lin.bias", [9216], .bfloat16, [], false⟩,
  ⟨key% "model.diffusion_model.single_blocks.29.modulation.lin.weight", [9216, 3072], .bfloat16, [], false⟩,
  ⟨key% "model.diffusion_model.single_blocks.29.norm.key_norm.scale", [128], .bfloat16, [], false⟩,
  ⟨key% "model.diffusion_model.single_blocks.29.norm.query_norm.scale", [128], .bfloat16, [], false⟩,
  ⟨key% "model.diffusion_model.single_blocks.3.linear1.bias", [21504], .bfloat16, [], false⟩,
  ⟨key% "model.diffusion_model.single_blocks.3.linear1.weight", [21504, 3072], .bfloat16, [], false⟩,
  ⟨key% "model.diffusion_model.single_blocks.3.linear2.bias", [3072], .bfloat16, [], false⟩,
  ⟨key% "model.diffusion_model.single_blocks.3.linear2.weight", [3072, 15360], .bfloat16, [], false⟩,
  ⟨key% "model.diffusion_model.single_blocks.3.modulation.lin.bias", [9216], .bfloat16, [], false⟩,
  ⟨key% "model.diffusion_model.single_blocks.3.modulation.lin.weight", [9216, 3072], .bfloat16, [], false⟩,
  ⟨key% "model.diffusion_model.single_blocks.3.norm.key_norm.scale", [128], .bfloat16, [], false⟩,
  ⟨key% "model.diffusion_model.single_blocks.3.norm.query_norm.scale", [128], .bfloat16, [], false⟩,
  ⟨key% "model.diffusion_model.single_blocks.30.linear1.bias", [21504], .bfloat16, [], false⟩,
  ⟨key% "model.diffusion_model.single_blocks.30.linear1.weight", [21504, 3072], .bfloat16, [], false⟩,
  ⟨key% "model.diffusion_model.single_blocks.30.linear2.bias", [3072], .bfloat16, [], false⟩,
  ⟨key% "model.diffusion_model.single_blocks.30.linear2.weight", [3072, 15360], .bfloat16, [], false⟩,
  ⟨key% "model.diffusion_model.single_blocks.30.modulation.lin.bias", [9216], .bfloat16, [], false⟩,
  ⟨key% "model.diffusion_model.single_blocks.30.modulation.lin.weight", [9216, 3072], .bfloat16, [], false⟩,
  ⟨key% "model.diffusion_model.single_blocks.30.norm.key_norm.scale", [128], .bfloat16, [], false⟩,
  ⟨key% "model.diffusion_model.single_blocks.30.norm.query_norm.scale", [128], .bfloat16, [], false⟩,
  ⟨key% "model.diffusion_model.single_blocks.31.linear1.bias", [21504], .bfloat16, [], false⟩,
  ⟨key% "model.diffusion_model.single_blocks.31.linear1.weight", [21504, 3072], .bfloat16, [], false⟩,
  ⟨key% "model.diffusion_model.single_blocks.31.linear2.bias", [3072], .bfloat16, [], false⟩,
  ⟨key% "model.diffusion_model.single_blocks.31.linear2.weight", [3072, 15360], .bfloat16, [], false⟩,
  ⟨key% "model.diffusion_model.single_blocks.31.modulation.lin.bias", [9216], .bfloat16, [], false⟩,
  ⟨key% "model.diffusion_model.single_blocks.31.modulation.lin.weight", [9216, 3072], .bfloat16, [], false⟩,
  ⟨key% "model.diffusion_model.single_blocks.31.norm.key_norm.scale", [128], .bfloat16, [], false⟩,
  ⟨key% "model.diffusion_model.single_blocks.31.norm.query_norm.scale", [128], .bfloat16, [], false⟩,
  ⟨key% "model.diffusion_model.single_blocks.32.linear1.bias", [21504], .bfloat16, [], false⟩,
  ⟨key% "model.diffusion_model.single_blocks.32.linear1.weight", [21504, 3072], .bfloat16, [], false⟩,
  ⟨key% "model.diffusion_model.single_blocks.32.linear2.bias", [3072], .bfloat16, [], false⟩,
  ⟨key% "model.diffusion_model.single_blocks.32.linear2.weight", [3072, 15360], .bfloat16, [], false⟩,
  ⟨key% "model.diffusion_model.single_blocks.32.modulation.lin.bias", [9216], .bfloat16, [], false⟩,
  ⟨key% "model.diffusion_model.single_blocks.32.modulation.lin.weight", [9216, 3072], .bfloat16, [], false⟩,
  ⟨key% "model.diffusion_model.single_blocks.32.norm.key_norm.scale", [128], .bfloat16, [], false⟩,
  ⟨key% "model.diffusion_model.single_blocks.32.norm.query_norm.scale", [128], .bfloat16, [], false⟩,
  ⟨key% "model.diffusion_model.single_blocks.33.linear1.bias", [21504], .bfloat16, [], false⟩,
  ⟨key% "model.diffusion_model.single_blocks.33.linear1.weight", [21504, 3072], .bfloat16, [], false⟩,
  ⟨key% "model.diffusion_model.single_blocks.33.linear2.bias", [3072], .bfloat16, [], false⟩,
  ⟨key% "model.diffusion_model.single_blocks.33.linear2.weight", [3072, 15360], .bfloat16, [], false⟩,
  ⟨key% "model.diffusion_model.single_blocks.33.modulation.lin.bias", [9216], .bfloat16, [], false⟩,
  ⟨key% "model.diffusion_model.single_blocks.33.modulation.lin.weight", [9216, 3072], .bfloat16, [], false⟩,
  ⟨key% "model.diffusion_model.single_blocks.33.norm.key_norm.scale", [128], .bfloat16, [], false⟩,
  ⟨key% "model.diffusion_model.single_blocks.33.norm.query_norm.scale", [128], .bfloat16, [], false⟩,
  ⟨key% "model.diffusion_model.single_blocks.34.linear1.bias", [21504], .bfloat16, [], false⟩,
  ⟨key% "model.diffusion_model.single_blocks.34.linear1.weight", [21504, 3072], .bfloat16, [], false⟩,
  ⟨key% "model.diffusion_model.single_blocks.34.linear2.bias", [3072], .bfloat16, [], false⟩,
  ⟨key% "model.diffusion_model.single_blocks.34.linear2.weight", [3072, 15360], .bfloat16, [], false⟩,
  ⟨key% "model.diffusion_model.single_blocks.34.modulation.lin.bias", [9216], .bfloat16, [], false⟩,
  ⟨key% "model.diffusion_model.single_blocks.34.modulation.lin.weight", [9216, 3072], .bfloat16, [], false⟩,
  ⟨key% "model.diffusion_model.single_blocks.34.norm.key_norm.scale", [128], .bfloat16, [], false⟩,
  ⟨key% "model.diffusion_model.single_blocks.34.norm.query_norm.scale", [128], .bfloat16, [], false⟩,
  ⟨key% "model.diffusion_model.single_blocks.35.linear1.bias", [21504], .bfloat16, [], false⟩,
  ⟨key% "model.diffusion_model.single_blocks.35.linear1.weight", [21504, 3072], .bfloat16, [], false⟩]
noncomputable def diffuser7 : List Entry := [
  ⟨key% "model.diffusion_model.single_blocks.35.linear2.bias", [3072], .bfloat16, [], false⟩,
  ⟨key% "model.diffusion_model.single_blocks.35.linear2.weight", [3072, 15360], .bfloat16, [], false⟩,
  ⟨key% "model.diffusion_model.single_blocks.35.modulation.lin.bias", [9216], .bfloat16, [], false⟩,
  ⟨key% "model.diffusion_model.single_blocks.35.modulation.lin.weight", [9216, 3072], .bfloat16, [], false⟩,
  ⟨key% "model.diffusion_model.single_blocks.35.norm.key_norm.scale", [128], .bfloat16, [], false⟩,
  ⟨key% "model.diffusion_model.single_blocks.35.norm.query_norm.scale", [128], .bfloat16, [], false⟩,
  ⟨key% "model.diffusion_model.single_blocks.36.linear1.bias", [21504], .bfloat16, [], false⟩,
  ⟨key% "model.diffusion_model.single_blocks.36.linear1.weight", [21504, 3072], .bfloat16, [], false⟩,
  ⟨key% "model.diffusion_model.single_blocks.36.linear2.bias", [3072], .bfloat16, [], false⟩,
  ⟨key% "model.diffusion_model.single_blocks.36.linear2.weight", [3072, 15360], .bfloat16, [], false⟩,
  ⟨key% "model.diffusion_model.single_blocks.36.modulation.lin.bias", [9216], .bfloat16, [], false⟩,
  ⟨key% "model.diffusion_model.single_blocks.36.modulation.lin.weight", [9216, 3072], .bfloat16, [], false⟩,
  ⟨key% "model.diffusion_model.single_blocks.36.norm.key_norm.scale", [128], .bfloat16, [], false⟩,
  ⟨key% "model.diffusion_model.single_blocks.36.norm.query_norm.scale", [128], .bfloat16, [], false⟩,
  ⟨key% "model.diffusion_model.single_blocks.37.linear1.bias", [21504], .bfloat16, [], false⟩,
  ⟨key% "model.diffusion_model.single_blocks.37.linear1.weight", [21504, 3072], .bfloat16, [], false⟩,
  ⟨key% "model.diffusion_model.single_blocks.37.linear2.bias", [3072], .bfloat16, [], false⟩,
  ⟨key% "model.diffusion_model.single_blocks.37.linear2.weight", [3072, 15360], .bfloat16, [], false⟩,
  ⟨key% "model.diffusion_model.single_blocks.37.modulation.lin.bias", [9216], .bfloat16, [], false⟩,
  ⟨key% "model.diffusion_model.single_blocks.37.modulation.lin.weight", [9216, 3072], .bfloat16, [], false⟩,
  ⟨key% "model.diffusion_model.single_blocks.37.norm.key_norm.scale", [128], .bfloat16, [], false⟩,
  ⟨key% "model.diffusion_model.single_blocks.37.norm.query_norm.scale", [128], .bfloat16, [], false⟩,
  ⟨key% "model.diffusion_model.single_blocks.4.linear1.bias", [21504], .bfloat16, [], false⟩,
  ⟨key% "model.diffusion_model.single_blocks.4.linear1.weight", [21504, 3072], .bfloat16, [], false⟩,
  ⟨key% "model.diffusion_model.single_blocks.4.linear2.bias", [3072], .bfloat16, [], false⟩,
  ⟨key% "model.diffusion_model.single_blocks.4.linear2.weight", [3072, 15360], .bfloat16, [], false⟩,
  ⟨key% "model.diffusion_model.single_blocks.4.modulation.lin.bias", [9216], .bfloat16, [], false⟩,
  ⟨key% "model.diffusion_model.single_blocks.4.modulation.lin.weight", [9216, 3072], .bfloat16, [], false⟩,
  ⟨key% "model.diffusion_model.single_blocks.4.norm.key_norm.scale", [128], .bfloat16, [], false⟩,
  ⟨key% "model.diffusion_model.single_blocks.4.norm.query_norm.scale", [128], .bfloat16, [], false⟩,
  ⟨key% "model.diffusion_model.single_blocks.5.linear1.bias", [21504], .bfloat16, [], false⟩,
  ⟨key% "model.diffusion_model.single_blocks.5.linear1.weight", [21504, 3072], .bfloat16, [], false⟩,
  ⟨key% "model.diffusion_model.single_blocks.5.linear2.bias", [3072], .bfloat16, [], false⟩,
  ⟨key% "model.diffusion_model.single_blocks.5.linear2.weight", [3072, 15360], .bfloat16, [], false⟩,
  ⟨key% "model.diffusion_model.single_blocks.5.modulation.lin.bias", [9216], .bfloat16, [], false⟩,
  ⟨key% "model.diffusion_model.single_blocks.5.modulation.lin.weight", [9216, 3072], .bfloat16, [], false⟩,
  ⟨key% "model.diffusion_model.single_blocks.5.norm.key_norm.scale", [128], .bfloat16, [], false⟩,
  ⟨key% "model.diffusion_model.single_blocks.5.norm.query_norm.scale", [128], .bfloat16, [], false⟩,
  ⟨key% "model.diffusion_model.single_blocks.6.linear1.bias", [21504], .bfloat16, [], false⟩,
  ⟨key% "model.diffusion_model.single_blocks.6.linear1.weight", [21504, 3072], .bfloat16, [], false⟩,
  ⟨key% "model.diffusion_model.single_blocks.6.linear2.bias", [3072], .bfloat16, [], false⟩,
  ⟨key% "model.diffusion_model.single_blocks.6.linear2.weight", [3072, 15360], .bfloat16, [], false⟩,
  ⟨key% "model.diffusion_model.single_blocks.6.modulation.lin.bias", [9216], .bfloat16, [], false⟩,
  ⟨key% "model.diffusion_model.single_blocks.6.modulation.lin.weight", [9216, 3072], .bfloat16, [], false⟩,
  ⟨key% "model.diffusion_model.single_blocks.6.norm.key_norm.scale", [128], .bfloat16, [], false⟩,
  ⟨key% "model.diffusion_model.single_blocks.6.norm.query_norm.scale", [128], .bfloat16, [], false⟩,
  ⟨key% "model.diffusion_model.single_blocks.7.linear1.bias", [21504], .bfloat16, [], false⟩,
  ⟨key% "model.diffusion_model.single_blocks.7.linear1.weight", [21504, 3072], .bfloat16, [], false⟩,
  ⟨key% "model.diffusion_model.single_blocks.7.linear2.bias", [3072], .bfloat16, [], false⟩,
  ⟨key% "model.diffusion_model.single_blocks.7.linear2.weight", [3072, 15360], .bfloat16, [], false⟩,
  ⟨key% "model.diffusion_model.single_blocks.7.modulation.lin.bias", [9216], .bfloat16, [], false⟩,
  ⟨key% "model.diffusion_model.single_blocks.7.modulation.lin.weight", [9216, 3072], .bfloat16, [], false⟩,
  ⟨key% "model.diffusion_model.single_blocks.7.norm.key_norm.scale", [128], .bfloat16, [], false⟩,
  ⟨key% "model.diffusion_model.single_blocks.7.norm.query_norm.scale", [128], .bfloat16, [], false⟩,
  ⟨key% "model.diffusion_model.single_blocks.8.linear1.bias", [21504], .bfloat16, [], false⟩,
  ⟨key% "model.diffusion_model.single_blocks.8.linear1.weight", [21504, 3072], .bfloat16, [], false⟩,
  ⟨key% "model.diffusion_model.single_blocks.8.linear2.bias", [3072], .bfloat16, [], false⟩,
  ⟨key% "model.diffusion_model.single_blocks.8.linear2.weight", [3072, 15360], .bfloat16, [], false⟩,
  ⟨key% "model.diffusion_model.single_blocks.8.modulation.lin.bias", [9216], .bfloat16, [], false⟩,
  ⟨key% "model.diffusion_model.single_blocks.8.modulation.lin.weight", [9216, 3072], .bfloat16, [], false⟩,
  ⟨key% "model.diffusion_model.single_blocks.8.norm.key_norm.scale", [128], .bfloat16, [], false⟩,
  ⟨key% "model.diffusion_model.single_blocks.8.norm.query_norm.scale", [128], .bfloat16, [], false⟩,
  ⟨key% "model.diffusion_model.single_blocks.9.linear1.bias", [21504], .bfloat16, [], false⟩,
  ⟨key% "model.diffusion_model.single_blocks.9.linear1.weight", [21504, 3072], .bfloat16, [], false⟩,
  ⟨key% "model.diffusion_model.single_blocks.9.linear2.bias", [3072], .bfloat16, [], false⟩,
  ⟨key% "model.diffusion_model.single_blocks.9.linear2.weight", [3072, 15360], .bfloat16, [], false⟩,
  ⟨key% "model.diffusion_model.single_blocks.9.modulation.lin.bias", [9216], .bfloat16, [], false⟩,
  ⟨key% "model.diffusion_model.single_blocks.9.modulation.lin.weight", [9216, 3072], .bfloat16, [], false⟩,
  ⟨key% "model.diffusion_model.single_blocks.9.norm.key_norm.scale", [128], .bfloat16, [], false⟩,
  ⟨key% "model.diffusion_model.single_blocks.9.norm.query_norm.scale", [128], .bfloat16, [], false⟩,
  ⟨key% "model.diffusion_model.time_in.in_layer.bias", [3072], .bfloat16, [], false⟩,
  ⟨key% "model.diffusion_model.time_in.in_layer.weight", [3072, 256], .bfloat16, [], false⟩,
  ⟨key% "model.diffusion_model.time_in.out_layer.bias", [3072], .bfloat16, [], false⟩,
  ⟨key% "model.diffusion_model.time_in.out_layer.weight", [3072, 3072], .bfloat16, [], false⟩,
  ⟨key% "model.diffusion_model.txt_in.bias", [3072], .bfloat16, [], false⟩,
  ⟨key% "model.diffusion_model.txt_in.weight", [3072, 4096], .bfloat16, [], false⟩,
  ⟨key% "model.diffusion_model.vector_in.in_layer.bias", [3072], .bfloat16, [], false⟩,
  ⟨key% "model.diffusion_model.vector_in.in_layer.weight", [3072, 768], .bfloat16, [], false⟩,
  ⟨key% "model.diffusion_model.vector_in.out_layer.bias", [3072], .bfloat16, [], false⟩,
  ⟨key% "model.diffusion_model.vector_in.out_layer.weight", [3072, 3072], .bfloat16, [], false⟩]
/-- Component `diffuser`: 780 keys -/
noncomputable def diffuser : List Entry := diffuser0 ++ diffuser1 ++ diffuser2 ++ diffuser3 ++ diffuser4 ++ diffuser5 ++ diffuser6 ++ diffuser7

noncomputable def clip_l0 : List Entry := [
  ⟨key% "text_encoders.clip_l.transformer.text_model.embeddings.position_embedding.weight", [77, 768], .float32, [], false⟩,
  ⟨key% "text_encoders.clip_l.transformer.text_model.embeddings.token_embedding.weight", [49408, 768], .float32, [], false⟩,
  ⟨key% "text_encoders.clip_l.transformer.text_model.encoder.layers.0.layer_norm1.bias", [768], .float32, [], false⟩,
  ⟨key% "text_encoders.clip_l.transformer.text_model.encoder.layers.0.layer_norm1.weight", [768], .float32, [], false⟩,
  ⟨key% "text_encoders.clip_l.transformer.text_model.encoder.layers.0.layer_norm2.bias", [768], .float32, [], false⟩,
  ⟨key% "text_encoders.clip_l.transformer.text_model.encoder.layers.0.layer_norm2.weight", [768], .float32, [], false⟩,
  ⟨key% "text_encoders.clip_l.transformer.text_model.encoder.layers.0.mlp.fc1.bias", [3072], .float32, [], false⟩,
  ⟨key% "text_encoders.clip_l.transformer.text_model.encoder.layers.0.mlp.fc1.weight", [3072, 768], .float32, [], false⟩,
  ⟨key% "text_encoders.clip_l.transformer.text_model.encoder.layers.0.mlp.fc2.bias", [768], .float32, [], false⟩,
  ⟨key% "text_encoders.clip_l.transformer.text_model.encoder.layers.0.mlp.fc2.weight", [768, 3072], .float32, [], false⟩,
  ⟨key% "text_encoders.clip_l.transformer.text_model.encoder.layers.0.self_attn.k_proj.bias", [768], .float32, [], false⟩,
  ⟨key% "text_encoders.clip_l.transformer.text_model.encoder.layers.0.self_attn.k_proj.weight", [768, 768], .float32, [], false⟩,
  ⟨key% "text_encoders.clip_l.transformer.text_model.encoder.layers.0.self_attn.out_proj.bias", [768], .float32, [], false⟩,
  ⟨key% "text_encoders.clip_l.transformer.text_model.encoder.layers.0.self_attn.out_proj.weight", [768, 768], .float32, [], false⟩,
  ⟨key% "text_encoders.clip_l.transformer.text_model.encoder.layers.0.self_attn.q_proj.bias", [768], .float32, [], false⟩,
  ⟨key% "text_encoders.clip_l.transformer.text_model.encoder.layers.0.self_attn.q_proj.weight", [768, 768], .float32, [], false⟩,
  ⟨key% "text_encoders.clip_l.transformer.text_model.encoder.layers.0.self_attn.v_proj.bias", [768], .float32, [], false⟩,
  ⟨key% "text_encoders.clip_l.transformer.text_model.encoder.layers.0.self_attn.v_proj.weight", [768, 768], .float32, [], false⟩,
  ⟨key% "text_encoders.clip_l.transformer.text_model.encoder.layers.1.layer_norm1.bias", [768], .float32, [], false⟩,
  ⟨key% "text_encoders.clip_l.transformer.text_model.encoder.layers.1.layer_norm1.weight", [768], .float32, [], false⟩,
  ⟨key% "text_encoders.clip_l.transformer.text_model.encoder.layers.1.layer_norm2.bias", [768], .float32, [], false⟩,
  ⟨key% "text_encoders.clip_l.transformer.text_model.encoder.layers.1.layer_norm2.weight", [768], .float32, [], false⟩,
  ⟨key% "text_encoders.clip_l.transformer.text_model.encoder.layers.1.mlp.fc1.bias", [3072], .float32, [], false⟩,
  ⟨key% "text_encoders.clip_l.transformer.text_model.encoder.layers.1.mlp.fc1.weight", [3072, 768], .float32, [], false⟩,
  ⟨key% "text_encoders.clip_l.transformer.text_model.encoder.layers.1.mlp.fc2.bias", [768], .float32, [], false⟩,
  ⟨key% "text_encoders.clip_l.transformer.text_model.encoder.layers.1.mlp.fc2.weight", [768, 3072], .float32, [], false⟩,
  ⟨key% "text_encoders.clip_l.transformer.text_model.encoder.layers.1.self_attn.k_proj.bias", [768], .float32, [], false⟩,
  ⟨key% "text_encoders.clip_l.transformer.text_model.encoder.layers.1.self_attn.k_proj.weight", [768, 768], .float32, [], false⟩,
  ⟨key% "text_encoders.clip_l.transformer.text_model.encoder.layers.1.self_attn.out_proj.bias", [768], .float32, [], false⟩,
  ⟨key% "text_encoders.clip_l.transformer.text_model.encoder.layers.1.self_attn.out_proj.weight", [768, 768], .float32, [], false⟩,
  ⟨key% "text_encoders.clip_l.transformer.text_model.encoder.layers.1.self_attn.q_proj.bias", [768], .float32, [], false⟩,
  ⟨key% "text_encoders.clip_l.transformer.text_model.encoder.layers.1.self_attn.q_proj.weight", [768, 768], .float32, [], false⟩,
  ⟨key% "text_encoders.clip_l.transformer.text_model.encoder.layers.1.self_attn.v_proj.bias", [768], .float32, [], false⟩,
  ⟨key% "text_encoders.clip_l.transformer.text_model.encoder.layers.1.self_attn.v_proj.weight", [768, 768], .float32, [], false⟩,
  ⟨key% "text_encoders.clip_l.transformer.text_model.encoder.layers.10.layer_norm1.bias", [768], .float32, [], false⟩,
  ⟨key% "text_encoders.clip_l.transformer.text_model.encoder.layers.10.layer_norm1.weight", [768], .float32, [], false⟩,
  ⟨key% "text_encoders.clip_l.transformer.text_model.encoder.layers.10.layer_norm2.bias", [768], .float32, [], false⟩,
  ⟨key% "text_encoders.clip_l.transformer.text_model.encoder.layers.10.layer_norm2.weight", [768], .float32, [], false⟩,
  ⟨key% "text_encoders.clip_l.transformer.text_model.encoder.layers.10.mlp.fc1.bias", [3072], .float32, [], false⟩,
  ⟨key% "text_encoders.clip_l.transformer.text_model.encoder.layers.10.mlp.fc1.weight", [3072, 768], .float32, [], false⟩,
  ⟨key% "text_encoders.clip_l.transformer.text_model.encoder.layers.10.mlp.fc2.bias", [768], .float32, [], false⟩,
  ⟨key% "text_encoders.clip_l.transformer.text_model.encoder.layers.10.mlp.fc2.weight", [768, 3072], .float32, [], false⟩,
  ⟨key% "text_encoders.clip_l.transformer.text_model.encoder.layers.10.self_attn.k_proj.bias", [768], .float32, [], false⟩,
  ⟨key% "text_encoders.clip_l.transformer.text_model.encoder.layers.10.self_attn.k_proj.weight", [768, 768], .float32, [], false⟩,
  ⟨key% "text_encoders.clip_l.transformer.text_model.encoder.layers.10.self_attn.out_proj.bias", [768], .float32, [], false⟩,
  ⟨key% "text_encoders.clip_l.transformer.text_model.encoder.layers.10.self_attn.out_proj.weight", [768, 768], .float32, [], false⟩,
  ⟨key% "text_encoders.clip_l.transformer.text_model.encoder.layers.10.self_attn.q_proj.bias", [768], .float32, [], false⟩,
  ⟨key% "text_encoders.clip_l.transformer.text_model.encoder.layers.10.self_attn.q_proj.weight", [768, 768], .float32, [], false⟩,
  ⟨key% "text_encoders.clip_l.transformer.text_model.encoder.layers.10.self_attn.v_proj.bias", [768], .float32, [], false⟩,
  ⟨key% "text_encoders.clip_l.transformer.text_model.encoder.layers.10.self_attn.v_proj.weight", [768, 768], .float32, [], false⟩,
  ⟨key% "text_encoders.clip_l.transformer.text_model.encoder.layers.11.layer_norm1.bias", [768], .float32, [], false⟩,
  ⟨key% "text_encoders.clip_l.transformer.text_model.encoder.layers.11.layer_norm1.weight", [768], .float32, [], false⟩,
  ⟨key% "text_encoders.clip_l.transformer.text_model.encoder.layers.11.layer_norm2.bias", [768], .float32, [], false⟩,
  ⟨key% "text_encoders.clip_l.transformer.text_model.encoder.layers.11.layer_norm2.weight", [768], .float32, [], false⟩,
  ⟨key% "text_encoders.clip_l.transformer.text_model.encoder.layers.11.mlp.fc1.bias", [3072], .float32, [], false⟩,
  ⟨key% "text_encoders.clip_l.transformer.text_model.encoder.layers.11.mlp.fc1.weight", [3072, 768], .float32, [], false⟩,
  ⟨key% "text_encoders.clip_l.transformer.text_model.encoder.layers.11.mlp.fc2.bias", [768], .float32, [], false⟩,
  ⟨key% "text_encoders.clip_l.transformer.text_model.encoder.layers.11.mlp.fc2.weight", [768, 3072], .float32, [], false⟩,
  ⟨key% "text_encoders.clip_l.transformer.text_model.encoder.layers.11.self_attn.k_proj.bias", [768], .float32, [], false⟩,
  ⟨key% "text_encoders.clip_l.transformer.text_model.encoder.layers.11.self_attn.k_proj.weight", [768, 768], .float32, [], false⟩,
  ⟨key% "text_encoders.clip_l.transformer.text_model.encoder.layers.11.self_attn.out_proj.bias", [768], .float32, [], false⟩,
  ⟨key% "text_encoders.clip_l.transformer.text_model.encoder.layers.11.self_attn.out_proj.weight", [768, 768], .float32, [], false⟩,
  ⟨key% "text_encoders.clip_l.transformer.text_model.encoder.layers.11.self_attn.q_proj.bias", [768], .float32, [], false⟩,
  ⟨key% "text_encoders.clip_l.transformer.text_model.encoder.layers.11.self_attn.q_proj.weight", [768, 768], .float32, [], false⟩,
  ⟨key% "text_encoders.clip_l.transformer.text_model.encoder.layers.11.self_attn.v_proj.bias", [768], .float32, [], false⟩,
  ⟨key% "text_encoders.clip_l.transformer.text_model.encoder.layers.11.self_attn.v_proj.weight", [768, 768], .float32, [], false⟩,
  ⟨key% "text_encoders.clip_l.transformer.text_model.encoder.layers.2.layer_norm1.bias", [768], .float32, [], false⟩,
  ⟨key% "text_encoders.clip_l.transformer.text_model.encoder.layers.2.layer_norm1.weight", [768], .float32, [], false⟩,
  ⟨key% "text_encoders.clip_l.transformer.text_model.encoder.layers.2.layer_norm2.bias", [768], .float32, [], false⟩,
  ⟨key% "text_encoders.clip_l.transformer.text_model.encoder.layers.2.layer_norm2.weight", [768], .float32, [], false⟩,
  ⟨key% "text_encoders.clip_l.transformer.text_model.encoder.layers.2.mlp.fc1.bias", [3072], .float32, [], false⟩,
  ⟨key% "text_encoders.clip_l.transformer.text_model.encoder.layers.2.mlp.fc1.weight", [3072, 768], .float32, [], false⟩,
  ⟨key% "text_encoders.clip_l.transformer.text_model.encoder.layers.2.mlp.fc2.bias", [768], .float32, [], false⟩,
  ⟨key% "text_encoders.clip_l.transformer.text_model.encoder.layers.2.mlp.fc2.weight", [768, 3072], .float32, [], false⟩,
  ⟨key% "text_encoders.clip_l.transformer.text_model.encoder.layers.2.self_attn.k_proj.bias", [768], .float32, [], false⟩,
  ⟨key% "text_encoders.clip_l.transformer.text_model.encoder.layers.2.self_attn.k_proj.weight", [768, 768], .float32, [], false⟩,
  ⟨key% "text_encoders.clip_l.transformer.text_model.encoder.layers.2.self_attn.out_proj.bias", [768], .float32, [], false⟩,
  ⟨key% "text_encoders.clip_l.transformer.text_model.encoder.layers.2.self_attn.out_proj.weight", [768, 768], .float32, [], false⟩,
  ⟨key% "text_encoders.clip_l.transformer.text_model.encoder.layers.2.self_attn.q_proj.bias", [768], .float32, [], false⟩,
  ⟨key% "text_encoders.clip_l.transformer.text_model.encoder.layers.2.self_attn.q_proj.weight", [768, 768], .float32, [], false⟩,
  ⟨key% "text_encoders.clip_l.transformer.text_model.encoder.layers.2.self_attn.v_proj.bias", [768], .float32, [], false⟩,
  ⟨key% "text_encoders.clip_l.transformer.text_model.encoder.layers.2.self_attn.v_proj.weight", [768, 768], .float32, [], false⟩,
  ⟨key% "text_encoders.clip_l.transformer.text_model.encoder.layers.3.layer_norm1.bias", [768], .float32, [], false⟩,
  ⟨key% "text_encoders.clip_l.transformer.text_model.encoder.layers.3.layer_norm1.weight", [768], .float32, [], false⟩,
  ⟨key% "text_encoders.clip_l.transformer.text_model.encoder.layers.3.layer_norm2.bias", [768], .float32, [], false⟩,
  ⟨key% "text_encoders.clip_l.transformer.text_model.encoder.layers.3.layer_norm2.weight", [768], .float32, [], false⟩,
  ⟨key% "text_encoders.clip_l.transformer.text_model.encoder.layers.3.mlp.fc1.bias", [3072], .float32, [], false⟩,
  ⟨key% "text_encoders.clip_l.transformer.text_model.encoder.layers.3.mlp.fc1.weight", [3072, 768], .float32, [], false⟩,
  ⟨key% "text_encoders.clip_l.transformer.text_model.encoder.layers.3.mlp.fc2.bias", [768], .float32, [], false⟩,
  ⟨key% "text_encoders.clip_l.transformer.text_model.encoder.layers.3.mlp.fc2.weight", [768, 3072], .float32, [], false⟩,
  ⟨key% "text_encoders.clip_l.transformer.text_model.encoder.layers.3.self_attn.k_proj.bias", [768], .float32, [], false⟩,
  ⟨key% "text_encoders.clip_l.transformer.text_model.encoder.layers.3.self_attn.k_proj.weight", [768, 768], .float32, [], false⟩,
  ⟨key% "text_encoders.clip_l.transformer.text_model.encoder.layers.3.self_attn.out_proj.bias", [768], .float32, [], false⟩,
  ⟨key% "text_encoders.clip_l.transformer.text_model.encoder.layers.3.self_attn.out_proj.weight", [768, 768], .float32, [], false⟩,
  ⟨key% "text_encoders.clip_l.transformer.text_model.encoder.layers.3.self_attn.q_proj.bias", [768], .float32, [], false⟩,
  ⟨key% "text_encoders.clip_l.transformer.text_model.encoder.layers.3.self_attn.q_proj.weight", [768, 768], .float32, [], false⟩,
  ⟨key% "text_encoders.clip_l.transformer.text_model.encoder.layers.3.self_attn.v_proj.bias", [768], .float32, [], false⟩,
  ⟨key% "text_encoders.clip_l.transformer.text_model.encoder.layers.3.self_attn.v_proj.weight", [768, 768], .float32, [], false⟩,
  ⟨key% "text_encoders.clip_l.transformer.text_model.encoder.layers.4.layer_norm1.bias", [768], .float32, [], false⟩,
  ⟨key% "text_encoders.clip_l.transformer.text_model.encoder.layers.4.layer_norm1.weight", [768], .float32, [], false⟩]
noncomputable def clip_l1 : List Entry := [
  ⟨key% "text_encoders.clip_l.transformer.text_model.encoder.layers.4.layer_norm2.bias", [768], .float32, [], false⟩,
  ⟨key% "text_encoders.clip_l.transformer.text_model.encoder.layers.4.layer_norm2.weight", [768], .float32, [], false⟩,
  ⟨key% "text_encoders.clip_l.transformer.text_model.encoder.layers.4.mlp.fc1.bias", [3072], .float32, [], false⟩,
  ⟨key% "text_encoders.clip_l.transformer.text_model.encoder.layers.4.mlp.fc1.weight", [3072, 768], .float32, [], false⟩,
  ⟨key% "text_encoders.clip_l.transformer.text_model.encoder.layers.4.mlp.fc2.bias", [768], .float32, [], false⟩,
  ⟨key% "text_encoders.clip_l.transformer.text_model.encoder.layers.4.mlp.fc2.weight", [768, 3072], .float32, [], false⟩,
  ⟨key% "text_encoders.clip_l.transformer.text_model.encoder.layers.4.self_attn.k_proj.bias", [768], .float32, [], false⟩,
  ⟨key% "text_encoders.clip_l.transformer.text_model.encoder.layers.4.self_attn.k_proj.weight", [768, 768], .float32, [], false⟩,
  ⟨key% "text_encoders.clip_l.transformer.text_model.encoder.layers.4.self_attn.out_proj.bias", [768], .float32, [], false⟩,
  ⟨key% "text_encoders.clip_l.transformer.text_model.encoder.layers.4.self_attn.out_proj.weight", [768, 768], .float32, [], false⟩,
  ⟨key% "text_encoders.clip_l.transformer.text_model.encoder.layers.4.self_attn.q_proj.bias", [768], .float32, [], false⟩,
  ⟨key% "text_encoders.clip_l.transformer.text_model.encoder.layers.4.self_attn.q_proj.weight", [768, 768], .float32, [], false⟩,
  ⟨key% "text_encoders.clip_l.transformer.text_model.encoder.layers.4.self_attn.v_proj.bias", [768], .float32, [], false⟩,
  ⟨key% "text_encoders.clip_l.transformer.text_model.encoder.layers.4.self_attn.v_proj.weight", [768, 768], .float32, [], false⟩,
  ⟨key% "text_encoders.clip_l.transformer.text_model.encoder.layers.5.layer_norm1.bias", [768], .float32, [], false⟩,
  ⟨key% "text_encoders.clip_l.transformer.text_model.encoder.layers.5.layer_norm1.weight", [768], .float32, [], false⟩,
  ⟨key% "text_encoders.clip_l.transformer.text_model.encoder.layers.5.layer_norm2.bias", [768], .float32, [], false⟩,
  ⟨key% "text_encoders.clip_l.transformer.text_model.encoder.layers.5.layer_norm2.weight", [768], .float32, [], false⟩,
  ⟨key% "text_encoders.clip_l.transformer.text_model.encoder.layers.5.mlp.fc1.bias", [3072], .float32, [], false⟩,
  ⟨key% "text_encoders.clip_l.transformer.text_model.encoder.layers.5.mlp.fc1.weight", [3072, 768], .float32, [], false⟩,
  ⟨key% "text_encoders.clip_l.transformer.text_model.encoder.layers.5.mlp.fc2.bias", [768], .float32, [], false⟩,
  ⟨key% "text_encoders.clip_l.transformer.text_model.encoder.layers.5.mlp.fc2.weight", [768, 3072], .float32, [], false⟩,
  ⟨key% "text_encoders.clip_l.transformer.text_model.encoder.layers.5.self_attn.k_proj.bias", [768], .float32, [], false⟩,
  ⟨key% "text_encoders.clip_l.transformer.text_model.encoder.layers.5.self_attn.k_proj.weight", [768, 768], .float32, [], false⟩,
  ⟨key% "text_encoders.clip_l.transformer.text_model.encoder.layers.5.self_attn.out_proj.bias", [768], .float32, [], false⟩,
  ⟨key% "text_encoders.clip_l.transformer.text_model.encoder.layers.5.self_attn.out_proj.weight", [768, 768], .float32, [], false⟩,
  ⟨key% "text_encoders.clip_l.transformer.text_model.encoder.layers.5.self_attn.q_proj.bias", [768], .float32, [], false⟩,
  ⟨key% "text_encoders.clip_l.transformer.text_model.encoder.layers.5.self_attn.q_proj.weight", [768, 768], .float32, [], false⟩,
  ⟨key% "text_encoders.clip_l.transformer.text_model.encoder.layers.5.self_attn.v_proj.bias", [768], .float32, [], false⟩,
  ⟨key% "text_encoders.clip_l.transformer.text_model.encoder.layers.5.self_attn.v_proj.weight", [768, 768], .float32, [], false⟩,
  ⟨key% "text_encoders.clip_l.transformer.text_model.encoder.layers.6.layer_norm1.bias", [768], .float32, [], false⟩,
  ⟨key% "text_encoders.clip_l.transformer.text_model.encoder.layers.6.layer_norm1.weight", [768], .float32, [], false⟩,
  ⟨key% "text_encoders.clip_l.transformer.text_model.encoder.layers.6.layer_norm2.bias", [768], .float32, [], false⟩,
  ⟨key% "text_encoders.clip_l.transformer.text_model.encoder.layers.6.layer_norm2.weight", [768], .float32, [], false⟩,
  ⟨key% "text_encoders.clip_l.transformer.text_model.encoder.layers.6.mlp.fc1.bias", [3072], .float32, [], false⟩,
  ⟨key% "text_encoders.clip_l.transformer.text_model.encoder.layers.6.mlp.fc1.weight", [3072, 768], .float32, [], false⟩,
  ⟨key% "text_encoders.clip_l.transformer.text_model.encoder.layers.6.mlp.fc2.bias", [768], .float32, [], false⟩,
  ⟨key% "text_encoders.clip_l.transformer.text_model.encoder.layers.6.mlp.fc2.weight", [768, 3072], .float32, [], false⟩,
  ⟨key% "text_encoders.clip_l.transformer.text_model.encoder.layers.6.self_attn.k_proj.bias", [768], .float32, [], false⟩,
  ⟨key% "text_encoders.clip_l.transformer.text_model.encoder.layers.6.self_attn.k_proj.weight", [768, 768], .float32, [], false⟩,
  ⟨key% "text_encoders.clip_l.transformer.text_model.encoder.layers.6.self_attn.out_proj.bias", [768], .float32, [], false⟩,
  ⟨key% "text_encoders.clip_l.transformer.text_model.encoder.layers.6.self_attn.out_proj.weight", [768, 768], .float32, [], false⟩,
  ⟨key% "text_encoders.clip_l.transformer.text_model.encoder.layers.6.self_attn.q_proj.bias", [768], .float32, [], false⟩,
  ⟨key% "text_encoders.clip_l.transformer.text_model.encoder.layers.6.self_attn.q_proj.weight", [768, 768], .float32, [], false⟩,
  ⟨key% "text_encoders.clip_l.transformer.text_model.encoder.layers.6.self_attn.v_proj.bias", [768], .float32, [], false⟩,
  ⟨key% "text_encoders.clip_l.transformer.text_model.encoder.layers.6.self_attn.v_proj.weight", [768, 768], .float32, [], false⟩,
  ⟨key% "text_encoders.clip_l.transformer.text_model.encoder.layers.7.layer_norm1.bias", [768], .float32, [], false⟩,
  ⟨key% "text_encoders.clip_l.transformer.text_model.encoder.layers.7.layer_norm1.weight", [768], .float32, [], false⟩,
  ⟨key% "text_encoders.clip_l.transformer.text_model.encoder.layers.7.layer_norm2.bias", [768], .float32, [], false⟩,
  ⟨key% "text_encoders.clip_l.transformer.text_model.encoder.layers.7.layer_norm2.weight", [768], .float32, [], false⟩,
  ⟨key% "text_encoders.clip_l.transformer.text_model.encoder.layers.7.mlp.fc1.bias", [3072], .float32, [], false⟩,
  ⟨key% "text_encoders.clip_l.transformer.text_model.encoder.layers.7.mlp.fc1.weight", [3072, 768], .float32, [], false⟩,
  ⟨key% "text_encoders.clip_l.transformer.text_model.encoder.layers.7.mlp.fc2.bias", [768], .float32, [], false⟩,
  ⟨key% "text_encoders.clip_l.transformer.text_model.encoder.layers.7.mlp.fc2.weight", [768, 3072], .float32, [], false⟩,
  ⟨key% "text_encoders.clip_l.transformer.text_model.encoder.layers.7.self_attn.k_proj.bias", [768], .float32, [], false⟩,
  ⟨key% "text_encoders.clip_l.transformer.text_model.encoder.layers.7.self_attn.k_proj.weight", [768, 768], .float32, [], false⟩,
  ⟨key% "text_encoders.clip_l.transformer.text_model.encoder.layers.7.self_attn.out_proj.bias", [768], .float32, [], false⟩,
  ⟨key% "text_encoders.clip_l.transformer.text_model.encoder.layers.7.self_attn.out_proj.weight", [768, 768], .float32, [], false⟩,
  ⟨key% "text_encoders.clip_l.transformer.text_model.encoder.layers.7.self_attn.q_proj.bias", [768], .float32, [], false⟩,
  ⟨key% "text_encoders.clip_l.transformer.text_model.encoder.layers.7.self_attn.q_proj.weight", [768, 768], .float32, [], false⟩,
  ⟨key% "text_encoders.clip_l.transformer.text_model.encoder.layers.7.self_attn.v_proj.bias", [768], .float32, [], false⟩,
  ⟨key% "text_encoders.clip_l.transformer.text_model.encoder.layers.7.self_attn.v_proj.weight", [768, 768], .float32, [], false⟩,
  ⟨key% "text_encoders.clip_l.transformer.text_model.encoder.layers.8.layer_norm1.bias", [768], .float32, [], false⟩,
  ⟨key% "text_encoders.clip_l.transformer.text_model.encoder.layers.8.layer_norm1.weight", [768], .float32, [], false⟩,
  ⟨key% "text_encoders.clip_l.transformer.text_model.encoder.layers.8.layer_norm2.bias", [768], .float32, [], false⟩,
  ⟨key% "text_encoders.clip_l.transformer.text_model.encoder.layers.8.layer_norm2.weight", [768], .float32, [], false⟩,
  ⟨key% "text_encoders.clip_l.transformer.text_model.encoder.layers.8.mlp.fc1.bias", [3072], .float32, [], false⟩,
  ⟨key% "text_encoders.clip_l.transformer.text_model.encoder.layers.8.mlp.fc1.weight", [3072, 768], .float32, [], false⟩,
  ⟨key% "text_encoders.clip_l.transformer.text_model.encoder.layers.8.mlp.fc2.bias", [768], .float32, [], false⟩,
  ⟨key% "text_encoders.clip_l.transformer.text_model.encoder.layers.8.mlp.fc2.weight", [768, 3072], .float32, [], false⟩,
  ⟨key% "text_encoders.clip_l.transformer.text_model.encoder.layers.8.self_attn.k_proj.bias", [768], .float32, [], false⟩,
  ⟨key% "text_encoders.clip_l.transformer.text_model.encoder.layers.8.self_attn.k_proj.weight", [768, 768], .float32, [], false⟩,
  ⟨key% "text_encoders.clip_l.transformer.text_model.encoder.layers.8.self_attn.out_proj.bias", [768], .float32, [], false⟩,
  ⟨key% "text_encoders.clip_l.transformer.text_model.encoder.layers.8.self_attn.out_proj.weight", [768, 768], .float32, [], false⟩,
  ⟨key% "text_encoders.clip_l.transformer.text_model.encoder.layers.8.self_attn.q_proj.bias", [768], .float32, [], false⟩,
  ⟨key% "text_encoders.clip_l.transformer.text_model.encoder.layers.8.self_attn.q_proj.weight", [768, 768], .float32, [], false⟩,
  ⟨key% "text_encoders.clip_l.transformer.text_model.encoder.layers.8.self_attn.v_proj.bias", [768], .float32, [], false⟩,
  ⟨key% "text_encoders.clip_l.transformer.text_model.encoder.layers.8.self_attn.v_proj.weight", [768, 768], .float32, [], false⟩,
  ⟨key% "text_encoders.clip_l.transformer.text_model.encoder.layers.9.layer_norm1.bias", [768], .float32, [], false⟩,
  ⟨key% "text_encoders.clip_l.transformer.text_model.encoder.layers.9.layer_norm1.weight", [768], .float32, [], false⟩,
  ⟨key% "text_encoders.clip_l.transformer.text_model.encoder.layers.9.layer_norm2.bias", [768], .float32, [], false⟩,
  ⟨key% "text_encoders.clip_l.transformer.text_model.encoder.layers.9.layer_norm2.weight", [768], .float32, [], false⟩,
  ⟨key% "text_encoders.clip_l.transformer.text_model.encoder.layers.9.mlp.fc1.bias", [3072], .float32, [], false⟩,
  ⟨key% "text_encoders.clip_l.transformer.text_model.encoder.layers.9.mlp.fc1.weight", [3072, 768], .float32, [], false⟩,
  ⟨key% "text_encoders.clip_l.transformer.text_model.encoder.layers.9.mlp.fc2.bias", [768], .float32, [], false⟩,
  ⟨key% "text_encoders.clip_l.transformer.text_model.encoder.layers.9.mlp.fc2.weight", [768, 3072], .float32, [], false⟩,
  ⟨key% "text_encoders.clip_l.transformer.text_model.encoder.layers.9.self_attn.k_proj.bias", [768], .float32, [], false⟩,
  ⟨key% "text_encoders.clip_l.transformer.text_model.encoder.layers.9.self_attn.k_proj.weight", [768, 768], .float32, [], false⟩,
  ⟨key% "text_encoders.clip_l.transformer.text_model.encoder.layers.9.self_attn.out_proj.bias", [768], .float32, [], false⟩,
  ⟨key% "text_encoders.clip_l.transformer.text_model.encoder.layers.9.self_attn.out_proj.weight", [768, 768], .float32, [], false⟩,
  ⟨key% "text_encoders.clip_l.transformer.text_model.encoder.layers.9.self_attn.q_proj.bias", [768], .float32, [], false⟩,
  ⟨key% "text_encoders.clip_l.transformer.text_model.encoder.layers.9.self_attn.q_proj.weight", [768, 768], .float32, [], false⟩,
  ⟨key% "text_encoders.clip_l.transformer.text_model.encoder.layers.9.self_attn.v_proj.bias", [768], .float32, [], false⟩,
  ⟨key% "text_encoders.clip_l.transformer.text_model.encoder.layers.9.self_attn.v_proj.weight", [768, 768], .float32, [], false⟩,
  ⟨key% "text_encoders.clip_l.transformer.text_model.final_layer_norm.bias", [768], .float32, [], false⟩,
  ⟨key% "text_encoders.clip_l.transformer.text_model.final_layer_norm.weight", [768], .float32, [], false⟩]
/-- Component `clip_l`: 196 keys -/
noncomputable def clip_l : List Entry := clip_l0 ++ clip_l1

noncomputable def t5xxl0 : List Entry := [
  ⟨key% "text_encoders.t5xxl.transformer.encoder.block.0.layer.0.SelfAttention.k.weight", [4096, 4096], .float32, [], false⟩,
  ⟨key% "text_encoders.t5xxl.transformer.encoder.block.0.layer.0.SelfAttention.o.weight", [4096, 4096], .float32, [], false⟩,
  ⟨key% "text_encoders.t5xxl.transformer.encoder.block.0.layer.0.SelfAttention.q.weight", [4096, 4096], .float32, [], false⟩,
  ⟨key% "text_encoders.t5xxl.transformer.encoder.block.0.layer.0.SelfAttention.relative_attention_bias.weight", [32, 64], .float32, [], false⟩,
  ⟨key% "text_encoders.t5xxl.transformer.encoder.block.0.layer.0.SelfAttention.v.weight", [4096, 4096], .float32, [], false⟩,
  ⟨key% "text_encoders.t5xxl.transformer.encoder.block.0.layer.0.layer_norm.weight", [4096], .float32, [], false⟩,
  ⟨key% "text_encoders.t5xxl.transformer.encoder.block.0.layer.1.DenseReluDense.wi_0.weight", [10240, 4096], .float32, [], false⟩,
  ⟨key% "text_encoders.t5xxl.transformer.encoder.block.0.layer.1.DenseReluDense.wi_1.weight", [10240, 4096], .float32, [], false⟩,
  ⟨key% "text_encoders.t5xxl.transformer.encoder.block.0.layer.1.DenseReluDense.wo.weight", [4096, 10240], .float32, [], false⟩,
  ⟨key% "text_encoders.t5xxl.transformer.encoder.block.0.layer.1.layer_norm.weight", [4096], .float32, [], false⟩,
  ⟨key% "text_encoders.t5xxl.transformer.encoder.block.1.layer.0.SelfAttention.k.weight", [4096, 4096], .float32, [], false⟩,
  ⟨key% "text_encoders.t5xxl.transformer.encoder.block.1.layer.0.SelfAttention.o.weight", [4096, 4096], .float32, [], false⟩,
  ⟨key% "text_encoders.t5xxl.transformer.encoder.block.1.layer.0.SelfAttention.q.weight", [4096, 4096], .float32, [], false⟩,
  ⟨key% "text_encoders.t5xxl.transformer.encoder.block.1.layer.0.SelfAttention.v.weight", [4096, 4096], .float32, [], false⟩,
  ⟨key% "text_encoders.t5xxl.transformer.encoder.block.1.layer.0.layer_norm.weight", [4096], .float32, [], false⟩,
  ⟨key% "text_encoders.t5xxl.transformer.encoder.block.1.layer.1.DenseReluDense.wi_0.weight", [10240, 4096], .float32, [], false⟩,
  ⟨key% "text_encoders.t5xxl.transformer.encoder.block.1.layer.1.DenseReluDense.wi_1.weight", [10240, 4096], .float32, [], false⟩,
  ⟨key% "text_encoders.t5xxl.transformer.encoder.block.1.layer.1.DenseReluDense.wo.weight", [4096, 10240], .float32, [], false⟩,
  ⟨key% "text_encoders.t5xxl.transformer.encoder.block.1.layer.1.layer_norm.weight", [4096], .float32, [], false⟩,
  ⟨key% "text_encoders.t5xxl.transformer.encoder.block.10.layer.0.SelfAttention.k.weight", [4096, 4096], .float32, [], false⟩,
  ⟨key% "text_encoders.t5xxl.transformer.encoder.block.10.layer.0.SelfAttention.o.weight", [4096, 4096], .float32, [], false⟩,
  ⟨key% "text_encoders.t5xxl.transformer.encoder.block.10.layer.0.SelfAttention.q.weight", [4096, 4096], .float32, [], false⟩,
  ⟨key% "text_encoders.t5xxl.transformer.encoder.block.10.layer.0.SelfAttention.v.weight", [4096, 4096], .float32, [], false⟩,
  ⟨key% "text_encoders.t5xxl.transformer.encoder.block.10.layer.0.layer_norm.weight", [4096], .float32, [], false⟩,
  ⟨key% "text_encoders.t5xxl.transformer.encoder.block.10.layer.1.DenseReluDense.wi_0.weight", [10240, 4096], .float32, [], false⟩,
  ⟨key% "text_encoders.t5xxl.transformer.encoder.block.10.layer.1.DenseReluDense.wi_1.weight", [10240, 4096], .float32, [], false⟩,
  ⟨key% "text_encoders.t5xxl.transformer.encoder.block.10.layer.1.DenseReluDense.wo.weight", [4096, 10240], .float32, [], false⟩,
  ⟨key% "text_encoders.t5xxl.transformer.encoder.block.10.layer.1.layer_norm.weight", [4096], .float32, [], false⟩,
  ⟨key% "text_encoders.t5xxl.transformer.encoder.block.11.layer.0.SelfAttention.k.weight", [4096, 4096], .float32, [], false⟩,
  ⟨key% "text_encoders.t5xxl.transformer.encoder.block.11.layer.0.SelfAttention.o.weight", [4096, 4096], .float32, [], false⟩,
  ⟨key% "text_encoders.t5xxl.transformer.encoder.block.11.layer.0.SelfAttention.q.weight", [4096, 4096], .float32, [], false⟩,
  ⟨key% "text_encoders.t5xxl.transformer.encoder.block.11.layer.0.SelfAttention.v.weight", [4096, 4096], .float32, [], false⟩,
  ⟨key% "text_encoders.t5xxl.transformer.encoder.block.11.layer.0.layer_norm.weight", [4096], .float32, [], false⟩,
  ⟨key% "text_encoders.t5xxl.transformer.encoder.block.11.layer.1.DenseReluDense.wi_0.weight", [10240, 4096], .float32, [], false⟩,
  ⟨key% "text_encoders.t5xxl.transformer.encoder.block.11.layer.1.DenseReluDense.wi_1.weight", [10240, 4096], .float32, [], false⟩,
  ⟨key% "text_encoders.t5xxl.transformer.encoder.block.11.layer.1.DenseReluDense.wo.weight", [4096, 10240], .float32, [], false⟩,
  ⟨key% "text_encoders.t5xxl.transformer.encoder.block.11.layer.1.layer_norm.weight", [4096], .float32, [], false⟩,
  ⟨key% "text_encoders.t5xxl.transformer.encoder.block.12.layer.0.SelfAttention.k.weight", [4096, 4096], .float32, [], false⟩,
  ⟨key% "text_encoders.t5xxl.transformer.encoder.block.12.layer.0.SelfAttention.o.weight", [4096, 4096], .float32, [], false⟩,
  ⟨key% "text_encoders.t5xxl.transformer.encoder.block.12.layer.0.SelfAttention.q.weight", [4096, 4096], .float32, [], false⟩,
  ⟨key% "text_encoders.t5xxl.transformer.encoder.block.12.layer.0.SelfAttention.v.weight", [4096, 4096], .float32, [], false⟩,
  ⟨key% "text_encoders.t5xxl.transformer.encoder.block.12.layer.0.layer_norm.weight", [4096], .float32, [], false⟩,
  ⟨key% "text_encoders.t5xxl.transformer.encoder.block.12.layer.1.DenseReluDense.wi_0.weight", [10240, 4096], .float32, [], false⟩,
  ⟨key% "text_encoders.t5xxl.transformer.encoder.block.12.layer.1.DenseReluDense.wi_1.weight", [10240, 4096], .float32, [], false⟩,
  ⟨key% "text_encoders.t5xxl.transformer.encoder.block.12.layer.1.DenseReluDense.wo.weight", [4096, 10240], .float32, [], false⟩,
  ⟨key% "text_encoders.t5xxl.transformer.encoder.block.12.layer.1.layer_norm.weight", [4096], .float32, [], false⟩,
  ⟨key% "text_encoders.t5xxl.transformer.encoder.block.13.layer.0.SelfAttention.k.weight", [4096, 4096], .float32, [], false⟩,
  ⟨key% "text_encoders.t5xxl.transformer.encoder.block.13.layer.0.SelfAttention.o.weight", [4096, 4096], .float32, [], false⟩,
  ⟨key% "text_encoders.t5xxl.transformer.encoder.block.13.layer.0.SelfAttention.q.weight", [4096, 4096], .float32, [], false⟩,
  ⟨key% "text_encoders.t5xxl.transformer.encoder.block.13.layer.0.SelfAttention.v.weight", [4096, 4096], .float32, [], false⟩,
  ⟨key% "text_encoders.t5xxl.transformer.encoder.block.13.layer.0.layer_norm.weight", [4096], .float32, [], false⟩,
  ⟨key% "text_encoders.t5xxl.transformer.encoder.block.13.layer.1.DenseReluDense.wi_0.weight", [10240, 4096], .float32, [], false⟩,
  ⟨key% "text_encoders.t5xxl.transformer.encoder.block.13.layer.1.DenseReluDense.wi_1.weight", [10240, 4096], .float32, [], false⟩,
  ⟨key% "text_encoders.t5xxl.transformer.encoder.block.13.layer.1.DenseReluDense.wo.weight", [4096, 10240], .float32, [], false⟩,
  ⟨key% "text_encoders.t5xxl.transformer.encoder.block.13.layer.1.layer_norm.weight", [4096], .float32, [], false⟩,
  ⟨key% "text_encoders.t5xxl.transformer.encoder.block.14.layer.0.SelfAttention.k.weight", [4096, 4096], .float32, [], false⟩,
  ⟨key% "text_encoders.t5xxl.transformer.encoder.block.14.layer.0.SelfAttention.o.weight", [4096, 4096], .float32, [], false⟩,
  ⟨key% "text_encoders.t5xxl.transformer.encoder.block.14.layer.0.SelfAttention.q.weight", [4096, 4096], .float32, [], false⟩,
  ⟨key% "text_encoders.t5xxl.transformer.encoder.block.14.layer.0.SelfAttention.v.weight", [4096, 4096], .float32, [], false⟩,
  ⟨key% "text_encoders.t5xxl.transformer.encoder.block.14.layer.0.layer_norm.weight", [4096], .float32, [], false⟩,
  ⟨key% "text_encoders.t5xxl.transformer.encoder.block.14.layer.1.DenseReluDense.wi_0.weight", [10240, 4096], .float32, [], false⟩,
  ⟨key% "text_encoders.t5xxl.transformer.encoder.block.14.layer.1.DenseReluDense.wi_1.weight", [10240, 4096], .float32, [], false⟩,
  ⟨key% "text_encoders.t5xxl.transformer.encoder.block.14.layer.1.DenseReluDense.wo.weight", [4096, 10240], .float32, [], false⟩,
  ⟨key% "text_encoders.t5xxl.transformer.encoder.block.14.layer.1.layer_norm.weight", [4096], .float32, [], false⟩,
  ⟨key% "text_encoders.t5xxl.transformer.encoder.block.15.layer.0.SelfAttention.k.weight", [4096, 4096], .float32, [], false⟩,
  ⟨key% "text_encoders.t5xxl.transformer.encoder.block.15.layer.0.SelfAttention.o.weight", [4096, 4096], .float32, [], false⟩,
  ⟨key% "text_encoders.t5xxl.transformer.encoder.block.15.layer.0.SelfAttention.q.weight", [4096, 4096], .float32, [], false⟩,
  ⟨key% "text_encoders.t5xxl.transformer.encoder.block.15.layer.0.SelfAttention.v.weight", [4096, 4096], .float32, [], false⟩,
  ⟨key% "text_encoders.t5xxl.transformer.encoder.block.15.layer.0.layer_norm.weight", [4096], .float32, [], false⟩,
  ⟨key% "text_encoders.t5xxl.transformer.encoder.block.15.layer.1.DenseReluDense.wi_0.weight", [10240, 4096], .float32, [], false⟩,
  ⟨key% "text_encoders.t5xxl.transformer.encoder.block.15.layer.1.DenseReluDense.wi_1.weight", [10240, 4096], .float32, [], false⟩,
  ⟨key% "text_encoders.t5xxl.transformer.encoder.block.15.layer.1.DenseReluDense.wo.weight", [4096, 10240], .float32, [], false⟩,
  ⟨key% "text_encoders.t5xxl.transformer.encoder.block.15.layer.1.layer_norm.weight", [4096], .float32, [], false⟩,
  ⟨key% "text_encoders.t5xxl.transformer.encoder.block.16.layer.0.SelfAttention.k.weight", [4096, 4096], .float32, [], false⟩,
  ⟨key% "text_encoders.t5xxl.transformer.encoder.block.16.layer.0.SelfAttention.o.weight", [4096, 4096], .float32, [], false⟩,
  ⟨key% "text_encoders.t5xxl.transformer.encoder.block.16.layer.0.SelfAttention.q.weight", [4096, 4096], .float32, [], false⟩,
  ⟨key% "text_encoders.t5xxl.transformer.encoder.block.16.layer.0.SelfAttention.v.weight", [4096, 4096], .float32, [], false⟩,
  ⟨key% "text_encoders.t5xxl.transformer.encoder.block.16.layer.0.layer_norm.weight", [4096], .float32, [], false⟩,
  ⟨key% "text_encoders.t5xxl.transformer.encoder.block.16.layer.1.DenseReluDense.wi_0.weight", [10240, 4096], .float32, [], false⟩,
  ⟨key% "text_encoders.t5xxl.transformer.encoder.block.16.layer.1.DenseReluDense.wi_1.weight", [10240, 4096], .float32, [], false⟩,
  ⟨key% "text_encoders.t5xxl.transformer.encoder.block.16.layer.1.DenseReluDense.wo.weight", [4096, 10240], .float32, [], false⟩,
  ⟨key% "text_encoders.t5xxl.transformer.encoder.block.16.layer.1.layer_norm.weight", [4096], .float32, [], false⟩,
  ⟨key% "text_encoders.t5xxl.transformer.encoder.block.17.layer.0.SelfAttention.k.weight", [4096, 4096], .float32, [], false⟩,
  ⟨key% "text_encoders.t5xxl.transformer.encoder.block.17.layer.0.SelfAttention.o.weight", [4096, 4096], .float32, [], false⟩,
  ⟨key% "text_encoders.t5xxl.transformer.encoder.block.17.layer.0.SelfAttention.q.weight", [4096, 4096], .float32, [], false⟩,
  ⟨key% "text_encoders.t5xxl.transformer.encoder.block.17.layer.0.SelfAttention.v.weight", [4096, 4096], .float32, [], false⟩,
  ⟨key% "text_encoders.t5xxl.transformer.encoder.block.17.layer.0.layer_norm.weight", [4096], .float32, [], false⟩,
  ⟨key% "text_encoders.t5xxl.transformer.encoder.block.17.layer.1.DenseReluDense.wi_0.weight", [10240, 4096], .float32, [], false⟩,
  ⟨key% "text_encoders.t5xxl.transformer.encoder.block.17.layer.1.DenseReluDense.wi_1.weight", [10240, 4096], .float32, [], false⟩,
  ⟨key% "text_encoders.t5xxl.transformer.encoder.block.17.layer.1.DenseReluDense.wo.weight", [4096, 10240], .float32, [], false⟩,
  ⟨key% "text_encoders.t5xxl.transformer.encoder.block.17.layer.1.layer_norm.weight", [4096], .float32, [], false⟩,
  ⟨key% "text_encoders.t5xxl.transformer.encoder.block.18.layer.0.SelfAttention.k.weight", [4096, 4096], .float32, [], false⟩,
  ⟨key% "text_encoders.t5xxl.transformer.encoder.block.18.layer.0.SelfAttention.o.weight", [4096, 4096], .float32, [], false⟩,
  ⟨key% "text_encoders.t5xxl.transformer.encoder.block.18.layer.0.SelfAttention.q.weight", [4096, 4096], .float32, [], false⟩,
  ⟨key% "text_encoders.t5xxl.transformer.encoder.block.18.layer.0.SelfAttention.v.weight", [4096, 4096], .float32, [], false⟩,
  ⟨key% "text_encoders.t5xxl.transformer.encoder.block.18.layer.0.layer_norm.weight", [4096], .float32, [], false⟩,
  ⟨key% "text_encoders.t5xxl.transformer.encoder.block.18.layer.1.DenseReluDense.wi_0.weight", [10240, 4096], .float32, [], false⟩,
  ⟨key% "text_encoders.t5xxl.transformer.encoder.block.18.layer.1.DenseReluDense.wi_1.weight", [10240, 4096], .float32, [], false⟩,
  ⟨key% "text_encoders.t5xxl.transformer.encoder.block.18.layer.1.DenseReluDense.wo.weight", [4096, 10240], .float32, [], false⟩,
  ⟨key% "text_encoders.t5xxl.transformer.encoder.block.18.layer.1.layer_norm.weight", [4096], .float32, [], false⟩]
noncomputable def t5xxl1 : List Entry := [
  ⟨key% "text_encoders.t5xxl.transformer.encoder.block.19.layer.0.SelfAttention.k.weight", [4096, 4096], .float32, [], false⟩,
  ⟨key% "text_encoders.t5xxl.transformer.encoder.block.19.layer.0.SelfAttention.o.weight", [4096, 4096], .float32, [], false⟩,
  ⟨key% "text_encoders.t5xxl.transformer.encoder.block.19.layer.0.SelfAttention.q.weight", [4096, 4096], .float32, [], false⟩,
  ⟨key% "text_encoders.t5xxl.transformer.encoder.block.19.layer.0.SelfAttention.v.weight", [4096, 4096], .float32, [], false⟩,
  ⟨key% "text_encoders.t5xxl.transformer.encoder.block.19.layer.0.layer_norm.weight", [4096], .float32, [], false⟩,
  ⟨key% "text_encoders.t5xxl.transformer.encoder.block.19.layer.1.DenseReluDense.wi_0.weight", [10240, 4096], .float32, [], false⟩,
  ⟨key% "text_encoders.t5xxl.transformer.encoder.block.19.layer.1.DenseReluDense.wi_1.weight", [10240, 4096], .float32, [], false⟩,
  ⟨key% "text_encoders.t5xxl.transformer.encoder.block.19.layer.1.DenseReluDense.wo.weight", [4096, 10240], .float32, [], false⟩,
  ⟨key% "text_encoders.t5xxl.transformer.encoder.block.19.layer.1.layer_norm.weight", [4096], .float32, [], false⟩,
  ⟨key% "text_encoders.t5xxl.transformer.encoder.block.2.layer.0.SelfAttention.k.weight", [4096, 4096], .float32, [], false⟩,
  ⟨key% "text_encoders.t5xxl.transformer.encoder.block.2.layer.0.SelfAttention.o.weight", [4096, 4096], .float32, [], false⟩,
  ⟨key% "text_encoders.t5xxl.transformer.encoder.block.2.layer.0.SelfAttention.q.weight", [4096, 4096], .float32, [], false⟩,
  ⟨key% "text_encoders.t5xxl.transformer.encoder.block.2.layer.0.SelfAttention.v.weight", [4096, 4096], .float32, [], false⟩,
  ⟨key% "text_encoders.t5xxl.transformer.encoder.block.2.layer.0.layer_norm.weight", [4096], .float32, [], false⟩,
  ⟨key% "text_encoders.t5xxl.transformer.encoder.block.2.layer.1.DenseReluDense.wi_0.weight", [10240, 4096], .float32, [], false⟩,
  ⟨key% "text_encoders.t5xxl.transformer.encoder.block.2.layer.1.DenseReluDense.wi_1.weight", [10240, 4096], .float32, [], false⟩,
  ⟨key% "text_encoders.t5xxl.transformer.encoder.block.2.layer.1.DenseReluDense.wo.weight", [4096, 10240], .float32, [], false⟩,
  ⟨key% "text_encoders.t5xxl.transformer.encoder.block.2.layer.1.layer_norm.weight", [4096], .float32, [], false⟩,
  ⟨key% "text_encoders.t5xxl.transformer.encoder.block.20.layer.0.SelfAttention.k.weight", [4096, 4096], .float32, [], false⟩,
  ⟨key% "text_encoders.t5xxl.transformer.encoder.block.20.layer.0.SelfAttention.o.weight", [4096, 4096], .float32, [], false⟩,
  ⟨key% "text_encoders.t5xxl.transformer.encoder.block.20.layer.0.SelfAttention.q.weight", [4096, 4096], .float32, [], false⟩,
  ⟨key% "text_encoders.t5xxl.transformer.encoder.block.20.layer.0.SelfAttention.v.weight", [4096, 4096], .float32, [], false⟩,
  ⟨key% "text_encoders.t5xxl.transformer.encoder.block.20.layer.0.layer_norm.weight", [4096], .float32, [], false⟩,
  ⟨key% "text_encoders.t5xxl.transformer.encoder.block.20.layer.1.DenseReluDense.wi_0.weight", [10240, 4096], .float32, [], false⟩,
  ⟨key% "text_encoders.t5xxl.transformer.encoder.block.20.layer.1.DenseReluDense.wi_1.weight", [10240, 4096], .float32, [], false⟩,
  ⟨key% "text_encoders.t5xxl.transformer.encoder.block.20.layer.1.DenseReluDense.wo.weight", [4096, 10240], .float32, [], false⟩,
  ⟨key% "text_encoders.t5xxl.transformer.encoder.block.20.layer.1.layer_norm.weight", [4096], .float32, [], false⟩,
  ⟨key% "text_encoders.t5xxl.transformer.encoder.block.21.layer.0.SelfAttention.k.weight", [4096, 4096], .float32, [], false⟩,
  ⟨key% "text_encoders.t5xxl.transformer.encoder.block.21.layer.0.SelfAttention.o.weight", [4096, 4096], .float32, [], false⟩,
  ⟨key% "text_encoders.t5xxl.transformer.encoder.block.21.layer.0.SelfAttention.q.weight", [4096, 4096], .float32, [], false⟩,
  ⟨key% "text_encoders.t5xxl.transformer.encoder.block.21.layer.0.SelfAttention.v.weight", [4096, 4096], .float32, [], false⟩,
  ⟨key% "text_encoders.t5xxl.transformer.encoder.block.21.layer.0.layer_norm.weight", [4096], .float32, [], false⟩,
  ⟨key% "text_encoders.t5xxl.transformer.encoder.block.21.layer.1.DenseReluDense.wi_0.weight", [10240, 4096], .float32, [], false⟩,
  ⟨key% "text_encoders.t5xxl.transformer.encoder.block.21.layer.1.DenseReluDense.wi_1.weight", [10240, 4096], .float32, [], false⟩,
  ⟨key% "text_encoders.t5xxl.transformer.encoder.block.21.layer.1.DenseReluDense.wo.weight", [4096, 10240], .float32, [], false⟩,
  ⟨key% "text_encoders.t5xxl.transformer.encoder.block.21.layer.1.layer_norm.weight", [4096], .float32, [], false⟩,
  ⟨key% "text_encoders.t5xxl.transformer.encoder.block.22.layer.0.SelfAttention.k.weight", [4096, 4096], .float32, [], false⟩,
  ⟨key% "text_encoders.t5xxl.transformer.encoder.block.22.layer.0.SelfAttention.o.weight", [4096, 4096], .float32, [], false⟩,
  ⟨key% "text_encoders.t5xxl.transformer.encoder.block.22.layer.0.SelfAttention.q.weight", [4096, 4096], .float32, [], false⟩,
  ⟨key% "text_encoders.t5xxl.transformer.encoder.block.22.layer.0.SelfAttention.v.weight", [4096, 4096], .float32, [], false⟩,
  ⟨key% "text_encoders.t5xxl.transformer.encoder.block.22.layer.0.layer_norm.weight", [4096], .float32, [], false⟩,
  ⟨key% "text_encoders.t5xxl.transformer.encoder.block.22.layer.1.DenseReluDense.wi_0.weight", [10240, 4096], .float32, [], false⟩,
  ⟨key% "text_encoders.t5xxl.transformer.encoder.block.22.layer.1.DenseReluDense.wi_1.weight", [10240, 4096], .float32, [], false⟩,
  ⟨key% "text_encoders.t5xxl.transformer.encoder.block.22.layer.1.DenseReluDense.wo.weight", [4096, 10240], .float32, [], false⟩,
  ⟨key% "text_encoders.t5xxl.transformer.encoder.block.22.layer.1.layer_norm.weight", [4096], .float32, [], false⟩,
  ⟨key% "text_encoders.t5xxl.transformer.encoder.block.23.layer.0.SelfAttention.k.weight", [4096, 4096], .float32, [], false⟩,
  ⟨key% "text_encoders.t5xxl.transformer.encoder.block.23.layer.0.SelfAttention.o.weight", [4096, 4096], .float32, [], false⟩,
  ⟨key% "text_encoders.t5xxl.transformer.encoder.block.23.layer.0.SelfAttention.q.weight", [4096, 4096], .float32, [], false⟩,
  ⟨key% "text_encoders.t5xxl.transformer.encoder.block.23.layer.0.SelfAttention.v.weight", [4096, 4096], .float32, [], false⟩,
  ⟨key% "text_encoders.t5xxl.transformer.encoder.block.23.layer.0.layer_norm.weight", [4096], .float32, [], false⟩,
  ⟨key% "text_encoders.t5xxl.transformer.encoder.block.23.layer.1.DenseReluDense.wi_0.weight", [10240, 4096], .float32, [], false⟩,
  ⟨key% "text_encoders.t5xxl.transformer.encoder.block.23.layer.1.DenseReluDense.wi_1.weight", [10240, 4096], .float32, [], false⟩,
  ⟨key% "text_encoders.t5xxl.transformer.encoder.block.23.layer.1.DenseReluDense.wo.weight", [4096, 10240], .float32, [], false⟩,
  ⟨key% "text_encoders.t5xxl.transformer.encoder.block.23.layer.1.layer_norm.weight", [4096], .float32, [], false⟩,
  ⟨key% "text_encoders.t5xxl.transformer.encoder.block.3.layer.0.SelfAttention.k.weight", [4096, 4096], .float32, [], false⟩,
  ⟨key% "text_encoders.t5xxl.transformer.encoder.block.3.layer.0.SelfAttention.o.weight", [4096, 4096], .float32, [], false⟩,
  ⟨key% "text_encoders.t5xxl.transformer.encoder.block.3.layer.0.SelfAttention.q.weight", [4096, 4096], .float32, [], false⟩,
  ⟨key% "text_encoders.t5xxl.transformer.encoder.block.3.layer.0.SelfAttention.v.weight", [4096, 4096], .float32, [], false⟩,
  ⟨key% "text_encoders.t5xxl.transformer.encoder.block.3.layer.0.layer_norm.weight", [4096], .float32, [], false⟩,
  ⟨key% "text_encoders.t5xxl.transformer.encoder.block.3.layer.1.DenseReluDense.wi_0.weight", [10240, 4096], .float32, [], false⟩,
  ⟨key% "text_encoders.t5xxl.transformer.encoder.block.3.layer.1.DenseReluDense.wi_1.weight", [10240, 4096], .float32, [], false⟩,
  ⟨key% "text_encoders.t5xxl.transformer.encoder.block.3.layer.1.DenseReluDense.wo.weight", [4096, 10240], .float32, [], false⟩,
  ⟨key% "text_encoders.t5xxl.transformer.encoder.block.3.layer.1.layer_norm.weight", [4096], .float32, [], false⟩,
  ⟨key% "text_encoders.t5xxl.transformer.encoder.block.4.layer.0.SelfAttention.k.weight", [4096, 4096], .float32, [], false⟩,
  ⟨key% "text_encoders.t5xxl.transformer.encoder.block.4.layer.0.SelfAttention.o.weight", [4096, 4096], .float32, [], false⟩,
  ⟨key% "text_encoders.t5xxl.transformer.encoder.block.4.layer.0.SelfAttention.q.weight", [4096, 4096], .float32, [], false⟩,
  ⟨key% "text_encoders.t5xxl.transformer.encoder.block.4.layer.0.SelfAttention.v.weight", [4096, 4096], .float32, [], false⟩,
  ⟨key% "text_encoders.t5xxl.transformer.encoder.block.4.layer.0.layer_norm.weight", [4096], .float32, [], false⟩,
  ⟨key% "text_encoders.t5xxl.transformer.encoder.block.4.layer.1.DenseReluDense.wi_0.weight", [10240, 4096], .float32, [], false⟩,
  ⟨key% "text_encoders.t5xxl.transformer.encoder.block.4.layer.1.DenseReluDense.wi_1.weight", [10240, 4096], .float32, [], false⟩,
  ⟨key% "text_encoders.t5xxl.transformer.encoder.block.4.layer.1.DenseReluDense.wo.weight", [4096, 10240], .float32, [], false⟩,
  ⟨key% "text_encoders.t5xxl.transformer.encoder.block.4.layer.1.layer_norm.weight", [4096], .float32, [], false⟩,
  ⟨key% "text_encoders.t5xxl.transformer.encoder.block.5.layer.0.SelfAttention.k.weight", [4096, 4096], .float32, [], false⟩,
  ⟨key% "text_encoders.t5xxl.transformer.encoder.block.5.layer.0.SelfAttention.o.weight", [4096, 4096], .float32, [], false⟩,
  ⟨key% "text_encoders.t5xxl.transformer.encoder.block.5.layer.0.SelfAttention.q.weight", [4096, 4096], .float32, [], false⟩,
  ⟨key% "text_encoders.t5xxl.transformer.encoder.block.5.layer.0.SelfAttention.v.weight", [4096, 4096], .float32, [], false⟩,
  ⟨key% "text_encoders.t5xxl.transformer.encoder.block.5.layer.0.layer_norm.weight", [4096], .float32, [], false⟩,
  ⟨key% "text_encoders.t5xxl.transformer.encoder.block.5.layer.1.DenseReluDense.wi_0.weight", [10240, 4096], .float32, [], false⟩,
  ⟨key% "text_encoders.t5xxl.transformer.encoder.block.5.layer.1.DenseReluDense.wi_1.weight", [10240, 4096], .float32, [], false⟩,
  ⟨key% "text_encoders.t5xxl.transformer.encoder.block.5.layer.1.DenseReluDense.wo.weight", [4096, 10240], .float32, [], false⟩,
  ⟨key% "text_encoders.t5xxl.transformer.encoder.block.5.layer.1.layer_norm.weight", [4096], .float32, [], false⟩,
  ⟨key% "text_encoders.t5xxl.transformer.encoder.block.6.layer.0.SelfAttention.k.weight", [4096, 4096], .float32, [], false⟩,
  ⟨key% "text_encoders.t5xxl.transformer.encoder.block.6.layer.0.SelfAttention.o.weight", [4096, 4096], .float32, [], false⟩,
  ⟨key% "text_encoders.t5xxl.transformer.encoder.block.6.layer.0.SelfAttention.q.weight", [4096, 4096], .float32, [], false⟩,
  ⟨key% "text_encoders.t5xxl.transformer.encoder.block.6.layer.0.SelfAttention.v.weight", [4096, 4096], .float32, [], false⟩,
  ⟨key% "text_encoders.t5xxl.transformer.encoder.block.6.layer.0.layer_norm.weight", [4096], .float32, [], false⟩,
  ⟨key% "text_encoders.t5xxl.transformer.encoder.block.6.layer.1.DenseReluDense.wi_0.weight", [10240, 4096], .float32, [], false⟩,
  ⟨key% "text_encoders.t5xxl.transformer.encoder.block.6.layer.1.DenseReluDense.wi_1.weight", [10240, 4096], .float32, [], false⟩,
  ⟨key% "text_encoders.t5xxl.transformer.encoder.block.6.layer.1.DenseReluDense.wo.weight", [4096, 10240], .float32, [], false⟩,
  ⟨key% "text_encoders.t5xxl.transformer.encoder.block.6.layer.1.layer_norm.weight", [4096], .float32, [], false⟩,
  ⟨key% "text_encoders.t5xxl.transformer.encoder.block.7.layer.0.SelfAttention.k.weight", [4096, 4096], .float32, [], false⟩,
  ⟨key% "text_encoders.t5xxl.transformer.encoder.block.7.layer.0.SelfAttention.o.weight", [4096, 4096], .float32, [], false⟩,
  ⟨key% "text_encoders.t5xxl.transformer.encoder.block.7.layer.0.SelfAttention.q.weight", [4096, 4096], .float32, [], false⟩,
  ⟨key% "text_encoders.t5xxl.transformer.encoder.block.7.layer.0.SelfAttention.v.weight", [4096, 4096], .float32, [], false⟩,
  ⟨key% "text_encoders.t5xxl.transformer.encoder.block.7.layer.0.layer_norm.weight", [4096], .float32, [], false⟩,
  ⟨key% "text_encoders.t5xxl.transformer.encoder.block.7.layer.1.DenseReluDense.wi_0.weight", [10240, 4096], .float32, [], false⟩,
  ⟨key% "text_encoders.t5xxl.transformer.encoder.block.7.layer.1.DenseReluDense.wi_1.weight", [10240, 4096], .float32, [], false⟩,
  ⟨key% "text_encoders.t5xxl.transformer.encoder.block.7.layer.1.DenseReluDense.wo.weight", [4096, 10240], .float32, [], false⟩,
  ⟨key% "text_encoders.t5xxl.transformer.encoder.block.7.layer.1.layer_norm.weight", [4096], .float32, [], false⟩,
  ⟨key% "text_encoders.t5xxl.transformer.encoder.block.8.layer.0.SelfAttention.k.weight", [4096, 4096], .float32, [], false⟩]
noncomputable def t5xxl2 : List Entry := [
  ⟨key% "text_encoders.t5xxl.transformer.encoder.block.8.layer.0.SelfAttention.o.weight", [4096, 4096], .float32, [], false⟩,
  ⟨key% "text_encoders.t5xxl.transformer.encoder.block.8.layer.0.SelfAttention.q.weight", [4096, 4096], .float32, [], false⟩,
  ⟨key% "text_encoders.t5xxl.transformer.encoder.block.8.layer.0.SelfAttention.v.weight", [4096, 4096], .float32, [], false⟩,
  ⟨key% "text_encoders.t5xxl.transformer.encoder.block.8.layer.0.layer_norm.weight", [4096], .float32, [], false⟩,
  ⟨key% "text_encoders.t5xxl.transformer.encoder.block.8.layer.1.DenseReluDense.wi_0.weight", [10240, 4096], .float32, [], false⟩,
  ⟨key% "text_encoders.t5xxl.transformer.encoder.block.8.layer.1.DenseReluDense.wi_1.weight", [10240, 4096], .float32, [], false⟩,
  ⟨key% "text_encoders.t5xxl.transformer.encoder.block.8.layer.1.DenseReluDense.wo.weight", [4096, 10240], .float32, [], false⟩,
  ⟨key% "text_encoders.t5xxl.transformer.encoder.block.8.layer.1.layer_norm.weight", [4096], .float32, [], false⟩,
  ⟨key% "text_encoders.t5xxl.transformer.encoder.block.9.layer.0.SelfAttention.k.weight", [4096, 4096], .float32, [], false⟩,
  ⟨key% "text_encoders.t5xxl.transformer.encoder.block.9.layer.0.SelfAttention.o.weight", [4096, 4096], .float32, [], false⟩,
  ⟨key% "text_encoders.t5xxl.transformer.encoder.block.9.layer.0.SelfAttention.q.weight", [4096, 4096], .float32, [], false⟩,
  ⟨key% "text_encoders.t5xxl.transformer.encoder.block.9.layer.0.SelfAttention.v.weight", [4096, 4096], .float32, [], false⟩,
  ⟨key% "text_encoders.t5xxl.transformer.encoder.block.9.layer.0.layer_norm.weight", [4096], .float32, [], false⟩,
  ⟨key% "text_encoders.t5xxl.transformer.encoder.block.9.layer.1.DenseReluDense.wi_0.weight", [10240, 4096], .float32, [], false⟩,
  ⟨key% "text_encoders.t5xxl.transformer.encoder.block.9.layer.1.DenseReluDense.wi_1.weight", [10240, 4096], .float32, [], false⟩,
  ⟨key% "text_encoders.t5xxl.transformer.encoder.block.9.layer.1.DenseReluDense.wo.weight", [4096, 10240], .float32, [], false⟩,
  ⟨key% "text_encoders.t5xxl.transformer.encoder.block.9.layer.1.layer_norm.weight", [4096], .float32, [], false⟩,
  ⟨key% "text_encoders.t5xxl.transformer.encoder.final_layer_norm.weight", [4096], .float32, [], false⟩,
  ⟨key% "text_encoders.t5xxl.transformer.shared.weight", [32128, 4096], .float32, [], false⟩]
/-- Component `t5xxl`: 219 keys -/
noncomputable def t5xxl : List Entry := t5xxl0 ++ t5xxl1 ++ t5xxl2

noncomputable def vae0 : List Entry := [
  ⟨key% "vae.decoder.conv_in.bias", [512], .float32, [], false⟩,
  ⟨key% "vae.decoder.conv_in.weight", [512, 16, 3, 3], .float32, [], false⟩,
  ⟨key% "vae.decoder.conv_out.bias", [3], .float32, [], false⟩,
  ⟨key% "vae.decoder.conv_out.weight", [3, 128, 3, 3], .float32, [], false⟩,
  ⟨key% "vae.decoder.mid.attn_1.k.bias", [512], .float32, [], false⟩,
  ⟨key% "vae.decoder.mid.attn_1.k.weight", [512, 512, 1, 1], .float32, [], false⟩,
  ⟨key% "vae.decoder.mid.attn_1.norm.bias", [512], .float32, [], false⟩,
  ⟨key% "vae.decoder.mid.attn_1.norm.weight", [512], .float32, [], false⟩,
  ⟨key% "vae.decoder.mid.attn_1.proj_out.bias", [512], .float32, [], false⟩,
  ⟨key% "vae.decoder.mid.attn_1.proj_out.weight", [512, 512, 1, 1], .float32, [], false⟩,
  ⟨key% "vae.decoder.mid.attn_1.q.bias", [512], .float32, [], false⟩,
  ⟨key% "vae.decoder.mid.attn_1.q.weight", [512, 512, 1, 1], .float32, [], false⟩,
  ⟨key% "vae.decoder.mid.attn_1.v.bias", [512], .float32, [], false⟩,
  ⟨key% "vae.decoder.mid.attn_1.v.weight", [512, 512, 1, 1], .float32, [], false⟩,
  ⟨key% "vae.decoder.mid.block_1.conv1.bias", [512], .float32, [], false⟩,
  ⟨key% "vae.decoder.mid.block_1.conv1.weight", [512, 512, 3, 3], .float32, [], false⟩,
  ⟨key% "vae.decoder.mid.block_1.conv2.bias", [512], .float32, [], false⟩,
  ⟨key% "vae.decoder.mid.block_1.conv2.weight", [512, 512, 3, 3], .float32, [], false⟩,
  ⟨key% "vae.decoder.mid.block_1.norm1.bias", [512], .float32, [], false⟩,
  ⟨key% "vae.decoder.mid.block_1.norm1.weight", [512], .float32, [], false⟩,
  ⟨key% "vae.decoder.mid.block_1.norm2.bias", [512], .float32, [], false⟩,
  ⟨key% "vae.decoder.mid.block_1.norm2.weight", [512], .float32, [], false⟩,
  ⟨key% "vae.decoder.mid.block_2.conv1.bias", [512], .float32, [], false⟩,
  ⟨key% "vae.decoder.mid.block_2.conv1.weight", [512, 512, 3, 3], .float32, [], false⟩,
  ⟨key% "vae.decoder.mid.block_2.conv2.bias", [512], .float32, [], false⟩,
  ⟨key% "vae.decoder.mid.block_2.conv2.weight", [512, 512, 3, 3], .float32, [], false⟩,
  ⟨key% "vae.decoder.mid.block_2.norm1.bias", [512], .float32, [], false⟩,
  ⟨key% "vae.decoder.mid.block_2.norm1.weight", [512], .float32, [], false⟩,
  ⟨key% "vae.decoder.mid.block_2.norm2.bias", [512], .float32, [], false⟩,
  ⟨key% "vae.decoder.mid.block_2.norm2.weight", [512], .float32, [], false⟩,
  ⟨key% "vae.decoder.norm_out.bias", [128], .float32, [], false⟩,
  ⟨key% "vae.decoder.norm_out.weight", [128], .float32, [], false⟩,
  ⟨key% "vae.decoder.up.0.block.0.conv1.bias", [128], .float32, [], false⟩,
  ⟨key% "vae.decoder.up.0.block.0.conv1.weight", [128, 256, 3, 3], .float32, [], false⟩,
  ⟨key% "vae.decoder.up.0.block.0.conv2.bias", [128], .float32, [], false⟩,
  ⟨key% "vae.decoder.up.0.block.0.conv2.weight", [128, 128, 3, 3], .float32, [], false⟩,
  ⟨key% "vae.decoder.up.0.block.0.nin_shortcut.bias", [128], .float32, [], false⟩,
  ⟨key% "vae.decoder.up.0.block.0.nin_shortcut.weight", [128, 256, 1, 1], .float32, [], false⟩,
  ⟨key% "vae.decoder.up.0.block.0.norm1.bias", [256], .float32, [], false⟩,
  ⟨key% "vae.decoder.up.0.block.0.norm1.weight", [256], .float32, [], false⟩,
  ⟨key% "vae.decoder.up.0.block.0.norm2.bias", [128], .float32, [], false⟩,
  ⟨key% "vae.decoder.up.0.block.0.norm2.weight", [128], .float32, [], false⟩,
  ⟨key% "vae.decoder.up.0.block.1.conv1.bias", [128], .float32, [], false⟩,
  ⟨key% "vae.decoder.up.0.block.1.conv1.weight", [128, 128, 3, 3], .float32, [], false⟩,
  ⟨key% "vae.decoder.up.0.block.1.conv2.bias", [128], .float32, [], false⟩,
  ⟨key% "vae.decoder.up.0.block.1.conv2.weight", [128, 128, 3, 3], .float32, [], false⟩,
  ⟨key% "vae.decoder.up.0.block.1.norm1.bias", [128], .float32, [], false⟩,
  ⟨key% "vae.decoder.up.0.block.1.norm1.weight", [128], .float32, [], false⟩,
  ⟨key% "vae.decoder.up.0.block.1.norm2.bias", [128], .float32, [], false⟩,
  ⟨key% "vae.decoder.up.0.block.1.norm2.weight", [128], .float32, [], false⟩,
  ⟨key% "vae.decoder.up.0.block.2.conv1.bias", [128], .float32, [], false⟩,
  ⟨key% "vae.decoder.up.0.block.2.conv1.weight", [128, 128, 3, 3], .float32, [], false⟩,
  ⟨key% "vae.decoder.up.0.block.2.conv2.bias", [128], .float32, [], false⟩,
  ⟨key% "vae.decoder.up.0.block.2.conv2.weight", [128, 128, 3, 3], .float32, [], false⟩,
  ⟨key% "vae.decoder.up.0.block.2.norm1.bias", [128], .float32, [], false⟩,
  ⟨key% "vae.decoder.up.0.block.2.norm1.weight", [128], .float32, [], false⟩,
  ⟨key% "vae.decoder.up.0.block.2.norm2.bias", [128], .float32, [], false⟩,
  ⟨key% "vae.decoder.up.0.block.2.norm2.weight", [128], .float32, [], false⟩,
  ⟨key% "vae.decoder.up.1.block.0.conv1.bias", [256], .float32, [], false⟩,
  ⟨key% "vae.decoder.up.1.block.0.conv1.weight", [256, 512, 3, 3], .float32, [], false⟩,
  ⟨key% "vae.decoder.up.1.block.0.conv2.bias", [256], .float32, [], false⟩,
  ⟨key% "vae.decoder.up.1.block.0.conv2.weight", [256, 256, 3, 3], .float32, [], false⟩,
  ⟨key% "vae.decoder.up.1.block.0.nin_shortcut.bias", [256], .float32, [], false⟩,
  ⟨key% "vae.decoder.up.1.block.0.nin_shortcut.weight", [256, 512, 1, 1], .float32, [], false⟩,
  ⟨key% "vae.decoder.up.1.block.0.norm1.bias", [512], .float32, [], false⟩,
  ⟨key% "vae.decoder.up.1.block.0.norm1.weight", [512], .float32, [], false⟩,
  ⟨key% "vae.decoder.up.1.block.0.norm2.bias", [256], .float32, [], false⟩,
  ⟨key% "vae.decoder.up.1.block.0.norm2.weight", [256], .float32, [], false⟩,
  ⟨key% "vae.decoder.up.1.block.1.conv1.bias", [256], .float32, [], false⟩,
  ⟨key% "vae.decoder.up.1.block.1.conv1.weight", [256, 256, 3, 3], .float32, [], false⟩,
  ⟨key% "vae.decoder.up.1.block.1.conv2.bias", [256], .float32, [], false⟩,
  ⟨key% "vae.decoder.up.1.block.1.conv2.weight", [256, 256, 3, 3], .float32, [], false⟩,
  ⟨key% "vae.decoder.up.1.block.1.norm1.bias", [256], .float32, [], false⟩,
  ⟨key% "vae.decoder.up.1.block.1.norm1.weight", [256], .float32, [], false⟩,
  ⟨key% "vae.decoder.up.1.block.1.norm2.bias", [256], .float32, [], false⟩,
  ⟨key% "vae.decoder.up.1.block.1.norm2.weight", [256], .float32, [], false⟩,
  ⟨key% "vae.decoder.up.1.block.2.conv1.bias", [256], .float32, [], false⟩,
  ⟨key% "vae.decoder.up.1.block.2.conv1.weight", [256, 256, 3, 3], .float32, [], false⟩,
  ⟨key% "vae.decoder.up.1.block.2.conv2.bias", [256], .float32, [], false⟩,
  ⟨key% "vae.decoder.up.1.block.2.conv2.weight", [256, 256, 3, 3], .float32, [], false⟩,
  ⟨key% "vae.decoder.up.1.block.2.norm1.bias", [256], .float32, [], false⟩,
  ⟨key% "vae.decoder.up.1.block.2.norm1.weight", [256], .float32, [], false⟩,
  ⟨key% "vae.decoder.up.1.block.2.norm2.bias", [256], .float32, [], false⟩,
  ⟨key% "vae.decoder.up.1.block.2.norm2.weight", [256], .float32, [], false⟩,
  ⟨key% "vae.decoder.up.1.upsample.conv.bias", [256], .float32, [], false⟩,
  ⟨key% "vae.decoder.up.1.upsample.conv.weight", [256, 256, 3, 3], .float32, [], false⟩,
  ⟨key% "vae.decoder.up.2.block.0.conv1.bias", [512], .float32, [], false⟩,
  ⟨key% "vae.decoder.up.2.block.0.conv1.weight", [512, 512, 3, 3], .float32, [], false⟩,
  ⟨key% "vae.decoder.up.2.block.0.conv2.bias", [512], .float32, [], false⟩,
  ⟨key% "vae.decoder.up.2.block.0.conv2.weight", [512, 512, 3, 3], .float32, [], false⟩,
  ⟨key% "vae.decoder.up.2.block.0.norm1.bias", [512], .float32, [], false⟩,
  ⟨key% "vae.decoder.up.2.block.0.norm1.weight", [512], .float32, [], false⟩,
  ⟨key% "vae.decoder.up.2.block.0.norm2.bias", [512], .float32, [], false⟩,
  ⟨key% "vae.decoder.up.2.block.0.norm2.weight", [512], .float32, [], false⟩,
  ⟨key% "vae.decoder.up.2.block.1.conv1.bias", [512], .float32, [], false⟩,
  ⟨key% "vae.decoder.up.2.block.1.conv1.weight", [512, 512, 3, 3], .float32, [], false⟩,
  ⟨key% "vae.decoder.up.2.block.1.conv2.bias", [512], .float32, [], false⟩,
  ⟨key% "vae.decoder.up.2.block.1.conv2.weight", [512, 512, 3, 3], .float32, [], false⟩,
  ⟨key% "vae.decoder.up.2.block.1.norm1.bias", [512], .float32, [], false⟩,
  ⟨key% "vae.decoder.up.2.block.1.norm1.weight", [512], .float32, [], false⟩]
noncomputable def vae1 : List Entry := [
  ⟨key% "vae.decoder.up.2.block.1.norm2.bias", [512], .float32, [], false⟩,
  ⟨key% "vae.decoder.up.2.block.1.norm2.weight", [512], .float32, [], false⟩,
  ⟨key% "vae.decoder.up.2.block.2.conv1.bias", [512], .float32, [], false⟩,
  ⟨key% "vae.decoder.up.2.block.2.conv1.weight", [512, 512, 3, 3], .float32, [], false⟩,
  ⟨key% "vae.decoder.up.2.block.2.conv2.bias", [512], .float32, [], false⟩,
  ⟨key% "vae.decoder.up.2.block.2.conv2.weight", [512, 512, 3, 3], .float32, [], false⟩,
  ⟨key% "vae.decoder.up.2.block.2.norm1.bias", [512], .float32, [], false⟩,
  ⟨key% "vae.decoder.up.2.block.2.norm1.weight", [512], .float32, [], false⟩,
  ⟨key% "vae.decoder.up.2.block.2.norm2.bias", [512], .float32, [], false⟩,
  ⟨key% "vae.decoder.up.2.block.2.norm2.weight", [512], .float32, [], false⟩,
  ⟨key% "vae.decoder.up.2.upsample.conv.bias", [512], .float32, [], false⟩,
  ⟨key% "vae.decoder.up.2.upsample.conv.weight", [512, 512, 3, 3], .float32, [], false⟩,
  ⟨key% "vae.decoder.up.3.block.0.conv1.bias", [512], .float32, [], false⟩,
  ⟨key% "vae.decoder.up.3.block.0.conv1.weight", [512, 512, 3, 3], .float32, [], false⟩,
  ⟨key% "vae.decoder.up.3.block.0.conv2.bias", [512], .float32, [], false⟩,
  ⟨key% "vae.decoder.up.3.block.0.conv2.weight", [512, 512, 3, 3], .float32, [], false⟩,
  ⟨key% "vae.decoder.up.3.block.0.norm1.bias", [512], .float32, [], false⟩,
  ⟨key% "vae.decoder.up.3.block.0.norm1.weight", [512], .float32, [], false⟩,
  ⟨key% "vae.decoder.up.3.block.0.norm2.bias", [512], .float32, [], false⟩,
  ⟨key% "vae.decoder.up.3.block.0.norm2.weight", [512], .float32, [], false⟩,
  ⟨key% "vae.decoder.up.3.block.1.conv1.bias", [512], .float32, [], false⟩,
  ⟨key% "vae.decoder.up.3.block.1.conv1.weight", [512, 512, 3, 3], .float32, [], false⟩,
  ⟨key% "vae.decoder.up.3.block.1.conv2.bias", [512], .float32, [], false⟩,
  ⟨key% "vae.decoder.up.3.block.1.conv2.weight", [512, 512, 3, 3], .float32, [], false⟩,
  ⟨key% "vae.decoder.up.3.block.1.norm1.bias", [512], .float32, [], false⟩,
  ⟨key% "vae.decoder.up.3.block.1.norm1.weight", [512], .float32, [], false⟩,
  ⟨key% "vae.decoder.up.3.block.1.norm2.bias", [512], .float32, [], false⟩,
  ⟨key% "vae.decoder.up.3.block.1.norm2.weight", [512], .float32, [], false⟩,
  ⟨key% "vae.decoder.up.3.block.2.conv1.bias", [512], .float32, [], false⟩,
  ⟨key% "vae.decoder.up.3.block.2.conv1.weight", [512, 512, 3, 3], .float32, [], false⟩,
  ⟨key% "vae.decoder.up.3.block.2.conv2.bias", [512], .float32, [], false⟩,
  ⟨key% "vae.decoder.up.3.block.2.conv2.weight", [512, 512, 3, 3], .float32, [], false⟩,
  ⟨key% "vae.decoder.up.3.block.2.norm1.bias", [512], .float32, [], false⟩,
  ⟨key% "vae.decoder.up.3.block.2.norm1.weight", [512], .float32, [], false⟩,
  ⟨key% "vae.decoder.up.3.block.2.norm2.bias", [512], .float32, [], false⟩,
  ⟨key% "vae.decoder.up.3.block.2.norm2.weight", [512], .float32, [], false⟩,
  ⟨key% "vae.decoder.up.3.upsample.conv.bias", [512], .float32, [], false⟩,
  ⟨key% "vae.decoder.up.3.upsample.conv.weight", [512, 512, 3, 3], .float32, [], false⟩,
  ⟨key% "vae.encoder.conv_in.bias", [128], .float32, [], false⟩,
  ⟨key% "vae.encoder.conv_in.weight", [128, 3, 3, 3], .float32, [], false⟩,
  ⟨key% "vae.encoder.conv_out.bias", [32], .float32, [], false⟩,
  ⟨key% "vae.encoder.conv_out.weight", [32, 512, 3, 3], .float32, [], false⟩,
  ⟨key% "vae.encoder.down.0.block.0.conv1.bias", [128], .float32, [], false⟩,
  ⟨key% "vae.encoder.down.0.block.0.conv1.weight", [128, 128, 3, 3], .float32, [], false⟩,
  ⟨key% "vae.encoder.down.0.block.0.conv2.bias", [128], .float32, [], false⟩,
  ⟨key% "vae.encoder.down.0.block.0.conv2.weight", [128, 128, 3, 3], .float32, [], false⟩,
  ⟨key% "vae.encoder.down.0.block.0.norm1.bias", [128], .float32, [], false⟩,
  ⟨key% "vae.encoder.down.0.block.0.norm1.weight", [128], .float32, [], false⟩,
  ⟨key% "vae.encoder.down.0.block.0.norm2.bias", [128], .float32, [], false⟩,
  ⟨key% "vae.encoder.down.0.block.0.norm2.weight", [128], .float32, [], false⟩,
  ⟨key% "vae.encoder.down.0.block.1.conv1.bias", [128], .float32, [], false⟩,
  ⟨key% "vae.encoder.down.0.block.1.conv1.weight", [128, 128, 3, 3], .float32, [], false⟩,
  ⟨key% "vae.encoder.down.0.block.1.conv2.bias", [128], .float32, [], false⟩,
  ⟨key% "vae.encoder.down.0.block.1.conv2.weight", [128, 128, 3, 3], .float32, [], false⟩,
  ⟨key% "vae.encoder.down.0.block.1.norm1.bias", [128], .float32, [], false⟩,
  ⟨key% "vae.encoder.down.0.block.1.norm1.weight", [128], .float32, [], false⟩,
  ⟨key% "vae.encoder.down.0.block.1.norm2.bias", [128], .float32, [], false⟩,
  ⟨key% "vae.encoder.down.0.block.1.norm2.weight", [128], .float32, [], false⟩,
  ⟨key% "vae.encoder.down.0.downsample.conv.bias", [128], .float32, [], false⟩,
  ⟨key% "vae.encoder.down.0.downsample.conv.weight", [128, 128, 3, 3], .float32, [], false⟩,
  ⟨key% "vae.encoder.down.1.block.0.conv1.bias", [256], .float32, [], false⟩,
  ⟨key% "vae.encoder.down.1.block.0.conv1.weight", [256, 128, 3, 3], .float32, [], false⟩,
  ⟨key% "vae.encoder.down.1.block.0.conv2.bias", [256], .float32, [], false⟩,
  ⟨key% "vae.encoder.down.1.block.0.conv2.weight", [256, 256, 3, 3], .float32, [], false⟩,
  ⟨key% "vae.encoder.down.1.block.0.nin_shortcut.bias", [256], .float32, [], false⟩,
  ⟨key% "vae.encoder.down.1.block.0.nin_shortcut.weight", [256, 128, 1, 1], .float32, [], false⟩,
  ⟨key% "vae.encoder.down.1.block.0.norm1.bias", [128], .float32, [], false⟩,
  ⟨key% "vae.encoder.down.1.block.0.norm1.weight", [128], .float32, [], false⟩,
  ⟨key% "vae.encoder.down.1.block.0.norm2.bias", [256], .float32, [], false⟩,
  ⟨key% "vae.encoder.down.1.block.0.norm2.weight", [256], .float32, [], false⟩,
  ⟨key% "vae.encoder.down.1.block.1.conv1.bias", [256], .float32, [], false⟩,
  ⟨key% "vae.encoder.down.1.block.1.conv1.weight", [256, 256, 3, 3], .float32, [], false⟩,
  ⟨key% "vae.encoder.down.1.block.1.conv2.bias", [256], .float32, [], false⟩,
  ⟨key% "vae.encoder.down.1.block.1.conv2.weight", [256, 256, 3, 3], .float32, [], false⟩,
  ⟨key% "vae.encoder.down.1.block.1.norm1.bias", [256], .float32, [], false⟩,
  ⟨key% "vae.encoder.down.1.block.1.norm1.weight", [256], .float32, [], false⟩,
  ⟨key% "vae.encoder.down.1.block.1.norm2.bias", [256], .float32, [], false⟩,
  ⟨key% "vae.encoder.down.1.block.1.norm2.weight", [256], .float32, [], false⟩,
  ⟨key% "vae.encoder.down.1.downsample.conv.bias", [256], .float32, [], false⟩,
  ⟨key% "vae.encoder.down.1.downsample.conv.weight", [256, 256, 3, 3], .float32, [], false⟩,
  ⟨key% "vae.encoder.down.2.block.0.conv1.bias", [512], .float32, [], false⟩,
  ⟨key% "vae.encoder.down.2.block.0.conv1.weight", [512, 256, 3, 3], .float32, [], false⟩,
  ⟨key% "vae.encoder.down.2.block.0.conv2.bias", [512], .float32, [], false⟩,
  ⟨key% "vae.encoder.down.2.block.0.conv2.weight", [512, 512, 3, 3], .float32, [], false⟩,
  ⟨key% "vae.encoder.down.2.block.0.nin_shortcut.bias", [512], .float32, [], false⟩,
  ⟨key% "vae.encoder.down.2.block.0.nin_shortcut.weight", [512, 256, 1, 1], .float32, [], false⟩,
  ⟨key% "vae.encoder.down.2.block.0.norm1.bias", [256], .float32, [], false⟩,
  ⟨key% "vae.encoder.down.2.block.0.norm1.weight", [256], .float32, [], false⟩,
  ⟨key% "vae.encoder.down.2.block.0.norm2.bias", [512], .float32, [], false⟩,
  ⟨key% "vae.encoder.down.2.block.0.norm2.weight", [512], .float32, [], false⟩,
  ⟨key% "vae.encoder.down.2.block.1.conv1.bias", [512], .float32, [], false⟩,
  ⟨key% "vae.encoder.down.2.block.1.conv1.weight", [512, 512, 3, 3], .float32, [], false⟩,
  ⟨key% "vae.encoder.down.2.block.1.conv2.bias", [512], .float32, [], false⟩,
  ⟨key% "vae.encoder.down.2.block.1.conv2.weight", [512, 512, 3, 3], .float32, [], false⟩,
  ⟨key% "vae.encoder.down.2.block.1.norm1.bias", [512], .float32, [], false⟩,
  ⟨key% "vae.encoder.down.2.block.1.norm1.weight", [512], .float32, [], false⟩,
  ⟨key% "vae.encoder.down.2.block.1.norm2.bias", [512], .float32, [], false⟩,
  ⟨key% "vae.encoder.down.2.block.1.norm2.weight", [512], .float32, [], false⟩,
  ⟨key% "vae.encoder.down.2.downsample.conv.bias", [512], .float32, [], false⟩,
  ⟨key% "vae.encoder.down.2.downsample.conv.weight", [512, 512, 3, 3], .float32, [], false⟩]
noncomputable def vae2 : List Entry := [
  ⟨key% "vae.encoder.down.3.block.0.conv1.bias", [512], .float32, [], false⟩,
  ⟨key% "vae.encoder.down.3.block.0.conv1.weight", [512, 512, 3, 3], .float32, [], false⟩,
  ⟨key% "vae.encoder.down.3.block.0.conv2.bias", [512], .float32, [], false⟩,
  ⟨key% "vae.encoder.down.3.block.0.conv2.weight", [512, 512, 3, 3], .float32, [], false⟩,
  ⟨key% "vae.encoder.down.3.block.0.norm1.bias", [512], .float32, [], false⟩,
  ⟨key% "vae.encoder.down.3.block.0.norm1.weight", [512], .float32, [], false⟩,
  ⟨key% "vae.encoder.down.3.block.0.norm2.bias", [512], .float32, [], false⟩,
  ⟨key% "vae.encoder.down.3.block.0.norm2.weight", [512], .float32, [], false⟩,
  ⟨key% "vae.encoder.down.3.block.1.conv1.bias", [512], .float32, [], false⟩,
  ⟨key% "vae.encoder.down.3.block.1.conv1.weight", [512, 512, 3, 3], .float32, [], false⟩,
  ⟨key% "vae.encoder.down.3.block.1.conv2.bias", [512], .float32, [], false⟩,
  ⟨key% "vae.encoder.down.3.block.1.conv2.weight", [512, 512, 3, 3], .float32, [], false⟩,
  ⟨key% "vae.encoder.down.3.block.1.norm1.bias", [512], .float32, [], false⟩,
  ⟨key% "vae.encoder.down.3.block.1.norm1.weight", [512], .float32, [], false⟩,
  ⟨key% "vae.encoder.down.3.block.1.norm2.bias", [512], .float32, [], false⟩,
  ⟨key% "vae.encoder.down.3.block.1.norm2.weight", [512], .float32, [], false⟩,
  ⟨key% "vae.encoder.mid.attn_1.k.bias", [512], .float32, [], false⟩,
  ⟨key% "vae.encoder.mid.attn_1.k.weight", [512, 512, 1, 1], .float32, [], false⟩,
  ⟨key% "vae.encoder.mid.attn_1.norm.bias", [512], .float32, [], false⟩,
  ⟨key% "vae.encoder.mid.attn_1.norm.weight", [512], .float32, [], false⟩,
  ⟨key% "vae.encoder.mid.attn_1.proj_out.bias", [512], .float32, [], false⟩,
  ⟨key% "vae.encoder.mid.attn_1.proj_out.weight", [512, 512, 1, 1], .float32, [], false⟩,
  ⟨key% "vae.encoder.mid.attn_1.q.bias", [512], .float32, [], false⟩,
  ⟨key% "vae.encoder.mid.attn_1.q.weight", [512, 512, 1, 1], .float32, [], false⟩,
  ⟨key% "vae.encoder.mid.attn_1.v.bias", [512], .float32, [], false⟩,
  ⟨key% "vae.encoder.mid.attn_1.v.weight", [512, 512, 1, 1], .float32, [], false⟩,
  ⟨key% "vae.encoder.mid.block_1.conv1.bias", [512], .float32, [], false⟩,
  ⟨key% "vae.encoder.mid.block_1.conv1.weight", [512, 512, 3, 3], .float32, [], false⟩,
  ⟨key% "vae.encoder.mid.block_1.conv2.bias", [512], .float32, [], false⟩,
  ⟨key% "vae.encoder.mid.block_1.conv2.weight", [512, 512, 3, 3], .float32, [], false⟩,
  ⟨key% "vae.encoder.mid.block_1.norm1.bias", [512], .float32, [], false⟩,
  ⟨key% "vae.encoder.mid.block_1.norm1.weight", [512], .float32, [], false⟩,
  ⟨key% "vae.encoder.mid.block_1.norm2.bias", [512], .float32, [], false⟩,
  ⟨key% "vae.encoder.mid.block_1.norm2.weight", [512], .float32, [], false⟩,
  ⟨key% "vae.encoder.mid.block_2.conv1.bias", [512], .float32, [], false⟩,
  ⟨key% "vae.encoder.mid.block_2.conv1.weight", [512, 512, 3, 3], .float32, [], false⟩,
  ⟨key% "vae.encoder.mid.block_2.conv2.bias", [512], .float32, [], false⟩,
  ⟨key% "vae.encoder.mid.block_2.conv2.weight", [512, 512, 3, 3], .float32, [], false⟩,
  ⟨key% "vae.encoder.mid.block_2.norm1.bias", [512], .float32, [], false⟩,
  ⟨key% "vae.encoder.mid.block_2.norm1.weight", [512], .float32, [], false⟩,
  ⟨key% "vae.encoder.mid.block_2.norm2.bias", [512], .float32, [], false⟩,
  ⟨key% "vae.encoder.mid.block_2.norm2.weight", [512], .float32, [], false⟩,
  ⟨key% "vae.encoder.norm_out.bias", [512], .float32, [], false⟩,
  ⟨key% "vae.encoder.norm_out.weight", [512], .float32, [], false⟩]
/-- Component `vae`: 244 keys -/
noncomputable def vae : List Entry := vae0 ++ vae1 ++ vae2

/-- The config as written in the file: its identifier and its components -/
noncomputable def table : Table := ⟨key% "flux_dev-flux", [(key% "diffuser", diffuser), (key% "clip_l", clip_l), (key% "t5xxl", t5xxl), (key% "vae", vae)]⟩

end Verif.Data.FluxFlux
