import Verif.Data.Entry

/-!
# Keys of `flux-flux_diffuser_only.yaml`

Generated by tools/gen_tables.py from sd_mecha/extensions/builtin/model_configs/flux-flux_diffuser_only.yaml.
-/
namespace Verif.Data.FluxFluxDiffuserOnly


noncomputable def diffuser0 : List Entry := [
  ⟨key% "double_blocks.0.img_attn.norm.key_norm.scale", [128], .bfloat16, [], false⟩,
  ⟨key% "double_blocks.0.img_attn.norm.query_norm.scale", [128], .bfloat16, [], false⟩,
  ⟨key% "double_blocks.0.img_attn.proj.bias", [3072], .bfloat16, [], false⟩,
  ⟨key% "double_blocks.0.img_attn.proj.weight", [3072, 3072], .bfloat16, [], false⟩,
  ⟨key% "double_blocks.0.img_attn.qkv.bias", [9216], .bfloat16, [], false⟩,
  ⟨key% "double_blocks.0.img_attn.qkv.weight", [9216, 3072], .bfloat16, [], false⟩,
  ⟨key% "double_blocks.0.img_mlp.0.bias", [12288], .bfloat16, [], false⟩,
  ⟨key% "double_blocks.0.img_mlp.0.weight", [12288, 3072], .bfloat16, [], false⟩,
  ⟨key% "double_blocks.0.img_mlp.2.bias", [3072], .bfloat16, [], false⟩,
  ⟨key% "double_blocks.0.img_mlp.2.weight", [3072, 12288], .bfloat16, [], false⟩,
  ⟨key% "double_blocks.0.img_mod.lin.bias", [18432], .bfloat16, [], false⟩,
  ⟨key% "double_blocks.0.img_mod.lin.weight", [18432, 3072], .bfloat16, [], false⟩,
  ⟨key% "double_blocks.0.txt_attn.norm.key_norm.scale", [128], .bfloat16, [], false⟩,
  ⟨key% "double_blocks.0.txt_attn.norm.query_norm.scale", [128], .bfloat16, [], false⟩,
  ⟨key% "double_blocks.0.txt_attn.proj.bias", [3072], .bfloat16, [], false⟩,
  ⟨key% "double_blocks.0.txt_attn.proj.weight", [3072, 3072], .bfloat16, [], false⟩,
  ⟨key% "double_blocks.0.txt_attn.qkv.bias", [9216], .bfloat16, [], false⟩,
  ⟨key% "double_blocks.0.txt_attn.qkv.weight", [9216, 3072], .bfloat16, [], false⟩,
  ⟨key% "double_blocks.0.txt_mlp.0.bias", [12288], .bfloat16, [], false⟩,
  ⟨key% "double_blocks.0.txt_mlp.0.weight", [12288, 3072], .bfloat16, [], false⟩,
  ⟨key% "double_blocks.0.txt_mlp.2.bias", [3072], .bfloat16, [], false⟩,
  ⟨key% "double_blocks.0.txt_mlp.2.weight", [3072, 12288], .bfloat16, [], false⟩,
  ⟨key% "double_blocks.0.txt_mod.lin.bias", [18432], .bfloat16, [], false⟩,
  ⟨key% "double_blocks.0.txt_mod.lin.weight", [18432, 3072], .bfloat16, [], false⟩,
  ⟨key% "double_blocks.1.img_attn.norm.key_norm.scale", [128], .bfloat16, [], false⟩,
  ⟨key% "double_blocks.1.img_attn.norm.query_norm.scale", [128], .bfloat16, [], false⟩,
  ⟨key% "double_blocks.1.img_attn.proj.bias", [3072], .bfloat16, [], false⟩,
  ⟨key% "double_blocks.1.img_attn.proj.weight", [3072, 3072], .bfloat16, [], false⟩,
  ⟨key% "double_blocks.1.img_attn.qkv.bias", [9216], .bfloat16, [], false⟩,
  ⟨key% "double_blocks.1.img_attn.qkv.weight", [9216, 3072], .bfloat16, [], false⟩,
  ⟨key% "double_blocks.1.img_mlp.0.bias", [12288], .bfloat16, [], false⟩,
  ⟨key% "double_blocks.1.img_mlp.0.weight", [12288, 3072], .bfloat16, [], false⟩,
  ⟨key% "double_blocks.1.img_mlp.2.bias", [3072], .bfloat16, [], false⟩,
  ⟨key% "double_blocks.1.img_mlp.2.weight", [3072, 12288], .bfloat16, [], false⟩,
  ⟨key% "double_blocks.1.img_mod.lin.bias", [18432], .bfloat16, [], false⟩,
  ⟨key% "double_blocks.1.img_mod.lin.weight", [18432, 3072], .bfloat16, [], false⟩,
  ⟨key% "double_blocks.1.txt_attn.norm.key_norm.scale", [128], .bfloat16, [], false⟩,
  ⟨key% "double_blocks.1.txt_attn.norm.query_norm.scale", [128], .bfloat16, [], false⟩,
  ⟨key% "double_blocks.1.txt_attn.proj.bias", [3072], .bfloat16, [], false⟩,
  ⟨key% "double_blocks.1.txt_attn.proj.weight", [3072, 3072], .bfloat16, [], false⟩,
  ⟨key% "double_blocks.1.txt_attn.qkv.bias", [9216], .bfloat16, [], false⟩,
  ⟨key% "double_blocks.1.txt_attn.qkv.weight", [9216, 3072], .bfloat16, [], false⟩,
  ⟨key% "double_blocks.1.txt_mlp.0.bias", [12288], .bfloat16, [], false⟩,
  ⟨key% "double_blocks.1.txt_mlp.0.weight", [12288, 3072], .bfloat16, [], false⟩,
  ⟨key% "double_blocks.1.txt_mlp.2.bias", [3072], .bfloat16, [], false⟩,
  ⟨key% "double_blocks.1.txt_mlp.2.weight", [3072, 12288], .bfloat16, [], false⟩,
  ⟨key% "double_blocks.1.txt_mod.lin.bias", [18432], .bfloat16, [], false⟩,
  ⟨key% "double_blocks.1.txt_mod.lin.weight", [18432, 3072], .bfloat16, [], false⟩,
  ⟨key% "double_blocks.10.img_attn.norm.key_norm.scale", [128], .bfloat16, [], false⟩,
  ⟨key% "double_blocks.10.img_attn.norm.query_norm.scale", [128], .bfloat16, [], false⟩,
  ⟨key% "double_blocks.10.img_attn.proj.bias", [3072], .bfloat16, [], false⟩,
  ⟨key% "double_blocks.10.img_attn.proj.weight", [3072, 3072], .bfloat16, [], false⟩,
  ⟨key% "double_blocks.10.img_attn.qkv.bias", [9216], .bfloat16, [], false⟩,
  ⟨key% "double_blocks.10.img_attn.qkv.weight", [9216, 3072], .bfloat16, [], false⟩,
  ⟨key% "double_blocks.10.img_mlp.0.bias", [12288], .bfloat16, [], false⟩,
  ⟨key% "double_blocks.10.img_mlp.0.weight", [12288, 3072], .bfloat16, [], false⟩,
  ⟨key% "double_blocks.10.img_mlp.2.bias", [3072], .bfloat16, [], false⟩,
  ⟨key% "double_blocks.10.img_mlp.2.weight", [3072, 12288], .bfloat16, [], false⟩,
  ⟨key% "double_blocks.10.img_mod.lin.bias", [18432], .bfloat16, [], false⟩,
  ⟨key% "double_blocks.10.img_mod.lin.weight", [18432, 3072], .bfloat16, [], false⟩,
  ⟨key% "double_blocks.10.txt_attn.norm.key_norm.scale", [128], .bfloat16, [], false⟩,
  ⟨key% "double_blocks.10.txt_attn.norm.query_norm.scale", [128], .bfloat16, [], false⟩,
  ⟨key% "double_blocks.10.txt_attn.proj.bias", [3072], .bfloat16, [], false⟩,
  ⟨key% "double_blocks.10.txt_attn.proj.weight", [3072, 3072], .bfloat16, [], false⟩,
  ⟨key% "double_blocks.10.txt_attn.qkv.bias", [9216], .bfloat16, [], false⟩,
  ⟨key% "double_blocks.10.txt_attn.qkv.weight", [9216, 3072], .bfloat16, [], false⟩,
  ⟨key% "double_blocks.10.txt_mlp.0.bias", [12288], .bfloat16, [], false⟩,
  ⟨key% "double_blocks.10.txt_mlp.0.weight", [12288, 3072], .bfloat16, [], false⟩,
  ⟨key% "double_blocks.10.txt_mlp.2.bias", [3072], .bfloat16, [], false⟩,
  ⟨key% "double_blocks.10.txt_mlp.2.weight", [3072, 12288], .bfloat16, [], false⟩,
  ⟨key% "double_blocks.10.txt_mod.lin.bias", [18432], .bfloat16, [], false⟩,
  ⟨key% "double_blocks.10.txt_mod.lin.weight", [18432, 3072], .bfloat16, [], false⟩,
  ⟨key% "double_blocks.11.img_attn.norm.key_norm.scale", [128], .bfloat16, [], false⟩,
  ⟨key% "double_blocks.11.img_attn.norm.query_norm.scale", [128], .bfloat16, [], false⟩,
  ⟨key% "double_blocks.11.img_attn.proj.bias", [3072], .bfloat16, [], false⟩,
  ⟨key% "double_blocks.11.img_attn.proj.weight", [3072, 3072], .bfloat16, [], false⟩,
  ⟨key% "double_blocks.11.img_attn.qkv.bias", [9216], .bfloat16, [], false⟩,
  ⟨key% "double_blocks.11.img_attn.qkv.weight", [9216, 3072], .bfloat16, [], false⟩,
  ⟨key% "double_blocks.11.img_mlp.0.bias", [12288], .bfloat16, [], false⟩,
  ⟨key% "double_blocks.11.img_mlp.0.weight", [12288, 3072], .bfloat16, [], false⟩,
  ⟨key% "double_blocks.11.img_mlp.2.bias", [3072], .bfloat16, [], false⟩,
  ⟨key% "double_blocks.11.img_mlp.2.weight", [3072, 12288], .bfloat16, [], false⟩,
  ⟨key% "double_blocks.11.img_mod.lin.bias", [18432], .bfloat16, [], false⟩,
  ⟨key% "double_blocks.11.img_mod.lin.weight", [18432, 3072], .bfloat16, [], false⟩,
  ⟨key% "double_blocks.11.txt_attn.norm.key_norm.scale", [128], .bfloat16, [], false⟩,
  ⟨key% "double_blocks.11.txt_attn.norm.query_norm.scale", [128], .bfloat16, [], false⟩,
  ⟨key% "double_blocks.11.txt_attn.proj.bias", [3072], .bfloat16, [], false⟩,
  ⟨key% "double_blocks.11.txt_attn.proj.weight", [3072, 3072], .bfloat16, [], false⟩,
  ⟨key% "double_blocks.11.txt_attn.qkv.bias", [9216], .bfloat16, [], false⟩,
  ⟨key% "double_blocks.11.txt_attn.qkv.weight", [9216, 3072], .bfloat16, [], false⟩,
  ⟨key% "double_blocks.11.txt_mlp.0.bias", [12288], .bfloat16, [], false⟩,
  ⟨key% "double_blocks.11.txt_mlp.0.weight", [12288, 3072], .bfloat16, [], false⟩,
  ⟨key% "double_blocks.11.txt_mlp.2.bias", [3072], .bfloat16, [], false⟩,
  ⟨key% "double_blocks.11.txt_mlp.2.weight", [3072, 12288], .bfloat16, [], false⟩,
  ⟨key% "double_blocks.11.txt_mod.lin.bias", [18432], .bfloat16, [], false⟩,
  ⟨key% "double_blocks.11.txt_mod.lin.weight", [18432, 3072], .bfloat16, [], false⟩,
  ⟨key% "double_blocks.12.img_attn.norm.key_norm.scale", [128], .bfloat16, [], false⟩,
  ⟨key% "double_blocks.12.img_attn.norm.query_norm.scale", [128], .bfloat16, [], false⟩,
  ⟨key% "double_blocks.12.img_attn.proj.bias", [3072], .bfloat16, [], false⟩,
  ⟨key% "double_blocks.12.img_attn.proj.weight", [3072, 3072], .bfloat16, [], false⟩]
noncomputable def diffuser1 : List Entry := [
  ⟨key% "double_blocks.12.img_attn.qkv.bias", [9216], .bfloat16, [], false⟩,
  ⟨key% "double_blocks.12.img_attn.qkv.weight", [9216, 3072], .bfloat16, [], false⟩,
  ⟨key% "double_blocks.12.img_mlp.0.bias", [12288], .bfloat16, [], false⟩,
  ⟨key% "double_blocks.12.img_mlp.0.weight", [12288, 3072], .bfloat16, [], false⟩,
  ⟨key% "double_blocks.12.img_mlp.2.bias", [3072], .bfloat16, [], false⟩,
  ⟨key% "double_blocks.12.img_mlp.2.weight", [3072, 12288], .bfloat16, [], false⟩,
  ⟨key% "double_blocks.12.img_mod.lin.bias", [18432], .bfloat16, [], false⟩,
  ⟨key% "double_blocks.12.img_mod.lin.weight", [18432, 3072], .bfloat16, [], false⟩,
  ⟨key% "double_blocks.12.txt_attn.norm.key_norm.scale", [128], .bfloat16, [], false⟩,
  ⟨key% "double_blocks.12.txt_attn.norm.query_norm.scale", [128], .bfloat16, [], false⟩,
  ⟨key% "double_blocks.12.txt_attn.proj.bias", [3072], .bfloat16, [], false⟩,
  ⟨key% "double_blocks.12.txt_attn.proj.weight", [3072, 3072], .bfloat16, [], false⟩,
  ⟨key% "double_blocks.12.txt_attn.qkv.bias", [9216], .bfloat16, [], false⟩,
  ⟨key% "double_blocks.12.txt_attn.qkv.weight", [9216, 3072], .bfloat16, [], false⟩,
  ⟨key% "double_blocks.12.txt_mlp.0.bias", [12288], .bfloat16, [], false⟩,
  ⟨key% "double_blocks.12.txt_mlp.0.weight", [12288, 3072], .bfloat16, [], false⟩,
  ⟨key% "double_blocks.12.txt_mlp.2.bias", [3072], .bfloat16, [], false⟩,
  ⟨key% "double_blocks.12.txt_mlp.2.weight", [3072, 12288], .bfloat16, [], false⟩,
  ⟨key% "double_blocks.12.txt_mod.lin.bias", [18432], .bfloat16, [], false⟩,
  ⟨key% "double_blocks.12.txt_mod.lin.weight", [18432, 3072], .bfloat16, [], false⟩,
  ⟨key% "double_blocks.13.img_attn.norm.key_norm.scale", [128], .bfloat16, [], false⟩,
  ⟨key% "double_blocks.13.img_attn.norm.query_norm.scale", [128], .bfloat16, [], false⟩,
  ⟨key% "double_blocks.13.img_attn.proj.bias", [3072], .bfloat16, [], false⟩,
  ⟨key% "double_blocks.13.img_attn.proj.weight", [3072, 3072], .bfloat16, [], false⟩,
  ⟨key% "double_blocks.13.img_attn.qkv.bias", [9216], .bfloat16, [], false⟩,
  ⟨key% "double_blocks.13.img_attn.qkv.weight", [9216, 3072], .bfloat16, [], false⟩,
  ⟨key% "double_blocks.13.img_mlp.0.bias", [12288], .bfloat16, [], false⟩,
  ⟨key% "double_blocks.13.img_mlp.0.weight", [12288, 3072], .bfloat16, [], false⟩,
  ⟨key% "double_blocks.13.img_mlp.2.bias", [3072], .bfloat16, [], false⟩,
  ⟨key% "double_blocks.13.img_mlp.2.weight", [3072, 12288], .bfloat16, [], false⟩,
  ⟨key% "double_blocks.13.img_mod.lin.bias", [18432], .bfloat16, [], false⟩,
  ⟨key% "double_blocks.13.img_mod.lin.weight", [18432, 3072], .bfloat16, [], false⟩,
  ⟨key% "double_blocks.13.txt_attn.norm.key_norm.scale", [128], .bfloat16, [], false⟩,
  ⟨key% "double_blocks.13.txt_attn.norm.query_norm.scale", [128], .bfloat16, [], false⟩,
  ⟨key% "double_blocks.13.txt_attn.proj.bias", [3072], .bfloat16, [], false⟩,
  ⟨key% "double_blocks.13.txt_attn.proj.weight", [3072, 3072], .bfloat16, [], false⟩,
  ⟨key% "double_blocks.13.txt_attn.qkv.bias", [9216], .bfloat16, [], false⟩,
  ⟨key% "double_blocks.13.txt_attn.qkv.weight", [9216, 3072], .bfloat16, [], false⟩,
  ⟨key% "double_blocks.13.txt_mlp.0.bias", [12288], .bfloat16, [], false⟩,
  ⟨key% "double_blocks.13.txt_mlp.0.weight", [12288, 3072], .bfloat16, [], false⟩,
  ⟨key% "double_blocks.13.txt_mlp.2.bias", [3072], .bfloat16, [], false⟩,
  ⟨key% "double_blocks.13.txt_mlp.2.weight", [3072, 12288], .bfloat16, [], false⟩,
  ⟨key% "double_blocks.13.txt_mod.lin.bias", [18432], .bfloat16, [], false⟩,
  ⟨key% "double_blocks.13.txt_mod.lin.weight", [18432, 3072], .bfloat16, [], false⟩,
  ⟨key% "double_blocks.14.img_attn.norm.key_norm.scale", [128], .bfloat16, [], false⟩,
  ⟨key% "double_blocks.14.img_attn.norm.query_norm.scale", [128], .bfloat16, [], false⟩,
  ⟨key% "double_blocks.14.img_attn.proj.bias", [3072], .bfloat16, [], false⟩,
  ⟨key% "double_blocks.14.img_attn.proj.weight", [3072, 3072], .bfloat16, [], false⟩,
  ⟨key% "double_blocks.14.img_attn.qkv.bias", [9216], .bfloat16, [], false⟩,
  ⟨key% "double_blocks.14.img_attn.qkv.weight", [9216, 3072], .bfloat16, [], false⟩,
  ⟨key% "double_blocks.14.img_mlp.0.bias", [12288], .bfloat16, [], false⟩,
  ⟨key% "double_blocks.14.img_mlp.0.weight", [12288, 3072], .bfloat16, [], false⟩,
  ⟨key% "double_blocks.14.img_mlp.2.bias", [3072], .bfloat16, [], false⟩,
  ⟨key% "double_blocks.14.img_mlp.2.weight", [3072, 12288], .bfloat16, [], false⟩,
  ⟨key% "double_blocks.14.img_mod.lin.bias", [18432], .bfloat16, [], false⟩,
  ⟨key% "double_blocks.14.img_mod.lin.weight", [18432, 3072], .bfloat16, [], false⟩,
  ⟨key% "double_blocks.14.txt_attn.norm.key_norm.scale", [128], .bfloat16, [], false⟩,
  ⟨key% "double_blocks.14.txt_attn.norm.query_norm.scale", [128], .bfloat16, [], false⟩,
  ⟨key% "double_blocks.14.txt_attn.proj.bias", [3072], .bfloat16, [], false⟩,
  ⟨key% "double_blocks.14.txt_attn.proj.weight", [3072, 3072], .bfloat16, [], false⟩,
  ⟨key% "double_blocks.14.txt_attn.qkv.bias", [9216], .bfloat16, [], false⟩,
  ⟨key% "double_blocks.14.txt_attn.qkv.weight", [9216, 3072], .bfloat16, [], false⟩,
  ⟨key% "double_blocks.14.txt_mlp.0.bias", [12288], .bfloat16, [], false⟩,
  ⟨key% "double_blocks.14.txt_mlp.0.weight", [12288, 3072], .bfloat16, [], false⟩,
  ⟨key% "double_blocks.14.txt_mlp.2.bias", [3072], .bfloat16, [], false⟩,
  ⟨key% "double_blocks.14.txt_mlp.2.weight", [3072, 12288], .bfloat16, [], false⟩,
  ⟨key% "double_blocks.14.txt_mod.lin.bias", [18432], .bfloat16, [], false⟩,
  ⟨key% "double_blocks.14.txt_mod.lin.weight", [18432, 3072], .bfloat16, [], false⟩,
  ⟨key% "double_blocks.15.img_attn.norm.key_norm.scale", [128], .bfloat16, [], false⟩,
  ⟨key% "double_blocks.15.img_attn.norm.query_norm.scale", [128], .bfloat16, [], false⟩,
  ⟨key% "double_blocks.15.img_attn.proj.bias", [3072], .bfloat16, [], false⟩,
  ⟨key% "double_blocks.15.img_attn.proj.weight", [3072, 3072], .bfloat16, [], false⟩,
  ⟨key% "double_blocks.15.img_attn.qkv.bias", [9216], .bfloat16, [], false⟩,
  ⟨key% "double_blocks.15.img_attn.qkv.weight", [9216, 3072], .bfloat16, [], false⟩,
  ⟨key% "double_blocks.15.img_mlp.0.bias", [12288], .bfloat16, [], false⟩,
  ⟨key% "double_blocks.15.img_mlp.0.weight", [12288, 3072], .bfloat16, [], false⟩,
  ⟨key% "double_blocks.15.img_mlp.2.bias", [3072], .bfloat16, [], false⟩,
  ⟨key% "double_blocks.15.img_mlp.2.weight", [3072, 12288], .bfloat16, [], false⟩,
  ⟨key% "double_blocks.15.img_mod.lin.bias", [18432], .bfloat16, [], false⟩,
  ⟨key% "double_blocks.15.img_mod.lin.weight", [18432, 3072], .bfloat16, [], false⟩,
  ⟨key% "double_blocks.15.txt_attn.norm.key_norm.scale", [128], .bfloat16, [], false⟩,
  ⟨key% "double_blocks.15.txt_attn.norm.query_norm.scale", [128], .bfloat16, [], false⟩,
  ⟨key% "double_blocks.15.txt_attn.proj.bias", [3072], .bfloat16, [], false⟩,
  ⟨key% "double_blocks.15.txt_attn.proj.weight", [3072, 3072], .bfloat16, [], false⟩,
  ⟨key% "double_blocks.15.txt_attn.qkv.bias", [9216], .bfloat16, [], false⟩,
  ⟨key% "double_blocks.15.txt_attn.qkv.weight", [9216, 3072], .bfloat16, [], false⟩,
  ⟨key% "double_blocks.15.txt_mlp.0.bias", [12288], .bfloat16, [], false⟩,
  ⟨key% "double_blocks.15.txt_mlp.0.weight", [12288, 3072], .bfloat16, [], false⟩,
  ⟨key% "double_blocks.15.txt_mlp.2.bias", [3072], .bfloat16, [], false⟩,
  ⟨key% "double_blocks.15.txt_mlp.2.weight", [3072, 12288], .bfloat16, [], false⟩,
  ⟨key% "double_blocks.15.txt_mod.lin.bias", [18432], .bfloat16, [], false⟩,
  ⟨key% "double_blocks.15.txt_mod.lin.weight", [18432, 3072], .bfloat16, [], false⟩,
  ⟨key% "double_blocks.16.img_attn.norm.key_norm.scale", [128], .bfloat16, [], false⟩,
  ⟨key% "double_blocks.16.img_attn.norm.query_norm.scale", [128], .bfloat16, [], false⟩,
  ⟨key% "double_blocks.16.img_attn.proj.bias", [3072], .bfloat16, [], false⟩,
  ⟨key% "double_blocks.16.img_attn.proj.weight", [3072, 3072], .bfloat16, [], false⟩,
  ⟨key% "double_blocks.16.img_attn.qkv.bias", [9216], .bfloat16, [], false⟩,
  ⟨key% "double_blocks.16.img_attn.qkv.weight", [9216, 3072], .bfloat16, [], false⟩,
  ⟨key% "double_blocks.16.img_mlp.0.bias", [12288], .bfloat16, [], false⟩,
  ⟨key% "double_blocks.16.img_mlp.0.weight", [12288, 3072], .bfloat16, [], false⟩]
noncomputable def diffuser2 : List Entry := [
  ⟨key% "double_blocks.16.img_mlp.2.bias", [3072], .bfloat16, [], false⟩,
  ⟨key% "double_blocks.16.img_mlp.2.weight", [3072, 12288], .bfloat16, [], false⟩,
  ⟨key% "double_blocks.16.img_mod.lin.bias", [18432], .bfloat16, [], false⟩,
  ⟨key% "double_blocks.16.img_mod.lin.weight", [18432, 3072], .bfloat16, [], false⟩,
  ⟨key% "double_blocks.16.txt_attn.norm.key_norm.scale", [128], .bfloat16, [], false⟩,
  ⟨key% "double_blocks.16.txt_attn.norm.query_norm.scale", [128], .bfloat16, [], false⟩,
  ⟨key% "double_blocks.16.txt_attn.proj.bias", [3072], .bfloat16, [], false⟩,
  ⟨key% "double_blocks.16.txt_attn.proj.weight", [3072, 3072], .bfloat16, [], false⟩,
  ⟨key% "double_blocks.16.txt_attn.qkv.bias", [9216], .bfloat16, [], false⟩,
  ⟨key% "double_blocks.16.txt_attn.qkv.weight", [9216, 3072], .bfloat16, [], false⟩,
  ⟨key% "double_blocks.16.txt_mlp.0.bias", [12288], .bfloat16, [], false⟩,
  ⟨key% "double_blocks.16.txt_mlp.0.weight", [12288, 3072], .bfloat16, [], false⟩,
  ⟨key% "double_blocks.16.txt_mlp.2.bias", [3072], .bfloat16, [], false⟩,
  ⟨key% "double_blocks.16.txt_mlp.2.weight", [3072, 12288], .bfloat16, [], false⟩,
  ⟨key% "double_blocks.16.txt_mod.lin.bias", [18432], .bfloat16, [], false⟩,
  ⟨key% "double_blocks.16.txt_mod.lin.weight", [18432, 3072], .bfloat16, [], false⟩,
  ⟨key% "double_blocks.17.img_attn.norm.key_norm.scale", [128], .bfloat16, [], false⟩,
  ⟨key% "double_blocks.17.img_attn.norm.query_norm.scale", [128], .bfloat16, [], false⟩,
  ⟨key% "double_blocks.17.img_attn.proj.bias", [3072], .bfloat16, [], false⟩,
  ⟨key% "double_blocks.17.img_attn.proj.weight", [3072, 3072], .bfloat16, [], false⟩,
  ⟨key% "double_blocks.17.img_attn.qkv.bias", [9216], .bfloat16, [], false⟩,
  ⟨key% "double_blocks.17.img_attn.qkv.weight", [9216, 3072], .bfloat16, [], false⟩,
  ⟨key% "double_blocks.17.img_mlp.0.bias", [12288], .bfloat16, [], false⟩,
  ⟨key% "double_blocks.17.img_mlp.0.weight", [12288, 3072], .bfloat16, [], false⟩,
  ⟨key% "double_blocks.17.img_mlp.2.bias", [3072], .bfloat16, [], false⟩,
  ⟨key% "double_blocks.17.img_mlp.2.weight", [3072, 12288], .bfloat16, [], false⟩,
  ⟨key% "double_blocks.17.img_mod.lin.bias", [18432], .bfloat16, [], false⟩,
  ⟨key% "double_blocks.17.img_mod.lin.weight", [18432, 3072], .bfloat16, [], false⟩,
  ⟨key% "double_blocks.17.txt_attn.norm.key_norm.scale", [128], .bfloat16, [], false⟩,
  ⟨key% "double_blocks.17.txt_attn.norm.query_norm.scale", [128], .bfloat16, [], false⟩,
  ⟨key% "double_blocks.17.txt_attn.proj.bias", [3072], .bfloat16, [], false⟩,
  ⟨key% "double_blocks.17.txt_attn.proj.weight", [3072, 3072], .bfloat16, [], false⟩,
  ⟨key% "double_blocks.17.txt_attn.qkv.bias", [9216], .bfloat16, [], false⟩,
  ⟨key% "double_blocks.17.txt_attn.qkv.weight", [9216, 3072], .bfloat16, [], false⟩,
  ⟨key% "double_blocks.17.txt_mlp.0.bias", [12288], .bfloat16, [], false⟩,
  ⟨key% "double_blocks.17.txt_mlp.0.weight", [12288, 3072], .bfloat16, [], false⟩,
  ⟨key% "double_blocks.17.txt_mlp.2.bias", [3072], .bfloat16, [], false⟩,
  ⟨key% "double_blocks.17.txt_mlp.2.weight", [3072, 12288], .bfloat16, [], false⟩,
  ⟨key% "double_blocks.17.txt_mod.lin.bias", [18432], .bfloat16, [], false⟩,
  ⟨key% "double_blocks.17.txt_mod.lin.weight", [18432, 3072], .bfloat16, [], false⟩,
  ⟨key% "double_blocks.18.img_attn.norm.key_norm.scale", [128], .bfloat16, [], false⟩,
  ⟨key% "double_blocks.18.img_attn.norm.query_norm.scale", [128], .bfloat16, [], false⟩,
  ⟨key% "double_blocks.18.img_attn.proj.bias", [3072], .bfloat16, [], false⟩,
  ⟨key% "double_blocks.18.img_attn.proj.weight", [3072, 3072], .bfloat16, [], false⟩,
  ⟨key% "double_blocks.18.img_attn.qkv.bias", [9216], .bfloat16, [], false⟩,
  ⟨key% "double_blocks.18.img_attn.qkv.weight", [9216, 3072], .bfloat16, [], false⟩,
  ⟨key% "double_blocks.18.img_mlp.0.bias", [12288], .bfloat16, [], false⟩,
  ⟨key% "double_blocks.18.img_mlp.0.weight", [12288, 3072], .bfloat16, [], false⟩,
  ⟨key% "double_blocks.18.img_mlp.2.bias", [3072], .bfloat16, [], false⟩,
  ⟨key% "double_blocks.18.img_mlp.2.weight", [3072, 12288], .bfloat16, [], false⟩,
  ⟨key% "double_blocks.18.img_mod.lin.bias", [18432], .bfloat16, [], false⟩,
  ⟨key% "double_blocks.18.img_mod.lin.weight", [18432, 3072], .bfloat16, [], false⟩,
  ⟨key% "double_blocks.18.txt_attn.norm.key_norm.scale", [128], .bfloat16, [], false⟩,
  ⟨key% "double_blocks.18.txt_attn.norm.query_norm.scale", [128], .bfloat16, [], false⟩,
  ⟨key% "double_blocks.18.txt_attn.proj.bias", [3072], .bfloat16, [], false⟩,
  ⟨key% "double_blocks.18.txt_attn.proj.weight", [3072, 3072], .bfloat16, [], false⟩,
  ⟨key% "double_blocks.18.txt_attn.qkv.bias", [9216], .bfloat16, [], false⟩,
  ⟨key% "double_blocks.18.txt_attn.qkv.weight", [9216, 3072], .bfloat16, [], false⟩,
  ⟨key% "double_blocks.18.txt_mlp.0.bias", [12288], .bfloat16, [], false⟩,
  ⟨key% "double_blocks.18.txt_mlp.0.weight", [12288, 3072], .bfloat16, [], false⟩,
  ⟨key% "double_blocks.18.txt_mlp.2.bias", [3072], .bfloat16, [], false⟩,
  ⟨key% "double_blocks.18.txt_mlp.2.weight", [3072, 12288], .bfloat16, [], false⟩,
  ⟨key% "double_blocks.18.txt_mod.lin.bias", [18432], .bfloat16, [], false⟩,
  ⟨key% "double_blocks.18.txt_mod.lin.weight", [18432, 3072], .bfloat16, [], false⟩,
  ⟨key% "double_blocks.2.img_attn.norm.key_norm.scale", [128], .bfloat16, [], false⟩,
  ⟨key% "double_blocks.2.img_attn.norm.query_norm.scale", [128], .bfloat16, [], false⟩,
  ⟨key% "double_blocks.2.img_attn.proj.bias", [3072], .bfloat16, [], false⟩,
  ⟨key% "double_blocks.2.img_attn.proj.weight", [3072, 3072], .bfloat16, [], false⟩,
  ⟨key% "double_blocks.2.img_attn.qkv.bias", [9216], .bfloat16, [], false⟩,
  ⟨key% "double_blocks.2.img_attn.qkv.weight", [9216, 3072], .bfloat16, [], false⟩,
  ⟨key% "double_blocks.2.img_mlp.0.bias", [12288], .bfloat16, [], false⟩,
  ⟨key% "double_blocks.2.img_mlp.0.weight", [12288, 3072], .bfloat16, [], false⟩,
  ⟨key% "double_blocks.2.img_mlp.2.bias", [3072], .bfloat16, [], false⟩,
  ⟨key% "double_blocks.2.img_mlp.2.weight", [3072, 12288], .bfloat16, [], false⟩,
  ⟨key% "double_blocks.2.img_mod.lin.bias", [18432], .bfloat16, [], false⟩,
  ⟨key% "double_blocks.2.img_mod.lin.weight", [18432, 3072], .bfloat16, [], false⟩,
  ⟨key% "double_blocks.2.txt_attn.norm.key_norm.scale", [128], .bfloat16, [], false⟩,
  ⟨key% "double_blocks.2.txt_attn.norm.query_norm.scale", [128], .bfloat16, [], false⟩,
  ⟨key% "double_blocks.2.txt_attn.proj.bias", [3072], .bfloat16, [], false⟩,
  ⟨key% "double_blocks.2.txt_attn.proj.weight", [3072, 3072], .bfloat16, [], false⟩,
  ⟨key% "double_blocks.2.txt_attn.qkv.bias", [9216], .bfloat16, [], false⟩,
  ⟨key% "double_blocks.2.txt_attn.qkv.weight", [9216, 3072], .bfloat16, [], false⟩,
  ⟨key% "double_blocks.2.txt_mlp.0.bias", [12288], .bfloat16, [], false⟩,
  ⟨key% "double_blocks.2.txt_mlp.0.weight", [12288, 3072], .bfloat16, [], false⟩,
  ⟨key% "double_blocks.2.txt_mlp.2.bias", [3072], .bfloat16, [], false⟩,
  ⟨key% "double_blocks.2.txt_mlp.2.weight", [3072, 12288], .bfloat16, [], false⟩,
  ⟨key% "double_blocks.2.txt_mod.lin.bias", [18432], .bfloat16, [], false⟩,
  ⟨key% "double_blocks.2.txt_mod.lin.weight", [18432, 3072], .bfloat16, [], false⟩,
  ⟨key% "double_blocks.3.img_attn.norm.key_norm.scale", [128], .bfloat16, [], false⟩,
  ⟨key% "double_blocks.3.img_attn.norm.query_norm.scale", [128], .bfloat16, [], false⟩,
  ⟨key% "double_blocks.3.img_attn.proj.bias", [3072], .bfloat16, [], false⟩,
  ⟨key% "double_blocks.3.img_attn.proj.weight", [3072, 3072], .bfloat16, [], false⟩,
  ⟨key% "double_blocks.3.img_attn.qkv.bias", [9216], .bfloat16, [], false⟩,
  ⟨key% "double_blocks.3.img_attn.qkv.weight", [9216, 3072], .bfloat16, [], false⟩,
  ⟨key% "double_blocks.3.img_mlp.0.bias", [12288], .bfloat16, [], false⟩,
  ⟨key% "double_blocks.3.img_mlp.0.weight", [12288, 3072], .bfloat16, [], false⟩,
  ⟨key% "double_blocks.3.img_mlp.2.bias", [3072], .bfloat16, [], false⟩,
  ⟨key% "double_blocks.3.img_mlp.2.weight", [3072, 12288], .bfloat16, [], false⟩,
  ⟨key% "double_blocks.3.img_mod.lin.bias", [18432], .bfloat16, [], false⟩,
  ⟨key% "double_blocks.3.img_mod.lin.weight", [18432, 3072], .bfloat16, [], false⟩]
noncomputable def diffuser3 : List Entry := [
  ⟨key% "double_blocks.3.txt_attn.norm.key_norm.scale", [128], .bfloat16, [], false⟩,
  ⟨key% "double_blocks.3.txt_attn.norm.query_norm.scale", [128], .bfloat16, [], false⟩,
  ⟨key% "double_blocks.3.txt_attn.proj.bias", [3072], .bfloat16, [], false⟩,
  ⟨key% "double_blocks.3.txt_attn.proj.weight", [3072, 3072], .bfloat16, [], false⟩,
  ⟨key% "double_blocks.3.txt_attn.qkv.bias", [9216], .bfloat16, [], false⟩,
  ⟨key% "double_blocks.3.txt_attn.qkv.weight", [9216, 3072], .bfloat16, [], false⟩,
  ⟨key% "double_blocks.3.txt_mlp.0.bias", [12288], .bfloat16, [], false⟩,
  ⟨key% "double_blocks.3.txt_mlp.0.weight", [12288, 3072], .bfloat16, [], false⟩,
  ⟨key% "double_blocks.3.txt_mlp.2.bias", [3072], .bfloat16, [], false⟩,
  ⟨key% "double_blocks.3.txt_mlp.2.weight", [3072, 12288], .bfloat16, [], false⟩,
  ⟨key% "double_blocks.3.txt_mod.lin.bias", [18432], .bfloat16, [], false⟩,
  ⟨key% "double_blocks.3.txt_mod.lin.weight", [18432, 3072], .bfloat16, [], false⟩,
  ⟨key% "double_blocks.4.img_attn.norm.key_norm.scale", [128], .bfloat16, [], false⟩,
  ⟨key% "double_blocks.4.img_attn.norm.query_norm.scale", [128], .bfloat16, [], false⟩,
  ⟨key% "double_blocks.4.img_attn.proj.bias", [3072], .bfloat16, [], false⟩,
  ⟨key% "double_blocks.4.img_attn.proj.weight", [3072, 3072], .bfloat16, [], false⟩,
  ⟨key% "double_blocks.4.img_attn.qkv.bias", [9216], .bfloat16, [], false⟩,
  ⟨key% "double_blocks.4.img_attn.qkv.weight", [9216, 3072], .bfloat16, [], false⟩,
  ⟨key% "double_blocks.4.img_mlp.0.bias", [12288], .bfloat16, [], false⟩,
  ⟨key% "double_blocks.4.img_mlp.0.weight", [12288, 3072], .bfloat16, [], false⟩,
  ⟨key% "double_blocks.4.img_mlp.2.bias", [3072], .bfloat16, [], false⟩,
  ⟨key% "double_blocks.4.img_mlp.2.weight", [3072, 12288], .bfloat16, [], false⟩,
  ⟨key% "double_blocks.4.img_mod.lin.bias", [18432], .bfloat16, [], false⟩,
  ⟨key% "double_blocks.4.img_mod.lin.weight", [18432, 3072], .bfloat16, [], false⟩,
  ⟨key% "double_blocks.4.txt_attn.norm.key_norm.scale", [128], .bfloat16, [], false⟩,
  ⟨key% "double_blocks.4.txt_attn.norm.query_norm.scale", [128], .bfloat16, [], false⟩,
  ⟨key% "double_blocks.4.txt_attn.proj.bias", [3072], .bfloat16, [], false⟩,
  ⟨key% "double_blocks.4.txt_attn.proj.weight", [3072, 3072], .bfloat16, [], false⟩,
  ⟨key% "double_blocks.4.txt_attn.qkv.bias", [9216], .bfloat16, [], false⟩,
  ⟨key% "double_blocks.4.txt_attn.qkv.weight", [9216, 3072], .bfloat16, [], false⟩,
  ⟨key% "double_blocks.4.txt_mlp.0.bias", [12288], .bfloat16, [], false⟩,
  ⟨key% "double_blocks.4.txt_mlp.0.weight", [12288, 3072], .bfloat16, [], false⟩,
  ⟨key% "double_blocks.4.txt_mlp.2.bias", [3072], .bfloat16, [], false⟩,
  ⟨key% "double_blocks.4.txt_mlp.2.weight", [3072, 12288], .bfloat16, [], false⟩,
  ⟨key% "double_blocks.4.txt_mod.lin.bias", [18432], .bfloat16, [], false⟩,
  ⟨key% "double_blocks.4.txt_mod.lin.weight", [18432, 3072], .bfloat16, [], false⟩,
  ⟨key% "double_blocks.5.img_attn.norm.key_norm.scale", [128], .bfloat16, [], false⟩,
  ⟨key% "double_blocks.5.img_attn.norm.query_norm.scale", [128], .bfloat16, [], false⟩,
  ⟨key% "double_blocks.5.img_attn.proj.bias", [3072], .bfloat16, [], false⟩,
  ⟨key% "double_blocks.5.img_attn.proj.weight", [3072, 3072], .bfloat16, [], false⟩,
  ⟨key% "double_blocks.5.img_attn.qkv.bias", [9216], .bfloat16, [], false⟩,
  ⟨key% "double_blocks.5.img_attn.qkv.weight", [9216, 3072], .bfloat16, [], false⟩,
  ⟨key% "double_blocks.5.img_mlp.0.bias", [12288], .bfloat16, [], false⟩,
  ⟨key% "double_blocks.5.img_mlp.0.weight", [12288, 3072], .bfloat16, [], false⟩,
  ⟨key% "double_blocks.5.img_mlp.2.bias", [3072], .bfloat16, [], false⟩,
  ⟨key% "double_blocks.5.img_mlp.2.weight", [3072, 12288], .bfloat16, [], false⟩,
  ⟨key% "double_blocks.5.img_mod.lin.bias", [18432], .bfloat16, [], false⟩,
  ⟨key% "double_blocks.5.img_mod.lin.weight", [18432, 3072], .bfloat16, [], false⟩,
  ⟨key% "double_blocks.5.txt_attn.norm.key_norm.scale", [128], .bfloat16, [], false⟩,
  ⟨key% "double_blocks.5.txt_attn.norm.query_norm.scale", [128], .bfloat16, [], false⟩,
  ⟨key% "double_blocks.5.txt_attn.proj.bias", [3072], .bfloat16, [], false⟩,
  ⟨key% "double_blocks.5.txt_attn.proj.weight", [3072, 3072], .bfloat16, [], false⟩,
  ⟨key% "double_blocks.5.txt_attn.qkv.bias", [9216], .bfloat16, [], false⟩,
  ⟨key% "double_blocks.5.txt_attn.qkv.weight", [9216, 3072], .bfloat16, [], false⟩,
  ⟨key% "double_blocks.5.txt_mlp.0.bias", [12288], .bfloat16, [], false⟩,
  ⟨key% "double_blocks.5.txt_mlp.0.weight", [12288, 3072], .bfloat16, [], false⟩,
  ⟨key% "double_blocks.5.txt_mlp.2.bias", [3072], .bfloat16, [], false⟩,
  ⟨key% "double_blocks.5.txt_mlp.2.weight", [3072, 12288], .bfloat16, [], false⟩,
  ⟨key% "double_blocks.5.txt_mod.lin.bias", [18432], .bfloat16, [], false⟩,
  ⟨key% "double_blocks.5.txt_mod.lin.weight", [18432, 3072], .bfloat16, [], false⟩,
  ⟨key% "double_blocks.6.img_attn.norm.key_norm.scale", [128], .bfloat16, [], false⟩,
  ⟨key% "double_blocks.6.img_attn.norm.query_norm.scale", [128], .bfloat16, [], false⟩,
  ⟨key% "double_blocks.6.img_attn.proj.bias", [3072], .bfloat16, [], false⟩,
  ⟨key% "double_blocks.6.img_attn.proj.weight", [3072, 3072], .bfloat16, [], false⟩,
  ⟨key% "double_blocks.6.img_attn.qkv.bias", [9216], .bfloat16, [], false⟩,
  ⟨key% "double_blocks.6.img_attn.qkv.weight", [9216, 3072], .bfloat16, [], false⟩,
  ⟨key% "double_blocks.6.img_mlp.0.bias", [12288], .bfloat16, [], false⟩,
  ⟨key% "double_blocks.6.img_mlp.0.weight", [12288, 3072], .bfloat16, [], false⟩,
  ⟨key% "double_blocks.6.img_mlp.2.bias", [3072], .bfloat16, [], false⟩,
  ⟨key% "double_blocks.6.img_mlp.2.weight", [3072, 12288], .bfloat16, [], false⟩,
  ⟨key% "double_blocks.6.img_mod.lin.bias", [18432], .bfloat16, [], false⟩,
  ⟨key% "double_blocks.6.img_mod.lin.weight", [18432, 3072], .bfloat16, [], false⟩,
  ⟨key% "double_blocks.6.txt_attn.norm.key_norm.scale", [128], .bfloat16, [], false⟩,
  ⟨key% "double_blocks.6.txt_attn.norm.query_norm.scale", [128], .bfloat16, [], false⟩,
  ⟨key% "double_blocks.6.txt_attn.proj.bias", [3072], .bfloat16, [], false⟩,
  ⟨key% "double_blocks.6.txt_attn.proj.weight", [3072, 3072], .bfloat16, [], false⟩,
  ⟨key% "double_blocks.6.txt_attn.qkv.bias", [9216], .bfloat16, [], false⟩,
  ⟨key% "double_blocks.6.txt_attn.qkv.weight", [9216, 3072], .bfloat16, [], false⟩,
  ⟨key% "double_blocks.6.txt_mlp.0.bias", [12288], .bfloat16, [], false⟩,
  ⟨key% "double_blocks.6.txt_mlp.0.weight", [12288, 3072], .bfloat16, [], false⟩,
  ⟨key% "double_blocks.6.txt_mlp.2.bias", [3072], .bfloat16, [], false⟩,
  ⟨key% "double_blocks.6.txt_mlp.2.weight", [3072, 12288], .bfloat16, [], false⟩,
  ⟨key% "double_blocks.6.txt_mod.lin.bias", [18432], .bfloat16, [], false⟩,
  ⟨key% "double_blocks.6.txt_mod.lin.weight", [18432, 3072], .bfloat16, [], false⟩,
  ⟨key% "double_blocks.7.img_attn.norm.key_norm.scale", [128], .bfloat16, [], false⟩,
  ⟨key% "double_blocks.7.img_attn.norm.query_norm.scale", [128], .bfloat16, [], false⟩,
  ⟨key% "double_blocks.7.img_attn.proj.bias", [3072], .bfloat16, [], false⟩,
  ⟨key% "double_blocks.7.img_attn.proj.weight", [3072, 3072], .bfloat16, [], false⟩,
  ⟨key% "double_blocks.7.img_attn.qkv.bias", [9216], .bfloat16, [], false⟩,
  ⟨key% "double_blocks.7.img_attn.qkv.weight", [9216, 3072], .bfloat16, [], false⟩,
  ⟨key% "double_blocks.7.img_mlp.0.bias", [12288], .bfloat16, [], false⟩,
  ⟨key% "double_blocks.7.img_mlp.0.weight", [12288, 3072], .bfloat16, [], false⟩,
  ⟨key% "double_blocks.7.img_mlp.2.bias", [3072], .bfloat16, [], false⟩,
  ⟨key% "double_blocks.7.img_mlp.2.weight", [3072, 12288], .bfloat16, [], false⟩,
  ⟨key% "double_blocks.7.img_mod.lin.bias", [18432], .bfloat16, [], false⟩,
  ⟨key% "double_blocks.7.img_mod.lin.weight", [18432, 3072], .bfloat16, [], false⟩,
  ⟨key% "double_blocks.7.txt_attn.norm.key_norm.scale", [128], .bfloat16, [], false⟩,
  ⟨key% "double_blocks.7.txt_attn.norm.query_norm.scale", [128], .bfloat16, [], false⟩,
  ⟨key% "double_blocks.7.txt_attn.proj.bias", [3072], .bfloat16, [], false⟩,
  ⟨key% "double_blocks.7.txt_attn.proj.weight", [3072, 3072], .bfloat16, [], false⟩]
noncomputable def diffuser4 : List Entry := [
  ⟨key% "double_blocks.7.txt_attn.qkv.bias", [9216], .bfloat16, [], false⟩,
  ⟨key% "double_blocks.7.txt_attn.qkv.weight", [9216, 3072], .bfloat16, [], false⟩,
  ⟨key% "double_blocks.7.txt_mlp.0.bias", [12288], .bfloat16, [], false⟩,
  ⟨key% "double_blocks.7.txt_mlp.0.weight", [12288, 3072], .bfloat16, [], false⟩,
  ⟨key% "double_blocks.7.txt_mlp.2.bias", [3072], .bfloat16, [], false⟩,
  ⟨key% "double_blocks.7.txt_mlp.2.weight", [3072, 12288], .bfloat16, [], false⟩,
  ⟨key% "double_blocks.7.txt_mod.lin.bias", [18432], .bfloat16, [], false⟩,
  ⟨key% "double_blocks.7.txt_mod.lin.weight", [18432, 3072], .bfloat16, [], false⟩,
  ⟨key% "double_blocks.8.img_attn.norm.key_norm.scale", [128], .bfloat16, [], false⟩,
  ⟨key% "double_blocks.8.img_attn.norm.query_norm.scale", [128], .bfloat16, [], false⟩,
  ⟨key% "double_blocks.8.img_attn.proj.bias", [3072], .bfloat16, [], false⟩,
  ⟨key% "double_blocks.8.img_attn.proj.weight", [3072, 3072], .bfloat16, [], false⟩,
  ⟨key% "double_blocks.8.img_attn.qkv.bias", [9216], .bfloat16, [], false⟩,
  ⟨key% "double_blocks.8.img_attn.qkv.weight", [9216, 3072], .bfloat16, [], false⟩,
  ⟨key% "double_blocks.8.img_mlp.0.bias", [12288], .bfloat16, [], false⟩,
  ⟨key% "double_blocks.8.img_mlp.0.weight", [12288, 3072], .bfloat16, [], false⟩,
  ⟨key% "double_blocks.8.img_mlp.2.bias", [3072], .bfloat16, [], false⟩,
  ⟨key% "double_blocks.8.img_mlp.2.weight", [3072, 12288], .bfloat16, [], false⟩,
  ⟨key% "double_blocks.8.img_mod.lin.bias", [18432], .bfloat16, [], false⟩,
  ⟨key% "double_blocks.8.img_mod.lin.weight", [18432, 3072], .bfloat16, [], false⟩,
  ⟨key% "double_blocks.8.txt_attn.norm.key_norm.scale", [128], .bfloat16, [], false⟩,
  ⟨key% "double_blocks.8.txt_attn.norm.query_norm.scale", [128], .bfloat16, [], false⟩,
  ⟨key% "double_blocks.8.txt_attn.proj.bias", [3072], .bfloat16, [], false⟩,
  ⟨key% "double_blocks.8.txt_attn.proj.weight", [3072, 3072], .bfloat16, [], false⟩,
  ⟨key% "double_blocks.8.txt_attn.qkv.bias", [9216], .bfloat16, [], false⟩,
  ⟨key% "double_blocks.8.txt_attn.qkv.weight", [9216, 3072], .bfloat16, [], false⟩,
  ⟨key% "double_blocks.8.txt_mlp.0.bias", [12288], .bfloat16, [], false⟩,
  ⟨key% "double_blocks.8.txt_mlp.0.weight", [12288, 3072], .bfloat16, [], false⟩,
  ⟨key% "double_blocks.8.txt_mlp.2.bias", [3072], .bfloat16, [], false⟩,
  ⟨key% "double_blocks.8.txt_mlp.2.weight", [3072, 12288], .bfloat16, [], false⟩,
  ⟨key% "double_blocks.8.txt_mod.lin.bias", [18432], .bfloat16, [], false⟩,
  ⟨key% "double_blocks.8.txt_mod.lin.weight", [18432, 3072], .bfloat16, [], false⟩,
  ⟨key% "double_blocks.9.img_attn.norm.key_norm.scale", [128], .bfloat16, [], false⟩,
  ⟨key% "double_blocks.9.img_attn.norm.query_norm.scale", [128], .bfloat16, [], false⟩,
  ⟨key% "double_blocks.9.img_attn.proj.bias", [3072], .bfloat16, [], false⟩,
  ⟨key% "double_blocks.9.img_attn.proj.weight", [3072, 3072], .bfloat16, [], false⟩,
  ⟨key% "double_blocks.9.img_attn.qkv.bias", [9216], .bfloat16, [], false⟩,
  ⟨key% "double_blocks.9.img_attn.qkv.weight", [9216, 3072], .bfloat16, [], false⟩,
  ⟨key% "double_blocks.9.img_mlp.0.bias", [12288], .bfloat16, [], false⟩,
  ⟨key% "double_blocks.9.img_mlp.0.weight", [12288, 3072], .bfloat16, [], false⟩,
  ⟨key% "double_blocks.9.img_mlp.2.bias", [3072], .bfloat16, [], false⟩,
  ⟨key% "double_blocks.9.img_mlp.2.weight", [3072, 12288], .bfloat16, [], false⟩,
  ⟨key% "double_blocks.9.img_mod.lin.bias", [18432], .bfloat16, [], false⟩,
  ⟨key% "double_blocks.9.img_mod.lin.weight", [18432, 3072], .bfloat16, [], false⟩,
  ⟨key% "double_blocks.9.txt_attn.norm.key_norm.scale", [128], .bfloat16, [], false⟩,
  ⟨key% "double_blocks.9.txt_attn.norm.query_norm.scale", [128], .bfloat16, [], false⟩,
  ⟨key% "double_blocks.9.txt_attn.proj.bias", [3072], .bfloat16, [], false⟩,
  ⟨key% "double_blocks.9.txt_attn.proj.weight", [3072, 3072], .bfloat16, [], false⟩,
  ⟨key% "double_blocks.9.txt_attn.qkv.bias", [9216], .bfloat16, [], false⟩,
  ⟨key% "double_blocks.9.txt_attn.qkv.weight", [9216, 3072], .bfloat16, [], false⟩,
  ⟨key% "double_blocks.9.txt_mlp.0.bias", [12288], .bfloat16, [], false⟩,
  ⟨key% "double_blocks.9.txt_mlp.0.weight", [12288, 3072], .bfloat16, [], false⟩,
  ⟨key% "double_blocks.9.txt_mlp.2.bias", [3072], .bfloat16, [], false⟩,
  ⟨key% "double_blocks.9.txt_mlp.2.weight", [3072, 12288], .bfloat16, [], false⟩,
  ⟨key% "double_blocks.9.txt_mod.lin.bias", [18432], .bfloat16, [], false⟩,
  ⟨key% "double_blocks.9.txt_mod.lin.weight", [18432, 3072], .bfloat16, [], false⟩,
  ⟨key% "final_layer.adaLN_modulation.1.bias", [6144], .bfloat16, [], false⟩,
  ⟨key% "final_layer.adaLN_modulation.1.weight", [6144, 3072], .bfloat16, [], false⟩,
  ⟨key% "final_layer.linear.bias", [64], .bfloat16, [], false⟩,
  ⟨key% "final_layer.linear.weight", [64, 3072], .bfloat16, [], false⟩,
  ⟨key% "guidance_in.in_layer.bias", [3072], .bfloat16, [], false⟩,
  ⟨key% "guidance_in.in_layer.weight", [3072, 256], .bfloat16, [], false⟩,
  ⟨key% "guidance_in.out_layer.bias", [3072], .bfloat16, [], false⟩,
  ⟨key% "guidance_in.out_layer.weight", [3072, 3072], .bfloat16, [], false⟩,
  ⟨key% "img_in.bias", [3072], .bfloat16, [], false⟩,
  ⟨key% "img_in.weight", [3072, 64], .bfloat16, [], false⟩,
  ⟨key% "single_blocks.0.linear1.bias", [21504], .bfloat16, [], false⟩,
  ⟨key% "single_blocks.0.linear1.weight", [21504, 3072], .bfloat16, [], false⟩,
  ⟨key% "single_blocks.0.linear2.bias", [3072], .bfloat16, [], false⟩,
  ⟨key% "single_blocks.0.linear2.weight", [3072, 15360], .bfloat16, [], false⟩,
  ⟨key% "single_blocks.0.modulation.lin.bias", [9216], .bfloat16, [], false⟩,
  ⟨key% "single_blocks.0.modulation.lin.weight", [9216, 3072], .bfloat16, [], false⟩,
  ⟨key% "single_blocks.0.norm.key_norm.scale", [128], .bfloat16, [], false⟩,
  ⟨key% "single_blocks.0.norm.query_norm.scale", [128], .bfloat16, [], false⟩,
  ⟨key% "single_blocks.1.linear1.bias", [21504], .bfloat16, [], false⟩,
  ⟨key% "single_blocks.1.linear1.weight", [21504, 3072], .bfloat16, [], false⟩,
  ⟨key% "single_blocks.1.linear2.bias", [3072], .bfloat16, [], false⟩,
  ⟨key% "single_blocks.1.linear2.weight", [3072, 15360], .bfloat16, [], false⟩,
  ⟨key% "single_blocks.1.modulation.lin.bias", [9216], .bfloat16, [], false⟩,
  ⟨key% "single_blocks.1.modulation.lin.weight", [9216, 3072], .bfloat16, [], false⟩,
  ⟨key% "single_blocks.1.norm.key_norm.scale", [128], .bfloat16, [], false⟩,
  ⟨key% "single_blocks.1.norm.query_norm.scale", [128], .bfloat16, [], false⟩,
  ⟨key% "single_blocks.10.linear1.bias", [21504], .bfloat16, [], false⟩,
  ⟨key% "single_blocks.10.linear1.weight", [21504, 3072], .bfloat16, [], false⟩,
  ⟨key% "single_blocks.10.linear2.bias", [3072], .bfloat16, [], false⟩,
  ⟨key% "single_blocks.10.linear2.weight", [3072, 15360], .bfloat16, [], false⟩,
  ⟨key% "single_blocks.10.modulation.lin.bias", [9216], .bfloat16, [], false⟩,
  ⟨key% "single_blocks.10.modulation.lin.weight", [9216, 3072], .bfloat16, [], false⟩,
  ⟨key% "single_blocks.10.norm.key_norm.scale", [128], .bfloat16, [], false⟩,
  ⟨key% "single_blocks.10.norm.query_norm.scale", [128], .bfloat16, [], false⟩,
  ⟨key% "single_blocks.11.linear1.bias", [21504], .bfloat16, [], false⟩,
  ⟨key% "single_blocks.11.linear1.weight", [21504, 3072], .bfloat16, [], false⟩,
  ⟨key% "single_blocks.11.linear2.bias", [3072], .bfloat16, [], false⟩,
  ⟨key% "single_blocks.11.linear2.weight", [3072, 15360], .bfloat16, [], false⟩,
  ⟨key% "single_blocks.11.modulation.lin.bias", [9216], .bfloat16, [], false⟩,
  ⟨key% "single_blocks.11.modulation.lin.weight", [9216, 3072], .bfloat16, [], false⟩,
  ⟨key% "single_blocks.11.norm.key_norm.scale", [128], .bfloat16, [], false⟩,
  ⟨key% "single_blocks.11.norm.query_norm.scale", [128], .bfloat16, [], false⟩,
  ⟨key% "single_blocks.12.linear1.bias", [21504], .bfloat16, [], false⟩,
  ⟨key% "single_blocks.12.linear1.weight", [21504, 3072], .bfloat16, [], false⟩]
noncomputable def diffuser5 : List Entry := [
  ⟨key% "single_blocks.12.linear2.bias", [3072], .bfloat16, [], false⟩,
  ⟨key% "single_blocks.12.linear2.weight", [3072, 15360], .bfloat16, [], false⟩,
  ⟨key% "single_blocks.12.modulation.lin.bias", [9216], .bfloat16, [], false⟩,
  ⟨key% "single_blocks.12.modulation.lin.weight", [9216, 3072], .bfloat16, [], false⟩,
  ⟨key% "single_blocks.12.norm.key_norm.scale", [128], .bfloat16, [], false⟩,
  ⟨key% "single_blocks.12.norm.query_norm.scale", [128], .bfloat16, [], false⟩,
  ⟨key% "single_blocks.13.linear1.bias", [21504], .bfloat16, [], false⟩,
  ⟨key% "single_blocks.13.linear1.weight", [21504, 3072], .bfloat16, [], false⟩,
  ⟨key% "single_blocks.13.linear2.bias", [3072], .bfloat16, [], false⟩,
  ⟨key% "single_blocks.13.linear2.weight", [3072, 15360], .bfloat16, [], false⟩,
  ⟨key% "single_blocks.13.modulation.lin.bias", [9216], .bfloat16, [], false⟩,
  ⟨key% "single_blocks.13.modulation.lin.weight", [9216, 3072], .bfloat16, [], false⟩,
  ⟨key% "single_blocks.13.norm.key_norm.scale", [128], .bfloat16, [], false⟩,
  ⟨key% "single_blocks.13.norm.query_norm.scale", [128], .bfloat16, [], false⟩,
  ⟨key% "single_blocks.14.linear1.bias", [21504], .bfloat16, [], false⟩,
  ⟨key% "single_blocks.14.linear1.weight", [21504, 3072], .bfloat16, [], false⟩,
  ⟨key% "single_blocks.14.linear2.bias", [3072], .bfloat16, [], false⟩,
  ⟨key% "single_blocks.14.linear2.weight", [3072, 15360], .bfloat16, [], false⟩,
  ⟨key% "single_blocks.14.modulation.lin.bias", [9216], .bfloat16, [], false⟩,
  ⟨key% "single_blocks.14.modulation.lin.weight", [9216, 3072], .bfloat16, [], false⟩,
  ⟨key% "single_blocks.14.norm.key_norm.scale", [128], .bfloat16, [], false⟩,
  ⟨key% "single_blocks.14.norm.query_norm.scale", [128], .bfloat16, [], false⟩,
  ⟨key% "single_blocks.15.linear1.bias", [21504], .bfloat16, [], false⟩,
  ⟨key% "single_blocks.15.linear1.weight", [21504, 3072], .bfloat16, [], false⟩,
  ⟨key% "single_blocks.15.linear2.bias", [3072], .bfloat16, [], false⟩,
  ⟨key% "single_blocks.15.linear2.weight", [3072, 15360], .bfloat16, [], false⟩,
  ⟨key% "single_blocks.15.modulation.lin.bias", [9216], .bfloat16, [], false⟩,
  ⟨key% "single_blocks.15.modulation.lin.weight", [9216, 3072], .bfloat16, [], false⟩,
  ⟨key% "single_blocks.15.norm.key_norm.scale", [128], .bfloat16, [], false⟩,
  ⟨key% "single_blocks.15.norm.query_norm.scale", [128], .bfloat16, [], false⟩,
  ⟨key% "single_blocks.16.linear1.bias", [21504], .bfloat16, [], false⟩,
  ⟨key% "single_blocks.16.linear1.weight", [21504, 3072], .bfloat16, [], false⟩,
  ⟨key% "single_blocks.16.linear2.bias", [3072], .bfloat16, [], false⟩,
  ⟨key% "single_blocks.16.linear2.weight", [3072, 15360], .bfloat16, [], false⟩,
  ⟨key% "single_blocks.16.modulation.lin.bias", [9216], .bfloat16, [], false⟩,
  ⟨key% "single_blocks.16.modulation.lin.weight", [9216, 3072], .bfloat16, [], false⟩,
  ⟨key% "single_blocks.16.norm.key_norm.scale", [128], .bfloat16, [], false⟩,
  ⟨key% "single_blocks.16.norm.query_norm.scale", [128], .bfloat16, [], false⟩,
  ⟨key% "single_blocks.17.linear1.bias", [21504], .bfloat16, [], false⟩,
  ⟨key% "single_blocks.17.linear1.weight", [21504, 3072], .bfloat16, [], false⟩,
  ⟨key% "single_blocks.17.linear2.bias", [3072], .bfloat16, [], false⟩,
  ⟨key% "single_blocks.17.linear2.weight", [3072, 15360], .bfloat16, [], false⟩,
  ⟨key% "single_blocks.17.modulation.lin.bias", [9216], .bfloat16, [], false⟩,
  ⟨key% "single_blocks.17.modulation.lin.weight", [9216, 3072], .bfloat16, [], false⟩,
  ⟨key% "single_blocks.17.norm.key_norm.scale", [128], .bfloat16, [], false⟩,
  ⟨key% "single_blocks.17.norm.query_norm.scale", [128], .bfloat16, [], false⟩,
  ⟨key% "single_blocks.18.linear1.bias", [21504], .bfloat16, [], false⟩,
  ⟨key% "single_blocks.18.linear1.weight", [21504, 3072], .bfloat16, [], false⟩,
  ⟨key% "single_blocks.18.linear2.bias", [3072], .bfloat16, [], false⟩,
  ⟨key% "single_blocks.18.linear2.weight", [3072, 15360], .bfloat16, [], false⟩,
  ⟨key% "single_blocks.18.modulation.lin.bias", [9216], .bfloat16, [], false⟩,
  ⟨key% "single_blocks.18.modulation.lin.weight", [9216, 3072], .bfloat16, [], false⟩,
  ⟨key% "single_blocks.18.norm.key_norm.scale", [128], .bfloat16, [], false⟩,
  ⟨key% "single_blocks.18.norm.query_norm.scale", [128], .bfloat16, [], false⟩,
  ⟨key% "single_blocks.19.linear1.bias", [21504], .bfloat16, [], false⟩,
  ⟨key% "single_blocks.19.linear1.weight", [21504, 3072], .bfloat16, [], false⟩,
  ⟨key% "single_blocks.19.linear2.bias", [3072], .bfloat16, [], false⟩,
  ⟨key% "single_blocks.19.linear2.weight", [3072, 15360], .bfloat16, [], false⟩,
  ⟨key% "single_blocks.19.modulation.lin.bias", [9216], .bfloat16, [], false⟩,
  ⟨key% "single_blocks.19.modulation.lin.weight", [9216, 3072], .bfloat16, [], false⟩,
  ⟨key% "single_blocks.19.norm.key_norm.scale", [128], .bfloat16, [], false⟩,
  ⟨key% "single_blocks.19.norm.query_norm.scale", [128], .bfloat16, [], false⟩,
  ⟨key% "single_blocks.2.linear1.bias", [21504], .bfloat16, [], false⟩,
  ⟨key% "single_blocks.2.linear1.weight", [21504, 3072], .bfloat16, [], false⟩,
  ⟨key% "single_blocks.2.linear2.bias", [3072], .bfloat16, [], false⟩,
  ⟨key% "single_blocks.2.linear2.weight", [3072, 15360], .bfloat16, [], false⟩,
  ⟨key% "single_blocks.2.modulation.lin.bias", [9216], .bfloat16, [], false⟩,
  ⟨key% "single_blocks.2.modulation.lin.weight", [9216, 3072], .bfloat16, [], false⟩,
  ⟨key% "single_blocks.2.norm.key_norm.scale", [128], .bfloat16, [], false⟩,
  ⟨key% "single_blocks.2.norm.query_norm.scale", [128], .bfloat16, [], false⟩,
  ⟨key% "single_blocks.20.linear1.bias", [21504], .bfloat16, [], false⟩,
  ⟨key% "single_blocks.20.linear1.weight", [21504, 3072], .bfloat16, [], false⟩,
  ⟨key% "single_blocks.20.linear2.bias", [3072], .bfloat16, [], false⟩,
  ⟨key% "single_blocks.20.linear2.weight", [3072, 15360], .bfloat16, [], false⟩,
  ⟨key% "single_blocks.20.modulation.lin.bias", [9216], .bfloat16, [], false⟩,
  ⟨key% "single_blocks.20.modulation.lin.weight", [9216, 3072], .bfloat16, [], false⟩,
  ⟨key% "single_blocks.20.norm.key_norm.scale", [128], .bfloat16, [], false⟩,
  ⟨key% "single_blocks.20.norm.query_norm.scale", [128], .bfloat16, [], false⟩,
  ⟨key% "single_blocks.21.linear1.bias", [21504], .bfloat16, [], false⟩,
  ⟨key% "single_blocks.21.linear1.weight", [21504, 3072], .bfloat16, [], false⟩,
  ⟨key% "single_blocks.21.linear2.bias", [3072], .bfloat16, [], false⟩,
  ⟨key% "single_blocks.21.linear2.weight", [3072, 15360], .bfloat16, [], false⟩,
  ⟨key% "single_blocks.21.modulation.lin.bias", [9216], .bfloat16, [], false⟩,
  ⟨key% "single_blocks.21.modulation.lin.weight", [9216, 3072], .bfloat16, [], false⟩,
  ⟨key% "single_blocks.21.norm.key_norm.scale", [128], .bfloat16, [], false⟩,
  ⟨key% "single_blocks.21.norm.query_norm.scale", [128], .bfloat16, [], false⟩,
  ⟨key% "single_blocks.22.linear1.bias", [21504], .bfloat16, [], false⟩,
  ⟨key% "single_blocks.22.linear1.weight", [21504, 3072], .bfloat16, [], false⟩,
  ⟨key% "single_blocks.22.linear2.bias", [3072], .bfloat16, [], false⟩,
  ⟨key% "single_blocks.22.linear2.weight", [3072, 15360], .bfloat16, [], false⟩,
  ⟨key% "single_blocks.22.modulation.lin.bias", [9216], .bfloat16, [], false⟩,
  ⟨key% "single_blocks.22.modulation.lin.weight", [9216, 3072], .bfloat16, [], false⟩,
  ⟨key% "single_blocks.22.norm.key_norm.scale", [128], .bfloat16, [], false⟩,
  ⟨key% "single_blocks.22.norm.query_norm.scale", [128], .bfloat16, [], false⟩,
  ⟨key% "single_blocks.23.linear1.bias", [21504], .bfloat16, [], false⟩,
  ⟨key% "single_blocks.23.linear1.weight", [21504, 3072], .bfloat16, [], false⟩,
  ⟨key% "single_blocks.23.linear2.bias", [3072], .bfloat16, [], false⟩,
  ⟨key% "single_blocks.23.linear2.weight", [3072, 15360], .bfloat16, [], false⟩,
  ⟨key% "single_blocks.23.modulation.lin.bias", [9216], .bfloat16, [], false⟩,
  ⟨key% "single_blocks.23.modulation.lin.weight", [9216, 3072], .bfloat16, [], false⟩]
noncomputable def diffuser6 : List Entry := [
  ⟨key% "single_blocks.23.norm.key_norm.scale", [128], .bfloat16, [], false⟩,
  ⟨key% "single_blocks.23.norm.query_norm.scale", [128], .bfloat16, [], false⟩,
  ⟨key% "single_blocks.24.linear1.bias", [21504], .bfloat16, [], false⟩,
  ⟨key% "single_blocks.24.linear1.weight", [21504, 3072], .bfloat16, [], false⟩,
  ⟨key% "single_blocks.24.linear2.bias", [3072], .bfloat16, [], false⟩,
  ⟨key% "single_blocks.24.linear2.weight", [3072, 15360], .bfloat16, [], false⟩,
  ⟨key% "single_blocks.24.modulation.lin.bias", [9216], .bfloat16, [], false⟩,
  ⟨key% "single_blocks.24.modulation.lin.weight", [9216, 3072], .bfloat16, [], false⟩,
  ⟨key% "single_blocks.24.norm.key_norm.scale", [128], .bfloat16, [], false⟩,
  ⟨key% "single_blocks.24.norm.query_norm.scale", [128], .bfloat16, [], false⟩,
  ⟨key% "single_blocks.25.linear1.bias", [21504], .bfloat16, [], false⟩,
  ⟨key% "single_blocks.25.linear1.weight", [21504, 3072], .bfloat16, [], false⟩,
  ⟨key% "single_blocks.25.linear2.bias", [3072], .bfloat16, [], false⟩,
  ⟨key% "single_blocks.25.linear2.weight", [3072, 15360], .bfloat16, [], false⟩,
  ⟨key% "single_blocks.25.modulation.lin.bias", [9216], .bfloat16, [], false⟩,
  ⟨key% "single_blocks.25.modulation.lin.weight", [9216, 3072], .bfloat16, [], false⟩,
  ⟨key% "single_blocks.25.norm.key_norm.scale", [128], .bfloat16, [], false⟩,
  ⟨key% "single_blocks.25.norm.query_norm.scale", [128], .bfloat16, [], false⟩,
  ⟨key% "single_blocks.26.linear1.bias", [21504], .bfloat16, [], false⟩,
  ⟨key% "single_blocks.26.linear1.weight", [21504, 3072], .bfloat16, [], false⟩,
  ⟨key% "single_blocks.26.linear2.bias", [3072], .bfloat16, [], false⟩,
  ⟨key% "single_blocks.26.linear2.weight", [3072, 15360], .bfloat16, [], false⟩,
  ⟨key% "single_blocks.26.modulation.lin.bias", [9216], .bfloat16, [], false⟩,
  ⟨key% "single_blocks.26.modulation.lin.weight", [9216, 3072], .bfloat16, [], false⟩,
  ⟨key% "single_blocks.26.norm.key_norm.scale", [128], .bfloat16, [], false⟩,
  ⟨key% "single_blocks.26.norm.query_norm.scale", [128], .bfloat16, [], false⟩,
  ⟨key% "single_blocks.27.linear1.bias", [21504], .bfloat16, [], false⟩,
  ⟨key% "single_blocks.27.linear1.weight", [21504, 3072], .bfloat16, [], false⟩,
  ⟨key% "single_blocks.27.linear2.bias", [3072], .bfloat16, [], false⟩,
  ⟨key% "single_blocks.27.linear2.weight", [3072, 15360], .bfloat16, [], false⟩,
  ⟨key% "single_blocks.27.modulation.lin.bias", [9216], .bfloat16, [], false⟩,
  ⟨key% "single_blocks.27.modulation.lin.weight", [9216, 3072], .bfloat16, [], false⟩,
  ⟨key% "single_blocks.27.norm.key_norm.scale", [128], .bfloat16, [], false⟩,
  ⟨key% "single_blocks.27.norm.query_norm.scale", [128], .bfloat16, [], false⟩,
  ⟨key% "single_blocks.28.linear1.bias", [21504], .bfloat16, [], false⟩,
  ⟨key% "single_blocks.28.linear1.weight", [21504, 3072], .bfloat16, [], false⟩,
  ⟨key% "single_blocks.28.linear2.bias", [3072], .bfloat16, [], false⟩,
  ⟨key% "single_blocks.28.linear2.weight", [3072, 15360], .bfloat16, [], false⟩,
  ⟨key% "single_blocks.28.modulation.lin.bias", [9216], .bfloat16, [], false⟩,
  ⟨key% "single_blocks.28.modulation.lin.weight", [9216, 3072], .bfloat16, [], false⟩,
  ⟨key% "single_blocks.28.norm.key_norm.scale", [128], .bfloat16, [], false⟩,
  ⟨key% "single_blocks.28.norm.query_norm.scale", [128], .bfloat16, [], false⟩,
  ⟨key% "single_blocks.29.linear1.bias", [21504], .bfloat16, [], false⟩,
  ⟨key% "single_blocks.29.linear1.weight", [21504, 3072], .bfloat16, [], false⟩,
  ⟨key% "single_blocks.29.linear2.bias", [3072], .bfloat16, [], false⟩,
  ⟨key% "single_blocks.29.linear2.weight", [3072, 15360], .bfloat16, [], false⟩,
  ⟨key% "single_blocks.29.modulation.lin.bias", [9216], .bfloat16, [], false⟩,
  ⟨key% "single_blocks.29.modulation.lin.weight", [9216, 3072], .bfloat16, [], false⟩,
  ⟨key% "single_blocks.29.norm.key_norm.scale", [128], .bfloat16, [], false⟩,
  ⟨key% "single_blocks.29.norm.query_norm.scale", [128], .bfloat16, [], false⟩,
  ⟨key% "single_blocks.3.linear1.bias", [21504], .bfloat16, [], false⟩,
  ⟨key% "single_blocks.3.linear1.weight", [21504, 3072], .bfloat16, [], false⟩,
  ⟨key% "single_blocks.3.linear2.bias", [3072], .bfloat16, [], false⟩,
  ⟨key% "single_blocks.3.linear2.weight", [3072, 15360], .bfloat16, [], false⟩,
  ⟨key% "single_blocks.3.modulation.lin.bias", [9216], .bfloat16, [], false⟩,
  ⟨key% "single_blocks.3.modulation.lin.weight", [9216, 3072], .bfloat16, [], false⟩,
  ⟨key% "single_blocks.3.norm.key_norm.scale", [128], .bfloat16, [], false⟩,
  ⟨key% "single_blocks.3.norm.query_norm.scale", [128], .bfloat16, [], false⟩,
  ⟨key% "single_blocks.30.linear1.bias", [21504], .bfloat16, [], false⟩,
  ⟨key% "single_blocks.30.linear1.weight", [21504, 3072], .bfloat16, [], false⟩,
  ⟨key% "single_blocks.30.linear2.bias", [3072], .bfloat16, [], false⟩,
  ⟨key% "single_blocks.30.linear2.weight", [3072, 15360], .bfloat16, [], false⟩,
  ⟨key% "single_blocks.30.modulation.lin.bias", [9216], .bfloat16, [], false⟩,
  ⟨key% "single_blocks.30.modulation.lin.weight", [9216, 3072], .bfloat16, [], false⟩,
  ⟨key% "single_blocks.30.norm.key_norm.scale", [128], .bfloat16, [], false⟩,
  ⟨key% "single_blocks.30.norm.query_norm.scale", [128], .bfloat16, [], false⟩,
  ⟨key% "single_blocks.31.linear1.bias", [21504], .bfloat16, [], false⟩,
  ⟨key% "single_blocks.31.linear1.weight", [21504, 3072], .bfloat16, [], false⟩,
  ⟨key% "single_blocks.31.linear2.bias", [3072], .bfloat16, [], false⟩,
  ⟨key% "single_blocks.31.linear2.weight", [3072, 15360], .bfloat16, [], false⟩,
  ⟨key% "single_blocks.31.modulation.lin.bias", [9216], .bfloat16, [], false⟩,
  ⟨key% "single_blocks.31.modulation.lin.weight", [9216, 3072], .bfloat16, [], false⟩,
  ⟨key% "single_blocks.31.norm.key_norm.scale", [128], .bfloat16, [], false⟩,
  ⟨key% "single_blocks.31.norm.query_norm.scale", [128], .bfloat16, [], false⟩,
  ⟨key% "single_blocks.32.linear1.bias", [21504], .bfloat16, [], false⟩,
  ⟨key% "single_blocks.32.linear1.weight", [21504, 3072], .bfloat16, [], false⟩,
  ⟨key% "single_blocks.32.linear2.bias", [3072], .bfloat16, [], false⟩,
  ⟨key% "single_blocks.32.linear2.weight", [3072, 15360], .bfloat16, [], false⟩,
  ⟨key% "single_blocks.32.modulation.lin.bias", [9216], .bfloat16, [], false⟩,
  ⟨key% "single_blocks.32.modulation.lin.weight", [9216, 3072], .bfloat16, [], false⟩,
  ⟨key% "single_blocks.32.norm.key_norm.scale", [128], .bfloat16, [], false⟩,
  ⟨key% "single_blocks.32.norm.query_norm.scale", [128], .bfloat16, [], false⟩,
  ⟨key% "single_blocks.33.linear1.bias", [21504], .bfloat16, [], false⟩,
  ⟨key% "single_blocks.33.linear1.weight", [21504, 3072], .bfloat16, [], false⟩,
  ⟨key% "single_blocks.33.linear2.bias", [3072], .bfloat16, [], false⟩,
  ⟨key% "single_blocks.33.linear2.weight", [3072, 15360], .bfloat16, [], false⟩,
  ⟨key% "single_blocks.33.modulation.lin.bias", [9216], .bfloat16, [], false⟩,
  ⟨key% "single_blocks.33.modulation.lin.weight", [9216, 3072], .bfloat16, [], false⟩,
  ⟨key% "single_blocks.33.norm.key_norm.scale", [128], .bfloat16, [], false⟩,
  ⟨key% "single_blocks.33.norm.query_norm.scale", [128], .bfloat16, [], false⟩,
  ⟨key% "single_blocks.34.linear1.bias", [21504], .bfloat16, [], false⟩,
  ⟨key% "single_blocks.34.linear1.weight", [21504, 3072], .bfloat16, [], false⟩,
  ⟨key% "single_blocks.34.linear2.bias", [3072], .bfloat16, [], false⟩,
  ⟨key% "single_blocks.34.linear2.weight", [3072, 15360], .bfloat16, [], false⟩,
  ⟨key% "single_blocks.34.modulation.lin.bias", [9216], .bfloat16, [], false⟩,
  ⟨key% "single_blocks.34.modulation.lin.weight", [9216, 3072], .bfloat16, [], false⟩,
  ⟨key% "single_blocks.34.norm.key_norm.scale", [128], .bfloat16, [], false⟩,
  ⟨key% "single_blocks.34.norm.query_norm.scale", [128], .bfloat16, [], false⟩,
  ⟨key% "single_blocks.35.linear1.bias", [21504], .bfloat16, [], false⟩,
  ⟨key% "single_blocks.35.linear1.weight", [21504, 3072], .bfloat16, [], false⟩]
noncomputable def diffuser7 : List Entry := [
  ⟨key% "single_blocks.35.linear2.bias", [3072], .bfloat16, [], false⟩,
  ⟨key% "single_blocks.35.linear2.weight", [3072, 15360], .bfloat16, [], false⟩,
  ⟨key% "single_blocks.35.modulation.lin.bias", [9216], .bfloat16, [], false⟩,
  ⟨key% "single_blocks.35.modulation.lin.weight", [9216, 3072], .bfloat16, [], false⟩,
  ⟨key% "single_blocks.35.norm.key_norm.scale", [128], .bfloat16, [], false⟩,
  ⟨key% "single_blocks.35.norm.query_norm.scale", [128], .bfloat16, [], false⟩,
  ⟨key% "single_blocks.36.linear1.bias", [21504], .bfloat16, [], false⟩,
  ⟨key% "single_blocks.36.linear1.weight", [21504, 3072], .bfloat16, [], false⟩,
  ⟨key% "single_blocks.36.linear2.bias", [3072], .bfloat16, [], false⟩,
  ⟨key% "single_blocks.36.linear2.weight", [3072, 15360], .bfloat16, [], false⟩,
  ⟨key% "single_blocks.36.modulation.lin.bias", [9216], .bfloat16, [], false⟩,
  ⟨key% "single_blocks.36.modulation.lin.weight", [9216, 3072], .bfloat16, [], false⟩,
  ⟨key% "single_blocks.36.norm.key_norm.scale", [128], .bfloat16, [], false⟩,
  ⟨key% "single_blocks.36.norm.query_norm.scale", [128], .bfloat16, [], false⟩,
  ⟨key% "single_blocks.37.linear1.bias", [21504], .bfloat16, [], false⟩,
  ⟨key% "single_blocks.37.linear1.weight", [21504, 3072], .bfloat16, [], false⟩,
  ⟨key% "single_blocks.37.linear2.bias", [3072], .bfloat16, [], false⟩,
  ⟨key% "single_blocks.37.linear2.weight", [3072, 15360], .bfloat16, [], false⟩,
  ⟨key% "single_blocks.37.modulation.lin.bias", [9216], .bfloat16, [], false⟩,
  ⟨key% "single_blocks.37.modulation.lin.weight", [9216, 3072], .bfloat16, [], false⟩,
  ⟨key% "single_blocks.37.norm.key_norm.scale", [128], .bfloat16, [], false⟩,
  ⟨key% "single_blocks.37.norm.query_norm.scale", [128], .bfloat16, [], false⟩,
  ⟨key% "single_blocks.4.linear1.bias", [21504], .bfloat16, [], false⟩,
  ⟨key% "single_blocks.4.linear1.weight", [21504, 3072], .bfloat16, [], false⟩,
  ⟨key% "single_blocks.4.linear2.bias", [3072], .bfloat16, [], false⟩,
  ⟨key% "single_blocks.4.linear2.weight", [3072, 15360], .bfloat16, [], false⟩,
  ⟨key% "single_blocks.4.modulation.lin.bias", [9216], .bfloat16, [], false⟩,
  ⟨key% "single_blocks.4.modulation.lin.weight", [9216, 3072], .bfloat16, [], false⟩,
  ⟨key% "single_blocks.4.norm.key_norm.scale", [128], .bfloat16, [], false⟩,
  ⟨key% "single_blocks.4.norm.query_norm.scale", [128], .bfloat16, [], false⟩,
  ⟨key% "single_blocks.5.linear1.bias", [21504], .bfloat16, [], false⟩,
  ⟨key% "single_blocks.5.linear1.weight", [21504, 3072], .bfloat16, [], false⟩,
  ⟨key% "single_blocks.5.linear2.bias", [3072], .bfloat16, [], false⟩,
  ⟨key% "single_blocks.5.linear2.weight", [3072, 15360], .bfloat16, [], false⟩,
  ⟨key% "single_blocks.5.modulation.lin.bias", [9216], .bfloat16, [], false⟩,
  ⟨key% "single_blocks.5.modulation.lin.weight", [9216, 3072], .bfloat16, [], false⟩,
  ⟨key% "single_blocks.5.norm.key_norm.scale", [128], .bfloat16, [], false⟩,
  ⟨key% "single_blocks.5.norm.query_norm.scale", [128], .bfloat16, [], false⟩,
  ⟨key% "single_blocks.6.linear1.bias", [21504], .bfloat16, [], false⟩,
  ⟨key% "single_blocks.6.linear1.weight", [21504, 3072], .bfloat16, [], false⟩,
  ⟨key% "single_blocks.6.linear2.bias", [3072], .bfloat16, [], false⟩,
  ⟨key% "single_blocks.6.linear2.weight", [3072, 15360], .bfloat16, [], false⟩,
  ⟨key% "single_blocks.6.modulation.lin.bias", [9216], .bfloat16, [], false⟩,
  ⟨key% "single_blocks.6.modulation.lin.weight", [9216, 3072], .bfloat16, [], false⟩,
  ⟨key% "single_blocks.6.norm.key_norm.scale", [128], .bfloat16, [], false⟩,
  ⟨key% "single_blocks.6.norm.query_norm.scale", [128], .bfloat16, [], false⟩,
  ⟨key% "single_blocks.7.linear1.bias", [21504], .bfloat16, [], false⟩,
  ⟨key% "single_blocks.7.linear1.weight", [21504, 3072], .bfloat16, [], false⟩,
  ⟨key% "single_blocks.7.linear2.bias", [3072], .bfloat16, [], false⟩,
  ⟨key% "single_blocks.7.linear2.weight", [3072, 15360], .bfloat16, [], false⟩,
  ⟨key% "single_blocks.7.modulation.lin.bias", [9216], .bfloat16, [], false⟩,
  ⟨key% "single_blocks.7.modulation.lin.weight", [9216, 3072], .bfloat16, [], false⟩,
  ⟨key% "single_blocks.7.norm.key_norm.scale", [128], .bfloat16, [], false⟩,
  ⟨key% "single_blocks.7.norm.query_norm.scale", [128], .bfloat16, [], false⟩,
  ⟨key% "single_blocks.8.linear1.bias", [21504], .bfloat16, [], false⟩,
  ⟨key% "single_blocks.8.linear1.weight", [21504, 3072], .bfloat16, [], false⟩,
  ⟨key% "single_blocks.8.linear2.bias", [3072], .bfloat16, [], false⟩,
  ⟨key% "single_blocks.8.linear2.weight", [3072, 15360], .bfloat16, [], false⟩,
  ⟨key% "single_blocks.8.modulation.lin.bias", [9216], .bfloat16, [], false⟩,
  ⟨key% "single_blocks.8.modulation.lin.weight", [9216, 3072], .bfloat16, [], false⟩,
  ⟨key% "single_blocks.8.norm.key_norm.scale", [128], .bfloat16, [], false⟩,
  ⟨key% "single_blocks.8.norm.query_norm.scale", [128], .bfloat16, [], false⟩,
  ⟨key% "single_blocks.9.linear1.bias", [21504], .bfloat16, [], false⟩,
  ⟨key% "single_blocks.9.linear1.weight", [21504, 3072], .bfloat16, [], false⟩,
  ⟨key% "single_blocks.9.linear2.bias", [3072], .bfloat16, [], false⟩,
  ⟨key% "single_blocks.9.linear2.weight", [3072, 15360], .bfloat16, [], false⟩,
  ⟨key% "single_blocks.9.modulation.lin.bias", [9216], .bfloat16, [], false⟩,
  ⟨key% "single_blocks.9.modulation.lin.weight", [9216, 3072], .bfloat16, [], false⟩,
  ⟨key% "single_blocks.9.norm.key_norm.scale", [128], .bfloat16, [], false⟩,
  ⟨key% "single_blocks.9.norm.query_norm.scale", [128], .bfloat16, [], false⟩,
  ⟨key% "time_in.in_layer.bias", [3072], .bfloat16, [], false⟩,
  ⟨key% "time_in.in_layer.weight", [3072, 256], .bfloat16, [], false⟩,
  ⟨key% "time_in.out_layer.bias", [3072], .bfloat16, [], false⟩,
  ⟨key% "time_in.out_layer.weight", [3072, 3072], .bfloat16, [], false⟩,
  ⟨key% "txt_in.bias", [3072], .bfloat16, [], false⟩,
  ⟨key% "txt_in.weight", [3072, 4096], .bfloat16, [], false⟩,
  ⟨key% "vector_in.in_layer.bias", [3072], .bfloat16, [], false⟩,
  ⟨key% "vector_in.in_layer.weight", [3072, 768], .bfloat16, [], false⟩,
  ⟨key% "vector_in.out_layer.bias", [3072], .bfloat16, [], false⟩,
  ⟨key% "vector_in.out_layer.weight", [3072, 3072], .bfloat16, [], false⟩]
/-- Component `diffuser`: 780 keys -/
noncomputable def diffuser : List Entry := diffuser0 ++ diffuser1 ++ diffuser2 ++ diffuser3 ++ diffuser4 ++ diffuser5 ++ diffuser6 ++ diffuser7

/-- The config as written in the file: its identifier and its components -/
noncomputable def table : Table := ⟨key% "flux_dev_unet_only-flux", [(key% "diffuser", diffuser)]⟩

end Verif.Data.FluxFluxDiffuserOnly
