import Verif.Py.Text

/-!
# Conversions between shipped configs (sd_mecha/extensions/builtin/model_configs/convert_*.py)

A conversion is called with a key of the target config and reads keys of the source.  It is modelled by the expression it evaluates, `Conv`;
`none` is a `StateDictKeyError` raised for the target key itself.  Identifiers are `Text`s (lists of code points).
-/
namespace Verif.Convert
open Text

/-- What a conversion returns, in terms of the tensors of the source -/
inductive Conv where
  /-- `sd[key]` -/
  | read (key : Text)
  /-- `sd[key].T` -/
  | transposed (key : Text)
  /-- `torch.vstack([sd[key] for key in keys])` -/
  | stacked (keys : List Text)
  /-- `reshape_weight_for_sd(sd[key])` (convert_huggingface_sd_vae_to_original.py:34-39) -/
  | conv1x1 (key : Text)
  deriving DecidableEq, Repr

/-- `d[k] = v` on a dict literal being built: the position of an existing key is kept. -/
def put (d : List (Text × Text)) (k v : Text) : List (Text × Text) :=
  if d.any (·.1 == k) then d.map fun e => if e.1 == k then (k, v) else e else d ++ [(k, v)]

/-- A dict built by assignments, in order -/
def dict (assignments : List (Text × Text)) : List (Text × Text) := assignments.foldl (fun d e => put d e.1 e.2) []

/-- `d.get(k, k)` -/
def getOr (d : List (Text × Text)) (k : Text) : Text :=
  match d.find? (·.1 == k) with
  | some e => e.2
  | none => k

/-! ## VAE -/

/-- `vae_conversion_map` (convert_huggingface_sd_vae_to_original.py:42-74) -/
def vaeMap : List (Text × Text) := dict <|
  [(key% "nin_shortcut", key% "conv_shortcut"), (key% "norm_out", key% "conv_norm_out"), (key% "mid.attn_1.", key% "mid_block.attentions.0.")] ++
  (List.range 4).flatMap (fun i =>
    (List.range 2).map (fun j =>
      (key% "encoder.down." ++ digits i ++ key% ".block." ++ digits j ++ key% ".",
       key% "encoder.down_blocks." ++ digits i ++ key% ".resnets." ++ digits j ++ key% ".")) ++
    (if i < 3 then
      [(key% "down." ++ digits i ++ key% ".downsample.", key% "down_blocks." ++ digits i ++ key% ".downsamplers.0."),
       (key% "up." ++ digits (3 - i) ++ key% ".upsample.", key% "up_blocks." ++ digits i ++ key% ".upsamplers.0.")] else []) ++
    (List.range 3).map (fun j =>
      (key% "decoder.up." ++ digits (3 - i) ++ key% ".block." ++ digits j ++ key% ".",
       key% "decoder.up_blocks." ++ digits i ++ key% ".resnets." ++ digits j ++ key% "."))) ++
  (List.range 2).map (fun i => (key% "mid.block_" ++ digits (i + 1) ++ key% ".", key% "mid_block.resnets." ++ digits i ++ key% "."))

/-- `vae_conversion_map_attn` (convert_huggingface_sd_vae_to_original.py:77-84) -/
def vaeMapAttn : List (Text × Text) :=
  [(key% "norm.", key% "group_norm."), (key% "q.", key% "query."), (key% "k.", key% "key."), (key% "v.", key% "value."),
   (key% "proj_out.", key% "proj_attn.")]

/-- `vae_extra_conversion_map` (convert_huggingface_sd_vae_to_original.py:88-94) -/
def vaeMapExtra : List (Text × Text) :=
  [(key% "q", key% "to_q"), (key% "k", key% "to_k"), (key% "v", key% "to_v"), (key% "proj_out", key% "to_out.0")]

/-- The first loop of `convert_vae` (convert_huggingface_sd_vae_to_original.py:8-12): the key so far and `needs_reshape` -/
def vaeExtra (s : Text × Bool) (e : Text × Text) : Text × Bool :=
  if occurs (key% "mid.attn_1." ++ e.1 ++ key% ".weight") s.1 || occurs (key% "mid.attn_1." ++ e.1 ++ key% ".bias") s.1 then
    (replace e.1 e.2 s.1, true)
  else s

/-- The second loop (convert_huggingface_sd_vae_to_original.py:14-16) -/
def vaeReshape (k : Text) : Bool := vaeMapExtra.any fun e => occurs (key% "mid.attn_1." ++ e.2 ++ key% ".weight") k

/-- `convert_vae` (convert_huggingface_sd_vae_to_original.py:5-31) -/
def convertVae (ldmKey : Text) : Conv :=
  let s := vaeMapExtra.foldl vaeExtra (join (key% ".") ((split ldmKey).drop 1), false)
  let needsReshape := s.2 || vaeReshape s.1
  let k := if occurs (key% "attentions") s.1 then replaceAll vaeMapAttn s.1 else s.1
  let k := key% "vae." ++ replaceAll vaeMap k
  if needsReshape then .conv1x1 k else .read k

/-! ## SD1, kohya -/

/-- `unet_conversion_map` (convert_sd1_kohya_to_original.py:49-61) -/
def sd1Map : List (Text × Text) :=
  [(key% "time_embed.0.weight", key% "time_embedding.linear_1.weight"), (key% "time_embed.0.bias", key% "time_embedding.linear_1.bias"),
   (key% "time_embed.2.weight", key% "time_embedding.linear_2.weight"), (key% "time_embed.2.bias", key% "time_embedding.linear_2.bias"),
   (key% "input_blocks.0.0.weight", key% "conv_in.weight"), (key% "input_blocks.0.0.bias", key% "conv_in.bias"),
   (key% "out.0.weight", key% "conv_norm_out.weight"), (key% "out.0.bias", key% "conv_norm_out.bias"),
   (key% "out.2.weight", key% "conv_out.weight"), (key% "out.2.bias", key% "conv_out.bias")]

/-- `unet_conversion_map_resnet` (convert_sd1_kohya_to_original.py:64-72, convert_sdxl_diffusers_unet_to_original.py:58-66) -/
def resnetMap : List (Text × Text) :=
  [(key% "in_layers.0", key% "norm1"), (key% "in_layers.2", key% "conv1"), (key% "out_layers.0", key% "norm2"), (key% "out_layers.3", key% "conv2"),
   (key% "emb_layers.1", key% "time_emb_proj"), (key% "skip_connection", key% "conv_shortcut")]

/-- The entries for the middle block (convert_sd1_kohya_to_original.py:115-122, convert_sdxl_diffusers_unet_to_original.py:107-116) -/
def midEntries : List (Text × Text) :=
  [(key% "middle_block.1.", key% "mid_block.attentions.0.")] ++
  (List.range 2).map (fun j => (key% "middle_block." ++ digits (2 * j) ++ key% ".", key% "mid_block.resnets." ++ digits j ++ key% "."))

def inputKey (n : ℕ) (rest : Text) : Text := key% "input_blocks." ++ digits n ++ rest
def outputKey (n : ℕ) (rest : Text) : Text := key% "output_blocks." ++ digits n ++ rest
def hfKey (part : Text) (i : ℕ) (kind : Text) (j : ℕ) : Text := part ++ digits i ++ kind ++ digits j ++ key% "."

/-- `unet_conversion_map_layer` (convert_sd1_kohya_to_original.py:75-122) -/
def sd1Layers : List (Text × Text) := dict <|
  (List.range 4).flatMap (fun i =>
    (List.range 2).flatMap (fun j =>
      [(inputKey (3 * i + j + 1) (key% ".0."), hfKey (key% "down_blocks.") i (key% ".resnets.") j)] ++
      (if i < 3 then [(inputKey (3 * i + j + 1) (key% ".1."), hfKey (key% "down_blocks.") i (key% ".attentions.") j)] else [])) ++
    (List.range 3).flatMap (fun j =>
      [(outputKey (3 * i + j) (key% ".0."), hfKey (key% "up_blocks.") i (key% ".resnets.") j)] ++
      (if 0 < i then [(outputKey (3 * i + j) (key% ".1."), hfKey (key% "up_blocks.") i (key% ".attentions.") j)] else [])) ++
    (if i < 3 then
      [(inputKey (3 * (i + 1)) (key% ".0.op."), key% "down_blocks." ++ digits i ++ key% ".downsamplers.0.conv."),
       (outputKey (3 * i + 2) (key% "." ++ digits (if i = 0 then 1 else 2) ++ key% "."), key% "up_blocks." ++ digits i ++ key% ".upsamplers.0.")]
    else [])) ++
  midEntries

/-- The renaming in `convert_unet` (convert_sd1_kohya_to_original.py:33-46) and `convert_sdxl_diffusers_unet_to_original`
(convert_sdxl_diffusers_unet_to_original.py:26-36) -/
def unetKey (layers names : List (Text × Text)) (ldmKey : Text) : Text :=
  let k := join (key% ".") ((split ldmKey).drop 2)
  let k := replaceAll layers k
  let k := if occurs (key% "resnets") k then replaceAll resnetMap k else k
  getOr names k

/-- `convert_sd1_kohya_to_original` (convert_sd1_kohya_to_original.py:18-30; `convert_clip_l`: 125-128) -/
def sd1Kohya (ldmKey : Text) : Option Conv :=
  if startsWith (key% "model.diffusion_model.") ldmKey then some (.read (key% "unet." ++ unetKey sd1Layers sd1Map ldmKey))
  else if startsWith (key% "cond_stage_model.") ldmKey then some (.read (key% "te." ++ join (key% ".") ((split ldmKey).drop 2)))
  else if startsWith (key% "first_stage_model.") ldmKey then some (convertVae ldmKey)
  else some (.read ldmKey)

/-! ## SDXL, diffusers -/

/-- `unet_conversion_map` (convert_sdxl_diffusers_unet_to_original.py:39-56) -/
def sdxlMap : List (Text × Text) :=
  sd1Map ++
  [(key% "label_emb.0.0.weight", key% "add_embedding.linear_1.weight"), (key% "label_emb.0.0.bias", key% "add_embedding.linear_1.bias"),
   (key% "label_emb.0.2.weight", key% "add_embedding.linear_2.weight"), (key% "label_emb.0.2.bias", key% "add_embedding.linear_2.bias")]

/-- `unet_conversion_map_layer` (convert_sdxl_diffusers_unet_to_original.py:69-116) -/
def sdxlLayers : List (Text × Text) := dict <|
  (List.range 3).flatMap (fun i =>
    (List.range 2).flatMap (fun j =>
      [(inputKey (3 * i + j + 1) (key% ".0."), hfKey (key% "down_blocks.") i (key% ".resnets.") j)] ++
      (if 0 < i then [(inputKey (3 * i + j + 1) (key% ".1."), hfKey (key% "down_blocks.") i (key% ".attentions.") j)] else [])) ++
    (List.range 4).flatMap (fun j =>
      [(outputKey (3 * i + j) (key% ".0."), hfKey (key% "up_blocks.") i (key% ".resnets.") j)] ++
      (if i < 2 then [(outputKey (3 * i + j) (key% ".1."), hfKey (key% "up_blocks.") i (key% ".attentions.") j)] else [])) ++
    [(inputKey (3 * (i + 1)) (key% ".0.op."), key% "down_blocks." ++ digits i ++ key% ".downsamplers.0.conv."),
     (outputKey (3 * i + 2) (key% "." ++ digits (if i = 0 then 1 else 2) ++ key% "."), key% "up_blocks." ++ digits i ++ key% ".upsamplers.0.")]) ++
  [(key% "output_blocks.2.2.conv.", key% "output_blocks.2.1.conv.")] ++
  midEntries

/-- `convert_sdxl_diffusers_unet_to_original` (convert_sdxl_diffusers_unet_to_original.py:18-36) -/
def sdxlDiffusers (sgmKey : Text) : Option Conv :=
  if startsWith (key% "model.diffusion_model") sgmKey then some (.read (unetKey sdxlLayers sdxlMap sgmKey)) else none

/-! ## SDXL, kohya -/

/-- The replacements for the second text encoder (convert_sdxl_kohya_to_original.py:33-41) -/
def clipGMap : List (Text × Text) :=
  [(key% "conditioner.embedders.1.model.", key% "te2.text_model."), (key% ".token_embedding.", key% ".embeddings.token_embedding."),
   (key% ".positional_embedding", key% ".embeddings.position_embedding.weight"), (key% ".transformer.resblocks.", key% ".encoder.layers."),
   (key% ".attn.", key% ".self_attn."), (key% ".mlp.c_fc.", key% ".mlp.fc1."), (key% ".mlp.c_proj.", key% ".mlp.fc2."),
   (key% ".ln_final.", key% ".final_layer_norm."), (key% ".ln_", key% ".layer_norm")]

/-- The second text encoder (convert_sdxl_kohya_to_original.py:29-55) -/
def sdxlClipG (sgmKey : Text) : Conv :=
  if endsWith (key% "text_projection") sgmKey then .transposed (key% "te2.text_projection.weight")
  else
    let k := replaceAll clipGMap sgmKey
    if endsWith (key% ".in_proj_weight") k || endsWith (key% ".in_proj_bias") k then
      let isBias := endsWith (key% "bias") k
      let partialKey := replace (key% ".in_proj_bias") [] (replace (key% ".in_proj_weight") [] k)
      .stacked ([key% "q", key% "k", key% "v"].map fun x =>
        partialKey ++ key% "." ++ x ++ key% "_proj." ++ (if isBias then key% "bias" else key% "weight"))
    else .read k

/-- `convert_sdxl_kohya_to_original` (convert_sdxl_kohya_to_original.py:16-59) -/
def sdxlKohya (sgmKey : Text) : Option Conv :=
  if startsWith (key% "model.diffusion_model.") sgmKey then some (.read (replace (key% "model.diffusion_model.") (key% "unet.") sgmKey))
  else if startsWith (key% "conditioner.embedders.0.") sgmKey then
    some (.read (replace (key% "conditioner.embedders.0.transformer.") (key% "te1.") sgmKey))
  else if startsWith (key% "conditioner.embedders.1.") sgmKey then some (sdxlClipG sgmKey)
  else if startsWith (key% "first_stage_model.") sgmKey then some (convertVae sgmKey)
  else some (.read sgmKey)

/-! ## Flux -/

/-- `convert_flux_to_backbone_only` (convert_flux.py:5-12) -/
def fluxToBackbone (k : Text) : Option Conv := some (.read (key% "model.diffusion_model." ++ k))

/-- `convert_flux_backbone_to_full` (convert_flux.py:15-25) -/
def fluxToFull (k : Text) : Option Conv :=
  if startsWith (key% "model.diffusion_model.") k then some (.read (k.drop (key% "model.diffusion_model.").length)) else none

/-! ## Blocks -/

/-- The digits at the start of a string, and what follows them -/
def spanDigits : Text → Text × Text
  | [] => ([], [])
  | c :: s => if isDigit c then (c :: (spanDigits s).1, (spanDigits s).2) else ([], c :: s)

/-- A match of `(\d+)\.` at the start of a string: the digits -/
def matchNumber (s : Text) : Option Text :=
  if !(spanDigits s).1.isEmpty && startsWith (key% ".") (spanDigits s).2 then some (spanDigits s).1 else none

/-- `re.compile(p + r"(\d+)\.").search(s)` for a literal `p`: the digits of the leftmost match.  ASCII digits only. -/
def search (p : Text) : Text → Option Text
  | [] => none
  | c :: s =>
    if startsWith p (c :: s) then
      match matchNumber ((c :: s).drop p.length) with
      | some ds => some ds
      | none => search p s
    else search p s

/-- The block of a key of the diffusion model (convert_sd1_blocks.py:26-37, convert_sdxl_blocks.py:26-37) -/
def unetBlock (base : List Text) (out : Text) (k : Text) : Text :=
  if base.any (occurs · k) then key% "BASE"
  else if occurs (key% ".out.") k then out
  else match search (key% ".input_blocks.") k with
    | some ds => key% "IN" ++ pad2 (number ds)
    | none =>
      match search (key% ".middle_block.") k with
      | some _ => key% "M00"
      | none =>
        match search (key% ".output_blocks.") k with
        | some ds => key% "OUT" ++ pad2 (number ds)
        | none => out

/-- `convert_sd1_blocks_to_ldm` (convert_sd1_blocks.py:18-39) -/
def sd1Blocks (k : Text) : Option Conv :=
  some (.read (if startsWith (key% "model.diffusion_model.") k then unetBlock [key% ".time_embed"] (key% "OUT11") k else key% "BASE"))

/-- `convert_sdxl_blocks_to_sgm` (convert_sdxl_blocks.py:18-41) -/
def sdxlBlocks (k : Text) : Option Conv :=
  some (.read (if startsWith (key% "model.diffusion_model.") k then unetBlock [key% ".time_embed", key% ".label_emb"] (key% "OUT08") k
    else if startsWith (key% "first_stage_model.") k then key% "VAE" else key% "BASE"))

end Verif.Convert
