import Verif.Data.Entry
import Verif.Model.Convert

/-!
# Specification of the conversions between shipped configs

How the parts of a key of the original layout (`ldm`, `sgm`) are called in the layout of `diffusers`.  The original layout numbers the blocks
of the U-Net consecutively, three to a resolution: `input_blocks.0` is the first convolution, every third input block after it is a
downsampler, every third output block ends with an upsampler.
-/
namespace Verif.Convert.Spec
open Text Data

/-- A part of a key -/
abbrev Part := Text

/-- `p.i` -/
def indexed (p : Part) (i : ℕ) : List Part := [p, digits i]

/-- Names inside a residual block -/
def resnet (parts : List Part) : List Part :=
  match parts with
  | a :: b :: c =>
    if a = key% "in_layers" ∧ b = key% "0" then key% "norm1" :: c
    else if a = key% "in_layers" ∧ b = key% "2" then key% "conv1" :: c
    else if a = key% "out_layers" ∧ b = key% "0" then key% "norm2" :: c
    else if a = key% "out_layers" ∧ b = key% "3" then key% "conv2" :: c
    else if a = key% "emb_layers" ∧ b = key% "1" then key% "time_emb_proj" :: c
    else if a = key% "skip_connection" then key% "conv_shortcut" :: b :: c
    else parts
  | _ => parts

/-- Names of the input blocks -/
def inputBlock (n m : ℕ) (rest : List Part) : List Part :=
  if n = 0 then key% "conv_in" :: rest
  else if n % 3 = 0 then indexed (key% "down_blocks") (n / 3 - 1) ++ [key% "downsamplers", key% "0", key% "conv"] ++ rest.drop 1
  else if m = 0 then indexed (key% "down_blocks") (n / 3) ++ indexed (key% "resnets") (n % 3 - 1) ++ resnet rest
  else indexed (key% "down_blocks") (n / 3) ++ indexed (key% "attentions") (n % 3 - 1) ++ rest

/-- Names of the middle block -/
def middleBlock (m : ℕ) (rest : List Part) : List Part :=
  if m = 1 then [key% "mid_block", key% "attentions", key% "0"] ++ rest
  else [key% "mid_block", key% "resnets", digits (m / 2)] ++ resnet rest

/-- Names of the output blocks; `attention i` says whether the blocks of the `i`-th resolution contain attention. -/
def outputBlock (attention : ℕ → Bool) (n m : ℕ) (rest : List Part) : List Part :=
  if m = 0 then indexed (key% "up_blocks") (n / 3) ++ indexed (key% "resnets") (n % 3) ++ resnet rest
  else if m = 1 ∧ attention (n / 3) = true then indexed (key% "up_blocks") (n / 3) ++ indexed (key% "attentions") (n % 3) ++ rest
  else indexed (key% "up_blocks") (n / 3) ++ [key% "upsamplers", key% "0"] ++ rest

/-- The two layers of an embedding: `0` and `2` -/
def layer (m : ℕ) : Part := if m = 0 then key% "linear_1" else key% "linear_2"

/-- Names of the diffusion model -/
def unet (attention : ℕ → Bool) (parts : List Part) : List Part :=
  match parts with
  | a :: b :: c =>
    if a = key% "input_blocks" then inputBlock (number b) (number (c.headD [])) (c.drop 1)
    else if a = key% "output_blocks" then outputBlock attention (number b) (number (c.headD [])) (c.drop 1)
    else if a = key% "middle_block" then middleBlock (number b) c
    else if a = key% "time_embed" then key% "time_embedding" :: layer (number b) :: c
    else if a = key% "label_emb" then key% "add_embedding" :: layer (number (c.headD [])) :: c.drop 1
    else if a = key% "out" then (if number b = 0 then key% "conv_norm_out" else key% "conv_out") :: c
    else parts
  | _ => parts

/-- Resolutions of SD1 whose output blocks contain attention: all but the first -/
def sd1Attention (i : ℕ) : Bool := 0 < i

/-- Resolutions of SDXL whose output blocks contain attention: all but the last -/
def sdxlAttention (i : ℕ) : Bool := i < 2

/-- Names inside the autoencoder.  The decoder of `diffusers` numbers its resolutions in reverse. -/
def vaeAttention (a : Part) : List Part :=
  if a = key% "q" then [key% "to_q"] else if a = key% "k" then [key% "to_k"] else if a = key% "v" then [key% "to_v"]
  else if a = key% "proj_out" then [key% "to_out", key% "0"] else if a = key% "norm" then [key% "group_norm"] else [a]

def vaeResnet (parts : List Part) : List Part :=
  match parts with
  | a :: c => (if a = key% "nin_shortcut" then key% "conv_shortcut" else a) :: c
  | [] => []

def vaeBlock (parts : List Part) : List Part :=
  match parts with
  | a :: b :: c :: d :: e =>
    if a = key% "mid" ∧ b = key% "attn_1" then [key% "mid_block", key% "attentions", key% "0"] ++ vaeAttention c ++ d :: e
    else if a = key% "mid" ∧ b = key% "block_1" then [key% "mid_block", key% "resnets", key% "0"] ++ vaeResnet (c :: d :: e)
    else if a = key% "mid" ∧ b = key% "block_2" then [key% "mid_block", key% "resnets", key% "1"] ++ vaeResnet (c :: d :: e)
    else if a = key% "down" ∧ c = key% "block" then indexed (key% "down_blocks") (number b) ++ [key% "resnets", d] ++ vaeResnet e
    else if a = key% "down" then indexed (key% "down_blocks") (number b) ++ [key% "downsamplers", key% "0", d] ++ e
    else if a = key% "up" ∧ c = key% "block" then indexed (key% "up_blocks") (3 - number b) ++ [key% "resnets", d] ++ vaeResnet e
    else if a = key% "up" then indexed (key% "up_blocks") (3 - number b) ++ [key% "upsamplers", key% "0", d] ++ e
    else parts
  | a :: b => (if a = key% "norm_out" then key% "conv_norm_out" else a) :: b
  | [] => []

/-- Names of the autoencoder: below `encoder` and `decoder`; the other layers keep their names. -/
def vae (parts : List Part) : List Part :=
  match parts with
  | a :: b => if a = key% "encoder" ∨ a = key% "decoder" then a :: vaeBlock b else parts
  | [] => []

/-- The key of SD1 in the layout of kohya -/
def sd1Kohya (k : Text) : Text :=
  let parts := split k
  match parts with
  | a :: rest =>
    if a = key% "first_stage_model" then join (key% ".") (key% "vae" :: vae rest)
    else if a = key% "cond_stage_model" then join (key% ".") (key% "te" :: rest.drop 1)
    else if a = key% "model" then join (key% ".") (key% "unet" :: unet sd1Attention (rest.drop 1))
    else k
  | [] => k

/-- The key of the diffusion model of SDXL in the layout of diffusers -/
def sdxlDiffusers (k : Text) : Text := join (key% ".") (unet sdxlAttention ((split k).drop 2))

/-- Names inside a layer of the second text encoder; the projections of the attention are one matrix in the original layout. -/
def clipLayer (parts : List Part) : List (List Part) :=
  match parts with
  | [a, b] =>
    if a = key% "ln_1" then [[key% "layer_norm1", b]]
    else if a = key% "ln_2" then [[key% "layer_norm2", b]]
    else if a = key% "attn" ∧ b = key% "in_proj_weight" then [key% "q_proj", key% "k_proj", key% "v_proj"].map fun p => [key% "self_attn", p, key% "weight"]
    else if a = key% "attn" ∧ b = key% "in_proj_bias" then [key% "q_proj", key% "k_proj", key% "v_proj"].map fun p => [key% "self_attn", p, key% "bias"]
    else [[a, b]]
  | [a, b, c] =>
    if a = key% "attn" then [[key% "self_attn", b, c]]
    else if a = key% "mlp" ∧ b = key% "c_fc" then [[key% "mlp", key% "fc1", c]]
    else if a = key% "mlp" ∧ b = key% "c_proj" then [[key% "mlp", key% "fc2", c]]
    else [[a, b, c]]
  | _ => [parts]

/-- Names of the second text encoder -/
def clipG (parts : List Part) : List (List Part) :=
  match parts with
  | a :: b :: c :: rest =>
    if a = key% "transformer" ∧ b = key% "resblocks" then (clipLayer rest).map fun r => [key% "text_model", key% "encoder", key% "layers", c] ++ r else [parts]
  | [a, b] =>
    if a = key% "token_embedding" then [[key% "text_model", key% "embeddings", key% "token_embedding", b]]
    else if a = key% "ln_final" then [[key% "text_model", key% "final_layer_norm", b]]
    else [parts]
  | [a] =>
    if a = key% "positional_embedding" then [[key% "text_model", key% "embeddings", key% "position_embedding", key% "weight"]]
    else if a = key% "text_projection" then [[key% "text_projection", key% "weight"]]
    else [parts]
  | [] => [parts]

/-- The keys of SDXL in the layout of kohya, which keeps the names of the diffusion model and of the autoencoder -/
def sdxlKohya (k : Text) : List Text :=
  match split k with
  | a :: b :: rest =>
    if a = key% "model" ∧ b = key% "diffusion_model" then [join (key% ".") (key% "unet" :: rest)]
    else if a = key% "conditioner" ∧ b = key% "embedders" ∧ rest.headD [] = key% "0" then [join (key% ".") (key% "te1" :: rest.drop 2)]
    else if a = key% "conditioner" ∧ b = key% "embedders" then (clipG (rest.drop 2)).map fun r => join (key% ".") (key% "te2" :: r)
    else [k]
  | _ => [k]

/-- The block of a layer of the diffusion model; `last` is the last output block, which the final layers belong to.  The embeddings of
the time and of the image size belong to the base. -/
def unetBlock (last : Text) (parts : List Part) : Text :=
  match parts with
  | a :: b :: _ =>
    if a = key% "input_blocks" then key% "IN" ++ pad2 (number b)
    else if a = key% "middle_block" then key% "M00"
    else if a = key% "output_blocks" then key% "OUT" ++ pad2 (number b)
    else if a = key% "out" then last
    else key% "BASE"
  | _ => key% "BASE"

/-- The block of a key of SD1: text encoder, autoencoder and the rest belong to the base. -/
def sd1Block (k : Text) : Text :=
  match split k with
  | a :: b :: rest => if a = key% "model" ∧ b = key% "diffusion_model" then unetBlock (key% "OUT11") rest else key% "BASE"
  | _ => key% "BASE"

/-- The block of a key of SDXL: the autoencoder is a block of its own. -/
def sdxlBlock (k : Text) : Text :=
  match split k with
  | a :: b :: rest =>
    if a = key% "model" ∧ b = key% "diffusion_model" then unetBlock (key% "OUT08") rest
    else if a = key% "first_stage_model" then key% "VAE" else key% "BASE"
  | _ => key% "BASE"

/-- Keys of the source a conversion reads -/
def reads : Conv → List Text
  | .read k => [k]
  | .transposed k => [k]
  | .stacked ks => ks
  | .conv1x1 k => [k]

/-- `Gives source c shape`: all that `c` reads is in the source, and the result has the shape.  `torch.vstack` puts matrices below each other
and makes each vector a row; a linear layer becomes a 1×1 convolution by two more axes. -/
inductive Gives (source : List Entry) : Conv → List ℕ → Prop
  | read (s : Entry) (h : s ∈ source) : Gives source (.read s.key) s.shape
  | transposed (s : Entry) (a b : ℕ) (h : s ∈ source) (hs : s.shape = [a, b]) : Gives source (.transposed s.key) [b, a]
  | matrices (ss : List Entry) (ms : List ℕ) (n : ℕ) (h : ∀ s ∈ ss, s ∈ source) (h0 : ss ≠ []) (hs : ss.map (·.shape) = ms.map fun m => [m, n]) :
      Gives source (.stacked (ss.map (·.key))) [ms.sum, n]
  | vectors (ss : List Entry) (n : ℕ) (h : ∀ s ∈ ss, s ∈ source) (h0 : ss ≠ []) (hs : ∀ s ∈ ss, s.shape = [n]) :
      Gives source (.stacked (ss.map (·.key))) [ss.length, n]
  | kept (s : Entry) (n : ℕ) (h : s ∈ source) (hs : s.shape = [n]) : Gives source (.conv1x1 s.key) [n]
  | conv1x1 (s : Entry) (h : s ∈ source) (hs : s.shape.length ≠ 1) : Gives source (.conv1x1 s.key) (s.shape ++ [1, 1])

end Verif.Convert.Spec
