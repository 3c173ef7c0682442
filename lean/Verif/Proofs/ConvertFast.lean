import Verif.Model.Convert
import Verif.Proofs.Text
import Verif.Props.ConvertSpec

/-!
# Conversions in a form the kernel evaluates quickly

The functions of `Verif/Model/Convert.lean` with the string methods of `Verif/Proofs/Text.lean`, and proofs that they are the same.
-/
namespace Verif.Fast
open Text Convert

namespace Lit
/-- `vaeMap`, written out -/
def vaeMap : List (Text × Text) := [
  (key% "nin_shortcut", key% "conv_shortcut"),
  (key% "norm_out", key% "conv_norm_out"),
  (key% "mid.attn_1.", key% "mid_block.attentions.0."),
  (key% "encoder.down.0.block.0.", key% "encoder.down_blocks.0.resnets.0."),
  (key% "encoder.down.0.block.1.", key% "encoder.down_blocks.0.resnets.1."),
  (key% "down.0.downsample.", key% "down_blocks.0.downsamplers.0."),
  (key% "up.3.upsample.", key% "up_blocks.0.upsamplers.0."),
  (key% "decoder.up.3.block.0.", key% "decoder.up_blocks.0.resnets.0."),
  (key% "decoder.up.3.block.1.", key% "decoder.up_blocks.0.resnets.1."),
  (key% "decoder.up.3.block.2.", key% "decoder.up_blocks.0.resnets.2."),
  (key% "encoder.down.1.block.0.", key% "encoder.down_blocks.1.resnets.0."),
  (key% "encoder.down.1.block.1.", key% "encoder.down_blocks.1.resnets.1."),
  (key% "down.1.downsample.", key% "down_blocks.1.downsamplers.0."),
  (key% "up.2.upsample.", key% "up_blocks.1.upsamplers.0."),
  (key% "decoder.up.2.block.0.", key% "decoder.up_blocks.1.resnets.0."),
  (key% "decoder.up.2.block.1.", key% "decoder.up_blocks.1.resnets.1."),
  (key% "decoder.up.2.block.2.", key% "decoder.up_blocks.1.resnets.2."),
  (key% "encoder.down.2.block.0.", key% "encoder.down_blocks.2.resnets.0."),
  (key% "encoder.down.2.block.1.", key% "encoder.down_blocks.2.resnets.1."),
  (key% "down.2.downsample.", key% "down_blocks.2.downsamplers.0."),
  (key% "up.1.upsample.", key% "up_blocks.2.upsamplers.0."),
  (key% "decoder.up.1.block.0.", key% "decoder.up_blocks.2.resnets.0."),
  (key% "decoder.up.1.block.1.", key% "decoder.up_blocks.2.resnets.1."),
  (key% "decoder.up.1.block.2.", key% "decoder.up_blocks.2.resnets.2."),
  (key% "encoder.down.3.block.0.", key% "encoder.down_blocks.3.resnets.0."),
  (key% "encoder.down.3.block.1.", key% "encoder.down_blocks.3.resnets.1."),
  (key% "decoder.up.0.block.0.", key% "decoder.up_blocks.3.resnets.0."),
  (key% "decoder.up.0.block.1.", key% "decoder.up_blocks.3.resnets.1."),
  (key% "decoder.up.0.block.2.", key% "decoder.up_blocks.3.resnets.2."),
  (key% "mid.block_1.", key% "mid_block.resnets.0."),
  (key% "mid.block_2.", key% "mid_block.resnets.1.")]

/-- `sd1Layers`, written out -/
def sd1Layers : List (Text × Text) := [
  (key% "input_blocks.1.0.", key% "down_blocks.0.resnets.0."),
  (key% "input_blocks.1.1.", key% "down_blocks.0.attentions.0."),
  (key% "input_blocks.2.0.", key% "down_blocks.0.resnets.1."),
  (key% "input_blocks.2.1.", key% "down_blocks.0.attentions.1."),
  (key% "output_blocks.0.0.", key% "up_blocks.0.resnets.0."),
  (key% "output_blocks.1.0.", key% "up_blocks.0.resnets.1."),
  (key% "output_blocks.2.0.", key% "up_blocks.0.resnets.2."),
  (key% "input_blocks.3.0.op.", key% "down_blocks.0.downsamplers.0.conv."),
  (key% "output_blocks.2.1.", key% "up_blocks.0.upsamplers.0."),
  (key% "input_blocks.4.0.", key% "down_blocks.1.resnets.0."),
  (key% "input_blocks.4.1.", key% "down_blocks.1.attentions.0."),
  (key% "input_blocks.5.0.", key% "down_blocks.1.resnets.1."),
  (key% "input_blocks.5.1.", key% "down_blocks.1.attentions.1."),
  (key% "output_blocks.3.0.", key% "up_blocks.1.resnets.0."),
  (key% "output_blocks.3.1.", key% "up_blocks.1.attentions.0."),
  (key% "output_blocks.4.0.", key% "up_blocks.1.resnets.1."),
  (key% "output_blocks.4.1.", key% "up_blocks.1.attentions.1."),
  (key% "output_blocks.5.0.", key% "up_blocks.1.resnets.2."),
  (key% "output_blocks.5.1.", key% "up_blocks.1.attentions.2."),
  (key% "input_blocks.6.0.op.", key% "down_blocks.1.downsamplers.0.conv."),
  (key% "output_blocks.5.2.", key% "up_blocks.1.upsamplers.0."),
  (key% "input_blocks.7.0.", key% "down_blocks.2.resnets.0."),
  (key% "input_blocks.7.1.", key% "down_blocks.2.attentions.0."),
  (key% "input_blocks.8.0.", key% "down_blocks.2.resnets.1."),
  (key% "input_blocks.8.1.", key% "down_blocks.2.attentions.1."),
  (key% "output_blocks.6.0.", key% "up_blocks.2.resnets.0."),
  (key% "output_blocks.6.1.", key% "up_blocks.2.attentions.0."),
  (key% "output_blocks.7.0.", key% "up_blocks.2.resnets.1."),
  (key% "output_blocks.7.1.", key% "up_blocks.2.attentions.1."),
  (key% "output_blocks.8.0.", key% "up_blocks.2.resnets.2."),
  (key% "output_blocks.8.1.", key% "up_blocks.2.attentions.2."),
  (key% "input_blocks.9.0.op.", key% "down_blocks.2.downsamplers.0.conv."),
  (key% "output_blocks.8.2.", key% "up_blocks.2.upsamplers.0."),
  (key% "input_blocks.10.0.", key% "down_blocks.3.resnets.0."),
  (key% "input_blocks.11.0.", key% "down_blocks.3.resnets.1."),
  (key% "output_blocks.9.0.", key% "up_blocks.3.resnets.0."),
  (key% "output_blocks.9.1.", key% "up_blocks.3.attentions.0."),
  (key% "output_blocks.10.0.", key% "up_blocks.3.resnets.1."),
  (key% "output_blocks.10.1.", key% "up_blocks.3.attentions.1."),
  (key% "output_blocks.11.0.", key% "up_blocks.3.resnets.2."),
  (key% "output_blocks.11.1.", key% "up_blocks.3.attentions.2."),
  (key% "middle_block.1.", key% "mid_block.attentions.0."),
  (key% "middle_block.0.", key% "mid_block.resnets.0."),
  (key% "middle_block.2.", key% "mid_block.resnets.1.")]

/-- `sdxlLayers`, written out -/
def sdxlLayers : List (Text × Text) := [
  (key% "input_blocks.1.0.", key% "down_blocks.0.resnets.0."),
  (key% "input_blocks.2.0.", key% "down_blocks.0.resnets.1."),
  (key% "output_blocks.0.0.", key% "up_blocks.0.resnets.0."),
  (key% "output_blocks.0.1.", key% "up_blocks.0.attentions.0."),
  (key% "output_blocks.1.0.", key% "up_blocks.0.resnets.1."),
  (key% "output_blocks.1.1.", key% "up_blocks.0.attentions.1."),
  (key% "output_blocks.2.0.", key% "up_blocks.0.resnets.2."),
  (key% "output_blocks.2.1.", key% "up_blocks.0.upsamplers.0."),
  (key% "output_blocks.3.0.", key% "up_blocks.1.resnets.0."),
  (key% "output_blocks.3.1.", key% "up_blocks.1.attentions.0."),
  (key% "input_blocks.3.0.op.", key% "down_blocks.0.downsamplers.0.conv."),
  (key% "input_blocks.4.0.", key% "down_blocks.1.resnets.0."),
  (key% "input_blocks.4.1.", key% "down_blocks.1.attentions.0."),
  (key% "input_blocks.5.0.", key% "down_blocks.1.resnets.1."),
  (key% "input_blocks.5.1.", key% "down_blocks.1.attentions.1."),
  (key% "output_blocks.4.0.", key% "up_blocks.1.resnets.1."),
  (key% "output_blocks.4.1.", key% "up_blocks.1.attentions.1."),
  (key% "output_blocks.5.0.", key% "up_blocks.1.resnets.2."),
  (key% "output_blocks.5.1.", key% "up_blocks.1.attentions.2."),
  (key% "output_blocks.6.0.", key% "up_blocks.2.resnets.0."),
  (key% "output_blocks.6.1.", key% "up_blocks.1.attentions.3."),
  (key% "input_blocks.6.0.op.", key% "down_blocks.1.downsamplers.0.conv."),
  (key% "output_blocks.5.2.", key% "up_blocks.1.upsamplers.0."),
  (key% "input_blocks.7.0.", key% "down_blocks.2.resnets.0."),
  (key% "input_blocks.7.1.", key% "down_blocks.2.attentions.0."),
  (key% "input_blocks.8.0.", key% "down_blocks.2.resnets.1."),
  (key% "input_blocks.8.1.", key% "down_blocks.2.attentions.1."),
  (key% "output_blocks.7.0.", key% "up_blocks.2.resnets.1."),
  (key% "output_blocks.8.0.", key% "up_blocks.2.resnets.2."),
  (key% "output_blocks.9.0.", key% "up_blocks.2.resnets.3."),
  (key% "input_blocks.9.0.op.", key% "down_blocks.2.downsamplers.0.conv."),
  (key% "output_blocks.8.2.", key% "up_blocks.2.upsamplers.0."),
  (key% "output_blocks.2.2.conv.", key% "output_blocks.2.1.conv."),
  (key% "middle_block.1.", key% "mid_block.attentions.0."),
  (key% "middle_block.0.", key% "mid_block.resnets.0."),
  (key% "middle_block.2.", key% "mid_block.resnets.1.")]

theorem vaeMap_eq : Convert.vaeMap = vaeMap := by kernel_rfl
theorem sd1Layers_eq : Convert.sd1Layers = sd1Layers := by kernel_rfl
theorem sdxlLayers_eq : Convert.sdxlLayers = sdxlLayers := by kernel_rfl

end Lit

noncomputable section

/-- `k (getOr d s)` -/
def getOr {β : Type} (d : List (Text × Text)) (s : Text) (k : Text → β) : β :=
  List.rec (k s) (fun e _ ih => Bool.rec (motive := fun _ => β) ih (k e.2) (eq e.1 s)) d

theorem getOr_eq {β : Type} (d : List (Text × Text)) (s : Text) (k : Text → β) : getOr d s k = k (Convert.getOr d s) := by
  induction d with
  | nil => rfl
  | cons e d ih =>
    show Bool.rec (motive := fun _ => β) (getOr d s k) (k e.2) (eq e.1 s) = _
    rw [ih]
    unfold Convert.getOr
    rw [List.find?_cons]
    by_cases h : e.1 = s
    · rw [(eq_iff _ _).2 h, show (e.1 == s) = true from beq_iff_eq.2 h]
    · have h1 : eq e.1 s = false := Bool.eq_false_iff.2 fun hc => h ((eq_iff _ _).1 hc)
      have h2 : (e.1 == s) = false := Bool.eq_false_iff.2 fun hc => h (beq_iff_eq.1 hc)
      rw [h1, h2]

/-- What every string replaced by `sd1Layers` and `sdxlLayers` contains -/
def guards : List Text := [key% "put_blocks.", key% "middle_block."]

/-- After the layers have been renamed (`unetKey`) -/
def unetRest {β : Type} (names : List (Text × Text)) (s : Text) (k : Text → β) : β :=
  Bool.rec (motive := fun _ => β) (getOr names s k) (repAll resnetMap s fun s => getOr names s k) (occ (key% "resnets") s)

/-- `k (unetKey layers names s)` -/
def unetKey {β : Type} (layers names : List (Text × Text)) (s : Text) (k : Text → β) : β :=
  force (afterDots s 2) fun s =>
    Bool.rec (motive := fun _ => β) (unetRest names s k) (repGuarded guards layers s fun s => unetRest names s k) (anyOcc guards s)

theorem resnetMap_ne : ∀ e ∈ resnetMap, e.1 ≠ [] := by
  have : resnetMap.all (fun e => !e.1.isEmpty) = true := rfl
  intro e he hn
  have h := List.all_eq_true.1 this e he
  rw [hn] at h
  cases h

theorem guards_ne : ∀ g ∈ guards, g ≠ [] := by
  intro g hg
  simp only [guards, List.mem_cons, List.not_mem_nil, or_false] at hg
  rcases hg with rfl | rfl <;> exact List.cons_ne_nil _ _

theorem guarded_of (layers : List (Text × Text)) (h : layers.all (fun e => anyOcc guards e.1) = true) : ∀ e ∈ layers, ∃ g ∈ guards, g <:+: e.1 :=
  fun e he => (anyOcc_iff guards e.1 guards_ne).1 (List.all_eq_true.1 h e he)

theorem unetRest_eq {β : Type} (names : List (Text × Text)) (s : Text) (k : Text → β) :
    unetRest names s k = k (Convert.getOr names (if occurs (key% "resnets") s then replaceAll resnetMap s else s)) := by
  unfold unetRest
  rw [repAll_eq _ _ _ resnetMap_ne, getOr_eq, getOr_eq, occ_eq _ _ (List.cons_ne_nil _ _)]
  cases occurs (key% "resnets") s <;> rfl

theorem unetKey_eq {β : Type} (layers names : List (Text × Text)) (s : Text) (k : Text → β) (hl : layers.all (fun e => anyOcc guards e.1) = true) :
    unetKey layers names s k = k (Convert.unetKey layers names s) := by
  have hl := guarded_of layers hl
  unfold unetKey Convert.unetKey
  rw [force_eq, afterDots_eq, repGuarded_eq _ _ _ _ guards_ne hl]
  rw [unetRest_eq, unetRest_eq]
  have ha := anyOcc_iff guards (join (key% ".") ((split s).drop 2)) guards_ne
  cases h : anyOcc guards (join (key% ".") ((split s).drop 2)) with
  | true => rfl
  | false =>
    rw [h] at ha
    have hr := replaceAll_none guards layers _ hl fun hx => absurd (ha.2 hx) Bool.false_ne_true
    dsimp only
    rw [hr]

/-- `k (needsReshape, key)` for `convertVae`, the renaming of the attention done -/
def vaeExtra {β : Type} (d : List (Text × Text)) (s : Text) (b : Bool) (k : Text → Bool → β) : β :=
  List.rec (motive := fun _ => Text → Bool → β) k
    (fun e _ ih s b => Bool.rec (motive := fun _ => β)
      (Bool.rec (motive := fun _ => β) (ih s b) (force (repFrom e.1 e.2 (e.1.length - 1) s 0) fun s => ih s true)
        (occ (append (key% "mid.attn_1.") (append e.1 (key% ".bias"))) s))
      (force (repFrom e.1 e.2 (e.1.length - 1) s 0) fun s => ih s true)
      (occ (append (key% "mid.attn_1.") (append e.1 (key% ".weight"))) s)) d s b

theorem vaeExtra_eq {β : Type} (d : List (Text × Text)) (s : Text) (b : Bool) (k : Text → Bool → β) :
    vaeExtra d s b k = k (d.foldl Convert.vaeExtra (s, b)).1 (d.foldl Convert.vaeExtra (s, b)).2 := by
  induction d generalizing s b with
  | nil => rfl
  | cons e d ih =>
    show Bool.rec (motive := fun _ => β)
      (Bool.rec (motive := fun _ => β) (vaeExtra d s b k) (force (repFrom e.1 e.2 (e.1.length - 1) s 0) fun s => vaeExtra d s true k)
        (occ (append (key% "mid.attn_1.") (append e.1 (key% ".bias"))) s))
      (force (repFrom e.1 e.2 (e.1.length - 1) s 0) fun s => vaeExtra d s true k)
      (occ (append (key% "mid.attn_1.") (append e.1 (key% ".weight"))) s) = _
    rw [force_eq, repFrom_eq, ih, ih, List.foldl_cons, append_eq, append_eq, append_eq, append_eq, occ_eq _ _ (by simp), occ_eq _ _ (by simp)]
    rw [Convert.vaeExtra, List.append_assoc, List.append_assoc]
    cases occurs (key% "mid.attn_1." ++ (e.1 ++ key% ".weight")) s <;>
      cases occurs (key% "mid.attn_1." ++ (e.1 ++ key% ".bias")) s <;> rfl

/-- `vaeReshape` -/
def reshaped : List Text := [key% "mid.attn_1.to_q.weight", key% "mid.attn_1.to_k.weight", key% "mid.attn_1.to_v.weight", key% "mid.attn_1.to_out.0.weight"]

theorem reshaped_eq (s : Text) : anyOcc reshaped s = vaeReshape s := by
  have h1 := anyOcc_iff reshaped s (by
    intro g hg
    simp only [reshaped, List.mem_cons, List.not_mem_nil, or_false] at hg
    rcases hg with rfl | rfl | rfl | rfl <;> exact List.cons_ne_nil _ _)
  have h2 : vaeReshape s = true ↔ ∃ g ∈ reshaped, g <:+: s := by
    unfold vaeReshape
    have : reshaped = vaeMapExtra.map fun e => key% "mid.attn_1." ++ e.2 ++ key% ".weight" := rfl
    rw [this, List.any_eq_true]
    constructor
    · rintro ⟨e, he, ho⟩
      exact ⟨_, List.mem_map_of_mem he, (occurs_iff _ _).1 ho⟩
    · rintro ⟨g, hg, hi⟩
      obtain ⟨e, he, rfl⟩ := List.mem_map.1 hg
      exact ⟨e, he, (occurs_iff _ _).2 hi⟩
  rw [Bool.eq_iff_iff, h1, h2]

/-- The result of `convertVae` -/
def vaeResult (b : Bool) (s : Text) : Conv :=
  Bool.rec (motive := fun _ => Conv) (.read (append (key% "vae.") s)) (.conv1x1 (append (key% "vae.") s)) b

/-- `convertVae` -/
def convertVae (s : Text) : Conv :=
  force (afterDots s 1) fun s =>
    vaeExtra vaeMapExtra s false fun s b =>
      Bool.rec (motive := fun _ => Conv)
        (repAll Lit.vaeMap s (vaeResult (Bool.rec (motive := fun _ => Bool) (anyOcc reshaped s) true b)))
        (repAll vaeMapAttn s fun t => repAll Lit.vaeMap t (vaeResult (Bool.rec (motive := fun _ => Bool) (anyOcc reshaped s) true b)))
        (occ (key% "attentions") s)

theorem nonempty_of (d : List (Text × Text)) (h : d.all (fun e => !e.1.isEmpty) = true) : ∀ e ∈ d, e.1 ≠ [] := by
  intro e he hn
  have h := List.all_eq_true.1 h e he
  rw [hn] at h
  cases h

theorem convertVae_eq (s : Text) : convertVae s = Convert.convertVae s := by
  unfold convertVae Convert.convertVae
  rw [force_eq, afterDots_eq, vaeExtra_eq]
  rw [repAll_eq _ _ _ (nonempty_of _ rfl), repAll_eq _ _ _ (nonempty_of _ rfl), repAll_eq _ _ _ (nonempty_of _ rfl), occ_eq _ _ (List.cons_ne_nil _ _),
    reshaped_eq, Lit.vaeMap_eq]
  dsimp only
  generalize (List.foldl Convert.vaeExtra (join [46] (List.drop 1 s.split), false) vaeMapExtra) = p
  obtain ⟨t, b⟩ := p
  have hr : ∀ (b : Bool) t, vaeResult b t = if b = true then Conv.conv1x1 (key% "vae." ++ t) else Conv.read (key% "vae." ++ t) := by
    intro b t
    unfold vaeResult
    rw [append_eq]
    cases b <;> rfl
  rw [hr, hr]
  have hb : (Bool.rec (motive := fun _ => Bool) (vaeReshape t) true b) = (b || vaeReshape t) := by cases b <;> rfl
  dsimp only
  rw [hb]
  cases occurs (key% "attentions") t <;> rfl

/-- `sd1Kohya` -/
def sd1Kohya (s : Text) : Conv :=
  Bool.rec (motive := fun _ => Conv)
    (Bool.rec (motive := fun _ => Conv)
      (Bool.rec (motive := fun _ => Conv) (.read s) (convertVae s) (isPrefix (key% "first_stage_model.") s))
      (.read (append (key% "te.") (afterDots s 2))) (isPrefix (key% "cond_stage_model.") s))
    (unetKey Lit.sd1Layers sd1Map s fun k => .read (append (key% "unet.") k))
    (isPrefix (key% "model.diffusion_model.") s)

theorem sd1Kohya_eq (s : Text) : Convert.sd1Kohya s = some (sd1Kohya s) := by
  unfold sd1Kohya Convert.sd1Kohya startsWith
  rw [unetKey_eq _ _ _ _ (by kernel_rfl), convertVae_eq, isPrefix_eq, isPrefix_eq, isPrefix_eq, append_eq, append_eq, afterDots_eq, Lit.sd1Layers_eq]
  cases (key% "model.diffusion_model.").isPrefixOf s <;> cases (key% "cond_stage_model.").isPrefixOf s <;>
    cases (key% "first_stage_model.").isPrefixOf s <;> rfl

/-- `sdxlDiffusers` of keys of the diffusion model -/
def sdxlDiffusers (s : Text) : Option Conv :=
  Bool.rec (motive := fun _ => Option Conv) none (unetKey Lit.sdxlLayers sdxlMap s fun k => some (.read k)) (isPrefix (key% "model.diffusion_model") s)

theorem sdxlDiffusers_eq (s : Text) : Convert.sdxlDiffusers s = sdxlDiffusers s := by
  unfold sdxlDiffusers Convert.sdxlDiffusers startsWith
  rw [unetKey_eq _ _ _ _ (by kernel_rfl), isPrefix_eq, Lit.sdxlLayers_eq]
  cases (key% "model.diffusion_model").isPrefixOf s <;> rfl

def reverse (s : Text) : Text := List.rec (motive := fun _ => Text → Text) (fun acc => acc) (fun c _ ih acc => ih (c :: acc)) s []

theorem reverse_eq (s : Text) : reverse s = s.reverse := by
  have : ∀ acc, List.rec (motive := fun _ => Text → Text) (fun acc => acc) (fun c _ ih acc => ih (c :: acc)) s acc = s.reverse ++ acc := by
    induction s with
    | nil => intro acc; rfl
    | cons c s ih => intro acc; exact (ih _).trans (by simp)
  exact (this []).trans (List.append_nil _)

/-- `endsWith p s`, given `p.reverse` -/
def ends (r : Text) (s : Text) : Bool := isPrefix r (reverse s)

theorem ends_eq (p s : Text) : ends p.reverse s = endsWith p s := by
  unfold ends endsWith
  rw [isPrefix_eq, reverse_eq]

/-- `sdxlClipG` after the renaming -/
def clipGRest (k : Text) : Conv :=
  Bool.rec (motive := fun _ => Conv)
    (Bool.rec (motive := fun _ => Conv) (.read k)
      (.stacked [append (replace (key% ".in_proj_bias") [] (replace (key% ".in_proj_weight") [] k)) (key% ".q_proj.bias"),
        append (replace (key% ".in_proj_bias") [] (replace (key% ".in_proj_weight") [] k)) (key% ".k_proj.bias"),
        append (replace (key% ".in_proj_bias") [] (replace (key% ".in_proj_weight") [] k)) (key% ".v_proj.bias")])
      (ends (key% ".in_proj_bias").reverse k))
    (.stacked [append (replace (key% ".in_proj_bias") [] (replace (key% ".in_proj_weight") [] k)) (key% ".q_proj.weight"),
      append (replace (key% ".in_proj_bias") [] (replace (key% ".in_proj_weight") [] k)) (key% ".k_proj.weight"),
      append (replace (key% ".in_proj_bias") [] (replace (key% ".in_proj_weight") [] k)) (key% ".v_proj.weight")])
    (ends (key% ".in_proj_weight").reverse k)

/-- `sdxlClipG` -/
def sdxlClipG (s : Text) : Conv :=
  Bool.rec (motive := fun _ => Conv) (repAll clipGMap s clipGRest) (.transposed (key% "te2.text_projection.weight")) (ends (key% "text_projection").reverse s)

theorem sdxlClipG_eq (s : Text) : sdxlClipG s = Convert.sdxlClipG s := by
  unfold sdxlClipG Convert.sdxlClipG
  rw [ends_eq, repAll_eq _ _ _ (nonempty_of _ rfl)]
  cases endsWith (key% "text_projection") s with
  | true => rfl
  | false =>
    dsimp only
    rw [if_neg Bool.false_ne_true]
    generalize replaceAll clipGMap s = k
    unfold clipGRest
    rw [ends_eq, ends_eq]
    have hb : ∀ c : ℕ, endsWith (key% ".in_proj_weight") k = true → endsWith (key% "bias") k = false := by
      intro _ h
      refine Bool.eq_false_iff.2 fun hb => ?_
      rw [endsWith_iff] at h hb
      have := List.suffix_of_suffix_length_le hb h (by simp)
      revert this
      decide
    have hc : endsWith (key% ".in_proj_bias") k = true → endsWith (key% "bias") k = true := by
      intro h
      rw [endsWith_iff] at h ⊢
      exact List.IsSuffix.trans (by decide) h
    cases h1 : endsWith (key% ".in_proj_weight") k with
    | true =>
      rw [hb 0 h1]
      simp [append_eq]
    | false =>
      cases h2 : endsWith (key% ".in_proj_bias") k with
      | true =>
        rw [hc h2]
        simp [append_eq]
      | false => rfl

/-- `sdxlKohya` -/
def sdxlKohya (s : Text) : Conv :=
  Bool.rec (motive := fun _ => Conv)
    (Bool.rec (motive := fun _ => Conv)
      (Bool.rec (motive := fun _ => Conv)
        (Bool.rec (motive := fun _ => Conv) (.read s) (convertVae s) (isPrefix (key% "first_stage_model.") s))
        (sdxlClipG s) (isPrefix (key% "conditioner.embedders.1.") s))
      (.read (repFrom (key% "conditioner.embedders.0.transformer.") (key% "te1.") 35 s 0)) (isPrefix (key% "conditioner.embedders.0.") s))
    (.read (repFrom (key% "model.diffusion_model.") (key% "unet.") 21 s 0))
    (isPrefix (key% "model.diffusion_model.") s)

theorem sdxlKohya_eq (s : Text) : Convert.sdxlKohya s = some (sdxlKohya s) := by
  unfold sdxlKohya Convert.sdxlKohya startsWith
  rw [show repFrom (key% "conditioner.embedders.0.transformer.") (key% "te1.") 35 s 0 = _ from repFrom_eq _ _ _ _,
    show repFrom (key% "model.diffusion_model.") (key% "unet.") 21 s 0 = _ from repFrom_eq _ _ _ _,
    convertVae_eq, sdxlClipG_eq, isPrefix_eq, isPrefix_eq, isPrefix_eq, isPrefix_eq]
  cases (key% "model.diffusion_model.").isPrefixOf s <;> cases (key% "conditioner.embedders.0.").isPrefixOf s <;>
    cases (key% "conditioner.embedders.1.").isPrefixOf s <;> cases (key% "first_stage_model.").isPrefixOf s <;> rfl

end

end Verif.Fast
