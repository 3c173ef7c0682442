import Verif.Proofs.ConvertCheck

/-!
# What the conversions are known to lose

Keys the check of a whole table excepts; Props/Convert.lean states what happens to them.
-/
namespace Verif.Fast
open Text Convert Data

noncomputable section

def sd1Spec (k : Text) : List Text := [Spec.sd1Kohya k]
def unetSpec (k : Text) : List Text := [Spec.sdxlDiffusers k]

/-- The normalization of the attention of the autoencoder -/
def sd1Lost (e : Entry) : Bool := e.optional || occ (key% ".attn_1.norm.") e.key
def sd1Unused (e : Entry) : Bool := occ (key% ".attentions.0.group_norm.") e.key

/-- The autoencoder -/
def sdxlLost (e : Entry) : Bool := e.optional || isPrefix (key% "first_stage_model.") e.key
def sdxlUnused (e : Entry) : Bool := isPrefix (key% "first_stage_model.") e.key

/-- All but the diffusion model; the last attention and the upsampler of the first output blocks -/
def unetLost (e : Entry) : Bool :=
  !isPrefix (key% "model.diffusion_model.") e.key || isPrefix (key% "model.diffusion_model.output_blocks.2.1.") e.key
    || isPrefix (key% "model.diffusion_model.output_blocks.2.2.") e.key
def unetUnused (e : Entry) : Bool := isPrefix (key% "up_blocks.0.attentions.2.") e.key || isPrefix (key% "up_blocks.0.upsamplers.0.") e.key

/-! ## Blocks -/

/-- `search` -/
def find (p : Text) : Text → Option Text :=
  List.rec none (fun c cs ih => Bool.rec (motive := fun _ => Option Text) ih
    (match matchNumber ((c :: cs).drop p.length) with | some ds => some ds | none => ih) (isPrefix p (c :: cs)))

theorem find_eq (p s : Text) : find p s = search p s := by
  induction s with
  | nil => rfl
  | cons c s ih =>
    show Bool.rec (motive := fun _ => Option Text) (find p s)
      (match matchNumber ((c :: s).drop p.length) with | some ds => some ds | none => find p s) (isPrefix p (c :: s)) = _
    rw [search, ih, isPrefix_eq, startsWith]
    cases p.isPrefixOf (c :: s) <;> rfl

def block (base : List Text) (out : Text) (k : Text) : Text :=
  Bool.rec (motive := fun _ => Text)
    (Bool.rec (motive := fun _ => Text)
      (match find (key% ".input_blocks.") k with
        | some ds => key% "IN" ++ pad2 (number ds)
        | none =>
          match find (key% ".middle_block.") k with
          | some _ => key% "M00"
          | none =>
            match find (key% ".output_blocks.") k with
            | some ds => key% "OUT" ++ pad2 (number ds)
            | none => out)
      out (occ (key% ".out.") k))
    (key% "BASE") (anyOcc base k)

theorem block_eq (base : List Text) (out : Text) (k : Text) (hb : ∀ b ∈ base, b ≠ []) : block base out k = unetBlock base out k := by
  have h : anyOcc base k = base.any (occurs · k) := by
    rw [Bool.eq_iff_iff, anyOcc_iff base k hb, List.any_eq_true]
    simp only [occurs_iff]
  unfold block unetBlock
  rw [h, occ_eq _ _ (List.cons_ne_nil _ _), find_eq, find_eq, find_eq]
  cases base.any (occurs · k) <;> cases occurs (key% ".out.") k <;> rfl

def sd1Blocks (k : Text) : Option Conv :=
  Bool.rec (motive := fun _ => Option Conv) (some (.read (key% "BASE"))) (some (.read (block [key% ".time_embed"] (key% "OUT11") k)))
    (isPrefix (key% "model.diffusion_model.") k)

theorem sd1Blocks_eq (k : Text) : Convert.sd1Blocks k = sd1Blocks k := by
  unfold Convert.sd1Blocks sd1Blocks
  rw [block_eq _ _ _ (by simp), isPrefix_eq, startsWith]
  cases (key% "model.diffusion_model.").isPrefixOf k <;> rfl

def sdxlBlocks (k : Text) : Option Conv :=
  Bool.rec (motive := fun _ => Option Conv)
    (Bool.rec (motive := fun _ => Option Conv) (some (.read (key% "BASE"))) (some (.read (key% "VAE"))) (isPrefix (key% "first_stage_model.") k))
    (some (.read (block [key% ".time_embed", key% ".label_emb"] (key% "OUT08") k)))
    (isPrefix (key% "model.diffusion_model.") k)

theorem sdxlBlocks_eq (k : Text) : Convert.sdxlBlocks k = sdxlBlocks k := by
  unfold Convert.sdxlBlocks sdxlBlocks
  rw [block_eq _ _ _ (by simp), isPrefix_eq, isPrefix_eq, startsWith, startsWith]
  cases (key% "model.diffusion_model.").isPrefixOf k <;> cases (key% "first_stage_model.").isPrefixOf k <;> rfl

def sd1BlocksSpec (k : Text) : List Text := [Spec.sd1Block k]
def sdxlBlocksSpec (k : Text) : List Text := [Spec.sdxlBlock k]
def never (_ : Entry) : Bool := false

/-- The entry with one number for its value, as parameters of merge methods have -/
def scalar (e : Entry) : Entry := { e with shape := [] }

/-! ## Flux -/

def fluxSpec (k : Text) : List Text := [key% "model.diffusion_model." ++ k]
def fluxUnused (e : Entry) : Bool := !isPrefix (key% "model.diffusion_model.") e.key

/-! ## Totals -/

def sd1 (s : Text) : Option Conv := some (sd1Kohya s)
def sdxl (s : Text) : Option Conv := some (sdxlKohya s)

end

end Verif.Fast
