import Verif.Proofs.TableNames
import Verif.Props.Choice

/-! # Facts about the shipped configs -/
namespace Verif.Fast
open Text Data

noncomputable section

/-! ## Checks over tables -/

/-- Only characters before 128 -/
def ascii (t : Text) : Bool := List.rec true (fun c _ ih => Bool.rec (motive := fun _ => Bool) false ih (Nat.blt c 128)) t

theorem ascii_sound (t : Text) (h : ascii t = true) : ∀ c ∈ t, c < 128 := by
  induction t with
  | nil => simp
  | cons a t ih =>
    replace h : Bool.rec (motive := fun _ => Bool) false (ascii t) (Nat.blt a 128) = true := h
    cases hp : Nat.blt a 128 with
    | false => rw [hp] at h; cases h
    | true =>
      rw [hp] at h
      rw [List.forall_mem_cons]
      exact ⟨by simpa [Nat.blt_eq] using hp, ih h⟩

/-- A name that can be told from those of LoRA keys -/
def plain (t : Text) : Bool :=
  Bool.rec (motive := fun _ => Bool) false (Bool.rec (motive := fun _ => Bool) (Bool.rec (motive := fun _ => Bool) true false (isPrefix (key% "lycoris_") t)) false (isPrefix (key% "lora_") t)) (ascii t)

structure Plain (t : Text) : Prop where
  ascii : ∀ c ∈ t, c < 128
  lora : ¬ key% "lora_" <+: t
  lycoris : ¬ key% "lycoris_" <+: t

theorem plain_sound (t : Text) (h : plain t = true) : Plain t := by
  unfold plain at h
  rw [isPrefix_eq, isPrefix_eq] at h
  have h1 := isPrefixOf_iff (key% "lora_") t
  have h2 := isPrefixOf_iff (key% "lycoris_") t
  cases ha : Fast.ascii t with
  | false => rw [ha] at h; cases h
  | true =>
    rw [ha] at h
    cases hl : (key% "lora_").isPrefixOf t with
    | true => rw [hl] at h; cases h
    | false =>
      rw [hl] at h h1
      cases hy : (key% "lycoris_").isPrefixOf t with
      | true => rw [hy] at h; cases h
      | false =>
        rw [hy] at h2
        exact ⟨ascii_sound t ha, fun h => absurd (h1.2 h) Bool.false_ne_true, fun h => absurd (h2.2 h) Bool.false_ne_true⟩

/-- `p` holds for all members of a list. -/
def each (p : Text → Bool) (l : List Text) : Bool := List.rec true (fun a _ ih => Bool.rec (motive := fun _ => Bool) false ih (p a)) l

theorem each_sound (p : Text → Bool) (l : List Text) (h : each p l = true) : ∀ a ∈ l, p a = true := by
  induction l with
  | nil => simp
  | cons a l ih =>
    replace h : Bool.rec (motive := fun _ => Bool) false (each p l) (p a) = true := h
    cases hp : p a with
    | false => rw [hp] at h; cases h
    | true =>
      rw [hp] at h
      rw [List.forall_mem_cons]
      exact ⟨hp, ih h⟩

/-- `p` holds for the key and the aliases. -/
def eachName (p : Text → Bool) (e : Entry) : Bool := Bool.rec (motive := fun _ => Bool) false (each p e.aliases) (p e.key)

theorem eachName_sound (p : Text → Bool) (e : Entry) (h : eachName p e = true) : ∀ a ∈ e.key :: e.aliases, p a = true := by
  unfold eachName at h
  cases hp : p e.key with
  | false => rw [hp] at h; cases h
  | true =>
    rw [hp] at h
    rw [List.forall_mem_cons]
    exact ⟨hp, each_sound _ _ h⟩

/-- `v` is a beginning of the name with underscores for dots. -/
def isPrefixUnder (p : Text) : Text → Bool :=
  List.rec (motive := fun _ => Text → Bool) (fun _ => true)
    (fun a _ ih s => List.rec false (fun b bs _ => Bool.rec false (ih bs) (Nat.beq a (under b))) s) p

theorem isPrefixUnder_eq (p s : Text) : isPrefixUnder p s = isPrefix p (s.map fun c => if c = 46 then 95 else c) := by
  induction p generalizing s with
  | nil => cases s <;> rfl
  | cons a p ih =>
    cases s with
    | nil => rfl
    | cons b s =>
      show Bool.rec (motive := fun _ => Bool) false (isPrefixUnder p s) (Nat.beq a (under b)) = Bool.rec (motive := fun _ => Bool) false (isPrefix p (s.map _)) (Nat.beq a _)
      rw [ih, under_eq]

/-- The key `w` and the module `v` have nothing to do with an entry. -/
def free (w v : Text) (e : Entry) : Bool :=
  Bool.rec (motive := fun _ => Bool) (eachName (fun a => Bool.rec (motive := fun _ => Bool) true false (eq a w)) e) false (isPrefixUnder v e.key)

structure Free (w v : Text) (e : Entry) : Prop where
  name : w ∉ e.key :: e.aliases
  stem : stem e.key ≠ v

theorem stem_prefix (key : Text) : stem key <+: key.map fun c => if c = 46 then 95 else c := by
  unfold stem
  split
  · simp
  · split
    · exact (List.take_prefix _ _).map _
    · exact List.prefix_rfl

theorem free_sound (w v : Text) (e : Entry) (h : free w v e = true) : Free w v e := by
  unfold free at h
  rw [isPrefixUnder_eq, isPrefix_eq] at h
  have h1 := isPrefixOf_iff v (e.key.map fun c => if c = 46 then 95 else c)
  cases hp : v.isPrefixOf (e.key.map fun c => if c = 46 then 95 else c) with
  | true => rw [hp] at h; cases h
  | false =>
    rw [hp] at h h1
    refine ⟨fun hm => ?_, fun hs => absurd (h1.2 (hs ▸ stem_prefix e.key)) Bool.false_ne_true⟩
    have h2 := eachName_sound _ e h w hm
    rw [(eq_iff w w).2 rfl] at h2
    cases h2

theorem everywhere_mono {p : Entry → Bool} {P : Entry → Prop} (hp : ∀ e, p e = true → P e) {es : List Entry} {src : List (List Entry)} (hs : es = src.flatten)
    (h : everywhere p src = true) : ∀ e ∈ es, P e := fun e he => hp e (everywhere_sound p src h e (hs ▸ he))

theorem somewhere_mono {p : Entry → Bool} {P : Entry → Prop} (hp : ∀ e, p e = true → P e) {es : List Entry} {src : List (List Entry)} (hs : es = src.flatten)
    (h : somewhere p src = true) : ∃ e ∈ es, P e := by
  obtain ⟨e, he, h⟩ := somewhere_sound p src h
  exact ⟨e, hs ▸ he, hp e h⟩

/-- An entry for the key `w`, which is not optional and has no aliases -/
structure Required (w : Text) (e : Entry) : Prop where
  key : e.key = w
  optional : e.optional = false
  aliases : e.aliases = []

def required (w : Text) (e : Entry) : Bool := eq e.key w && !e.optional && e.aliases.isEmpty

theorem required_sound (w : Text) (e : Entry) (h : required w e = true) : Required w e := by
  simp only [required, Bool.and_eq_true, Bool.not_eq_true', List.isEmpty_iff, eq_iff] at h
  exact ⟨h.1.1, h.1.2, h.2⟩

/-- An entry with the module `v` -/
structure HasModule (v : Text) (e : Entry) : Prop where
  stem : stem e.key = v
  floating : Shipped.floating e.dtype = true
  bias : endsWith (key% "bias") e.key = false

def hasModule (k : Text) (e : Entry) : Bool := eq e.key k && Shipped.floating e.dtype

theorem hasModule_sound (v k : Text) (hk : Fast.stem k = v) (hb : endsWith (key% "bias") k = false) (e : Entry) (h : hasModule k e = true) : HasModule v e := by
  simp only [hasModule, Bool.and_eq_true, eq_iff] at h
  exact ⟨h.1 ▸ hk, h.2, h.1 ▸ hb⟩

/-- The number of entries -/
def size (src : List (List Entry)) : ℕ → ℕ :=
  List.rec (motive := fun _ => ℕ → ℕ) (fun n => n) (fun c _ ih n => List.rec (motive := fun _ => ℕ → ℕ) ih (fun _ _ ih' n => strict (Nat.succ n) ih') c n) src

theorem size_eq (src : List (List Entry)) (n : ℕ) : size src n = n + src.flatten.length := by
  induction src generalizing n with
  | nil => rfl
  | cons c src ih =>
    rw [List.flatten_cons, List.length_append]
    show List.rec (motive := fun _ => ℕ → ℕ) (size src) (fun _ _ ih' n => strict (Nat.succ n) ih') c n = _
    induction c generalizing n with
    | nil => rw [List.length_nil, Nat.zero_add]; exact ih n
    | cons e c ih' =>
      show strict (Nat.succ n) (List.rec (motive := fun _ => ℕ → ℕ) (size src) (fun _ _ ih' n => strict (Nat.succ n) ih') c) = _
      rw [strict_eq, ih', List.length_cons]
      omega

/-- The number of entries for which `p` holds -/
def sizeOf (p : Entry → Bool) (src : List (List Entry)) : ℕ → ℕ :=
  List.rec (motive := fun _ => ℕ → ℕ) (fun n => n)
    (fun c _ ih n => List.rec (motive := fun _ => ℕ → ℕ) ih (fun e _ ih' n => strict (Bool.rec (motive := fun _ => ℕ) n (Nat.succ n) (p e)) ih') c n) src

theorem sizeOf_eq (p : Entry → Bool) (src : List (List Entry)) (n : ℕ) : sizeOf p src n = n + (src.flatten.filter p).length := by
  induction src generalizing n with
  | nil => rfl
  | cons c src ih =>
    rw [List.flatten_cons, List.filter_append, List.length_append]
    show List.rec (motive := fun _ => ℕ → ℕ) (sizeOf p src) (fun e _ ih' n => strict (Bool.rec (motive := fun _ => ℕ) n (Nat.succ n) (p e)) ih') c n = _
    induction c generalizing n with
    | nil => rw [List.filter_nil, List.length_nil, Nat.zero_add]; exact ih n
    | cons e c ih' =>
      show strict (Bool.rec (motive := fun _ => ℕ) n (Nat.succ n) (p e)) (List.rec (motive := fun _ => ℕ → ℕ) (sizeOf p src) (fun e _ ih' n => strict (Bool.rec (motive := fun _ => ℕ) n (Nat.succ n) (p e)) ih') c) = _
      rw [strict_eq, ih', List.filter_cons]
      cases p e with
      | false => rw [if_neg Bool.false_ne_true]
      | true => rw [if_pos rfl, List.length_cons]; show n + 1 + _ = _; omega

/-- There is a module for the entry. -/
def moduled (e : Entry) : Bool := Bool.rec (motive := fun _ => Bool) false (Bool.rec (motive := fun _ => Bool) true false (ends (key% "bias").reverse e.key)) (Shipped.floating e.dtype)

theorem moduled_eq (e : Entry) : moduled e = !(endsWith (key% "bias") e.key || !Shipped.floating e.dtype) := by
  unfold moduled
  rw [ends_eq]
  cases endsWith (key% "bias") e.key <;> cases Shipped.floating e.dtype <;> rfl

theorem stems_length {src : List (List Entry)} {n : ℕ} (h : sizeOf moduled src 0 = n) : (stems src.flatten).length = n := by
  rw [sizeOf_eq, Nat.zero_add] at h
  rw [← h, stems]
  generalize src.flatten = es
  induction es with
  | nil => rfl
  | cons e es ih =>
    rw [List.filterMap_cons, List.filter_cons, moduled_eq]
    cases endsWith (key% "bias") e.key || !Shipped.floating e.dtype with
    | true => simpa using ih
    | false => simpa using ih

end
end Verif.Fast
