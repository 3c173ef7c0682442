import Verif.Proofs.ConvertFast
import Verif.Props.ConvertSpec
import Mathlib.Data.List.Forall2
import Mathlib.Data.List.Nodup
import Mathlib.Data.List.Lex

/-!
# Checking a conversion on whole key tables

A certificate says, for each key of the target, what the conversion does with it and where the keys it reads are in the source.  A table in
which every certificate checks satisfies the specification.
-/
namespace Verif.Fast
open Text Convert Data Convert.Spec

/-- Where a conversion reads; positions are those of a chunk of the source and of an entry in the chunk. -/
inductive Cert where
  | read (i j : ℕ)
  | transposed (i j : ℕ)
  | stacked (i₁ j₁ i₂ j₂ i₃ j₃ : ℕ)
  | rows (i₁ j₁ i₂ j₂ i₃ j₃ : ℕ)
  | conv1x1 (i j : ℕ)
  /-- excepted -/
  | lost

noncomputable section

/-- `k l[i]`, false if there is no such element -/
def nth {α : Type} (l : List α) (i : ℕ) (k : α → Bool) : Bool :=
  List.rec (motive := fun _ => ℕ → Bool) (fun _ => false) (fun a _ ih i => Nat.rec (motive := fun _ => Bool) (k a) (fun i _ => ih i) i) l i

theorem nth_sound {α : Type} (l : List α) (i : ℕ) (k : α → Bool) (h : nth l i k = true) : ∃ a, l[i]? = some a ∧ k a = true := by
  induction l generalizing i with
  | nil => exact absurd h Bool.false_ne_true
  | cons a l ih =>
    cases i with
    | zero => exact ⟨a, rfl, h⟩
    | succ i => exact ih i h

/-- The entry at a position of the source -/
def entry (src : List (List Entry)) (i j : ℕ) (k : Entry → Bool) : Bool := nth src i fun c => nth c j k

/-- `s` is the entry at a position. -/
def At (src : List (List Entry)) (i j : ℕ) (s : Entry) : Prop := ∃ c, src[i]? = some c ∧ c[j]? = some s

theorem entry_sound (src : List (List Entry)) (i j : ℕ) (k : Entry → Bool) (h : entry src i j k = true) : ∃ s, At src i j s ∧ k s = true := by
  obtain ⟨c, hc, h⟩ := nth_sound _ _ _ h
  obtain ⟨s, hs, h⟩ := nth_sound _ _ _ h
  exact ⟨s, ⟨c, hc, hs⟩, h⟩

theorem At.mem {src : List (List Entry)} {i j : ℕ} {s : Entry} (h : At src i j s) : s ∈ src.flatten := by
  obtain ⟨c, hc, hs⟩ := h
  exact List.mem_flatten.2 ⟨c, List.mem_of_getElem? hc, List.mem_of_getElem? hs⟩

/-- The keys read -/
def one (ks : List Text) (s : Entry) : Bool :=
  match ks with
  | [k] => eq k s.key
  | _ => false

theorem one_iff (ks : List Text) (s : Entry) : one ks s = true ↔ ks = [s.key] := by
  unfold one
  split
  · rw [eq_iff]; constructor
    · intro h; rw [h]
    · intro h; exact (List.cons.inj h).1
  · rename_i h
    constructor
    · intro h; cases h
    · intro h'; exact absurd h' (h _)

def three (ks : List Text) (s₁ s₂ s₃ : Entry) : Bool :=
  match ks with
  | [k₁, k₂, k₃] => eq k₁ s₁.key && eq k₂ s₂.key && eq k₃ s₃.key
  | _ => false

theorem three_iff (ks : List Text) (s₁ s₂ s₃ : Entry) : three ks s₁ s₂ s₃ = true ↔ ks = [s₁.key, s₂.key, s₃.key] := by
  unfold three
  split
  · simp only [Bool.and_eq_true, eq_iff, List.cons.injEq, and_true, and_assoc]
  · rename_i h
    constructor
    · intro h; cases h
    · intro h'; exact absurd h' (h _ _ _)

/-- Where vectors may be stacked to a matrix although the target has one long vector -/
def bias (e : Entry) : Bool := ends (key% ".attn.in_proj_bias").reverse e.key

/-- Checks the certificate for what a conversion does with an entry of the target; the keys read are compared with `spec`. -/
def checkConv (src : List (List Entry)) (spec : Text → List Text) (lost : Entry → Bool) (e : Entry) (c : Cert) (f : Option Conv) : Bool :=
  match c with
  | .lost => lost e
  | .read i j =>
    match f with
    | some (.read k) => entry src i j fun s => eq k s.key && eq s.shape e.shape && one (spec e.key) s
    | _ => false
  | .transposed i j =>
    match f with
    | some (.transposed k) => entry src i j fun s => eq k s.key && one (spec e.key) s && (match s.shape with | [a, b] => eq [b, a] e.shape | _ => false)
    | _ => false
  | .conv1x1 i j =>
    match f with
    | some (.conv1x1 k) => entry src i j fun s => eq k s.key && eq (if s.shape.length = 1 then s.shape else s.shape ++ [1, 1]) e.shape && one (spec e.key) s
    | _ => false
  | .stacked i₁ j₁ i₂ j₂ i₃ j₃ =>
    match f with
    | some (.stacked [k₁, k₂, k₃]) => entry src i₁ j₁ fun s₁ => entry src i₂ j₂ fun s₂ => entry src i₃ j₃ fun s₃ =>
      eq k₁ s₁.key && eq k₂ s₂.key && eq k₃ s₃.key && three (spec e.key) s₁ s₂ s₃ &&
        (match s₁.shape, s₂.shape, s₃.shape with
          | [m₁, n₁], [m₂, n₂], [m₃, n₃] => Nat.beq n₁ n₂ && Nat.beq n₁ n₃ && eq [m₁ + (m₂ + (m₃ + 0)), n₁] e.shape
          | _, _, _ => false)
    | _ => false
  | .rows i₁ j₁ i₂ j₂ i₃ j₃ =>
    match f with
    | some (.stacked [k₁, k₂, k₃]) => entry src i₁ j₁ fun s₁ => entry src i₂ j₂ fun s₂ => entry src i₃ j₃ fun s₃ =>
      eq k₁ s₁.key && eq k₂ s₂.key && eq k₃ s₃.key && three (spec e.key) s₁ s₂ s₃ && bias e &&
        (match s₁.shape, s₂.shape, s₃.shape with
          | [n₁], [n₂], [n₃] => Nat.beq n₁ n₂ && Nat.beq n₁ n₃ && eq [3 * n₁] e.shape
          | _, _, _ => false)
    | _ => false

/-- What a certificate that checks says.  `rows` is for vectors stacked to a matrix where the target has one long vector. -/
inductive Good (src : List (List Entry)) (spec : Text → List Text) (lost : Entry → Bool) (f : Option Conv) (e : Entry) : Cert → Prop
  | lost (h : lost e = true) : Good src spec lost f e .lost
  | read (i j : ℕ) (s : Entry) (hs : At src i j s) (hf : f = some (.read s.key)) (hsh : s.shape = e.shape) (hsp : spec e.key = [s.key]) :
      Good src spec lost f e (.read i j)
  | transposed (i j : ℕ) (s : Entry) (a b : ℕ) (hs : At src i j s) (hf : f = some (.transposed s.key)) (hsp : spec e.key = [s.key]) (hsh : s.shape = [a, b]) (he : e.shape = [b, a]) :
      Good src spec lost f e (.transposed i j)
  | conv1x1 (i j : ℕ) (s : Entry) (hs : At src i j s) (hf : f = some (.conv1x1 s.key))
      (hsh : (if s.shape.length = 1 then s.shape else s.shape ++ [1, 1]) = e.shape) (hsp : spec e.key = [s.key]) : Good src spec lost f e (.conv1x1 i j)
  | stacked (i₁ j₁ i₂ j₂ i₃ j₃ : ℕ) (s₁ s₂ s₃ : Entry) (m₁ m₂ m₃ n : ℕ) (h₁ : At src i₁ j₁ s₁) (h₂ : At src i₂ j₂ s₂) (h₃ : At src i₃ j₃ s₃)
      (hf : f = some (.stacked [s₁.key, s₂.key, s₃.key])) (hsp : spec e.key = [s₁.key, s₂.key, s₃.key]) (hs₁ : s₁.shape = [m₁, n]) (hs₂ : s₂.shape = [m₂, n]) (hs₃ : s₃.shape = [m₃, n])
      (he : e.shape = [m₁ + (m₂ + (m₃ + 0)), n]) : Good src spec lost f e (.stacked i₁ j₁ i₂ j₂ i₃ j₃)
  | rows (i₁ j₁ i₂ j₂ i₃ j₃ : ℕ) (s₁ s₂ s₃ : Entry) (n : ℕ) (hb : bias e = true) (h₁ : At src i₁ j₁ s₁) (h₂ : At src i₂ j₂ s₂) (h₃ : At src i₃ j₃ s₃)
      (hf : f = some (.stacked [s₁.key, s₂.key, s₃.key])) (hsp : spec e.key = [s₁.key, s₂.key, s₃.key]) (hs₁ : s₁.shape = [n]) (hs₂ : s₂.shape = [n]) (hs₃ : s₃.shape = [n])
      (he : e.shape = [3 * n]) : Good src spec lost f e (.rows i₁ j₁ i₂ j₂ i₃ j₃)

theorem checkConv_sound (src : List (List Entry)) (spec : Text → List Text) (lost : Entry → Bool) (e : Entry) (c : Cert) (f : Option Conv)
    (h : checkConv src spec lost e c f = true) : Good src spec lost f e c := by
  cases c with
  | lost => exact .lost h
  | read i j =>
    dsimp only [checkConv] at h
    split at h
    · obtain ⟨s, hs, h⟩ := entry_sound _ _ _ _ h
      simp only [Bool.and_eq_true, eq_iff, one_iff] at h
      exact .read i j s hs (by rw [h.1.1]) h.1.2 h.2
    · cases h
  | transposed i j =>
    dsimp only [checkConv] at h
    split at h
    · obtain ⟨s, hs, h⟩ := entry_sound _ _ _ _ h
      rw [Bool.and_eq_true, Bool.and_eq_true, eq_iff, one_iff] at h
      obtain ⟨⟨h1, hsp⟩, h2⟩ := h
      split at h2
      · rename_i hsh
        exact .transposed i j s _ _ hs (by rw [h1]) hsp hsh ((eq_iff _ _).1 h2).symm
      · cases h2
    · cases h
  | conv1x1 i j =>
    dsimp only [checkConv] at h
    split at h
    · obtain ⟨s, hs, h⟩ := entry_sound _ _ _ _ h
      simp only [Bool.and_eq_true, eq_iff, one_iff] at h
      exact .conv1x1 i j s hs (by rw [h.1.1]) h.1.2 h.2
    · cases h
  | stacked i₁ j₁ i₂ j₂ i₃ j₃ =>
    dsimp only [checkConv] at h
    split at h
    · obtain ⟨s₁, h₁, h⟩ := entry_sound _ _ _ _ h
      obtain ⟨s₂, h₂, h⟩ := entry_sound _ _ _ _ h
      obtain ⟨s₃, h₃, h⟩ := entry_sound _ _ _ _ h
      simp only [Bool.and_eq_true, eq_iff, three_iff] at h
      obtain ⟨⟨⟨⟨hk₁, hk₂⟩, hk₃⟩, hsp⟩, h⟩ := h
      split at h
      · rename_i m₁ n₁ m₂ n₂ m₃ n₃ hs₁ hs₂ hs₃
        simp only [Bool.and_eq_true, eq_iff, Nat.beq_eq] at h
        obtain ⟨⟨rfl, rfl⟩, h⟩ := h
        exact .stacked _ _ _ _ _ _ s₁ s₂ s₃ m₁ m₂ m₃ n₁ h₁ h₂ h₃ (by rw [hk₁, hk₂, hk₃]) hsp hs₁ hs₂ hs₃ h.symm
      · cases h
    · cases h
  | rows i₁ j₁ i₂ j₂ i₃ j₃ =>
    dsimp only [checkConv] at h
    split at h
    · obtain ⟨s₁, h₁, h⟩ := entry_sound _ _ _ _ h
      obtain ⟨s₂, h₂, h⟩ := entry_sound _ _ _ _ h
      obtain ⟨s₃, h₃, h⟩ := entry_sound _ _ _ _ h
      simp only [Bool.and_eq_true, eq_iff, three_iff] at h
      obtain ⟨⟨⟨⟨⟨hk₁, hk₂⟩, hk₃⟩, hsp⟩, hl⟩, h⟩ := h
      split at h
      · rename_i n₁ n₂ n₃ hs₁ hs₂ hs₃
        simp only [Bool.and_eq_true, eq_iff, Nat.beq_eq] at h
        obtain ⟨⟨rfl, rfl⟩, h⟩ := h
        exact .rows _ _ _ _ _ _ s₁ s₂ s₃ n₁ hl h₁ h₂ h₃ (by rw [hk₁, hk₂, hk₃]) hsp hs₁ hs₂ hs₃ h.symm
      · cases h
    · cases h

/-- Checks the certificates of a chunk of the target. -/
def checkAll (src : List (List Entry)) (f : Text → Option Conv) (spec : Text → List Text) (lost : Entry → Bool) (es : List Entry) (cs : List Cert) : Bool :=
  List.rec (motive := fun _ => List Cert → Bool) (fun cs => cs.isEmpty)
    (fun e _ ih cs => List.rec (motive := fun _ => Bool) false
      (fun c cs _ => Bool.rec (motive := fun _ => Bool) false (ih cs) (checkConv src spec lost e c (f e.key))) cs) es cs

theorem checkAll_sound (src : List (List Entry)) (f : Text → Option Conv) (spec : Text → List Text) (lost : Entry → Bool) (es : List Entry) (cs : List Cert)
    (h : checkAll src f spec lost es cs = true) : List.Forall₂ (fun e c => Good src spec lost (f e.key) e c) es cs := by
  induction es generalizing cs with
  | nil =>
    cases cs with
    | nil => exact .nil
    | cons c cs => cases h
  | cons e es ih =>
    cases cs with
    | nil => cases h
    | cons c cs =>
      replace h : Bool.rec (motive := fun _ => Bool) false (checkAll src f spec lost es cs) (checkConv src spec lost e c (f e.key)) = true := h
      cases hc : checkConv src spec lost e c (f e.key) with
      | true => rw [hc] at h; exact .cons (checkConv_sound _ _ _ _ _ _ hc) (ih cs h)
      | false => rw [hc] at h; cases h

/-- Positions a certificate mentions -/
def positions : Cert → List (ℕ × ℕ)
  | .read i j => [(i, j)]
  | .transposed i j => [(i, j)]
  | .conv1x1 i j => [(i, j)]
  | .stacked i₁ j₁ i₂ j₂ i₃ j₃ => [(i₁, j₁), (i₂, j₂), (i₃, j₃)]
  | .rows i₁ j₁ i₂ j₂ i₃ j₃ => [(i₁, j₁), (i₂, j₂), (i₃, j₃)]
  | .lost => []

/-- The bits of the positions; chunks have at most 128 entries. -/
def bits (ps : List (ℕ × ℕ)) : ℕ := List.rec 0 (fun p _ ih => Nat.lor (Nat.shiftLeft 1 (Nat.add (Nat.mul 128 p.1) p.2)) ih) ps

def mask (cs : List Cert) : ℕ := List.rec 0 (fun c _ ih => Nat.lor (bits (positions c)) ih) cs

theorem bits_testBit (ps : List (ℕ × ℕ)) (b : ℕ) (h : (bits ps).testBit b = true) : ∃ p ∈ ps, b = 128 * p.1 + p.2 := by
  induction ps with
  | nil => simp [bits] at h
  | cons p ps ih =>
    replace h : (1 <<< (128 * p.1 + p.2) ||| bits ps).testBit b = true := h
    rw [Nat.testBit_or, Bool.or_eq_true] at h
    rcases h with h | h
    · rw [Nat.one_shiftLeft, Nat.testBit_two_pow] at h
      exact ⟨p, List.mem_cons_self, (of_decide_eq_true h).symm⟩
    · obtain ⟨q, hq, hb⟩ := ih h
      exact ⟨q, List.mem_cons_of_mem _ hq, hb⟩

theorem mask_testBit (cs : List Cert) (b : ℕ) (h : (mask cs).testBit b = true) : ∃ c ∈ cs, ∃ p ∈ positions c, b = 128 * p.1 + p.2 := by
  induction cs with
  | nil => simp [mask] at h
  | cons c cs ih =>
    replace h : (bits (positions c) ||| mask cs).testBit b = true := h
    rw [Nat.testBit_or, Bool.or_eq_true] at h
    rcases h with h | h
    · obtain ⟨p, hp, hb⟩ := bits_testBit _ _ h
      exact ⟨c, List.mem_cons_self, p, hp, hb⟩
    · obtain ⟨c', hc, h⟩ := ih h
      exact ⟨c', List.mem_cons_of_mem _ hc, h⟩

/-- Every entry of the chunk starting at bit `b` is in the mask or excepted. -/
def coveredChunk (lost : Entry → Bool) (m : ℕ) (c : List Entry) (b : ℕ) : Bool :=
  List.rec (motive := fun _ => ℕ → Bool) (fun _ => true)
    (fun e _ ih b => Bool.rec (motive := fun _ => Bool)
      (Bool.rec (motive := fun _ => Bool) false (ih (b + 1)) (lost e)) (ih (b + 1)) (Nat.beq (Nat.land 1 (Nat.shiftRight m b)) 1)) c b

def covered (lost : Entry → Bool) (m : ℕ) (src : List (List Entry)) (i : ℕ) : Bool :=
  List.rec (motive := fun _ => ℕ → Bool) (fun _ => true)
    (fun c _ ih i => Nat.ble c.length 128 && coveredChunk lost m c (128 * i) && ih (i + 1)) src i

theorem coveredChunk_sound (lost : Entry → Bool) (m : ℕ) (c : List Entry) (b : ℕ) (h : coveredChunk lost m c b = true) (j : ℕ) (s : Entry) (hs : c[j]? = some s) :
    lost s = true ∨ m.testBit (b + j) = true := by
  induction c generalizing b j with
  | nil => simp at hs
  | cons e c ih =>
    replace h : Bool.rec (motive := fun _ => Bool) (Bool.rec (motive := fun _ => Bool) false (coveredChunk lost m c (b + 1)) (lost e))
      (coveredChunk lost m c (b + 1)) (Nat.beq (Nat.land 1 (Nat.shiftRight m b)) 1) = true := h
    have hb : Nat.beq (Nat.land 1 (Nat.shiftRight m b)) 1 = m.testBit b := by
      unfold Nat.testBit
      rw [Bool.eq_iff_iff, Nat.beq_eq, bne_iff_ne]
      show (1 &&& m >>> b) = 1 ↔ (1 &&& m >>> b) ≠ 0
      rw [Nat.one_and_eq_mod_two]
      omega
    have hrest : coveredChunk lost m c (b + 1) = true := by
      revert h
      cases Nat.beq (Nat.land 1 (Nat.shiftRight m b)) 1 <;> cases lost e <;> intro h <;> first | exact h | cases h
    cases j with
    | zero =>
      obtain rfl : e = s := by simpa using hs
      rw [Nat.add_zero, ← hb]
      revert h
      cases Nat.beq (Nat.land 1 (Nat.shiftRight m b)) 1 with
      | true => intro _; exact .inr rfl
      | false =>
        cases hl : lost e with
        | true => intro _; exact .inl rfl
        | false => intro h; cases h
    | succ j =>
      have := ih (b + 1) hrest j (by simpa using hs)
      rw [show b + (j + 1) = b + 1 + j by omega]
      exact this

theorem covered_sound (lost : Entry → Bool) (m : ℕ) (src : List (List Entry)) (i₀ : ℕ) (h : covered lost m src i₀ = true) (i j : ℕ) (s : Entry)
    (hs : At src i j s) : lost s = true ∨ j < 128 ∧ m.testBit (128 * (i₀ + i) + j) = true := by
  induction src generalizing i₀ i with
  | nil => obtain ⟨c, hc, _⟩ := hs; simp at hc
  | cons c src ih =>
    replace h : (Nat.ble c.length 128 && coveredChunk lost m c (128 * i₀) && covered lost m src (i₀ + 1)) = true := h
    rw [Bool.and_eq_true, Bool.and_eq_true] at h
    obtain ⟨⟨hl, h1⟩, h2⟩ := h
    obtain ⟨c', hc, hj⟩ := hs
    cases i with
    | zero =>
      obtain rfl : c = c' := by simpa using hc
      have hlt : j < c.length := by
        by_contra hn
        rw [List.getElem?_eq_none (by omega)] at hj
        cases hj
      have := Nat.le_of_ble_eq_true hl
      rcases coveredChunk_sound lost m c _ h1 j s hj with h | h
      · exact .inl h
      · exact .inr ⟨by omega, h⟩
    | succ i =>
      have := ih (i₀ + 1) h2 i ⟨c', by simpa using hc, hj⟩
      rw [show i₀ + (i + 1) = i₀ + 1 + i by omega]
      exact this

/-! ## Conclusions -/

theorem Good.gives {src : List (List Entry)} {spec : Text → List Text} {lost : Entry → Bool} {f : Option Conv} {e : Entry} {c : Cert}
    (h : Good src spec lost f e c) :
    lost e = true ∨ ∃ v, f = some v ∧ Spec.reads v = spec e.key ∧ (Gives src.flatten v e.shape ∨ bias e = true ∧ ∃ n, e.shape = [3 * n] ∧ Gives src.flatten v [3, n]) := by
  cases h with
  | lost h => exact .inl h
  | read i j s hs hf hsh hsp => exact .inr ⟨_, hf, hsp.symm, .inl (hsh ▸ .read s hs.mem)⟩
  | transposed i j s a b hs hf hsp hsh he => exact .inr ⟨_, hf, hsp.symm, .inl (he ▸ .transposed s a b hs.mem hsh)⟩
  | conv1x1 i j s hs hf hsh hsp =>
    refine .inr ⟨_, hf, hsp.symm, .inl ?_⟩
    rw [← hsh]
    by_cases h1 : s.shape.length = 1
    · rw [if_pos h1]
      obtain ⟨n, hn⟩ := List.length_eq_one_iff.1 h1
      rw [hn]
      exact .kept s n hs.mem hn
    · rw [if_neg h1]
      exact .conv1x1 s hs.mem h1
  | stacked i₁ j₁ i₂ j₂ i₃ j₃ s₁ s₂ s₃ m₁ m₂ m₃ n h₁ h₂ h₃ hf hsp hs₁ hs₂ hs₃ he =>
    refine .inr ⟨_, hf, hsp.symm, .inl ?_⟩
    rw [he]
    refine .matrices [s₁, s₂, s₃] [m₁, m₂, m₃] n ?_ (List.cons_ne_nil _ _) ?_
    · intro s hs
      simp only [List.mem_cons, List.not_mem_nil, or_false] at hs
      rcases hs with rfl | rfl | rfl
      · exact h₁.mem
      · exact h₂.mem
      · exact h₃.mem
    · simp [hs₁, hs₂, hs₃]
  | rows i₁ j₁ i₂ j₂ i₃ j₃ s₁ s₂ s₃ n hb h₁ h₂ h₃ hf hsp hs₁ hs₂ hs₃ he =>
    refine .inr ⟨_, hf, hsp.symm, .inr ⟨hb, n, he, ?_⟩⟩
    refine .vectors [s₁, s₂, s₃] n ?_ (List.cons_ne_nil _ _) ?_
    · intro s hs
      simp only [List.mem_cons, List.not_mem_nil, or_false] at hs
      rcases hs with rfl | rfl | rfl
      · exact h₁.mem
      · exact h₂.mem
      · exact h₃.mem
    · intro s hs
      simp only [List.mem_cons, List.not_mem_nil, or_false] at hs
      rcases hs with rfl | rfl | rfl
      · exact hs₁
      · exact hs₂
      · exact hs₃

theorem Good.reads {src : List (List Entry)} {spec : Text → List Text} {lost : Entry → Bool} {f : Option Conv} {e : Entry} {c : Cert}
    (h : Good src spec lost f e c) {i j : ℕ} (hp : (i, j) ∈ positions c) {s : Entry} (hs : At src i j s) : ∃ v, f = some v ∧ s.key ∈ Spec.reads v := by
  have same : ∀ {i j : ℕ} {s s' : Entry}, At src i j s → At src i j s' → s = s' := by
    rintro i j s s' ⟨c, hc, hs⟩ ⟨c', hc', hs'⟩
    rw [hc] at hc'
    cases hc'
    rw [hs] at hs'
    exact Option.some.inj hs'
  cases h with
  | lost h => cases hp
  | read i' j' s' hs' hf =>
    simp only [positions, List.mem_cons, List.not_mem_nil, or_false, Prod.mk.injEq] at hp
    obtain ⟨rfl, rfl⟩ := hp
    rw [same hs hs']
    exact ⟨_, hf, List.mem_cons_self⟩
  | transposed i' j' s' a b hs' hf =>
    simp only [positions, List.mem_cons, List.not_mem_nil, or_false, Prod.mk.injEq] at hp
    obtain ⟨rfl, rfl⟩ := hp
    rw [same hs hs']
    exact ⟨_, hf, List.mem_cons_self⟩
  | conv1x1 i' j' s' hs' hf =>
    simp only [positions, List.mem_cons, List.not_mem_nil, or_false, Prod.mk.injEq] at hp
    obtain ⟨rfl, rfl⟩ := hp
    rw [same hs hs']
    exact ⟨_, hf, List.mem_cons_self⟩
  | stacked i₁ j₁ i₂ j₂ i₃ j₃ s₁ s₂ s₃ m₁ m₂ m₃ n h₁ h₂ h₃ hf =>
    simp only [positions, List.mem_cons, List.not_mem_nil, or_false, Prod.mk.injEq] at hp
    refine ⟨_, hf, ?_⟩
    rcases hp with ⟨rfl, rfl⟩ | ⟨rfl, rfl⟩ | ⟨rfl, rfl⟩
    · rw [same hs h₁]; simp [Spec.reads]
    · rw [same hs h₂]; simp [Spec.reads]
    · rw [same hs h₃]; simp [Spec.reads]
  | rows i₁ j₁ i₂ j₂ i₃ j₃ s₁ s₂ s₃ n hl h₁ h₂ h₃ hf =>
    simp only [positions, List.mem_cons, List.not_mem_nil, or_false, Prod.mk.injEq] at hp
    refine ⟨_, hf, ?_⟩
    rcases hp with ⟨rfl, rfl⟩ | ⟨rfl, rfl⟩ | ⟨rfl, rfl⟩
    · rw [same hs h₁]; simp [Spec.reads]
    · rw [same hs h₂]; simp [Spec.reads]
    · rw [same hs h₃]; simp [Spec.reads]

/-- The certificates of a whole target: chunk by chunk -/
def AllGood (src : List (List Entry)) (f : Text → Option Conv) (spec : Text → List Text) (lost : Entry → Bool) (tgt : List (List Entry)) (cs : List (List Cert)) :
    Prop := List.Forall₂ (fun es cs => checkAll src f spec lost es cs = true) tgt cs

theorem AllGood.entry {src : List (List Entry)} {f : Text → Option Conv} {spec : Text → List Text} {lost : Entry → Bool} {tgt : List (List Entry)}
    {cs : List (List Cert)} (h : AllGood src f spec lost tgt cs) {e : Entry} (he : e ∈ tgt.flatten) : ∃ c, Good src spec lost (f e.key) e c := by
  induction h with
  | nil => simp at he
  | cons h1 _ ih =>
    rw [List.flatten_cons, List.mem_append] at he
    rcases he with he | he
    · have h2 := checkAll_sound _ _ _ _ _ _ h1
      clear h1 ih
      induction h2 with
      | nil => cases he
      | cons hg _ ih2 =>
        rcases List.mem_cons.1 he with rfl | he
        · exact ⟨_, hg⟩
        · exact ih2 he
    · exact ih he

theorem AllGood.cert {src : List (List Entry)} {f : Text → Option Conv} {spec : Text → List Text} {lost : Entry → Bool} {tgt : List (List Entry)}
    {cs : List (List Cert)} (h : AllGood src f spec lost tgt cs) {c : Cert} (hc : c ∈ cs.flatten) : ∃ e ∈ tgt.flatten, Good src spec lost (f e.key) e c := by
  induction h with
  | nil => simp at hc
  | cons h1 _ ih =>
    rw [List.flatten_cons, List.mem_append] at hc
    rcases hc with hc | hc
    · have h2 := checkAll_sound _ _ _ _ _ _ h1
      clear h1 ih
      have : ∀ {l l'}, List.Forall₂ (fun e c => Good src spec lost (f e.key) e c) l l' → c ∈ l' → ∃ e ∈ l, Good src spec lost (f e.key) e c := by
        intro l l' h hc
        induction h with
        | nil => cases hc
        | cons hg _ ih2 =>
          rcases List.mem_cons.1 hc with rfl | hc
          · exact ⟨_, List.mem_cons_self, hg⟩
          · obtain ⟨e, he, hg⟩ := ih2 hc
            exact ⟨e, List.mem_cons_of_mem _ he, hg⟩
      obtain ⟨e, he, hg⟩ := this h2 hc
      exact ⟨e, by rw [List.flatten_cons]; exact List.mem_append_left _ he, hg⟩
    · obtain ⟨e, he, hg⟩ := ih hc
      exact ⟨e, by rw [List.flatten_cons]; exact List.mem_append_right _ he, hg⟩

theorem masks_testBit (cs : List (List Cert)) (b : ℕ) (h : ((cs.map mask).foldr Nat.lor 0).testBit b = true) :
    ∃ c ∈ cs.flatten, ∃ p ∈ positions c, b = 128 * p.1 + p.2 := by
  induction cs with
  | nil => simp at h
  | cons c cs ih =>
    rw [List.map_cons, List.foldr_cons] at h
    replace h : (mask c ||| (cs.map mask).foldr Nat.lor 0).testBit b = true := h
    rw [Nat.testBit_or, Bool.or_eq_true] at h
    rcases h with h | h
    · obtain ⟨x, hx, h⟩ := mask_testBit _ _ h
      exact ⟨x, by rw [List.flatten_cons]; exact List.mem_append_left _ hx, h⟩
    · obtain ⟨x, hx, h⟩ := ih h
      exact ⟨x, by rw [List.flatten_cons]; exact List.mem_append_right _ hx, h⟩

/-- Every entry of the source that is not excepted is read for some key of the target.  Positions in certificates are below 128. -/
theorem AllGood.used {src : List (List Entry)} {f : Text → Option Conv} {spec : Text → List Text} {lost lost' : Entry → Bool} {tgt : List (List Entry)}
    {cs : List (List Cert)} (h : AllGood src f spec lost tgt cs) {m : ℕ} (hm : (cs.map mask).foldr Nat.lor 0 = m) (hc : covered lost' m src 0 = true)
    (hp : ∀ c ∈ cs.flatten, ∀ p ∈ positions c, p.2 < 128) {s : Entry} (hs : s ∈ src.flatten) (hl : ¬ lost' s = true) :
    ∃ e ∈ tgt.flatten, ∃ v, f e.key = some v ∧ s.key ∈ Spec.reads v := by
  obtain ⟨c, hcs, hsc⟩ := List.mem_flatten.1 hs
  obtain ⟨i, hi⟩ := List.getElem?_of_mem hcs
  obtain ⟨j, hj⟩ := List.getElem?_of_mem hsc
  rcases covered_sound lost' m src 0 hc i j s ⟨c, hi, hj⟩ with h1 | ⟨hj128, hb⟩
  · exact absurd h1 hl
  · rw [← hm] at hb
    obtain ⟨x, hx, ⟨i', j'⟩, hp', he⟩ := masks_testBit cs _ hb
    have := hp x hx _ hp'
    dsimp only at this he
    obtain ⟨rfl, rfl⟩ : i = i' ∧ j = j' := by omega
    obtain ⟨e, hee, hg⟩ := h.cert hx
    exact ⟨e, hee, hg.reads hp' ⟨c, hi, hj⟩⟩

/-! ## Nothing is read twice -/

/-- `a < b` in the order of code points -/
def lt (a b : Text) : Bool :=
  List.rec (motive := fun _ => Text → Bool) (fun b => !b.isEmpty)
    (fun x _ ih b => List.rec (motive := fun _ => Bool) false
      (fun y ys _ => Bool.rec (motive := fun _ => Bool) (Bool.rec (motive := fun _ => Bool) false true (Nat.ble (x + 1) y)) (ih ys) (Nat.beq x y)) b) a b

theorem lt_sound (a b : Text) (h : lt a b = true) : a < b := by
  induction a generalizing b with
  | nil =>
    cases b with
    | nil => cases h
    | cons y b => exact List.nil_lt_cons _ _
  | cons x a ih =>
    cases b with
    | nil => cases h
    | cons y b =>
      replace h : Bool.rec (motive := fun _ => Bool) (Bool.rec (motive := fun _ => Bool) false true (Nat.ble (x + 1) y)) (lt a b) (Nat.beq x y) = true := h
      rw [List.cons_lt_cons_iff]
      cases hb : Nat.beq x y with
      | true => rw [hb] at h; exact .inr ⟨Nat.eq_of_beq_eq_true hb, ih b h⟩
      | false =>
        rw [hb] at h
        cases hl : Nat.ble (x + 1) y with
        | true => exact .inl (Nat.le_of_ble_eq_true hl)
        | false => rw [hl] at h; cases h

/-- The keys increase from above `p` to `q`. -/
def increasing (q : Text) (l : List Entry) (p : Text) : Bool :=
  List.rec (motive := fun _ => Text → Bool) (fun p => eq p q)
    (fun e _ ih p => Bool.rec (motive := fun _ => Bool) false (ih e.key) (lt p e.key)) l p

theorem increasing_sound (q : Text) (l : List Entry) (p : Text) (h : increasing q l p = true) :
    (p :: l.map (·.key)).Pairwise (· < ·) ∧ ∀ k ∈ p :: l.map (·.key), k ≤ q := by
  induction l generalizing p with
  | nil =>
    obtain rfl := (eq_iff p q).1 h
    exact ⟨List.pairwise_singleton _ _, by simp⟩
  | cons e l ih =>
    replace h : Bool.rec (motive := fun _ => Bool) false (increasing q l e.key) (lt p e.key) = true := h
    cases hb : lt p e.key with
    | false => rw [hb] at h; cases h
    | true =>
      rw [hb] at h
      have := ih e.key h
      rw [List.map_cons, List.pairwise_cons]
      have hlt := lt_sound _ _ hb
      refine ⟨⟨?_, this.1⟩, ?_⟩
      · intro k hk
        rcases List.mem_cons.1 hk with rfl | hk
        · exact hlt
        · exact lt_trans hlt ((List.pairwise_cons.1 this.1).1 k hk)
      · intro k hk
        rcases List.mem_cons.1 hk with rfl | hk
        · exact le_trans hlt.le (this.2 _ List.mem_cons_self)
        · exact this.2 k hk

/-- Chunk by chunk -/
inductive Increasing : List (List Entry) → Text → Prop
  | nil (p : Text) : Increasing [] p
  | cons {c : List Entry} {cs : List (List Entry)} {p q : Text} (h : increasing q c p = true) (hs : Increasing cs q) : Increasing (c :: cs) p

theorem Increasing.sound {cs : List (List Entry)} {p : Text} (h : Increasing cs p) : (p :: cs.flatten.map (·.key)).Pairwise (· < ·) := by
  induction h with
  | nil p => exact List.pairwise_singleton _ _
  | @cons c cs p q h _ ih =>
    obtain ⟨h1, h2⟩ := increasing_sound q c p h
    rw [List.pairwise_cons] at ih
    rw [List.flatten_cons, List.map_append, ← List.cons_append, List.pairwise_append]
    exact ⟨h1, ih.2, fun a ha b hb => lt_of_le_of_lt (h2 a ha) (ih.1 b hb)⟩

theorem Increasing.nodup {cs : List (List Entry)} {p : Text} (h : Increasing cs p) : (cs.flatten.map (·.key)).Nodup :=
  (List.pairwise_cons.1 h.sound).2.imp fun {_ _} hab => ne_of_lt hab

/-- Adds positions to a mask they are not in yet. -/
def add (ps : List (ℕ × ℕ)) (m : ℕ) (k : ℕ → Bool) : Bool :=
  List.rec (motive := fun _ => ℕ → Bool) (fun m => k m)
    (fun p _ ih m => Bool.rec (motive := fun _ => Bool) (ih (Nat.lor m (Nat.shiftLeft 1 (Nat.add (Nat.mul 128 p.1) p.2)))) false
      (Nat.beq (Nat.land 1 (Nat.shiftRight m (Nat.add (Nat.mul 128 p.1) p.2))) 1)) ps m

/-- Adds the positions of the certificates to a mask. -/
def fresh (cs : List Cert) (m m' : ℕ) : Bool :=
  List.rec (motive := fun _ => ℕ → Bool) (fun m => Nat.beq m m') (fun c _ ih m => add (positions c) m ih) cs m

/-- The number of the bit of a position -/
def bit (p : ℕ × ℕ) : ℕ := 128 * p.1 + p.2

theorem testBit_iff (m b : ℕ) : Nat.beq (Nat.land 1 (Nat.shiftRight m b)) 1 = m.testBit b := by
  unfold Nat.testBit
  rw [Bool.eq_iff_iff, Nat.beq_eq, bne_iff_ne]
  show (1 &&& m >>> b) = 1 ↔ (1 &&& m >>> b) ≠ 0
  rw [Nat.one_and_eq_mod_two]
  omega

theorem add_sound (ps : List (ℕ × ℕ)) (m : ℕ) (k : ℕ → Bool) (h : add ps m k = true) :
    ∃ m', k m' = true ∧ (∀ b, m'.testBit b = true ↔ m.testBit b = true ∨ b ∈ ps.map bit) ∧ (ps.map bit).Nodup ∧ ∀ b ∈ ps.map bit, ¬ m.testBit b = true := by
  induction ps generalizing m with
  | nil => exact ⟨m, h, by simp, List.nodup_nil, by simp⟩
  | cons p ps ih =>
    replace h : Bool.rec (motive := fun _ => Bool) (add ps (m ||| 1 <<< bit p) k) false (Nat.beq (Nat.land 1 (Nat.shiftRight m (bit p))) 1) = true := h
    rw [testBit_iff] at h
    cases hb : m.testBit (bit p) with
    | true => rw [hb] at h; cases h
    | false =>
      rw [hb] at h
      obtain ⟨m', hk, hm, hn, hf⟩ := ih _ h
      have hor : ∀ b, (m ||| 1 <<< bit p).testBit b = true ↔ m.testBit b = true ∨ b = bit p := by
        intro b
        rw [Nat.testBit_or, Bool.or_eq_true, Nat.one_shiftLeft, Nat.testBit_two_pow, decide_eq_true_iff]
        constructor
        · rintro (h | h)
          · exact .inl h
          · exact .inr h.symm
        · rintro (h | h)
          · exact .inl h
          · exact .inr h.symm
      refine ⟨m', hk, ?_, ?_, ?_⟩
      · intro b
        rw [hm, hor, List.map_cons, List.mem_cons, or_assoc]
      · rw [List.map_cons, List.nodup_cons]
        exact ⟨fun hp => hf _ hp ((hor _).2 (.inr rfl)), hn⟩
      · intro b hp
        rcases List.mem_cons.1 hp with rfl | hp
        · rw [hb]; exact Bool.false_ne_true
        · exact fun h => hf b hp ((hor b).2 (.inl h))

/-- The bits of certificates -/
def allBits (cs : List Cert) : List ℕ := cs.flatMap fun c => (positions c).map bit

theorem fresh_sound (cs : List Cert) (m m' : ℕ) (h : fresh cs m m' = true) :
    (∀ b, m'.testBit b = true ↔ m.testBit b = true ∨ b ∈ allBits cs) ∧ (allBits cs).Nodup ∧ ∀ b ∈ allBits cs, ¬ m.testBit b = true := by
  induction cs generalizing m with
  | nil =>
    have : m = m' := Nat.eq_of_beq_eq_true h
    subst this
    exact ⟨by simp [allBits], List.nodup_nil, by simp [allBits]⟩
  | cons c cs ih =>
    obtain ⟨m₁, h, h1, h2, h3⟩ := add_sound (positions c) m (fun m => fresh cs m m') h
    obtain ⟨h4, h5, h6⟩ := ih _ h
    rw [show allBits (c :: cs) = (positions c).map bit ++ allBits cs from List.flatMap_cons]
    refine ⟨?_, ?_, ?_⟩
    · intro b
      rw [h4, h1, List.mem_append, or_assoc]
    · rw [List.nodup_append]
      exact ⟨h2, h5, fun a ha b hb he => h6 b hb ((h1 b).2 (.inr (he ▸ ha)))⟩
    · intro b hb
      rcases List.mem_append.1 hb with hb | hb
      · exact h3 b hb
      · exact fun h => h6 b hb ((h1 b).2 (.inl h))

/-- Chunk by chunk, from one mask to the next -/
inductive Fresh : List (List Cert) → ℕ → ℕ → Prop
  | nil (m : ℕ) : Fresh [] m m
  | cons {c : List Cert} {cs : List (List Cert)} {m m₁ m' : ℕ} (h : fresh c m m₁ = true) (hs : Fresh cs m₁ m') : Fresh (c :: cs) m m'

theorem Fresh.sound {cs : List (List Cert)} {m m' : ℕ} (h : Fresh cs m m') :
    (∀ b, m'.testBit b = true ↔ m.testBit b = true ∨ b ∈ allBits cs.flatten) ∧ (allBits cs.flatten).Nodup ∧ ∀ b ∈ allBits cs.flatten, ¬ m.testBit b = true := by
  induction h with
  | nil m => exact ⟨by simp [allBits], List.nodup_nil, by simp [allBits]⟩
  | @cons c cs m m₁ m' h _ ih =>
    obtain ⟨h1, h2, h3⟩ := fresh_sound _ _ _ h
    obtain ⟨h4, h5, h6⟩ := ih
    rw [show allBits (c :: cs).flatten = allBits c ++ allBits cs.flatten by simp [allBits]]
    refine ⟨?_, ?_, ?_⟩
    · intro b
      rw [h4, h1, List.mem_append, or_assoc]
    · rw [List.nodup_append]
      exact ⟨h2, h5, fun a ha b hb he => h6 b hb ((h1 b).2 (.inr (he ▸ ha)))⟩
    · intro b hb
      rcases List.mem_append.1 hb with hb | hb
      · exact h3 b hb
      · exact fun h => h6 b hb ((h1 b).2 (.inl h))

theorem Fresh.used {src : List (List Entry)} {f : Text → Option Conv} {spec : Text → List Text} {lost lost' : Entry → Bool} {tgt : List (List Entry)}
    {cs : List (List Cert)} {m : ℕ} (hm : Fresh cs 0 m) (h : AllGood src f spec lost tgt cs) (hc : covered lost' m src 0 = true)
    (hp : ∀ c ∈ cs.flatten, ∀ p ∈ positions c, p.2 < 128) {s : Entry} (hs : s ∈ src.flatten) (hl : ¬ lost' s = true) :
    ∃ e ∈ tgt.flatten, ∃ v, f e.key = some v ∧ s.key ∈ Spec.reads v := by
  obtain ⟨c, hcs, hsc⟩ := List.mem_flatten.1 hs
  obtain ⟨i, hi⟩ := List.getElem?_of_mem hcs
  obtain ⟨j, hj⟩ := List.getElem?_of_mem hsc
  rcases covered_sound lost' m src 0 hc i j s ⟨c, hi, hj⟩ with h1 | ⟨hj128, hb⟩
  · exact absurd h1 hl
  · rw [hm.sound.1, Nat.zero_testBit] at hb
    rcases hb with hb | hb
    · cases hb
    obtain ⟨x, hx, hb⟩ := List.mem_flatMap.1 hb
    obtain ⟨⟨i', j'⟩, hp', he⟩ := List.mem_map.1 hb
    have := hp x hx _ hp'
    dsimp only [bit] at this he
    obtain ⟨rfl, rfl⟩ : i = i' ∧ j = j' := by omega
    obtain ⟨e, hee, hg⟩ := h.cert hx
    exact ⟨e, hee, hg.reads hp' ⟨c, hi, hj⟩⟩

/-- What a conversion reads is at the positions of the certificate. -/
theorem Good.position {src : List (List Entry)} {spec : Text → List Text} {lost : Entry → Bool} {f : Option Conv} {e : Entry} {c : Cert}
    (h : Good src spec lost f e c) (hl : ¬ lost e = true) {v : Conv} (hf : f = some v) {k : Text} (hk : k ∈ Spec.reads v) :
    ∃ p ∈ positions c, ∃ s, At src p.1 p.2 s ∧ s.key = k := by
  cases h with
  | lost h => exact absurd h hl
  | read i j s hs hf' =>
    rw [hf'] at hf; cases hf
    obtain rfl := List.mem_singleton.1 hk
    exact ⟨(i, j), List.mem_cons_self, s, hs, rfl⟩
  | transposed i j s a b hs hf' =>
    rw [hf'] at hf; cases hf
    obtain rfl := List.mem_singleton.1 hk
    exact ⟨(i, j), List.mem_cons_self, s, hs, rfl⟩
  | conv1x1 i j s hs hf' =>
    rw [hf'] at hf; cases hf
    obtain rfl := List.mem_singleton.1 hk
    exact ⟨(i, j), List.mem_cons_self, s, hs, rfl⟩
  | stacked i₁ j₁ i₂ j₂ i₃ j₃ s₁ s₂ s₃ m₁ m₂ m₃ n h₁ h₂ h₃ hf' =>
    rw [hf'] at hf; cases hf
    simp only [Spec.reads, List.mem_cons, List.not_mem_nil, or_false] at hk
    rcases hk with rfl | rfl | rfl
    · exact ⟨(i₁, j₁), by simp [positions], s₁, h₁, rfl⟩
    · exact ⟨(i₂, j₂), by simp [positions], s₂, h₂, rfl⟩
    · exact ⟨(i₃, j₃), by simp [positions], s₃, h₃, rfl⟩
  | rows i₁ j₁ i₂ j₂ i₃ j₃ s₁ s₂ s₃ n hb h₁ h₂ h₃ hf' =>
    rw [hf'] at hf; cases hf
    simp only [Spec.reads, List.mem_cons, List.not_mem_nil, or_false] at hk
    rcases hk with rfl | rfl | rfl
    · exact ⟨(i₁, j₁), by simp [positions], s₁, h₁, rfl⟩
    · exact ⟨(i₂, j₂), by simp [positions], s₂, h₂, rfl⟩
    · exact ⟨(i₃, j₃), by simp [positions], s₃, h₃, rfl⟩

theorem AllGood.forall₂ {src : List (List Entry)} {f : Text → Option Conv} {spec : Text → List Text} {lost : Entry → Bool} {tgt : List (List Entry)}
    {cs : List (List Cert)} (h : AllGood src f spec lost tgt cs) : List.Forall₂ (fun e c => Good src spec lost (f e.key) e c) tgt.flatten cs.flatten := by
  induction h with
  | nil => exact .nil
  | cons h1 _ ih => exact List.rel_append (R := fun e c => Good src spec lost (f e.key) e c) (checkAll_sound _ _ _ _ _ _ h1) ih

/-- An entry is at one position only. -/
theorem position_unique (src : List (List Entry)) (hn : (src.flatten.map (·.key)).Nodup) {i j i' j' : ℕ} {s s' : Entry} (h : At src i j s) (h' : At src i' j' s')
    (he : s.key = s'.key) : i = i' ∧ j = j' := by
  obtain ⟨c, hi, hj⟩ := h
  obtain ⟨c', hi', hj'⟩ := h'
  rw [List.map_flatten, List.nodup_flatten] at hn
  obtain ⟨hn, hd⟩ := hn
  have hci := List.mem_of_getElem? hi
  have hj2 : (c.map (·.key))[j]? = some s.key := by rw [List.getElem?_map, hj]; rfl
  have hj2' : (c'.map (·.key))[j']? = some s'.key := by rw [List.getElem?_map, hj']; rfl
  by_cases hii : i = i'
  · subst hii
    rw [hi] at hi'
    cases hi'
    refine ⟨rfl, ?_⟩
    have hnc := hn _ (List.mem_map_of_mem hci)
    have hlt : j < (c.map (·.key)).length := by
      by_contra h
      rw [List.getElem?_eq_none (by omega)] at hj2
      cases hj2
    exact (List.getElem?_inj hlt hnc).1 (by rw [hj2, hj2', he])
  · exfalso
    rw [List.pairwise_map] at hd
    have key : ∀ {a b : ℕ} {x y : List Entry}, src[a]? = some x → src[b]? = some y → a < b → List.Disjoint (x.map (·.key)) (y.map (·.key)) := by
      intro a b x y ha hb hab
      obtain ⟨hla, rfl⟩ := List.getElem?_eq_some_iff.1 ha
      obtain ⟨hlb, rfl⟩ := List.getElem?_eq_some_iff.1 hb
      exact List.pairwise_iff_getElem.1 hd a b hla hlb hab
    have hm : s.key ∈ c.map (·.key) := List.mem_of_getElem? hj2
    have hm' : s'.key ∈ c'.map (·.key) := List.mem_of_getElem? hj2'
    rcases Nat.lt_or_gt_of_ne hii with hlt | hlt
    · exact key hi hi' hlt hm (he ▸ hm')
    · exact key hi' hi hlt hm' (he ▸ hm)

/-- No tensor of the source is read for two keys of the target. -/
theorem Fresh.disjoint {src : List (List Entry)} {f : Text → Option Conv} {spec : Text → List Text} {lost : Entry → Bool} {tgt : List (List Entry)}
    {cs : List (List Cert)} {m : ℕ} (hm : Fresh cs 0 m) (h : AllGood src f spec lost tgt cs) (hn : (src.flatten.map (·.key)).Nodup)
    {e₁ e₂ : Entry} (h₁ : e₁ ∈ tgt.flatten) (h₂ : e₂ ∈ tgt.flatten) (hl₁ : ¬ lost e₁ = true) (hl₂ : ¬ lost e₂ = true) (hne : e₁.key ≠ e₂.key)
    {v₁ v₂ : Conv} (hf₁ : f e₁.key = some v₁) (hf₂ : f e₂.key = some v₂) : List.Disjoint (Spec.reads v₁) (Spec.reads v₂) := by
  intro k hk₁ hk₂
  have hb := hm.sound.2.1
  have hall := h.forall₂
  obtain ⟨a, ha⟩ := List.getElem?_of_mem h₁
  obtain ⟨b, hb'⟩ := List.getElem?_of_mem h₂
  have hab : a ≠ b := by
    rintro rfl
    rw [ha] at hb'
    cases hb'
    exact hne rfl
  obtain ⟨hla, rfl⟩ := List.getElem?_eq_some_iff.1 ha
  obtain ⟨hlb, rfl⟩ := List.getElem?_eq_some_iff.1 hb'
  have hlen := hall.length_eq
  have hg₁ := List.Forall₂.get hall hla (hlen ▸ hla)
  have hg₂ := List.Forall₂.get hall hlb (hlen ▸ hlb)
  obtain ⟨p, hp, s, hs, hsk⟩ := hg₁.position hl₁ hf₁ hk₁
  obtain ⟨q, hq, t, ht, htk⟩ := hg₂.position hl₂ hf₂ hk₂
  obtain ⟨hpq1, hpq2⟩ := position_unique src hn hs ht (hsk.trans htk.symm)
  have hpq : bit p = bit q := by unfold bit; rw [hpq1, hpq2]
  unfold allBits at hb
  rw [List.nodup_flatMap] at hb
  have hd := hb.2
  rcases Nat.lt_or_gt_of_ne hab with hlt | hlt
  · exact List.pairwise_iff_getElem.1 hd a b (hlen ▸ hla) (hlen ▸ hlb) hlt (List.mem_map_of_mem hp) (hpq ▸ List.mem_map_of_mem hq)
  · exact List.pairwise_iff_getElem.1 hd b a (hlen ▸ hlb) (hlen ▸ hla) hlt (List.mem_map_of_mem hq) (hpq ▸ List.mem_map_of_mem hp)

end

end Verif.Fast
