import Verif.Proofs.ConvertFacts
import Verif.Model.Shipped
import Verif.Props.Lycoris
import Mathlib.Data.Nat.Bitwise
import Mathlib.Data.List.Nodup

/-!
# Checking that the names in a table are pairwise different

Every name is mapped to a number, and the numbers seen so far are collected as the bits of a number.
-/
namespace Verif.Fast
open Text Data

noncomputable section

/-- Evaluates a number before passing it on. -/
def strict {β : Type} (n : ℕ) (k : ℕ → β) : β := Nat.rec (motive := fun _ => β) (k 0) (fun m _ => k (Nat.succ m)) n

theorem strict_eq {β : Type} (n : ℕ) (k : ℕ → β) : strict n k = k n := by cases n <;> rfl

/-- Continues with `k` if none of the numbers is a bit of `acc` or occurs twice. -/
def seen (l : List ℕ) (k : ℕ → Bool) : ℕ → Bool :=
  List.rec (motive := fun _ => ℕ → Bool) k
    (fun x _ ih acc => strict x fun x =>
      Bool.rec (motive := fun _ => Bool) false (strict (Nat.lor acc (Nat.shiftLeft 1 x)) ih) (Nat.beq (Nat.land 1 (Nat.shiftRight acc x)) 0)) l

theorem seen_cons (x : ℕ) (l : List ℕ) (k : ℕ → Bool) (acc : ℕ) :
    seen (x :: l) k acc = if acc.testBit x then false else seen l k (acc ||| 1 <<< x) := by
  show strict x (fun x => Bool.rec (motive := fun _ => Bool) false (strict (Nat.lor acc (Nat.shiftLeft 1 x)) (seen l k)) (Nat.beq (Nat.land 1 (Nat.shiftRight acc x)) 0)) = _
  rw [strict_eq, strict_eq]
  have h : Nat.beq (Nat.land 1 (Nat.shiftRight acc x)) 0 = !acc.testBit x := by
    show Nat.beq (1 &&& acc >>> x) 0 = !((1 &&& acc >>> x) != 0)
    cases h : Nat.beq (1 &&& acc >>> x) 0 with
    | true => simp [Nat.eq_of_beq_eq_true h]
    | false => rw [bne_iff_ne.2 (Nat.ne_of_beq_eq_false h)]; rfl
  rw [h]
  cases acc.testBit x <;> rfl

theorem seen_append (a b : List ℕ) (k : ℕ → Bool) : seen (a ++ b) k = seen a (seen b k) := by
  induction a with
  | nil => rfl
  | cons x a ih => funext acc; rw [List.cons_append, seen_cons, seen_cons, ih]

theorem seen_sound (l : List ℕ) (k : ℕ → Bool) (acc : ℕ) (h : seen l k acc = true) : l.Nodup ∧ ∀ x ∈ l, acc.testBit x = false := by
  induction l generalizing acc with
  | nil => simp
  | cons x l ih =>
    rw [seen_cons] at h
    cases hx : acc.testBit x with
    | true => rw [hx] at h; cases h
    | false =>
      rw [hx, if_neg Bool.false_ne_true] at h
      obtain ⟨h1, h2⟩ := ih _ h
      have h3 : ∀ y ∈ l, acc.testBit y = false ∧ y ≠ x := by
        intro y hy
        have := h2 y hy
        rw [Nat.testBit_or, Bool.or_eq_false_iff] at this
        refine ⟨this.1, ?_⟩
        rintro rfl
        simp [Nat.testBit_shiftLeft] at this
      refine ⟨List.nodup_cons.2 ⟨fun hm => (h3 x hm).2 rfl, h1⟩, ?_⟩
      intro y hy
      rcases List.mem_cons.1 hy with rfl | hy
      · exact hx
      · exact (h3 y hy).1

/-- `seen` for the numbers of the entries of a chunk -/
def seenChunk (f : Entry → List ℕ) (c : List Entry) (k : ℕ → Bool) : ℕ → Bool :=
  List.rec (motive := fun _ => ℕ → Bool) k (fun e _ ih => seen (f e) ih) c

theorem seenChunk_eq (f : Entry → List ℕ) (c : List Entry) (k : ℕ → Bool) : seenChunk f c k = seen (c.flatMap f) k := by
  induction c with
  | nil => rfl
  | cons e c ih => rw [List.flatMap_cons, seen_append, ← ih]; rfl

/-- `seen` for the numbers of the entries of all chunks -/
def seenChunks (f : Entry → List ℕ) (src : List (List Entry)) (k : ℕ → Bool) : ℕ → Bool :=
  List.rec (motive := fun _ => ℕ → Bool) k (fun c _ ih => seenChunk f c ih) src

theorem seenChunks_eq (f : Entry → List ℕ) (src : List (List Entry)) (k : ℕ → Bool) : seenChunks f src k = seen (src.flatten.flatMap f) k := by
  induction src with
  | nil => rfl
  | cons c src ih => rw [List.flatten_cons, List.flatMap_append, seen_append, ← ih, ← seenChunk_eq]; rfl

def seenAll (f : Entry → List ℕ) (src : List (List Entry)) : Bool := seenChunks f src (fun _ => true) 0

theorem seenAll_sound (f : Entry → List ℕ) (src : List (List Entry)) (h : seenAll f src = true) : (src.flatten.flatMap f).Nodup := by
  unfold seenAll at h
  rw [seenChunks_eq] at h
  exact (seen_sound _ _ _ h).1

/-! ## Names -/

/-- The number of a name -/
def code (t : Text) : ℕ → ℕ := List.rec (motive := fun _ => ℕ → ℕ) (fun n => n) (fun c _ ih n => ih (Nat.add (Nat.mul 128 n) c)) t

theorem code_append (a b : Text) (n : ℕ) : code (a ++ b) n = code b (code a n) := by
  induction a generalizing n with
  | nil => rfl
  | cons c a ih => exact ih _

/-- The numbers of the names of an entry -/
def nameCodes (M : ℕ) (e : Entry) : List ℕ := Nat.mod (code e.key 0) M :: List.rec [] (fun a _ ih => Nat.mod (code a 0) M :: ih) e.aliases

/-- All names of a table: keys and aliases -/
def names (es : List Entry) : List Text := es.flatMap fun e => e.key :: e.aliases

theorem names_nodup {src : List (List Entry)} (M : ℕ) (h : seenAll (nameCodes M) src = true) : (names src.flatten).Nodup := by
  refine List.Nodup.of_map (f := fun t => code t 0 % M) ?_
  have h1 : (names src.flatten).map (fun t => code t 0 % M) = src.flatten.flatMap (nameCodes M) := by
    rw [names, List.map_flatMap]
    congr 1
    funext e
    rw [List.map_cons]
    show _ :: _ = _ :: _
    congr 1
    induction e.aliases with
    | nil => rfl
    | cons a l ih => rw [List.map_cons, ih]; rfl
  rw [h1]
  exact seenAll_sound _ _ h

/-! ## Modules -/

def under (c : ℕ) : ℕ := Bool.rec (motive := fun _ => ℕ) c 95 (Nat.beq c 46)

theorem under_eq (c : ℕ) : under c = if c = 46 then 95 else c := by
  unfold under
  cases h : Nat.beq c 46 with
  | true => rw [if_pos (Nat.eq_of_beq_eq_true h)]
  | false => rw [if_neg (Nat.ne_of_beq_eq_false h)]

/-- The number of a name with underscores for dots -/
def codeUnder (t : Text) : ℕ → ℕ := List.rec (motive := fun _ => ℕ → ℕ) (fun n => n) (fun c _ ih n => ih (Nat.add (Nat.mul 128 n) (under c))) t

theorem codeUnder_eq (t : Text) (n : ℕ) : codeUnder t n = code (t.map fun c => if c = 46 then 95 else c) n := by
  induction t generalizing n with
  | nil => rfl
  | cons c t ih =>
    show codeUnder t (Nat.add (Nat.mul 128 n) (under c)) = code _ (Nat.add (Nat.mul 128 n) _)
    rw [ih, under_eq]

/-- The last part of a module's name -/
def stem (key : Text) : Text :=
  (if key = key% "weight" then [] else if key% ".weight" <:+ key then key.take (key.length - 7) else key).map fun c => if c = 46 then 95 else c

/-- The number of the module of an entry -/
def moduleCodes (M : ℕ) (e : Entry) : List ℕ :=
  Bool.rec (motive := fun _ => List ℕ) []
    (Bool.rec (motive := fun _ => List ℕ)
      [Bool.rec (motive := fun _ => ℕ)
        (Bool.rec (motive := fun _ => ℕ) (Nat.mod (codeUnder e.key 0) M) (Nat.mod (Nat.div (codeUnder e.key 0) (128 ^ 7)) M) (ends (key% ".weight").reverse e.key))
        (Nat.mod 0 M) (eq e.key (key% "weight"))]
      [] (ends (key% "bias").reverse e.key))
    (Shipped.floating e.dtype)

/-- The modules of the entries that have one -/
def stems (es : List Entry) : List Text :=
  es.filterMap fun e => if endsWith (key% "bias") e.key || !Shipped.floating e.dtype then none else some (stem e.key)

theorem moduleCodes_eq (M : ℕ) (e : Entry) : moduleCodes M e =
    match (if endsWith (key% "bias") e.key || !Shipped.floating e.dtype then none else some (stem e.key) : Option Text) with
    | none => []
    | some s => [code s 0 % M] := by
  unfold moduleCodes
  rw [ends_eq, ends_eq]
  cases hf : Shipped.floating e.dtype with
  | false => simp
  | true =>
    cases hb : endsWith (key% "bias") e.key with
    | true => simp
    | false =>
      simp only [Bool.false_or, Bool.not_true, Bool.false_eq_true, if_false]
      congr 1
      have h1 := eq_iff e.key (key% "weight")
      have h2 := endsWith_iff (key% ".weight") e.key
      unfold stem
      cases hw : eq e.key (key% "weight") with
      | true => rw [hw] at h1; rw [if_pos (h1.1 rfl)]; rfl
      | false =>
        rw [hw] at h1
        rw [if_neg fun h => absurd (h1.2 h) Bool.false_ne_true]
        cases he : endsWith (key% ".weight") e.key with
        | false =>
          rw [he] at h2
          rw [if_neg fun h => absurd (h2.2 h) Bool.false_ne_true]
          show codeUnder e.key 0 % M = _
          rw [codeUnder_eq]
        | true =>
          rw [he] at h2
          have hs := h2.1 rfl
          rw [if_pos hs]
          show codeUnder e.key 0 / 128 ^ 7 % M = _
          obtain ⟨t, ht⟩ := hs
          have hl : e.key.length - 7 = t.length := by rw [← ht]; simp
          rw [hl, ← ht, List.take_left', codeUnder_eq, List.map_append, code_append]
          · congr 1
            generalize code (t.map _) 0 = n
            show _ / _ = n
            simp only [code, List.map]
            norm_num
            omega
          · rfl

theorem stems_nodup {src : List (List Entry)} (M : ℕ) (h : seenAll (moduleCodes M) src = true) : (stems src.flatten).Nodup := by
  refine List.Nodup.of_map (f := fun t => code t 0 % M) ?_
  have h1 : (stems src.flatten).map (fun t => code t 0 % M) = src.flatten.flatMap (moduleCodes M) := by
    rw [stems]
    generalize src.flatten = es
    induction es with
    | nil => rfl
    | cons e es ih =>
      rw [List.flatMap_cons, ← ih, moduleCodes_eq, List.filterMap_cons]
      split <;> rename_i h <;> rw [h] <;> rfl
  rw [h1]
  exact seenAll_sound _ _ h

end
end Verif.Fast
