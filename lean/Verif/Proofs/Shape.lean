import Verif.Spec.Shape
import Mathlib.Data.List.Basic
import Mathlib.Data.List.Forall2
import Mathlib.Algebra.BigOperators.Group.List.Basic
import Mathlib.Tactic.Ring
import Mathlib.Tactic.Linarith

/-!
# Lemmas on shapes
-/
namespace Verif.Shape
open Spec Power

theorem broadcastRev_nil_right (s : Sh) : broadcastRev s [] = some s := by cases s <;> rfl

theorem rev_iff : ∀ (a b u : Sh), broadcastRev a b = some u ↔
    u.length = max a.length b.length ∧ ∀ i, (a.getD i 1 = b.getD i 1 ∨ a.getD i 1 = 1 ∨ b.getD i 1 = 1) ∧
      u.getD i 1 = if a.getD i 1 = 1 then b.getD i 1 else a.getD i 1
  | [], b, u => by
    constructor
    · intro h
      cases h
      simp
    · rintro ⟨hl, h⟩
      have : u = b := List.ext_getElem (by simpa using hl) fun i h1 h2 => by
        have := (h i).2
        simpa [List.getD_eq_getElem?_getD, h1, h2] using this
      rw [this]; rfl
  | x :: a, [], u => by
    rw [broadcastRev_nil_right]
    constructor
    · intro h
      cases h
      refine ⟨by simp, fun i => ⟨by simp, ?_⟩⟩
      simp
    · rintro ⟨hl, h⟩
      have : u = x :: a := List.ext_getElem (by simpa using hl) fun i h1 h2 => by
        have h3 := (h i).2
        simp only [List.getD_eq_getElem?_getD, h1, h2, List.getElem?_eq_getElem, Option.getD_some, List.getElem?_nil, Option.getD_none] at h3
        split_ifs at h3 with hc <;> omega
      rw [this]
  | x :: a, y :: b, u => by
    have ih := rev_iff a b
    unfold broadcastRev
    constructor
    · intro h
      split_ifs at h with h1 h2
      · obtain ⟨w, hw, rfl⟩ := Option.map_eq_some_iff.1 h
        obtain ⟨hl, hi⟩ := (ih w).1 hw
        refine ⟨by simp [hl], fun i => ?_⟩
        cases i with
        | zero =>
          change (x = y ∨ x = 1 ∨ y = 1) ∧ x = if x = 1 then y else x
          split_ifs with hx <;> omega
        | succ i => simpa using hi i
      · obtain ⟨w, hw, rfl⟩ := Option.map_eq_some_iff.1 h
        obtain ⟨hl, hi⟩ := (ih w).1 hw
        refine ⟨by simp [hl], fun i => ?_⟩
        cases i with
        | zero => simp [h2]
        | succ i => simpa using hi i
    · rintro ⟨hl, h⟩
      cases u with
      | nil => simp at hl
      | cons z u =>
        have h0 := h 0
        simp at h0
        have hr := (ih u).2 ⟨by simpa using hl, fun i => by simpa using h (i + 1)⟩
        rw [hr]
        split_ifs with h1 h2
        · simp; split_ifs at h0 <;> omega
        · simp; split_ifs at h0; omega
        · omega

/-- What `broadcast` is, in terms of sizes -/
theorem op_iff (a b u : Sh) : op a b = some u ↔ Joint a b u := by
  unfold op broadcast Joint side
  rw [Option.map_eq_some_iff]
  constructor
  · rintro ⟨w, hw, rfl⟩
    have := (rev_iff _ _ _).1 hw
    simpa using this
  · intro h
    refine ⟨u.reverse, (rev_iff _ _ _).2 ?_, by simp⟩
    simpa using h

theorem fits_iff (x s : Sh) : Fits x s ↔ op x s = some s := by
  rw [op_iff]
  unfold Fits Joint
  constructor
  · rintro ⟨hl, h⟩
    refine ⟨by omega, fun i => ?_⟩
    have := h i
    split_ifs <;> omega
  · rintro ⟨hl, h⟩
    refine ⟨by omega, fun i => ?_⟩
    have := h i
    split_ifs at this <;> omega

theorem op_comm (a b : Sh) : op a b = op b a := by
  apply Option.ext
  intro u
  rw [op_iff, op_iff]
  unfold Joint
  constructor <;> rintro ⟨hl, h⟩ <;> refine ⟨by omega, fun i => ?_⟩ <;> have := h i <;> split_ifs at * <;> omega

theorem op_self (s : Sh) : op s s = some s := by
  rw [op_iff]
  exact ⟨by simp, fun i => ⟨.inl rfl, by simp⟩⟩

theorem nil_op (s : Sh) : op [] s = some s := by
  rw [op_iff]
  exact ⟨by simp, fun i => ⟨.inr (.inl (by simp [side])), by simp [side]⟩⟩

theorem op_nil (s : Sh) : op s [] = some s := by rw [op_comm, nil_op]

theorem Spec.Fits.self (s : Sh) : Fits s s := (fits_iff s s).2 (op_self s)

theorem Spec.Fits.nil (s : Sh) : Fits [] s := (fits_iff [] s).2 (nil_op s)

theorem Spec.Fits.left {x s : Sh} (h : Fits x s) : op x s = some s := (fits_iff x s).1 h

theorem Spec.Fits.right {x s : Sh} (h : Fits x s) : op s x = some s := by rw [op_comm]; exact h.left

/-- Sizes that agree pairwise can be joined. -/
theorem joint_exists (a b : Sh) (h : ∀ i, side a i = side b i ∨ side a i = 1 ∨ side b i = 1) : ∃ u, Joint a b u := by
  let f : ℕ → ℕ := fun i => if side a i = 1 then side b i else side a i
  refine ⟨((List.range (max a.length b.length)).map f).reverse, by simp, fun i => ⟨h i, ?_⟩⟩
  change (((List.range (max a.length b.length)).map f).reverse.reverse).getD i 1 = f i
  rw [List.reverse_reverse, List.getD_eq_getElem?_getD]
  by_cases hi : i < max a.length b.length
  · simp [hi]
  · have h1 : side a i = 1 := by
      unfold side
      rw [List.getD_eq_getElem?_getD, List.getElem?_eq_none (by rw [List.length_reverse]; omega)]; rfl
    have h2 : side b i = 1 := by
      unfold side
      rw [List.getD_eq_getElem?_getD, List.getElem?_eq_none (by rw [List.length_reverse]; omega)]; rfl
    simp [hi, f, h1, h2]

/-- What fits into a shape can be combined, and the result fits. -/
theorem Spec.Fits.op {x y s : Sh} (hx : Fits x s) (hy : Fits y s) : ∃ u, op x y = some u ∧ Fits u s := by
  obtain ⟨u, hu⟩ := joint_exists x y fun i => by
    have h1 := hx.2 i
    have h2 := hy.2 i
    omega
  refine ⟨u, (op_iff _ _ _).2 hu, ?_, fun i => ?_⟩
  · have := hx.1; have := hy.1; have := hu.1; omega
  · have h1 := hx.2 i
    have h2 := hy.2 i
    have h3 := (hu.2 i).2
    split_ifs at h3 <;> omega

theorem fits_tail (s : Sh) : Fits s.tail s := by
  cases s with
  | nil => exact Fits.self []
  | cons n s =>
    refine ⟨by simp, fun i => ?_⟩
    unfold side
    simp only [List.tail_cons, List.reverse_cons, List.getD_eq_getElem?_getD]
    by_cases hi : i < s.length
    · left
      rw [List.getElem?_append_left (by simpa using hi)]
    · right
      rw [List.getElem?_eq_none (by simpa using hi)]; rfl

theorem fits_column (s : Sh) (h : s ≠ []) : Fits (s.dropLast ++ [1]) s := by
  obtain ⟨t, n, rfl⟩ : ∃ t n, s = t ++ [n] := ⟨s.dropLast, s.getLast h, (List.dropLast_append_getLast h).symm⟩
  refine ⟨by simp, fun i => ?_⟩
  unfold side
  cases i with
  | zero => right; simp
  | succ i => left; simp

theorem stack_replicate (n : ℕ) (s : Sh) : stack (List.replicate (n + 1) s) = some ((n + 1) :: s) := by
  rw [List.replicate_succ]
  simp [stack]

theorem fits_cons (n : ℕ) (s : Sh) : op (n :: s) s = some (n :: s) := by
  rw [op_comm]; exact (fits_tail (n :: s)).left

theorem mapM_replicate {α β : Type} (f : α → Option β) (a : α) (b : β) (h : f a = some b) : ∀ n, (List.replicate n a).mapM f = some (List.replicate n b)
  | 0 => rfl
  | n + 1 => by
    rw [List.replicate_succ, List.mapM_cons, h, mapM_replicate f a b h n]
    rfl

end Verif.Shape
