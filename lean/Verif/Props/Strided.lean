import Verif.Proofs.Safetensors
import Verif.Spec.Strided
import Verif.Spec.StreamOut
import Mathlib.Data.List.Basic
import Mathlib.Tactic.Linarith
import Mathlib.Tactic.Ring

/-!
# C10: bytes written for a tensor
-/
namespace Verif.Strided
open Spec

theorem range_mul (n m : ℕ) :
    ((List.range n).flatMap fun i => (List.range m).map fun j => i * m + j) = List.range (n * m) := by
  induction n with
  | zero => simp
  | succ n ih =>
    rw [List.range_succ, List.flatMap_append, ih]
    have : (n + 1) * m = n * m + m := by ring
    rw [this, List.range_add]
    simp

theorem dot_indices (sh st : List ℕ) (h : Contiguous sh st) :
    (indices sh).map (fun i => dot i st) = List.range (numel sh) := by
  induction sh generalizing st with
  | nil =>
    cases st with
    | nil => rfl
    | cons => exact absurd h (by simp [Contiguous])
  | cons n sh ih =>
    cases st with
    | nil => exact absurd h (by simp [Contiguous])
    | cons s st =>
      obtain ⟨h1, h2⟩ := h
      have hrec := ih st h2
      have hn : numel (n :: sh) = n * numel sh := rfl
      rw [hn, ← range_mul]
      simp only [indices, List.map_flatMap, List.map_map]
      by_cases h' : n = 1
      · subst h'
        simp only [List.range_one, List.flatMap_singleton, Function.comp_def, dot, Nat.zero_mul, Nat.zero_add, hrec,
          List.map_id']
      · rw [h1 h']
        congr 1
        funext i
        rw [← hrec, List.map_map]
        rfl

theorem slices (mem : Bytes) (es N : ℕ) (h : N * es ≤ mem.length) :
    ((List.range N).flatMap fun j => slice mem (j * es) es) = mem.take (N * es) := by
  induction N with
  | zero => simp
  | succ N ih =>
    have e : (N + 1) * es = N * es + es := by ring
    rw [List.range_succ, List.flatMap_append, ih (by omega), e, List.take_add]
    simp [slice]

theorem size_pos (d : DType) : 0 < d.size := by cases d <;> decide

/-- **C10 (the part that holds).** For a contiguous tensor that starts at its storage's first byte and owns
exactly the bytes it needs, the bytes written are its elements in row-major order; so the tensor stored
satisfies the size condition of C05.
Missing: every other tensor (see the two theorems below). -/
theorem C10_contiguous_partial (t : View) (hc : Contiguous t.shape t.strides) (ho : t.offset = 0)
    (hs : t.storageLen = numel t.shape * Safetensors.width t.dtype) (hb : Backed t) :
    tensorToBytes t = rowMajor t ∧ StreamOut.Spec.Tensor.WF (toOut t) := by
  rw [← Safetensors.size_eq] at hs
  have hlen : numel t.shape * t.dtype.size ≤ t.mem.length := by rw [← hs]; exact hb
  have h1 : rowMajor t = t.mem.take (numel t.shape * t.dtype.size) := by
    rw [← slices _ _ _ hlen, ← dot_indices _ _ hc]
    simp only [rowMajor, List.flatMap_map]
    congr 1
    funext i
    simp only [elem, ho, Nat.zero_add, Safetensors.size_eq]
  have h2 : tensorToBytes t = rowMajor t := by
    rw [h1]
    unfold tensorToBytes
    split
    · rename_i h; simp [h]
    · simp [slice, ho, hs]
  refine ⟨h2, ?_⟩
  show (tensorToBytes t).length = numel t.shape * Safetensors.width t.dtype
  rw [h2, h1, ← Safetensors.size_eq]; simp; omega

/-- A 2×3 tensor of 16-bit elements. -/
def exView : View := ⟨.i16, [2, 3], [3, 1], 0, [0, 1, 2, 3, 4, 5, 6, 7, 8, 9, 10, 11, 99], 12⟩

example : tensorToBytes exView = rowMajor exView ∧ StreamOut.Spec.Tensor.WF (toOut exView) :=
  C10_contiguous_partial exView (by decide) rfl rfl (by unfold Backed; decide)

/-- **C10 is false of the code for transposed tensors**: same storage, offset 0, all elements used, and yet the
bytes written are not the elements in row-major order. -/
theorem C10_transposed_false :
    ∃ t : View, Backed t ∧ t.offset = 0 ∧ t.storageLen = numel t.shape * Safetensors.width t.dtype ∧
      tensorToBytes t ≠ rowMajor t :=
  ⟨{ exView with shape := [3, 2], strides := [1, 3] }, by unfold Backed; decide, rfl, rfl, by decide⟩

/-- **C10 for views of larger (or smaller) storages**: whenever the storage does not have exactly the size of
the tensor (slices, expanded tensors), the number of bytes written is wrong, so the written entry contradicts
its own shape. -/
theorem C10_view_wrong_size (t : View) (hn : numel t.shape ≠ 0) (hs : t.storageLen ≠ numel t.shape * Safetensors.width t.dtype)
    (hb : t.offset * t.dtype.size + t.storageLen ≤ t.mem.length) :
    ¬ StreamOut.Spec.Tensor.WF (toOut t) := by
  rw [← Safetensors.size_eq] at hs
  intro h
  change (tensorToBytes t).length = _ at h
  unfold tensorToBytes at h
  rw [if_neg hn] at h
  simp only [slice, List.length_take, List.length_drop, toOut, ← Safetensors.size_eq] at h
  omega

example : ¬ StreamOut.Spec.Tensor.WF (toOut { exView with shape := [1, 3] }) :=
  C10_view_wrong_size _ (by decide) (by decide) (by decide)

/-- **C10 for tensors that do not start their storage**: bytes *behind* the storage are written to the file:
there is a memory that agrees on the whole storage, and the bytes written differ. -/
theorem C10_offset_leaks (t : View) (hn : numel t.shape ≠ 0) (ho : 0 < t.offset) (hp : 0 < t.storageLen)
    (hb : t.offset * t.dtype.size + t.storageLen ≤ t.mem.length) :
    ∃ mem', mem'.take t.storageLen = t.mem.take t.storageLen ∧ mem'.length = t.mem.length ∧
      tensorToBytes { t with mem := mem' } ≠ tensorToBytes t := by
  have hsz := size_pos t.dtype
  have hoff : 0 < t.offset * t.dtype.size := Nat.mul_pos ho hsz
  set p := t.offset * t.dtype.size + t.storageLen - 1 with hpdef
  have hplt : p < t.mem.length := by omega
  refine ⟨t.mem.set p (t.mem[p] + 1), ?_, by simp, ?_⟩
  · rw [List.take_set_of_le (by omega)]
  · intro h
    unfold tensorToBytes at h
    simp only [if_neg hn] at h
    have h2 := congrArg (fun l : Bytes => l[t.storageLen - 1]?) h
    simp only [slice] at h2
    rw [List.getElem?_take, List.getElem?_take, if_pos (by omega), if_pos (by omega), List.getElem?_drop,
      List.getElem?_drop, show t.offset * t.dtype.size + (t.storageLen - 1) = p by omega,
      List.getElem?_set_self hplt, List.getElem?_eq_getElem hplt] at h2
    simp at h2

example : ∃ mem', mem'.take 10 = exView.mem.take 10 ∧ mem'.length = exView.mem.length ∧
    tensorToBytes { exView with shape := [3], strides := [1], offset := 1, storageLen := 10, mem := mem' } ≠
    tensorToBytes { exView with shape := [3], strides := [1], offset := 1, storageLen := 10 } :=
  C10_offset_leaks { exView with shape := [3], strides := [1], offset := 1, storageLen := 10 } (by decide) (by decide)
    (by decide) (by decide)

end Verif.Strided
