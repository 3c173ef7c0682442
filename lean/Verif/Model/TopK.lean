import Verif.Model.Region
import Mathlib.Data.List.Sort
import Mathlib.Data.Rat.Defs
import Mathlib.Algebra.Order.Ring.Rat
import Mathlib.Algebra.Order.AbsoluteValue.Basic

/-!
# Giving the values of one tensor in the order of another

`sd_mecha/extensions/builtin/merge_methods/__init__.py` lines 163-194.  Simplified: tensors are flat lists of exact rationals.
-/
namespace Verif.TopK

/-- `torch.msort(a)` -/
def msort (a : List ℚ) : List ℚ := a.insertionSort (· ≤ ·)

/-- `torch.argsort(b, stable=True)` -/
def argsort (b : List ℚ) : List ℕ := (List.range b.length).insertionSort fun i j => b.getD i 0 ≤ b.getD j 0

/-- `torch.argsort(p)` of a list of distinct indices -/
def argsortNat (p : List ℕ) : List ℕ := (List.range p.length).insertionSort fun i j => p.getD i 0 ≤ p.getD j 0

/-- `kth_abs_value(a, k)` (lines 189-193); `rnd` is the rounding to 32 bits of `a.float()`. -/
def kthAbs (rnd : ℚ → ℚ) (a : List ℚ) (k : Int) : ℚ := if k ≤ 0 then -1 else (msort (a.map fun x => |rnd x|)).getD (k.toNat - 1) 0

/-- `indices_mask` before it is permuted (lines 175-181), over the sorted values of `a` -/
def mask (rnd : ℚ → ℚ) (a : List ℚ) (width offset : ℚ) : List Bool :=
  (msort a).map fun x =>
    xor (Region.ratioToRegion width offset a.length).2.2
      (decide (kthAbs rnd (msort a) (Region.ratioToRegion width offset a.length).1 ≤ |x| ∧
        |x| ≤ kthAbs rnd (msort a) (Region.ratioToRegion width offset a.length).2.1))

/-- `top_k_tensor_sum(a, b, width, offset)` (lines 163-186) -/
def topKTensorSum (rnd : ℚ → ℚ) (a b : List ℚ) (width offset : ℚ) : List ℚ :=
  (List.range a.length).map fun i =>
    if (mask rnd a width offset).getD ((argsortNat (argsort b)).getD i 0) false then (msort a).getD ((argsortNat (argsort b)).getD i 0) 0 else a.getD i 0

end Verif.TopK
