import Verif.Proofs.Ieee
import Verif.Props.Whole

/-!
# Casts between dtypes (C103)

`entries t` are the bits of the entries of a tensor, `read d n` the number that bits `n` stand for in dtype `d`.
-/
namespace Verif.Ieee
open Float Spec
open StreamOut (Tensor)
open StreamOut.Spec (Tensor.WF)

theorem width_eq (d : DType) : Safetensors.width d = d.size := by cases d <;> rfl

theorem wf_iff {t : Tensor} : Tensor.WF t ↔ t.bytes.length = numel t.shape * t.dtype.size := by
  unfold Tensor.WF; rw [width_eq]

theorem fmt_ok {d : DType} {f : Fmt} (h : fmt d = some f) :
    2 ≤ f.ew ∧ 1 ≤ f.mw ∧ 2 * f.signBit = 256 ^ d.size ∧ ∀ n, read d n = decode f n := by
  cases d <;> simp only [fmt, Option.some.injEq, reduceCtorEq] at h <;> subst h <;> exact ⟨by decide, by decide, by decide, fun _ => rfl⟩

theorem rounded (f : Fmt) (hw : 2 ≤ f.ew) (hf : 1 ≤ f.mw) (v : FV) : Rounded f v (encode f v) := by
  cases v with
  | nan => exact decode_encode_nan (by omega) hf
  | inf s => exact decode_encode_inf s
  | fin s m e =>
    refine ⟨_, value_signed s m e, ?_⟩
    obtain ⟨h1, h2, h3⟩ := round_fin hw hf (value_signed s m e)
    refine ⟨h2, fun hlt => ⟨h1, ?_⟩⟩
    obtain ⟨r, hr, _, hn⟩ := h3 hlt
    exact ⟨r, hr, fun r' hr' => ⟨hn r' hr', fun hne ht => tie_even hw hf (value_signed s m e) hr hr' hne ht⟩⟩

theorem cast_ne {other : DType → Tensor → Tensor} {d : DType} {f : Fmt} {t : Tensor} (hd : fmt d = some f) (hne : t.dtype ≠ d) :
    cast other d t = ofEntries d t.shape ((entries t).map fun n => encode f (read t.dtype n)) := by
  unfold cast
  rw [if_neg hne, hd]

theorem entries_cast {other : DType → Tensor → Tensor} {d : DType} {f : Fmt} {t : Tensor} (hd : fmt d = some f) (hne : t.dtype ≠ d) :
    entries (cast other d t) = (entries t).map fun n => encode f (read t.dtype n) := by
  rw [cast_ne hd hne, entries_ofEntries]
  · rw [List.length_map, entries_length]
  · intro n hn
    obtain ⟨k, _, rfl⟩ := List.mem_map.1 hn
    obtain ⟨_, h2, h3, _⟩ := fmt_ok hd
    rw [← h3]
    exact encode_lt h2 _

theorem wf_ofEntries (d : DType) (shape l : List ℕ) (h : l.length = numel shape) : Tensor.WF (ofEntries d shape l) := by
  rw [wf_iff]
  show (l.flatMap (le d.size)).length = numel shape * d.size
  rw [← h]
  induction l generalizing shape with
  | nil => simp
  | cons x l ih =>
    have := ih [l.length] (by simp [numel])
    rw [List.flatMap_cons, List.length_append, le_length, List.length_cons, this]
    ring

/-- **C103.**  A cast to a floating point dtype keeps the shape and rounds each entry to the nearest number of the dtype, to the even one if two are
equally near; what is too large becomes an infinity. -/
theorem C103_round (other : DType → Tensor → Tensor) (d : DType) (f : Fmt) (hd : fmt d = some f) (t : Tensor) (hne : t.dtype ≠ d) :
    (cast other d t).dtype = d ∧ (cast other d t).shape = t.shape ∧ Tensor.WF (cast other d t) ∧
    List.Forall₂ (fun n m => Rounded f (read t.dtype n) m) (entries t) (entries (cast other d t)) := by
  obtain ⟨h1, h2, _, _⟩ := fmt_ok hd
  rw [entries_cast hd hne]
  rw [cast_ne hd hne]
  refine ⟨rfl, rfl, wf_ofEntries _ _ _ (by rw [List.length_map, entries_length]), ?_⟩
  rw [List.forall₂_map_right_iff, List.forall₂_same]
  exact fun n _ => rounded f h1 h2 _

/-- For the examples: 1/3, 65519, -65520, a tie (1 + 2^-11) and -0 -/
def Ex.single : Tensor := ofEntries .f32 [5] [0x3EAAAAAB, 0x477FEF00, 0xC77FF000, 0x3F801000, 0x80000000]

/-- The nearest of 1/3 is 0x3555; 65519 is still a number, -65520 is not; the tie goes to 1. -/
example (other : DType → Tensor → Tensor) : entries (cast other .f16 Ex.single) = [0x3555, 0x7BFF, 0xFC00, 0x3C00, 0x8000] ∧
    List.Forall₂ (fun n m => Rounded half (read .f32 n) m) (entries Ex.single) (entries (cast other .f16 Ex.single)) := by
  refine ⟨?_, (C103_round other .f16 half rfl Ex.single (by decide)).2.2.2⟩
  rw [entries_cast (f := half) rfl (by decide)]
  decide +kernel

/-- **C103.**  What float16 - the default for outputs - cannot hold, and the other dtypes. -/
theorem C103_limits : limit half = 65520 ∧ limit e5m2 = 61440 ∧ limit brain = 2 ^ 128 - 2 ^ 119 ∧ limit single = 2 ^ 128 - 2 ^ 103 ∧
    limit double = 2 ^ 1024 - 2 ^ 970 := by
  unfold limit
  refine ⟨?_, ?_, ?_, ?_, ?_⟩
  · have : half.emax = 16 := by decide
    have hp : half.p = 11 := by decide
    rw [this, hp]; norm_num
  · have : e5m2.emax = 16 := by decide
    have hp : e5m2.p = 3 := by decide
    rw [this, hp]; norm_num
  · have : brain.emax = (128 : ℕ) := by decide
    have hp : brain.emax - brain.p - 1 = (119 : ℕ) := by decide
    rw [hp, this, zpow_natCast, zpow_natCast]
  · have : single.emax = (128 : ℕ) := by decide
    have hp : single.emax - single.p - 1 = (103 : ℕ) := by decide
    rw [hp, this, zpow_natCast, zpow_natCast]
  · have : double.emax = (1024 : ℕ) := by decide
    have hp : double.emax - double.p - 1 = (970 : ℕ) := by decide
    rw [hp, this, zpow_natCast, zpow_natCast]

theorem same_through {f g : Fmt} (h : Wider f g) (hf : 1 ≤ f.ew) (hg : 2 ≤ g.ew) (hg' : 1 ≤ g.mw) (n : ℕ) :
    Same (decode f n) (decode g (encode g (decode f n))) := by
  cases hv : decode f n with
  | nan => rw [decode_encode_nan (by omega) hg']; trivial
  | inf s => rw [decode_encode_inf]; rfl
  | fin s m e =>
    have hq := decode_has hf (n := n) (q := _) (by rw [hv, value_signed])
    obtain ⟨h1, h2⟩ := round_has hg hg' (value_signed s m e) (h.has hq)
    generalize decode g (encode g (FV.fin s m e)) = w at h1 h2
    cases w with
    | nan => cases h1
    | inf t => cases h1
    | fin t k i => exact ⟨h2.symm, by rw [h1, value_signed]⟩

/-- **C103.**  A cast to a wider dtype keeps every number. -/
theorem C103_widen (other : DType → Tensor → Tensor) (d : DType) (f g : Fmt) (t : Tensor) (ht : fmt t.dtype = some f) (hd : fmt d = some g)
    (h : Wider f g) (hne : t.dtype ≠ d) :
    List.Forall₂ (fun n m => Same (read t.dtype n) (read d m)) (entries t) (entries (cast other d t)) := by
  obtain ⟨h1, h2, _, h4⟩ := fmt_ok hd
  obtain ⟨g1, _, _, g4⟩ := fmt_ok ht
  rw [entries_cast hd hne, List.forall₂_map_right_iff, List.forall₂_same]
  intro n _
  rw [g4, h4]
  exact same_through h (by omega) h1 h2 n

/-- A float16 is kept by a cast to float64, not by one to bfloat16. -/
example (other : DType → Tensor → Tensor) :
    List.Forall₂ (fun n m => Same (read .f16 n) (read .f64 m)) [0x3555, 0x0001, 0xFC00] (entries (cast other .f64 (ofEntries .f16 [3] [0x3555, 0x0001, 0xFC00]))) ∧
    read .bf16 (encode brain (read .f16 0x3555)) = .fin false 171 (-9) ∧ read .f16 0x3555 = .fin false 1365 (-12) := by
  refine ⟨?_, by decide +kernel, by decide +kernel⟩
  have := C103_widen other .f64 half double (ofEntries .f16 [3] [0x3555, 0x0001, 0xFC00]) rfl rfl ⟨by decide, by decide, by decide⟩ (by decide)
  rwa [show entries (ofEntries .f16 [3] [0x3555, 0x0001, 0xFC00]) = [0x3555, 0x0001, 0xFC00] from by decide +kernel] at this

/-- Entries that are numbers or infinities -/
def NoNan (t : Tensor) : Prop := ∀ n ∈ entries t, read t.dtype n ≠ .nan

instance (t : Tensor) : Decidable (NoNan t) := inferInstanceAs (Decidable (∀ n ∈ entries t, _))

/-- **C103.**  Casting to a wider dtype and back gives the same bytes, unless there are NaNs. -/
theorem C103_back (other : DType → Tensor → Tensor) (d : DType) (f g : Fmt) (t : Tensor) (ht : fmt t.dtype = some f) (hd : fmt d = some g)
    (h : Wider f g) (hwf : Tensor.WF t) (hnan : NoNan t) : cast other t.dtype (cast other d t) = t := by
  by_cases hne : t.dtype = d
  · unfold cast
    rw [if_pos hne, if_pos rfl]
  · obtain ⟨h1, h2, _, h4⟩ := fmt_ok hd
    obtain ⟨g1, _, g3, g4⟩ := fmt_ok ht
    have hdt : (cast other d t).dtype = d := by rw [cast_ne hd hne]; rfl
    have hs : (cast other d t).shape = t.shape := by rw [cast_ne hd hne]; rfl
    rw [cast_ne ht (by rw [hdt]; exact Ne.symm hne), hs, hdt, entries_cast hd hne, List.map_map]
    have : (entries t).map ((fun n => encode f (read d n)) ∘ fun n => encode g (read t.dtype n)) = entries t := by
      conv_rhs => rw [← List.map_id (entries t)]
      apply List.map_congr_left
      intro n hn
      have hlt := entries_lt t (wf_iff.1 hwf) n hn
      have hn' := hnan n hn
      rw [g4] at hn'
      show encode f (read d (encode g (read t.dtype n))) = n
      rw [g4, h4]
      exact through h (by omega) h1 h2 (by rw [g3]; exact hlt) hn'
    rw [this]
    exact ofEntries_entries t (wf_iff.1 hwf)

example (other : DType → Tensor → Tensor) :
    cast other .f16 (cast other .f64 (ofEntries .f16 [3] [0x3555, 0x0001, 0xFC00])) = ofEntries .f16 [3] [0x3555, 0x0001, 0xFC00] :=
  C103_back other .f64 half double (ofEntries .f16 [3] [0x3555, 0x0001, 0xFC00]) rfl rfl ⟨by decide, by decide, by decide⟩ (wf_ofEntries _ _ _ rfl)
    (by decide +kernel)

/-- **C103.**  The dtypes that are wider: float64 than all, float32 than all but float64, float16 and bfloat16 than float8_e5m2 only. -/
theorem C103_wider (d d' : DType) (f g : Fmt) (h : fmt d = some f) (h' : fmt d' = some g) :
    Wider f g ↔ d = d' ∨ d' = .f64 ∨ (d' = .f32 ∧ d ≠ .f64) ∨ (d = .f8e5m2 ∧ (d' = .f16 ∨ d' = .bf16)) := by
  have e : Wider f g ↔ f.p ≤ g.p ∧ g.emin ≤ f.emin ∧ f.emax ≤ g.emax := ⟨fun h => ⟨h.1, h.2, h.3⟩, fun h => ⟨h.1, h.2.1, h.2.2⟩⟩
  rw [e]
  cases d <;> simp only [fmt, Option.some.injEq, reduceCtorEq] at h <;> subst h <;>
    cases d' <;> simp only [fmt, Option.some.injEq, reduceCtorEq] at h' <;> subst h' <;> decide

example : ¬ Wider half brain ∧ ¬ Wider brain half ∧ Wider e5m2 half :=
  ⟨fun h => absurd ((C103_wider .f16 .bf16 _ _ rfl rfl).1 h) (by decide), fun h => absurd ((C103_wider .bf16 .f16 _ _ rfl rfl).1 h) (by decide),
    (C103_wider .f8e5m2 .f16 _ _ rfl rfl).2 (by decide)⟩

/-- A cast that names no dtype, or the one the tensor has, keeps it. -/
theorem C103_same (other : DType → Tensor → Tensor) (device : Option Method.Str) (hd : device = none ∨ device = some "cpu".toList) (t : Tensor) :
    move other device none t = .ok t ∧ ∀ s, dtypeOf s = some t.dtype → move other device (some s) t = .ok t := by
  unfold move
  simp only [if_pos hd]
  refine ⟨trivial, fun s hs => ?_⟩
  simp only [hs]
  unfold cast
  rw [if_pos rfl]

example (other : DType → Tensor → Tensor) : move other none (some "bfloat16".toList) (ofEntries .bf16 [1] [0]) = .ok (ofEntries .bf16 [1] [0]) :=
  (C103_same other none (.inl rfl) _).2 _ (by decide +kernel)

end Verif.Ieee
