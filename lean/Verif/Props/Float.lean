import Verif.Proofs.Float
import Verif.Proofs.CastEval

/-!
# Numbers given to merge methods: C34
-/
namespace Verif.Float
open Method Recipe Config Eval Spec Eval.Spec

/-- Numbers: finite binary numbers, or not finite -/
abbrev Num := Option Dy

variable {W : World Num Num} {move : Option Str → Option Str → Num → Except Err Num} {d t : Option Str}

/-- What a parameter of type `ty` is given for the literal `v` once the inputs are cast. -/
theorem castLit (hW : Builtin W move) (ht : ∀ s, t = some s → s ∈ dtypeNames) {v : Val Num} (hv : isScalar v = true) {c : Option Str} {s : Str} {rc : Val Num}
    (h : castInputs W.env d t (.lit v c s) = .ok rc) (ty : Ty) (key : Str) :
    castRun W.conv ty (eval W rc) key = castRun W.conv ty (fun key => castLeaf W.conv (move d t) (eval W v key)) key := by
  have h1 : castInputs W.env d t (.lit v c s) = toNode W.env (.lit v c s) d t := by
    cases v <;> first | (simp [isScalar] at hv; done) | (rw [castInputs] <;> simp [isScalar])
  rw [h1] at h
  rw [toNode_shape hW rfl h]
  unfold castRun
  have h2 : eval W (.lit v c s) key = eval W v key := by
    cases v <;> first | (simp [isScalar] at hv; done) | (rw [eval]; simp)
  rw [eval_castNode hW (by simp [Proper]) ht, h2]

/-- What arrives in a parameter of type `float`. -/
theorem arrives_float (hW : Builtin W move) (hC : W.conv = numConv) (ht : ∀ s, t = some s → s ∈ dtypeNames) (hmove : ∀ x, move d t x = .ok x)
    {x : Dy} {c : Option Str} {s : Str} {rc : Val Num} (h : castInputs W.env d t (.lit (.float (some x)) c s) = .ok rc) (key : Str) (a : Arg Num Num) :
    Receives W key (.val .float) rc a ↔ a = .val (.float (f32 x)) := by
  unfold Receives
  simp only
  rw [castLit hW ht rfl h]
  unfold castRun
  simp only [eval, castLeaf, castTo, RVal.isInstance, hC, numConv, Except.map, hmove, Option.bind_some]
  simp only [reduceCtorEq, or_self, if_false, Except.ok.injEq, exists_eq_left', Bool.false_eq_true]

/-- What arrives in a parameter of type `int`. -/
theorem arrives_int (hW : Builtin W move) (hC : W.conv = numConv) (ht : ∀ s, t = some s → s ∈ dtypeNames) (hmove : ∀ x, move d t x = .ok x)
    {i : Int} {c : Option Str} {s : Str} {rc : Val Num} (h : castInputs W.env d t (.lit (.int i) c s) = .ok rc) (key : Str) (a : Arg Num Num) :
    Receives W key (.val .int) rc a ↔ ∃ y z, f64 ⟨i, 0⟩ = some y ∧ f32 y = some z ∧ a = .val (.int (trunc z)) := by
  unfold Receives
  simp only
  rw [castLit hW ht rfl h]
  unfold castRun
  simp only [eval, castLeaf, castTo, RVal.isInstance, hC, numConv]
  cases hf : f64 ⟨i, 0⟩ with
  | none => simp [Except.map]
  | some y =>
    cases hg : f32 y with
    | none => simp [Except.map, hmove, hg]
    | some z => simp [Except.map, hmove, hg]

/-- **C34.**  A float given for a `float` parameter arrives with its value exactly if it is a float32 number.  (The default
`merge_dtype` is float64, to which float32 numbers convert unchanged.) -/
theorem C34_float_partial (hW : Builtin W move) (hC : W.conv = numConv) (ht : ∀ s, t = some s → s ∈ dtypeNames) (hmove : ∀ x, move d t x = .ok x)
    (x : Dy) (c : Option Str) (s : Str) (rc : Val Num) (h : castInputs W.env d t (.lit (.float (some x)) c s) = .ok rc) (key : Str) :
    (∃ y, Receives W key (.val .float) rc (.val (.float (some y))) ∧ value y = value x) ↔ InF32 (value x) := by
  constructor
  · rintro ⟨y, h1, h2⟩
    rw [arrives_float hW hC ht hmove h] at h1
    have h3 : f32 x = some y := by
      have := Arg.val.inj h1
      exact (RVal.float.inj this).symm
    rw [← h2]
    exact roundTo_in (by norm_num) h3
  · intro hx
    obtain ⟨y, h1, h2⟩ := roundTo_exact hx
    refine ⟨y, ?_, h2⟩
    rw [arrives_float hW hC ht hmove h]
    have : f32 x = some y := h1
    rw [this]

/-- **C34.**  Otherwise it arrives with a relative error of at most `2^-24`, if it is in the normal range of float32. -/
theorem C34_error_partial (hW : Builtin W move) (hC : W.conv = numConv) (ht : ∀ s, t = some s → s ∈ dtypeNames) (hmove : ∀ x, move d t x = .ok x)
    (x y : Dy) (c : Option Str) (s : Str) (rc : Val Num) (h : castInputs W.env d t (.lit (.float (some x)) c s) = .ok rc) (key : Str)
    (hx : (2 : ℚ) ^ (-126 : Int) ≤ |value x|) (hy : Receives W key (.val .float) rc (.val (.float (some y)))) :
    |value y - value x| ≤ |value x| / 2 ^ 24 := by
  rw [arrives_float hW hC ht hmove h] at hy
  have h3 : f32 x = some y := (RVal.float.inj (Arg.val.inj hy)).symm
  exact roundTo_error h3 (by norm_num at hx ⊢; exact hx)

/-- **C34.**  An integer given for an `int` parameter arrives unchanged exactly if it is a float32 number. -/
theorem C34_int_partial (hW : Builtin W move) (hC : W.conv = numConv) (ht : ∀ s, t = some s → s ∈ dtypeNames) (hmove : ∀ x, move d t x = .ok x)
    (i : Int) (c : Option Str) (s : Str) (rc : Val Num) (h : castInputs W.env d t (.lit (.int i) c s) = .ok rc) (key : Str) :
    Receives W key (.val .int) rc (.val (.int i)) ↔ InF32 i := by
  have hv : value ⟨i, 0⟩ = i := by simp [value]
  rw [arrives_int hW hC ht hmove h]
  constructor
  · rintro ⟨y, z, h1, h2, h3⟩
    have hi : i = trunc z := RVal.int.inj (Arg.val.inj h3)
    have hz : 0 ≤ z.e := le_trans (roundTo_e h1) (roundTo_e h2)
    rw [hi, trunc_value hz]
    exact roundTo_in (by norm_num) h2
  · intro hi
    have h64 : InF64 (value ⟨i, 0⟩) := by
      rw [hv]; exact exact_mono (by norm_num) (by norm_num) (by norm_num) hi
    obtain ⟨y, h1, h2⟩ := roundTo_exact h64
    rw [hv] at h2
    obtain ⟨z, h3, h4⟩ := roundTo_exact (p := 24) (emin := -149) (emax := 128) (x := y) (by rw [h2]; exact hi)
    refine ⟨y, z, h1, h3, ?_⟩
    rw [trunc_of_int (h4.trans h2)]

/-- **C34.**  In particular all integers up to `2^24` in magnitude arrive unchanged. -/
theorem C34_small_partial (hW : Builtin W move) (hC : W.conv = numConv) (ht : ∀ s, t = some s → s ∈ dtypeNames) (hmove : ∀ x, move d t x = .ok x)
    (i : Int) (hi : |i| ≤ 2 ^ 24) (c : Option Str) (s : Str) (rc : Val Num) (h : castInputs W.env d t (.lit (.int i) c s) = .ok rc) (key : Str) :
    Receives W key (.val .int) rc (.val (.int i)) := by
  rw [C34_int_partial hW hC ht hmove i c s rc h key]
  have hb : |(i : ℚ)| < (2 : ℚ) ^ (128 : Int) := by
    have h1 : |(i : ℚ)| ≤ 2 ^ 24 := by exact_mod_cast hi
    exact lt_of_le_of_lt h1 (by norm_num)
  rcases lt_or_eq_of_le hi with hlt | heq
  · exact ⟨i, 0, by simp, hlt, by norm_num, hb⟩
  · rcases (abs_eq (by norm_num)).1 heq with h5 | h5
    · exact ⟨1, 24, by rw [h5]; norm_num, by norm_num, by norm_num, hb⟩
    · exact ⟨-1, 24, by rw [h5]; norm_num, by norm_num, by norm_num, hb⟩

/-- **C34.**  Without a cast (`merge_device=None, merge_dtype=None`) every number arrives unchanged. -/
theorem C34_uncast (v : Val Num) (c : Option Str) (s : Str) (key : Str) :
    (∀ i, v = .int i → ∀ a, Receives W key (.val .int) (.lit v c s) a ↔ a = .val (.int i)) ∧
    (∀ x, v = .float x → ∀ a, Receives W key (.val .float) (.lit v c s) a ↔ a = .val (.float x)) := by
  constructor
  · rintro i rfl a
    simp [Receives, castRun, eval, castTo, RVal.isInstance]
  · rintro x rfl a
    simp [Receives, castRun, eval, castTo, RVal.isInstance]

/-! ## The example world: nothing but the builtin methods -/
namespace Ex

def moveF (_ _ : Option Str) (x : Num) : Except Err Num := .ok x

def impls : Dict Str (Impl Num Num) := [(nFallback, fallbackImpl), (nCast, castImpl moveF), (nPick, pickImpl), (nOmit, omitImpl)]

def WF : World Num Num where
  env := ⟨[(nFallback, fallbackSig), (nCast, castSig), (nPick, componentSig), (nOmit, componentSig)], [], allSpaces, id⟩
  conv := numConv
  tensors _ := none
  read _ _ := .error .stateDictKey
  configs _ := none
  impl m := (impls.get? m).getD fallbackImpl

theorem builtinF : Builtin WF moveF := by
  constructor <;> rfl

def f64Name : Str := "float64".toList

def numLit (v : Val Num) : Val Num := .lit v none paramSpace

theorem cast_numLit (v : Val Num) (hv : v = .int 16777217 ∨ v = .float (some ⟨3602879701896397, -55⟩)) :
    castInputs WF.env none (some f64Name) (numLit v) = .ok (castNode (numLit v) none (some f64Name)) := by
  rcases hv with rfl | rfl <;> decide +kernel

end Ex

/-- `16777217 = 2^24 + 1` arrives as `16777216`. -/
theorem C34_int_false : ∃ (W : World Num Num) (move : Option Str → Option Str → Num → Except Err Num) (t : Str) (rc : Val Num),
    Builtin W move ∧ W.conv = numConv ∧ (∀ x, move none (some t) x = .ok x) ∧ t ∈ dtypeNames ∧
      castInputs W.env none (some t) (.lit (.int 16777217) none paramSpace) = .ok rc ∧
      ∀ key a, Receives W key (.val .int) rc a ↔ a = .val (.int 16777216) := by
  have ht : ∀ s, some Ex.f64Name = some s → s ∈ dtypeNames := by
    intro s hs; cases hs; decide +kernel
  refine ⟨Ex.WF, Ex.moveF, Ex.f64Name, castNode (Ex.numLit (.int 16777217)) none (some Ex.f64Name), Ex.builtinF, rfl, fun _ => rfl, by decide +kernel,
    Ex.cast_numLit _ (.inl rfl), ?_⟩
  intro key a
  rw [arrives_int Ex.builtinF rfl ht (fun _ => rfl) (Ex.cast_numLit _ (.inl rfl))]
  have h1 : f64 ⟨16777217, 0⟩ = some ⟨16777217, 0⟩ := by decide +kernel
  have h2 : f32 ⟨16777217, 0⟩ = some ⟨8388608, 1⟩ := by decide +kernel
  constructor
  · rintro ⟨y, z, a1, a2, a3⟩
    rw [h1] at a1; cases a1
    rw [h2] at a2; cases a2
    exact a3
  · rintro rfl
    exact ⟨_, _, h1, h2, rfl⟩

/-- python's `0.1` is `3602879701896397 * 2^-55` and arrives as `13421773 * 2^-27`. -/
theorem C34_float_false : ∃ (W : World Num Num) (move : Option Str → Option Str → Num → Except Err Num) (t : Str) (rc : Val Num),
    Builtin W move ∧ W.conv = numConv ∧ (∀ x, move none (some t) x = .ok x) ∧ t ∈ dtypeNames ∧
      castInputs W.env none (some t) (.lit (.float (some ⟨3602879701896397, -55⟩)) none paramSpace) = .ok rc ∧
      ∀ key a, Receives W key (.val .float) rc a ↔ a = .val (.float (some ⟨13421773, -27⟩)) := by
  have ht : ∀ s, some Ex.f64Name = some s → s ∈ dtypeNames := by
    intro s hs; cases hs; decide +kernel
  refine ⟨Ex.WF, Ex.moveF, Ex.f64Name, castNode (Ex.numLit (.float (some ⟨3602879701896397, -55⟩))) none (some Ex.f64Name), Ex.builtinF, rfl, fun _ => rfl,
    by decide +kernel, Ex.cast_numLit _ (.inr rfl), ?_⟩
  intro key a
  rw [arrives_float Ex.builtinF rfl ht (fun _ => rfl) (Ex.cast_numLit _ (.inr rfl))]
  have h2 : f32 ⟨3602879701896397, -55⟩ = some ⟨13421773, -27⟩ := by decide +kernel
  rw [h2]

example : castInputs Ex.WF.env none (some Ex.f64Name) (Ex.numLit (.float (some ⟨3, -2⟩))) =
    .ok (castNode (Ex.numLit (.float (some ⟨3, -2⟩))) none (some Ex.f64Name)) := by decide +kernel
example : InF32 (value ⟨3, -2⟩) := ⟨3, -2, rfl, by norm_num, by norm_num, by norm_num [value, abs_of_pos]⟩
example : castInputs Ex.WF.env none (some Ex.f64Name) (Ex.numLit (.int (-5))) =
    .ok (castNode (Ex.numLit (.int (-5))) none (some Ex.f64Name)) := by decide +kernel

end Verif.Float
