import Verif.Proofs.MemCast

/-!
# Methods that write into their arguments (C105)

`mergeH H r keys h` merges the keys one after the other, beginning with memory `h`; `B` is the part of the memory that the user and the files hold; `eval W r key` is
the value of the recipe where tensors are values and cannot be overwritten.
-/
namespace Verif.Mem
open Method Recipe Config Eval Eval.Spec Program Program.Spec Spec

section
variable {F V : Type} {B : List V} {H : HWorld F V} {X : Traits F V} {W : World F V}

/-- If methods that write get only tensors nobody else has: no tensor that was there changes, and each key gets the value of the recipe. -/
theorem C105_shielded (hd : Describes H X B W) {r : Val F} (hs : Safe X W r) (keys : List Str) {h : List V} (hB : B <+: h) :
    h <+: (mergeH H r keys h).1 ∧ held (mergeH H r keys h) = keys.map fun k => (eval W r k).map some :=
  ⟨(merge_good hd hs keys h hB).1, (merge_good hd hs keys h hB).2.1⟩

/-- So it is if no method of the recipe writes into its arguments, whatever it returns. -/
theorem C105_reads (hd : Describes H X B W) {r : Val F} (hr : Reads X r) (keys : List Str) {h : List V} (hB : B <+: h) :
    h <+: (mergeH H r keys h).1 ∧ held (mergeH H r keys h) = keys.map fun k => (eval W r k).map some :=
  C105_shielded hd (reads_safe r hr) keys hB

/-- So it is for any methods if the inputs are cast (and the result is cast to the dtype of the output), and no result is a tensor that was there, if no tensor of the user or of a file has the dtype and device of the merge already.
Not so if they do: `C105_false`. -/
theorem C105_cast_partial {same : Option Str → Option Str → V → Bool} {move : Option Str → Option Str → V → Except Err V} (hd : Describes H X B W) (hc : HasCast X W same move)
    {d t od ot : Option Str} (hT : ∀ i, same d t (W.tensors i) = false) (hR : ∀ p k x, W.read p k = .ok x → same d t x = false)
    {r r' out : Val F} (hb : Built r) (hr : castInputs W.env d t r = .ok r') (ho : out = r' ∨ toNode W.env r' od ot = .ok out)
    (keys : List Str) {h : List V} (hB : B <+: h) :
    h <+: (mergeH H out keys h).1 ∧ held (mergeH H out keys h) = (keys.map fun k => (eval W out k).map some) ∧
      ∀ q, .ok (.tensor q) ∈ (mergeH H out keys h).2 → h.length ≤ q := by
  obtain ⟨h1, h2⟩ := cast_owned hc hT hR r r' hb hr
  obtain ⟨h1, h2⟩ : Owned X W out ∧ Safe X W out := by
    rcases ho with rfl | ho
    · exact ⟨h1, h2⟩
    · rw [toNode_sig hc.sig (castInputs_isNode hc.sig hr) ho]
      exact owned_cast hc (.inl h1) h2
  obtain ⟨h3, h4, h5⟩ := merge_good hd h2 keys h hB
  exact ⟨h3, h4, h5 h1⟩

/-! ### The builtin methods -/

/-- `cast` returns its argument if nothing is to be done, else a new tensor; it writes nothing. -/
theorem C105_method_cast {same : Option Str → Option Str → V → Bool} {move : Option Str → Option Str → V → Except Err V}
    (hs : ∀ d t x, same d t x = true → move d t x = .ok x) : Implements (castSourceH (F := F) same move) (Whole.castSource move) false (castFresh same) :=
  cast_implements hs

/-- `fallback` returns what it is given. -/
theorem C105_method_fallback : Implements (fallbackSourceH (F := F) (V := V)) Whole.fallbackSource false fun _ _ => False := fallback_implements

/-- `weighted_sum` may return what it is given, and writes nothing. -/
theorem C105_method_weighted (T : Readme.Torch) : Implements (weightedSourceH (F := F) T) (Readme.weightedSource T) false fun _ _ => False := weighted_implements T

/-- `tensor_sum` writes into an argument and returns it. -/
theorem C105_method_tensor_sum {R : Type} : Implements (tensorSumSourceH (R := R)) tensorSumSource true fun _ _ => False := tensorSum_implements

/-- `multiply_quotient` writes into `alpha`, and returns a new tensor. -/
theorem C105_method_multiply (scaled power : V → V → V → V → Except Err V) :
    Implements (multiplySourceH (F := F) scaled power) (multiplySource scaled power) true fun _ _ => True := multiply_implements scaled power

end

/-! ### Example: `tensor_sum` of state dicts of the user -/

namespace Ex

def s (x : String) : Str := x.toList

/-- Numbers of a tensor, with the name of its dtype -/
abbrev T := Region.Tensor (Str × ℚ)

def dtype : T → Option Str
  | .scalar x => some x.1
  | .rows (x :: _) => some x.1
  | .rows [] => none

def same (_ : Option Str) (t : Option Str) (x : T) : Bool := t.isNone || t == dtype x

def retag (t : Str) : T → T
  | .scalar x => .scalar (t, x.2)
  | .rows l => .rows (l.map fun x => (t, x.2))

def move (d t : Option Str) (x : T) : Except Err T :=
  if same d t x then .ok x else match t with | some t => .ok (retag t x) | none => .ok x

def conv : Conv ℚ T where
  toInt _ := .error .type
  toFloat | .tensor (.scalar x) => .ok x.2 | .int i => .ok i | _ => .error .type
  toTensor | .float x => .ok (.scalar (s "float32", x)) | .int x => .ok (.scalar (s "float32", x)) | _ => .error .type

def cfg : ModelConfig := ⟨s "c", [(s "m", [(s "k", ⟨some [4], none, [], false⟩)])]⟩

def sumSig : Sig (Val ℚ) :=
  ⟨[(s "a", plain), (s "b", plain), (s "width", plain), (s "offset", plain)], none, [], [.float (1 / 2), .float 0], [], .none, none⟩

def env : Env ℚ := ⟨[(nCast, castSig), (s "tensor_sum", sumSig)], [s "c"], [s "weight", s "param", s "delta"], id⟩

def source (m : Str) : Source ℚ T := if m = nCast then Whole.castSource move else tensorSumSource

def sourceH (m : Str) : HSource ℚ T := if m = nCast then castSourceH same move else tensorSumSourceH

def traits : Traits ℚ T := ⟨source, fun m => decide (m ≠ nCast), fun m => if m = nCast then castFresh same else fun _ _ => False⟩

/-- What the user holds: two tensors of the given dtype -/
def memory (dt : Str) : List T := [.rows [(dt, 1), (dt, 2), (dt, 3), (dt, 4)], .rows [(dt, 10), (dt, 20), (dt, 30), (dt, 40)]]

def H : HWorld ℚ T := ⟨env, conv, fun i => if i = 0 then 0 else 1, fun _ _ => .error .key, fun c => if c = s "c" then some cfg else none, sourceH⟩

def W (dt : Str) : World ℚ T :=
  ⟨env, conv, fun i => if i = 0 then .rows [(dt, 1), (dt, 2), (dt, 3), (dt, 4)] else .rows [(dt, 10), (dt, 20), (dt, 30), (dt, 40)], fun _ _ => .error .key,
    fun c => if c = s "c" then some cfg else none, fun m => impl (source m)⟩

theorem describes (dt : Str) : Describes H traits (memory dt) (W dt) where
  env := rfl
  conv := rfl
  configs := rfl
  tensors i := by
    show (memory dt)[if i = 0 then 0 else 1]? = some (if i = 0 then _ else _)
    split_ifs <;> rfl
  read _ _ := rfl
  impl _ := rfl
  source m := by
    show Implements (sourceH m) (source m) (decide (m ≠ nCast)) (if m = nCast then castFresh same else fun _ _ => False)
    unfold sourceH source
    by_cases hm : m = nCast
    · simp only [if_pos hm, hm, ne_eq, not_true_eq_false, decide_false]
      exact cast_implements fun d t x h => by unfold move; rw [if_pos h]
    · simp only [if_neg hm, ne_eq, hm, not_false_eq_true, decide_true]
      exact tensorSum_implements

theorem hasCast (dt : Str) : HasCast traits (W dt) same move where
  sig := by show env.resolve nCast = _; decide +kernel
  impl := by show impl (source nCast) = _; unfold source; rw [if_pos rfl]
  reads := by decide +kernel
  fresh := by show (if nCast = nCast then castFresh same else fun _ _ => False) = _; rw [if_pos rfl]

def a : Val ℚ := .lit (.dict [(s "k", .tensor 0)]) (some (s "c")) (s "weight")
def b : Val ℚ := .lit (.dict [(s "k", .tensor 1)]) (some (s "c")) (s "weight")
def num (x : ℚ) : Val ℚ := .lit (.float x) none (s "param")

/-- `tensor_sum(tensor_sum(a, b, width=0.5), a, width=0.25)` -/
def recipe : Val ℚ := .merge (s "tensor_sum") [.merge (s "tensor_sum") [a, b, num (1 / 2), num 0] [], a, num (1 / 4), num 0] []

def conv64 (v : Val ℚ) : Val ℚ := castNode v (some (s "cpu")) (some (s "float64"))

/-- The recipe after its inputs were cast -/
def cast : Val ℚ := .merge (s "tensor_sum") [.merge (s "tensor_sum") [conv64 a, conv64 b, conv64 (num (1 / 2)), conv64 (num 0)] [], conv64 a, conv64 (num (1 / 4)), conv64 (num 0)] []

theorem cast_eq : castInputs env (some (s "cpu")) (some (s "float64")) recipe = .ok cast := by decide +kernel

theorem built : Built recipe := by
  simp [recipe, a, b, num, Built, BuiltL, BuiltK, isNumber, isTensor, Dict.keys]

/-- The value: 1, 20, 3, 4 -/
theorem value : eval (W (s "float64")) cast (s "k") = .ok (.tensor (.rows [(s "float64", 1), (s "float64", 20), (s "float64", 3), (s "float64", 4)])) := by decide +kernel

end Ex

/-- Models in float16, the merge in float64: what the user holds stays, and the result is right. -/
example (keys : List Str) : Ex.memory (Ex.s "float16") <+: (mergeH Ex.H Ex.cast keys (Ex.memory (Ex.s "float16"))).1 ∧
    held (mergeH Ex.H Ex.cast keys (Ex.memory (Ex.s "float16"))) = (keys.map fun k => (eval (Ex.W (Ex.s "float16")) Ex.cast k).map some) ∧
    ∀ q, .ok (.tensor q) ∈ (mergeH Ex.H Ex.cast keys (Ex.memory (Ex.s "float16"))).2 → 2 ≤ q :=
  C105_cast_partial (Ex.describes _) (Ex.hasCast _) (fun i => by show Ex.same _ _ (if i = 0 then _ else _) = false; split_ifs <;> decide +kernel) (fun _ _ _ h => by cases h) Ex.built
    Ex.cast_eq (od := none) (ot := none) (.inl rfl) keys (List.prefix_refl _)

/-- `a` alone is read, and returned as it is. -/
example (keys : List Str) : Ex.memory (Ex.s "float16") <+: (mergeH Ex.H Ex.a keys (Ex.memory (Ex.s "float16"))).1 ∧
    held (mergeH Ex.H Ex.a keys (Ex.memory (Ex.s "float16"))) = keys.map fun k => (eval (Ex.W (Ex.s "float16")) Ex.a k).map some :=
  C105_reads (Ex.describes _) (by simp [Ex.a, Reads, ReadsK]) keys (List.prefix_refl _)

/-- Models that are in float64 already are not copied: `tensor_sum` overwrites the tensors of the user, and the recipe itself, in which `a` occurs twice, gives another result. -/
theorem C105_false : ∃ (H : HWorld ℚ Ex.T) (X : Traits ℚ Ex.T) (B : List Ex.T) (W : World ℚ Ex.T) (r r' : Val ℚ) (key : Str),
    Describes H X B W ∧ HasCast X W Ex.same Ex.move ∧ Built r ∧ castInputs W.env (some "cpu".toList) (some "float64".toList) r = .ok r' ∧
      held (mergeH H r' [key] B) ≠ [(eval W r' key).map some] ∧ (mergeH H r' [key] B).1.take B.length ≠ B :=
  ⟨Ex.H, Ex.traits, Ex.memory (Ex.s "float64"), Ex.W (Ex.s "float64"), Ex.recipe, Ex.cast, Ex.s "k", Ex.describes _, Ex.hasCast _, Ex.built, Ex.cast_eq, by decide +kernel,
    by decide +kernel⟩

end Verif.Mem
