import Verif.Proofs.CastEval
import Verif.Props.Eval

/-!
# Casting the inputs of a recipe: C32
-/
namespace Verif.Eval
open Method Recipe Config Spec

namespace Ex

/-- Takes a string and fails. -/
def checkImpl : Impl ℕ ℕ where
  types := ⟨[.val .str], none, []⟩
  run _ _ _ := .error (.other 7)

def checkSig : Sig (Val ℕ) := ⟨[("a".toList, plain)], none, [], [], [], .none, none⟩

def W2 : World ℕ ℕ where
  env := ⟨W.env.methods ++ [("check".toList, checkSig)], W.env.configs, W.env.spaces, id⟩
  conv := W.conv
  tensors := id
  read := W.read
  configs := W.configs
  impl m := if m = "check".toList then checkImpl else W.impl m

theorem builtin2 : Builtin W2 move := by
  constructor <;> rfl

/-- A file without `k1`, and a method that fails -/
def bad : Val ℕ := .merge "sum".toList [.merge "check".toList [.lit (.str "x".toList) none "weight".toList] [], g] []

def half : Str := "float16".toList

def badCast : Val ℕ :=
  .merge "sum".toList [.merge "check".toList [.lit (.str "x".toList) none "weight".toList] [], castNode g none (some half)] []

/-- A file plus a mapping of numbers -/
def good : Val ℕ := .merge "sum".toList [f, .lit (.dict [("k1".toList, .int 3), ("k2".toList, .int 20)]) (some "t-c".toList) "weight".toList] []

def goodCast : Val ℕ := .merge "sum".toList [castNode f none (some half),
  castNode (.lit (.dict [("k1".toList, .int 3), ("k2".toList, .int 20)]) (some "t-c".toList) "weight".toList) none (some half)] []

def enc : Val ℕ → ℕ
  | .int i => i.toNat % 16
  | _ => 0

end Ex

section
variable {F T : Type} {W : World F T} {move : Option Str → Option Str → T → Except Err T}

/-- **C32.**  Merging with `merge_device`/`merge_dtype` gives, at every key, what merging the same recipe gives when the files hold
tensors cast beforehand and every numeric literal is replaced by its cast.  `move` (`Tensor.to`) does not raise a `KeyError`. -/
theorem C32_cast (hW : Builtin W move) (d t : Option Str) (ht : ∀ s, t = some s → s ∈ dtypeNames)
    (hmove : ∀ x e, move d t x = .error e → Err.isKeyError e = false) (tensors : ℕ → T) (enc : Val F → ℕ) (r rc : Val F)
    (hr : Castable W (move d t) tensors enc r) (h : castInputs W.env d t r = .ok rc) (key : Str) :
    eval W rc key = eval (castWorld W (move d t) tensors) (precast enc r) key :=
  (same_cast hW ht hmove r rc hr h).1.run key

/-- **C32.**  The cast recipe has the config of the original, so the same keys are merged. -/
theorem C32_config (hW : Builtin W move) (d t : Option Str) (ht : ∀ s, t = some s → s ∈ dtypeNames)
    (hmove : ∀ x e, move d t x = .error e → Err.isKeyError e = false) (tensors : ℕ → T) (enc : Val F → ℕ) (r rc : Val F)
    (hr : Castable W (move d t) tensors enc r) (h : castInputs W.env d t r = .ok rc) : rc.config W.env = r.config W.env :=
  (same_cast hW ht hmove r rc hr h).2

/-- A mapping without entries cannot be cast: `next(iter(...))` raises `StopIteration`, although the same recipe can be evaluated
when no cast is asked for (every key is missing). -/
theorem C32_empty_false (E : Env F) (d t : Option Str) (c : Option Str) (s : Str) :
    castInputs E d t (.lit (.dict []) c s) = .error .stopIteration := by rw [castInputs]

example : eval Ex.W (.lit (.dict []) (some "t-c".toList) "weight".toList) "k1".toList = .error .stateDictKey := by decide +kernel
end

/-! The example: `f` (10, 20) plus 3, 20 in a format that keeps 4 bits. -/

theorem visitKeys_error {α : Type} {get : Str → Except Err α} {e : Err} (hget : ∀ k e', get k = .error e' → e' = .stateDictKey ∨ e' = .key)
    (keys : List Str) (h : visitKeys get keys = .error e) : e = .stateDictKey := by
  induction keys with
  | nil => simp only [visitKeys] at h; cases h; rfl
  | cons k ks ih =>
    cases hk : get k with
    | ok v => cases ks <;> simp [visitKeys, hk] at h
    | error e' =>
      have hke : Err.isKeyError e' = true := by rcases hget k e' hk with h | h <;> subst h <;> rfl
      cases ks with
      | nil => simp only [visitKeys, hk, hke, if_true] at h; cases h; rfl
      | cons k' ks => simp only [visitKeys, hk, hke, if_true] at h; exact ih h

theorem ex_model (key : Str) : eval (castWorld Ex.W2 (Ex.move none (some Ex.half)) id) (.model "f".toList (some "t-c".toList) (some "weight".toList)) key =
      .error .stateDictKey ∨
    ∃ x, eval (castWorld Ex.W2 (Ex.move none (some Ex.half)) id) (.model "f".toList (some "t-c".toList) (some "weight".toList)) key = .ok (.tensor x) := by
  rw [eval]
  dsimp only
  cases h : visitSd (castWorld Ex.W2 (Ex.move none (some Ex.half)) id) ((castWorld Ex.W2 (Ex.move none (some Ex.half)) id).read "f".toList)
      (some "t-c".toList) key with
  | ok x => exact .inr ⟨x, rfl⟩
  | error e =>
    left
    have hv : visitSd (castWorld Ex.W2 (Ex.move none (some Ex.half)) id) ((castWorld Ex.W2 (Ex.move none (some Ex.half)) id).read "f".toList)
      (some "t-c".toList) key = visitKeys ((castWorld Ex.W2 (Ex.move none (some Ex.half)) id).read "f".toList)
        (key :: (Ex.cfg.aliases.get? key).getD []) := rfl
    rw [hv] at h
    rw [visitKeys_error _ _ h]
    intro k e' he
    left
    simp only [castWorld, Ex.W2, Ex.W] at he
    cases hg : (Ex.files.get? "f".toList).bind (·.get? k) with
    | none => rw [hg] at he; cases he; rfl
    | some x => rw [hg] at he; cases he

theorem ex_dict (key : Str) : eval (castWorld Ex.W2 (Ex.move none (some Ex.half)) id)
      (.lit (.dict [("k1".toList, .tensor 3), ("k2".toList, .tensor 4)]) (some "t-c".toList) "weight".toList) key = .error .stateDictKey ∨
    ∃ x, eval (castWorld Ex.W2 (Ex.move none (some Ex.half)) id)
      (.lit (.dict [("k1".toList, .tensor 3), ("k2".toList, .tensor 4)]) (some "t-c".toList) "weight".toList) key = .ok (.tensor x) := by
  rw [eval_dict]
  cases h : visitSd (castWorld Ex.W2 (Ex.move none (some Ex.half)) id) (rawGet [("k1".toList, .tensor 3), ("k2".toList, .tensor 4)])
      (some "t-c".toList) key with
  | ok x =>
    right
    obtain ⟨k, hk⟩ := visitSd_mem h
    obtain ⟨k', hm⟩ := rawGet_mem hk
    rcases List.mem_cons.1 hm with hm | hm
    · cases hm; exact ⟨3, by simp only [andThen]; rw [eval]; rfl⟩
    · rcases List.mem_cons.1 hm with hm | hm
      · cases hm; exact ⟨4, by simp only [andThen]; rw [eval]; rfl⟩
      · cases hm
  | error e =>
    left
    have hv : visitSd (castWorld Ex.W2 (Ex.move none (some Ex.half)) id) (rawGet (F := ℕ) [("k1".toList, .tensor 3), ("k2".toList, .tensor 4)])
      (some "t-c".toList) key = visitKeys (rawGet (F := ℕ) [("k1".toList, .tensor 3), ("k2".toList, .tensor 4)])
        (key :: (Ex.cfg.aliases.get? key).getD []) := rfl
    rw [hv] at h
    rw [visitKeys_error _ _ h]
    · rfl
    intro k e' he
    right
    unfold rawGet at he
    cases hg : Dict.get? [("k1".toList, .tensor 3), ("k2".toList, (.tensor 4 : Val ℕ))] k with
    | none => rw [hg] at he; cases he; rfl
    | some x => rw [hg] at he; cases he

theorem ex_good : Castable Ex.W2 (Ex.move none (some Ex.half)) id Ex.enc Ex.good := by
  have hc : Call Ex.W2 "sum".toList [Ex.f, .lit (.dict [("k1".toList, .int 3), ("k2".toList, .int 20)]) (some "t-c".toList) "weight".toList] [] := by
    refine ⟨by simp [Dict.keys], ?_, ?_⟩
    · intro idx v hv
      cases idx with
      | name k => simp [ArgAt] at hv
      | pos i =>
        match i with
        | 0 => simp [ArgAt] at hv; subst hv; trivial
        | 1 => simp [ArgAt] at hv; subst hv; trivial
        | i + 2 => simp [ArgAt] at hv
    · intro idx v hv
      cases idx with
      | name k => simp [ArgAt] at hv
      | pos i =>
        match i with
        | 0 => decide +kernel
        | 1 => decide +kernel
        | i + 2 => simp [ArgAt] at hv
  unfold Ex.good
  rw [Castable]
  refine ⟨hc, ?_, ?_, ?_⟩
  · have hone : ∀ key e, Fails (castWorld Ex.W2 (Ex.move none (some Ex.half)) id) "sum".toList
        (precastL Ex.enc [Ex.f, .lit (.dict [("k1".toList, .int 3), ("k2".toList, .int 20)]) (some "t-c".toList) "weight".toList])
        (precastK Ex.enc []) key e → e = .stateDictKey := by
      rintro key e ⟨idx, v, ty, hv, hty, hrun⟩
      rw [getElem_precastL, precastK] at hv
      have hshape : eval (castWorld Ex.W2 (Ex.move none (some Ex.half)) id) v key = .error .stateDictKey ∨
          ∃ x, eval (castWorld Ex.W2 (Ex.move none (some Ex.half)) id) v key = .ok (.tensor x) := by
        cases idx with
        | name k => simp [ArgAt] at hv
        | pos i =>
          match i with
          | 0 =>
            have hv : v = .model "f".toList (some "t-c".toList) (some "weight".toList) := by
              simp [ArgAt, Ex.f, precast] at hv; exact hv.symm
            subst hv
            exact ex_model key
          | 1 =>
            have hv : v = .lit (.dict [("k1".toList, .tensor 3), ("k2".toList, .tensor 4)]) (some "t-c".toList) "weight".toList := by
              simp [ArgAt, precast, precastD, isScalar, Ex.enc] at hv; exact hv.symm
            subst hv
            exact ex_dict key
          | i + 2 => simp [ArgAt] at hv
      unfold castRun at hrun
      rcases hshape with hs | ⟨x, hs⟩
      · rw [hs] at hrun; simp only at hrun; cases hrun; rfl
      · rw [hs] at hrun
        cases ty <;> simp [castTo, RVal.isInstance, castWorld, Ex.W2, Ex.W, Except.map] at hrun
    intro key e e' h h'
    rw [hone key e h, hone key e' h']
  · rw [CastableL, CastableL, CastableL, Ex.f, Castable, Castable, CastableD, CastableD, CastableD, Castable, Castable]
    · refine ⟨trivial, ⟨rfl, .inl (by decide), ?_, trivial, ?_, trivial, trivial⟩, trivial⟩
      · exact fun _ => ⟨.int 3, 3, fun _ => by simp [eval], by decide +kernel, by decide +kernel⟩
      · exact fun _ => ⟨.int 20, 20, fun _ => by simp [eval], by decide +kernel, by decide +kernel⟩
    all_goals simp
  · rw [CastableK]; trivial

example : castInputs Ex.W2.env none (some Ex.half) Ex.good = .ok Ex.goodCast ∧ eval Ex.W2 Ex.goodCast "k1".toList = .ok (.tensor 13) ∧
    eval Ex.W2 Ex.goodCast "k2".toList = .ok (.tensor 8) ∧ eval Ex.W2 Ex.good "k2".toList = .ok (.tensor 40) := by decide +kernel

/-- Which of several errors is reported can change: inputs that are cast count as one level deeper.  Here a file lacks the key and
another argument fails for good.  On cast inputs the key is left out of the result; the cast recipe raises. -/
theorem C32_order_false : ∃ (W : World ℕ ℕ) (move : Option Str → Option Str → ℕ → Except Err ℕ) (t : Str) (r rc : Val ℕ) (key : Str),
    Builtin W move ∧ t ∈ dtypeNames ∧ castInputs W.env none (some t) r = .ok rc ∧
      eval (castWorld W (move none (some t)) id) (precast Ex.enc r) key = .error .stateDictKey ∧ eval W rc key = .error (.other 7) :=
  ⟨Ex.W2, Ex.move, Ex.half, Ex.bad, Ex.badCast, "k1".toList, Ex.builtin2, by decide +kernel, by decide +kernel, by decide +kernel, by decide +kernel⟩

end Verif.Eval
