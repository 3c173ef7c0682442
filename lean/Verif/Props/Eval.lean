import Verif.Proofs.EvalLocal

/-!
# Merging one key: C26 to C28, C31, C33, C35
-/
namespace Verif.Eval
open Method Recipe Config Spec

/-! A small world for the examples: two files, one config with an alias and two components. -/
namespace Ex

def cfg : ModelConfig :=
  ⟨"t-c".toList, [("main".toList, [("k1".toList, ⟨none, none, ["k1b".toList, "k1c".toList], false⟩), ("k2".toList, ⟨none, none, [], true⟩)]),
    ("ema".toList, [("k3".toList, ⟨none, none, [], false⟩)])]⟩

def files : Dict Str (Dict Str ℕ) :=
  [("f".toList, [("k1b".toList, 10), ("k1c".toList, 11), ("k2".toList, 20)]), ("g".toList, [("k2".toList, 7), ("k3".toList, 8)])]

/-- Adds its two tensors. -/
def sumImpl : Impl ℕ ℕ where
  types := ⟨[.val .tensor, .val .tensor], none, []⟩
  run args _ _ := match args with | [.val (.tensor a), .val (.tensor b)] => .ok (.tensor (a + b)) | _ => .error .type

/-- Always fails. -/
def boomImpl : Impl ℕ ℕ where
  types := ⟨[.val .tensor], none, []⟩
  run _ _ _ := .error (.other 7)

/-- A method without parameters -/
def constImpl : Impl ℕ ℕ where
  types := ⟨[], none, []⟩
  run _ _ _ := .ok (.tensor 5)

def move (_ t : Option Str) (x : ℕ) : Except Err ℕ := .ok (if t = some "float16".toList then x % 16 else x)

def impls : Dict Str (Impl ℕ ℕ) :=
  [(nFallback, fallbackImpl), (nCast, castImpl move), (nPick, pickImpl), (nOmit, omitImpl), ("sum".toList, sumImpl),
   ("boom".toList, boomImpl), ("const".toList, constImpl)]

def W : World ℕ ℕ where
  env := ⟨[(nFallback, fallbackSig), (nCast, castSig), (nPick, componentSig), (nOmit, componentSig),
    ("sum".toList, ⟨[("a".toList, plain), ("b".toList, plain)], none, [], [], [], .none, none⟩),
    ("boom".toList, ⟨[("a".toList, plain)], none, [], [], [], .none, none⟩),
    ("const".toList, ⟨[], none, [], [], [], .space "weight".toList, none⟩)], ["t-c".toList], allSpaces, id⟩
  conv := ⟨fun v => match v with | .tensor t => .ok t | .float f => .ok f | _ => .error .value,
    fun v => match v with | .tensor t => .ok t | .int i => .ok i.toNat | _ => .error .value,
    fun v => match v with | .int i => .ok i.toNat | .float f => .ok f | _ => .error .type⟩
  tensors := id
  read p k := match (files.get? p).bind (·.get? k) with | some t => .ok t | none => .error .stateDictKey
  configs c := if c = "t-c".toList then some cfg else none
  impl m := (impls.get? m).getD constImpl

theorem builtin : Builtin W move := by
  constructor <;> rfl

def f : Val ℕ := .model "f".toList (some "t-c".toList) (some "weight".toList)
def g : Val ℕ := .model "g".toList (some "t-c".toList) (some "weight".toList)

end Ex

variable {F T : Type} {W : World F T} {move : Option Str → Option Str → T → Except Err T}

/-! ## C26 -/

/-- **C26.**  `a | b` has `a`'s value where `a` has one, `b`'s where `a` lacks the key, and `a`'s error otherwise.
Partial: for operands without merge nodes that have no arguments (`Proper`), for which the code raises (`C26_no_arguments_false`). -/
theorem C26_fallback_partial (hW : Builtin W move) (a b r : Val F) (ha : Proper a) (h : orNode W.env a b = .ok r) :
    ∃ b', valueToNode W.env b = .ok b' ∧ (Proper b' → ∀ key,
      (∀ v, eval W a key = .ok v → eval W r key = .ok v) ∧
      (eval W a key = .error .stateDictKey → eval W r key = eval W b' key) ∧
      (∀ e, e ≠ .stateDictKey → eval W a key = .error e → eval W r key = .error e)) := by
  obtain ⟨b', h1, rfl⟩ := orNode_shape hW ha.isNode h
  refine ⟨b', h1, ?_⟩
  intro hb key
  rw [eval_fallback hW ha hb]
  unfold orElse
  refine ⟨?_, ?_, ?_⟩
  · intro v hv; rw [hv]
  · intro hv; rw [hv]
  · intro e he hv
    rw [hv]
    cases e <;> first | rfl | exact absurd rfl he

theorem proper_fallback {a b : Val F} (ha : Proper a) (hb : Proper b) : Proper (.merge nFallback [a, b] []) := by
  simp [Proper, ProperL, ProperK, ha, hb]

/-- **C26.**  `|` is associative.  Partial: as above. -/
theorem C26_assoc_partial (hW : Builtin W move) (a b c ab bc l r : Val F) (ha : Proper a) (hb : Proper b) (hc : Proper c)
    (h1 : orNode W.env a b = .ok ab) (h2 : orNode W.env ab c = .ok l) (h3 : orNode W.env b c = .ok bc) (h4 : orNode W.env a bc = .ok r)
    (key : Str) : eval W l key = eval W r key := by
  obtain ⟨_, e1, rfl⟩ := orNode_shape hW ha.isNode h1
  rw [Serialize.valueToNode_node hb.isNode] at e1; cases e1
  obtain ⟨_, e2, rfl⟩ := orNode_shape hW rfl h2
  rw [Serialize.valueToNode_node hc.isNode] at e2; cases e2
  obtain ⟨_, e3, rfl⟩ := orNode_shape hW hb.isNode h3
  rw [Serialize.valueToNode_node hc.isNode] at e3; cases e3
  obtain ⟨_, e4, rfl⟩ := orNode_shape hW ha.isNode h4
  rw [Serialize.valueToNode_node rfl] at e4; cases e4
  rw [eval_fallback hW (proper_fallback ha hb) hc, eval_fallback hW ha (proper_fallback hb hc), eval_fallback hW hb hc]
  unfold orElse
  rw [eval_fallback hW ha hb]
  unfold orElse
  cases eval W a key with
  | ok v => rfl
  | error e => cases e <;> rfl

/-- A merge node without arguments has a value, but `|` (or any other method) cannot take it: `max()` of no depths. -/
theorem C26_no_arguments_false : ∃ (W : World ℕ ℕ) (move : Option Str → Option Str → ℕ → Except Err ℕ) (a b r : Val ℕ) (key : Str) (v : RVal ℕ ℕ),
    Builtin W move ∧ createRecipe W.env "const".toList [] [] = .ok a ∧ eval W a key = .ok v ∧ orNode W.env a b = .ok r ∧
      eval W r key = .error .value :=
  ⟨Ex.W, Ex.move, .merge "const".toList [] [], Ex.f, .merge nFallback [.merge "const".toList [] [], Ex.f] [], "k2".toList, .tensor 5,
    Ex.builtin, by decide +kernel, by decide +kernel, by decide +kernel, by decide +kernel⟩

example : (orNode Ex.W.env Ex.g Ex.f).map (fun r => ["k1", "k2", "k3", "k4"].map fun k => eval Ex.W r k.toList) =
    .ok [.ok (.tensor 10), .ok (.tensor 7), .ok (.tensor 8), .error .stateDictKey] := by decide +kernel
example : Proper Ex.g ∧ Proper Ex.f := ⟨trivial, trivial⟩

/-! ## C27 -/

/-- **C27.**  Of `pick_component(a, c)` and `omit_component(a, c)`, exactly the one responsible for a key passes `a`'s value on and the other
lacks the key; `pick | omit` gives back `a`. -/
theorem C27_partition (hW : Builtin W move) (a p o r : Val F) (c : Str) (ha : Proper a) (cfg : ModelConfig) (comp : Component)
    (hcfg : configOf W a = .ok (some cfg)) (hcomp : cfg.components.get? c = some comp)
    (hp : createRecipe W.env nPick [a, .str c] [] = .ok p) (ho : createRecipe W.env nOmit [a, .str c] [] = .ok o)
    (hr : orNode W.env p o = .ok r) (key : Str) :
    (key ∈ Dict.keys comp → eval W p key = eval W a key ∧ eval W o key = .error .stateDictKey) ∧
    (key ∉ Dict.keys comp → eval W o key = eval W a key ∧ eval W p key = .error .stateDictKey) ∧
    eval W r key = eval W a key := by
  obtain ⟨p2, e1, rfl⟩ := create_two hW.sigPick bind_component ha.isNode hp
  obtain ⟨cp, sp, rfl⟩ := Serialize.valueToNode_lit rfl e1
  obtain ⟨o2, e2, rfl⟩ := create_two hW.sigOmit bind_component ha.isNode ho
  obtain ⟨co, so, rfl⟩ := Serialize.valueToNode_lit rfl e2
  obtain ⟨r2, e3, rfl⟩ := orNode_shape hW rfl hr
  rw [Serialize.valueToNode_node rfl] at e3; cases e3
  have pp : Proper (.merge nPick [a, .lit (.str c) cp sp] []) := by simp [Proper, ProperL, ProperK, ha]
  have po : Proper (.merge nOmit [a, .lit (.str c) co so] []) := by simp [Proper, ProperL, ProperK, ha]
  rw [eval_fallback hW pp po]
  unfold orElse
  rw [eval_component hW.implPick rfl ha, eval_component hW.implOmit rfl ha]
  simp only [pickImpl, omitImpl, componentKeys, hcfg, hcomp]
  by_cases hk : key ∈ Dict.keys comp
  · simp only [hk, if_true, not_true_eq_false, false_implies, true_implies, and_self, true_and]
    cases eval W a key with
    | ok v => rfl
    | error e => cases e <;> rfl
  · simp [hk]

/-- **C27.**  A name that is no component of the config raises a `ValueError` for every key, in both. -/
theorem C27_unknown (hW : Builtin W move) (a p o : Val F) (c : Str) (ha : Proper a) (cfg : ModelConfig)
    (hcfg : configOf W a = .ok (some cfg)) (hcomp : c ∉ Dict.keys cfg.components)
    (hp : createRecipe W.env nPick [a, .str c] [] = .ok p) (ho : createRecipe W.env nOmit [a, .str c] [] = .ok o) (key : Str) :
    eval W p key = .error .value ∧ eval W o key = .error .value := by
  obtain ⟨p2, e1, rfl⟩ := create_two hW.sigPick bind_component ha.isNode hp
  obtain ⟨cp, sp, rfl⟩ := Serialize.valueToNode_lit rfl e1
  obtain ⟨o2, e2, rfl⟩ := create_two hW.sigOmit bind_component ha.isNode ho
  obtain ⟨co, so, rfl⟩ := Serialize.valueToNode_lit rfl e2
  rw [eval_component hW.implPick rfl ha, eval_component hW.implOmit rfl ha]
  have : cfg.components.get? c = none := (Dict.get?_eq_none_iff _ _).2 hcomp
  simp only [pickImpl, omitImpl, componentKeys, hcfg, this, and_self]

example : (createRecipe Ex.W.env nPick [Ex.g, .str "ema".toList] []).map (fun r => ["k2", "k3"].map fun k => eval Ex.W r k.toList) =
    .ok [.error .stateDictKey, .ok (.tensor 8)] := by decide +kernel
example : configOf Ex.W Ex.g = .ok (some Ex.cfg) := by decide +kernel
example : "vae".toList ∉ Dict.keys Ex.cfg.components ∧ (createRecipe Ex.W.env nPick [Ex.g, .str "vae".toList] []).map (fun r => eval Ex.W r "k2".toList) =
    .ok (.error .value) := by decide +kernel

/-! ## C28 -/

/-- **C28.**  If all methods of a recipe look at the current key only, the value for `key` does not change when anything else changes that is not
stored under a name of `key`: other keys of the input files (`read` instead of `W.read`) and other entries of dict literals
(`r` and `r'` agree after removing those). -/
theorem C28_local (r r' : Val F) (read : Str → Str → Except Err T) (key : Str)
    (hm : Methods (fun m => Local (W.impl m)) r) (hm' : Methods (fun m => Local (W.impl m)) r')
    (hread : Models (fun path c => ∀ k ∈ Spec.names W c key, W.read path k = read path k) r)
    (hr : restrict W key r = restrict W key r') : eval W r key = eval (withRead W read) r' key := by
  rw [eval_restrict W read key r hm hread, hr, ← restrict_withRead W read key r']
  exact (eval_restrict (withRead W read) read key r' hm' (models_all (fun _ _ _ _ => rfl) r')).symm

theorem forall2_two {α β : Type} {R : α → β → Prop} {l : List α} {l' : List β} (h : List.Forall₂ R l l') :
    (∃ a b a' b', l = [a, b] ∧ l' = [a', b'] ∧ R a a' ∧ R b b') ∨ ((∀ a b, l ≠ [a, b]) ∧ ∀ a b, l' ≠ [a, b]) := by
  cases h with
  | nil => right; simp
  | cons h1 h =>
    cases h with
    | nil => right; simp
    | cons h2 h =>
      cases h with
      | nil => left; exact ⟨_, _, _, _, rfl, rfl, h1, h2⟩
      | cons h3 h => right; simp

/-- `fallback`, `pick_component` and `omit_component` are such methods. -/
theorem fallback_local : Local (fallbackImpl (F := F) (T := T)) := by
  intro args args' _ _ key h _
  unfold fallbackImpl
  rcases forall2_two h with ⟨a, b, a', b', rfl, rfl, ha, hb⟩ | ⟨h1, h2⟩
  · cases ha with
    | val v => rfl
    | sd ha =>
      cases hb with
      | val v => rfl
      | sd hb => simp only [ha, hb]
  · dsimp only
    split
    · exact absurd rfl (h1 _ _)
    · split
      · exact absurd rfl (h2 _ _)
      · rfl

theorem sum_local : Local Ex.sumImpl := by
  intro args args' _ _ key h _
  unfold Ex.sumImpl
  rcases forall2_two h with ⟨a, b, a', b', rfl, rfl, ha, hb⟩ | ⟨h1, h2⟩
  · cases ha with
    | sd ha => rfl
    | val v =>
      cases hb with
      | val v => rfl
      | sd hb => cases v <;> rfl
  · dsimp only
    split
    · exact absurd rfl (h1 _ _)
    · split
      · exact absurd rfl (h2 _ _)
      · rfl

example : Methods (fun m => Local (Ex.W.impl m)) (.merge "sum".toList [Ex.f, .lit (.dict [("k1".toList, Ex.g), ("k2".toList, .tensor 3)])
    (some "t-c".toList) paramSpace] []) := by
  simp only [Methods, MethodsL, MethodsK, Ex.f, Ex.g, and_true]
  exact sum_local

/-! ## C31 -/

/-- **C31, negation.**  An argument fails with an error that is not a missing key (here error 7), yet the merge node reports a missing key:
the exception of the argument evaluated last wins.  (`merge` then skips the key silently, see `C30_skips`.) -/
theorem C31_masked_false : ∃ (W : World ℕ ℕ) (m : Str) (a b r : Val ℕ) (key : Str) (e : Err), e ≠ .stateDictKey ∧
    createRecipe W.env m [a, b] [] = .ok r ∧ eval W a key = .error e ∧ eval W r key = .error .stateDictKey :=
  ⟨Ex.W, "sum".toList, .merge "boom".toList [Ex.f] [], Ex.g, .merge "sum".toList [.merge "boom".toList [Ex.f] [], Ex.g] [], "k1".toList, .other 7,
    by decide, by decide +kernel, by decide +kernel, by decide +kernel⟩

/-- **C31, the part that holds.**  If an argument passed by value fails, so does the merge node, with the error of one such argument.
So if no argument lacks the key, a real error is reported.  Missing: which one is reported when several fail. -/
theorem C31_error_kept_partial (m : Str) (args : List (Val F)) (kwargs : Dict Str (Val F)) (hc : Call W m args kwargs) (key : Str) (e : Err)
    (h : Fails W m args kwargs key e) :
    ∃ e', Fails W m args kwargs key e' ∧ eval W (.merge m args kwargs) key = .error e' :=
  eval_fails hc ⟨e, h⟩

theorem call_of_two {m : Str} {impl : Impl F T} (himpl : W.impl m = impl) {p q : PTy} (htypes : impl.types = ⟨[p, q], none, []⟩) {a b : Val F}
    (ha : Proper a) (hb : Proper b) : Call W m [a, b] [] := by
  refine ⟨by simp [Dict.keys], ?_, ?_⟩
  · intro idx v h
    cases idx with
    | name k => cases h
    | pos i =>
      have h' : [a, b][i]? = some v := h
      match i, h' with
      | 0, h' => simp at h'; rw [← h']; exact ha
      | 1, h' => simp at h'; rw [← h']; exact hb
      | i + 2, h' => simp at h'
  · intro idx v h
    unfold typeOf
    rw [himpl, htypes]
    cases idx with
    | name k => cases h
    | pos i =>
      have h' : [a, b][i]? = some v := h
      match i, h' with
      | 0, h' => rfl
      | 1, h' => rfl
      | i + 2, h' => simp at h'

example : Call Ex.W "sum".toList [.merge "boom".toList [Ex.f] [], Ex.g] [] ∧
    Fails Ex.W "sum".toList [.merge "boom".toList [Ex.f] [], Ex.g] [] "k2".toList (.other 7) :=
  ⟨call_of_two (impl := Ex.sumImpl) rfl rfl (by simp [Proper, ProperL, ProperK, Ex.f]) trivial,
    .pos 0, _, .tensor, rfl, rfl, by decide +kernel⟩

/-! ## C33 -/

theorem visitKeys_spec {α : Type} (get : Str → Except Err α) (keys : List Str) :
    (∀ pre k post v, keys = pre ++ k :: post → (∀ k' ∈ pre, ∃ e, get k' = .error e ∧ Err.isKeyError e = true) → get k = .ok v →
      visitKeys get keys = .ok v) ∧
    ((∀ k ∈ keys, ∃ e, get k = .error e ∧ Err.isKeyError e = true) → visitKeys get keys = .error .stateDictKey) ∧
    (∀ pre k post e, keys = pre ++ k :: post → (∀ k' ∈ pre, ∃ e, get k' = .error e ∧ Err.isKeyError e = true) → get k = .error e →
      Err.isKeyError e = false → visitKeys get keys = .error e) := by
  induction keys with
  | nil => exact ⟨fun pre k post v h => by simp at h, fun _ => rfl, fun pre k post e h => by simp at h⟩
  | cons k0 ks ih =>
    obtain ⟨i1, i2, i3⟩ := ih
    refine ⟨?_, ?_, ?_⟩
    · intro pre k post v h hpre hk
      cases pre with
      | nil =>
        simp only [List.nil_append, List.cons.injEq] at h
        obtain ⟨rfl, rfl⟩ := h
        cases ks <;> simp [visitKeys, hk]
      | cons p pre =>
        simp only [List.cons_append, List.cons.injEq] at h
        obtain ⟨rfl, h⟩ := h
        obtain ⟨e, he, hke⟩ := hpre k0 (by simp)
        have := i1 pre k post v h (fun k' hk' => hpre k' (by simp [hk'])) hk
        cases ks with
        | nil => simp at h
        | cons k1 ks => rw [visitKeys, he]; simp only [hke, if_true, this]; simp
    · intro h
      obtain ⟨e, he, hke⟩ := h k0 (by simp)
      have := i2 (fun k hk => h k (by simp [hk]))
      cases ks with
      | nil => simp [visitKeys, he, hke]
      | cons k1 ks => rw [visitKeys, he]; simp only [hke, if_true, this]; simp
    · intro pre k post e h hpre hk hnk
      cases pre with
      | nil =>
        simp only [List.nil_append, List.cons.injEq] at h
        obtain ⟨rfl, rfl⟩ := h
        cases ks <;> simp [visitKeys, hk, hnk]
      | cons p pre =>
        simp only [List.cons_append, List.cons.injEq] at h
        obtain ⟨rfl, h⟩ := h
        obtain ⟨e', he, hke⟩ := hpre k0 (by simp)
        have := i3 pre k post e h (fun k' hk' => hpre k' (by simp [hk'])) hk hnk
        cases ks with
        | nil => simp at h
        | cons k1 ks => rw [visitKeys, he]; simp only [hke, if_true, this]; simp

/-- **C33.**  A model's value for a key is the one stored under the first of its names (the key itself, then its aliases in order) that is
present, and the key is missing only if none is; any other error of the file is reported. -/
theorem C33_model (path c : Str) (space : Option Str) (cfg : ModelConfig) (hcfg : W.configs c = some cfg) (key : Str) :
    (∀ pre k post t, key :: (cfg.aliases.get? key).getD [] = pre ++ k :: post →
      (∀ k' ∈ pre, ∃ e, W.read path k' = .error e ∧ Err.isKeyError e = true) → W.read path k = .ok t →
      eval W (.model path (some c) space) key = .ok (.tensor t)) ∧
    ((∀ k ∈ key :: (cfg.aliases.get? key).getD [], ∃ e, W.read path k = .error e ∧ Err.isKeyError e = true) →
      eval W (.model path (some c) space) key = .error .stateDictKey) ∧
    (∀ pre k post e, key :: (cfg.aliases.get? key).getD [] = pre ++ k :: post →
      (∀ k' ∈ pre, ∃ e, W.read path k' = .error e ∧ Err.isKeyError e = true) → W.read path k = .error e → Err.isKeyError e = false →
      eval W (.model path (some c) space) key = .error e) := by
  obtain ⟨h1, h2, h3⟩ := visitKeys_spec (W.read path) (key :: (cfg.aliases.get? key).getD [])
  have hv : visitSd W (W.read path) (some c) key = visitKeys (W.read path) (key :: (cfg.aliases.get? key).getD []) := by
    unfold visitSd; simp only [hcfg]
  refine ⟨?_, ?_, ?_⟩
  · intro pre k post t a b d
    simp only [eval, hv, h1 pre k post t a b d]
  · intro a
    simp only [eval, hv, h2 a]
  · intro pre k post e a b d f
    simp only [eval, hv, h3 pre k post e a b d f]

/-- **C33.**  The same for a mapping given in memory; a node found there is merged for the key asked for. -/
theorem C33_dict (es : Dict Str (Val F)) (c : Str) (space : Str) (cfg : ModelConfig) (hcfg : W.configs c = some cfg) (key : Str) :
    (∀ pre k post v, key :: (cfg.aliases.get? key).getD [] = pre ++ k :: post → (∀ k' ∈ pre, k' ∉ es.keys) → es.get? k = some v →
      eval W (.lit (.dict es) (some c) space) key = eval W v key) ∧
    ((∀ k ∈ key :: (cfg.aliases.get? key).getD [], k ∉ es.keys) →
      eval W (.lit (.dict es) (some c) space) key = .error .stateDictKey) := by
  obtain ⟨get, hget⟩ : ∃ get : Str → Except Err (Str → Res F T), get = fun k => match Dict.get? (evalD W es) k with | some f => .ok f | none => .error .key :=
    ⟨_, rfl⟩
  obtain ⟨h1, h2, _⟩ := visitKeys_spec get (key :: (cfg.aliases.get? key).getD [])
  have hv : visitSd W get (some c) key = visitKeys get (key :: (cfg.aliases.get? key).getD []) := by
    unfold visitSd; simp only [hcfg]
  have heval : eval W (.lit (.dict es) (some c) space) key =
      match visitSd W get (some c) key with | .ok f => f key | .error e => .error e := by rw [eval, hget]; rfl
  have hnone : ∀ k, k ∉ es.keys → ∃ e, get k = .error e ∧ Err.isKeyError e = true := by
    intro k hk
    refine ⟨.key, ?_, rfl⟩
    rw [hget]
    simp only [get?_evalD, (Dict.get?_eq_none_iff es k).2 hk, Option.map_none]
  constructor
  · intro pre k post v a b d
    have := h1 pre k post (eval W v) a (fun k' hk' => hnone k' (b k' hk')) (by rw [hget]; simp only [get?_evalD, d, Option.map_some])
    rw [heval, hv, this]
  · intro a
    rw [heval, hv, h2 (fun k hk => hnone k (a k hk))]

example : Ex.W.read "f".toList "k1".toList = .error .stateDictKey ∧ Ex.W.read "f".toList "k1b".toList = .ok 10 ∧
    eval Ex.W Ex.f "k1".toList = .ok (.tensor 10) := by decide +kernel

/-! ## C35 -/

/-- **C35.**  If all arguments passed by value succeed, the function of the method is called with each of them in its place (mappings unevaluated)
and the merged value does not depend on the order in which they are evaluated. -/
theorem C35_order (m : Str) (args : List (Val F)) (kwargs : Dict Str (Val F)) (hc : Call W m args kwargs) (key : Str)
    (hok : ¬ ∃ e, Fails W m args kwargs key e) :
    (∃ (as : List (Arg F T)) (ks : Str → Option (Arg F T)), as.length = args.length ∧
      (∀ i v, args[i]? = some v → ∃ p a, typeOf W m args.length (.pos i) = some p ∧ as[i]? = some a ∧ Receives W key p v a) ∧
      (∀ k v, kwargs.get? k = some v → ∃ p a, typeOf W m args.length (.name k) = some p ∧ ks k = some a ∧ Receives W key p v a) ∧
      (∀ k, kwargs.get? k = none → ks k = none) ∧
      eval W (.merge m args kwargs) key = (W.impl m).run as ks key) ∧
    ∀ order, order.Perm (evalL W 0 args ++ evalK W kwargs) →
      applyOrdered W.conv (W.impl m) args.length order key = eval W (.merge m args kwargs) key := by
  rw [applyMerge_eq hc]
  refine ⟨apply_ok hc hok (deeperFirst_perm _), ?_⟩
  intro order hp
  have hn := children_nodup W args kwargs hc.names
  obtain ⟨f, hf⟩ : ∃ f : Child F T → Arg F T, f = fun c => (good W.conv ((W.impl m).types.asDict (some args.length)) key c).getD (.val .none) :=
    ⟨_, rfl⟩
  have hg : ∀ c ∈ evalL W 0 args ++ evalK W kwargs, good W.conv ((W.impl m).types.asDict (some args.length)) key c = some (f c) := by
    intro c hcm
    obtain ⟨idx, v, h, rfl⟩ := (mem_children hc.names).1 hcm
    obtain ⟨p, a, _, _, h3⟩ := good_of_no_fail hc hok h
    rw [hf]; simp [h3]
  rw [applyOrdered_good hp hn hg, applyOrdered_good (deeperFirst_perm _) hn hg]

example : eval Ex.W (.merge "sum".toList [Ex.f, .merge "sum".toList [Ex.g, Ex.f] []] []) "k2".toList = .ok (.tensor 47) := by decide +kernel

end Verif.Eval
