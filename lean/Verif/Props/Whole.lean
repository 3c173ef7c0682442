import Verif.Proofs.Whole
import Verif.Props.Threads
import Verif.Props.Serialize

/-!
# A merge from its arguments to the file (C99)

`final W move tensors enc o r fb key` is what a merge with options `o` of the recipe `r` should store for `key`, where `fb` is the fallback model:
see `Verif/Spec/Whole.lean`.
-/
namespace Verif.Whole
open Method Recipe Config Eval Eval.Spec Program Program.Spec Spec
open Threads (fileProgram)
open Threads.Spec (Runs Opened stored)
open StreamOut (Tensor)
variable {F : Type}

/-- A call of `merge` with `n` threads that returned: the inputs are `opened`, and the keys are merged in any interleaving. -/
structure Returns (V : Type) (start : Val F → Str → Prog Tensor (Except Err V)) (P : PWorld F Tensor) (o : Options F)
    (opened : Str → Option StreamIn.State) (recipe : Val F) (n : ℕ) where
  original : Val F
  merged : Val F
  keys : List Str
  stores : List (Str × V)
  prepared : prepare P.env o recipe = .ok (original, merged)
  planned : plan (world P (stored opened)) o merged = .ok keys
  ran : Runs n (start merged) opened keys stores .returned

/-- A call that wrote `file`: the assignments are made by threads that write in any interleaving, then the file is closed. -/
structure Saves (P : PWorld F Tensor) (N : Serialize.Num F) (o : Options F) (opened : Str → Option StreamIn.State) (recipe : Val F) (n : ℕ)
    (file : Bytes) extends Returns Tensor (fileProgram P) P o opened recipe n where
  text : Option Str
  declared : Dict Key StreamOut.Meta
  minBuf : ℕ
  cap : ℕ
  actions : List StreamOut.Action
  writer : StreamOut.State
  serialized : recipeText N original = .ok text
  wrote : StreamOut.run (StreamOut.init declared text minBuf cap) actions = some writer
  quiet : StreamOut.Spec.Quiescent writer
  assigned : (StreamOut.Spec.stored actions).Perm stores
  complete : StreamOut.Spec.Complete declared text minBuf cap (StreamOut.Spec.stored actions)
  closed : StreamOut.close writer = .ok file

/-- What is asked of the options: dtypes that `cast` knows, and `Tensor.to` raises no `KeyError`. -/
structure Sane (move : Option Str → Option Str → Tensor → Except Err Tensor) (o : Options F) : Prop where
  mergeDtype : ∀ s, o.mergeDtype = some s → s ∈ dtypeNames
  outputDtype : ∀ s, o.outputDtype = some s → s ∈ dtypeNames
  move : ∀ x e, move o.mergeDevice o.mergeDtype x = .error e → Err.isKeyError e = false

theorem plan_ok {T : Type} {W : World F T} {o : Options F} {r : Val F} {keys : List Str} (h : plan W o r = .ok keys) :
    (o.strict = true → r.space W.env = .ok (some weight)) ∧ ∃ cfg, configOf W r = .ok (some cfg) ∧ keys = Merge.targetKeys cfg o.omitEma := by
  have hk : ∀ {keys}, Merge.recipeKeys W r o.omitEma = .ok keys → ∃ cfg, configOf W r = .ok (some cfg) ∧ keys = Merge.targetKeys cfg o.omitEma := by
    intro keys h
    unfold Merge.recipeKeys at h
    split at h
    · cases h
    · cases h
    · rename_i cfg hc
      exact ⟨cfg, hc, (Except.ok.inj h).symm⟩
  unfold plan at h
  split_ifs at h with hs
  · split at h
    · cases h
    · cases h
    · rename_i s hsp
      split_ifs at h with hw
      have : s = weight := by by_contra hn; exact hw hn
      subst this
      exact ⟨fun _ => hsp, hk h⟩
  · exact ⟨fun h' => absurd h' hs, hk h⟩

theorem prepare_node {E : Env F} {o : Options F} {recipe original r : Val F} (this : prepare E o recipe = .ok (original, r)) :
    valueToNode E recipe = .ok original := by
  unfold prepare at this
  cases h0 : valueToNode E recipe with
  | error e => rw [h0] at this; cases this
  | ok r =>
    rw [h0] at this
    have h : (withFallback E o r).bind _ = _ := this
    cases h1 : withFallback E o r with
    | error e => rw [h1] at h; cases h
    | ok r1 =>
      rw [h1] at h
      have h : (withInputs E o r1).bind _ = _ := h
      cases h2 : withInputs E o r1 with
      | error e => rw [h2] at h; cases h
      | ok r2 =>
        rw [h2] at h
        have h : (withOutput E o r2).bind _ = _ := h
        cases h3 : withOutput E o r2 with
        | error e => rw [h3] at h; cases h
        | ok r3 => rw [h3] at h; rw [(Prod.mk.inj (Except.ok.inj h)).1]

/-- **C99** for a file.  If `merge` returns, the file opens; its header keeps the recipe that was asked for (not the one with fallback and casts);
it lists the keys of the recipe's config, without those of the ema component if asked to omit them, that have a value; and each reads back as the
value of the recipe - computed on inputs that were cast beforehand, completed by the fallback model, and moved to the output device and dtype.
With `strict_weight_space` the recipe and the fallback model are in weight space. -/
theorem C99_file_partial (P : PWorld F Tensor) (move : Option Str → Option Str → Tensor → Except Err Tensor) (hP : Registered P move)
    (N : Serialize.Num F) (o : Options F) (ho : Sane move o) (opened : Str → Option StreamIn.State) (hop : Opened opened)
    (recipe : Val F) (n : ℕ) (file : Bytes) (m : Saves P N o opened recipe n file) (tensors : ℕ → Tensor) (enc : Val F → ℕ)
    (hr : ∀ r, valueToNode P.env recipe = .ok r → Fits (world P (stored opened)) move tensors enc o r)
    (hfb : ∀ b b', o.fallback = some b → valueToNode P.env b = .ok b' → Fits (world P (stored opened)) move tensors enc o b')
    (hmeta : metadataKey ∉ m.keys)
    (hwf : ∀ r fb k t, valueToNode P.env recipe = .ok r → IsFallback P.env o fb → k ∈ m.keys →
      final (world P (stored opened)) move tensors enc o r fb k = .ok (.tensor t) → StreamOut.Spec.Tensor.WF t)
    (bs rcap : ℕ) (hbs : bs ≤ rcap)
    (hrc : ∀ r fb k t, valueToNode P.env recipe = .ok r → IsFallback P.env o fb → k ∈ m.keys →
      final (world P (stored opened)) move tensors enc o r fb k = .ok (.tensor t) → t.bytes.length ≤ rcap) :
    ∃ r fb cfg s0, valueToNode P.env recipe = .ok r ∧ IsFallback P.env o fb ∧ HasConfig (world P (stored opened)) r fb cfg ∧
      (o.strict = true → r.space P.env = .ok (some weight) ∧ ∀ b, fb = some b → b.space P.env = .ok (some weight)) ∧
      StreamIn.open_ file bs rcap = .ok s0 ∧
      s0.header.get? metadataKey = some (.metadata (match Serialize.serialize N r with | .ok t => [("mecha_recipe".toList, t)] | .error _ => [])) ∧
      (∀ k, k ∈ StreamIn.keys s0 ↔ Wanted cfg o k ∧ ∃ t, final (world P (stored opened)) move tensors enc o r fb k = .ok (.tensor t)) ∧
      ∀ k t, Wanted cfg o k → final (world P (stored opened)) move tensors enc o r fb k = .ok (.tensor t) → ∀ history : List Key, ∃ s1 v,
        StreamIn.getItem (StreamIn.run s0 (history.map .load)).st k = (s1, .ok v) ∧
        v.dtype = t.dtype ∧ v.shape = t.shape ∧ s1.read v = t.bytes := by
  have hW := builtin hP (stored opened)
  have hv := prepare_node m.prepared
  obtain ⟨_, fb, f1, f2⟩ := facts hW ho.mergeDtype ho.outputDtype ho.move m.prepared (hr _ hv) hfb
  obtain ⟨p1, cfg, p2, p3⟩ := plan_ok m.planned
  have hev : eval (world P (stored opened)) m.merged = final (world P (stored opened)) move tensors enc o m.original fb := funext f2.eval
  obtain ⟨s0, g1, g2, g3, g4⟩ := Threads.C98_file P m.merged opened hop m.keys (by rw [p3]; exact Merge.targetKeys_nodup _ _) hmeta n m.stores m.ran
    m.declared m.text m.minBuf m.cap m.actions m.writer file m.wrote m.quiet m.assigned m.complete m.closed
    (fun k t hk h => hwf _ fb k t hv f1 hk (by rw [← hev]; exact h)) bs rcap hbs (fun k t hk h => hrc _ fb k t hv f1 hk (by rw [← hev]; exact h))
  have hw : ∀ k, k ∈ m.keys ↔ Wanted cfg o k := by
    intro k
    rw [p3, Merge.mem_targetKeys]
    rfl
  rw [hev] at g2 g4
  refine ⟨m.original, fb, cfg, s0, hv, f1, f2.config cfg p2, fun hs => f2.space weight (p1 hs), g1, ?_, ?_, ?_⟩
  · rw [g3]
    have := m.serialized
    unfold recipeText at this
    cases hser : Serialize.serialize N m.original with
    | ok t => rw [hser] at this; rw [← Except.ok.inj this]; rfl
    | error e =>
      rw [hser] at this
      cases e with
      | type => rw [← Except.ok.inj this]; rfl
      | _ => cases this
  · intro k
    rw [g2, hw]
  · intro k t hk h
    exact g4 k t ((hw k).2 hk) h

/-- **C99** for a mapping in memory that is updated. -/
theorem C99_memory_partial (P : PWorld F Tensor) (move : Option Str → Option Str → Tensor → Except Err Tensor) (hP : Registered P move)
    (o : Options F) (ho : Sane move o) (opened : Str → Option StreamIn.State) (hop : Opened opened)
    (recipe : Val F) (n : ℕ) (m : Returns (RVal F Tensor) (program P) P o opened recipe n) (tensors : ℕ → Tensor) (enc : Val F → ℕ)
    (hr : ∀ r, valueToNode P.env recipe = .ok r → Fits (world P (stored opened)) move tensors enc o r)
    (hfb : ∀ b b', o.fallback = some b → valueToNode P.env b = .ok b' → Fits (world P (stored opened)) move tensors enc o b')
    (out : Dict Str (RVal F Tensor)) :
    ∃ r fb cfg, valueToNode P.env recipe = .ok r ∧ IsFallback P.env o fb ∧ HasConfig (world P (stored opened)) r fb cfg ∧
      (o.strict = true → r.space P.env = .ok (some weight) ∧ ∀ b, fb = some b → b.space P.env = .ok (some weight)) ∧
      ∀ k, (∀ v, Wanted cfg o k → final (world P (stored opened)) move tensors enc o r fb k = .ok v →
          (Merge.finalOutput out m.stores).get? k = some v) ∧
        (¬ (Wanted cfg o k ∧ ∃ v, final (world P (stored opened)) move tensors enc o r fb k = .ok v) →
          (Merge.finalOutput out m.stores).get? k = out.get? k) ∧
        (Wanted cfg o k → ∀ e, final (world P (stored opened)) move tensors enc o r fb k = .error e → e = .stateDictKey) := by
  have hW := builtin hP (stored opened)
  have hv := prepare_node m.prepared
  obtain ⟨_, fb, f1, f2⟩ := facts hW ho.mergeDtype ho.outputDtype ho.move m.prepared (hr _ hv) hfb
  obtain ⟨p1, cfg, p2, p3⟩ := plan_ok m.planned
  have hw : ∀ k, k ∈ m.keys ↔ Wanted cfg o k := by
    intro k
    rw [p3, Merge.mem_targetKeys]
    rfl
  have hk : m.keys.Nodup := by rw [p3]; exact Merge.targetKeys_nodup _ _
  have hrun := Threads.C98_threads P m.merged opened hop m.keys hk n m.stores .returned m.ran
  refine ⟨m.original, fb, cfg, hv, f1, f2.config cfg p2, fun hs => f2.space weight (p1 hs), fun k => ?_⟩
  obtain ⟨h1, h2⟩ := Merge.C30_returned _ m.keys hk n m.stores hrun out k
  unfold Merge.Spec.expected at h1
  rw [f2.eval k] at h1 h2
  refine ⟨fun v hwk hv => ?_, fun hn => ?_, fun hwk => h2 ((hw k).2 hwk)⟩
  · rw [h1, if_pos ((hw k).2 hwk), hv]
  · rw [h1]
    split_ifs with hwk
    · cases he : final (world P (stored opened)) move tensors enc o m.original fb k with
      | ok v => exact absurd ⟨(hw k).1 hwk, v, he⟩ hn
      | error e => rfl
    · rfl

/-- **C99.**  For a recipe of the class of C13, the text in the file reads back as the recipe that was asked for. -/
theorem C99_recipe_partial (N : Serialize.Num F) (E : Env F) (r : Val F) (h : Serialize.Spec.RT N E r) (hn : r.isNode = true) :
    ∃ text, (match Serialize.serialize N r with | .ok t => [("mecha_recipe".toList, t)] | .error _ => []) = [("mecha_recipe".toList, text)] ∧
      Serialize.deserialize N E text = .ok r := by
  obtain ⟨text, h1, h2⟩ := Serialize.C13_roundtrip_partial N E r h hn
  exact ⟨text, by rw [h1], h2⟩

/-! ## An example

`merge(pick_component(f, "main"), fallback_model={"b": ..., "c": ..., "e": ...}, merge_dtype=int8, output_dtype=uint8, omit_ema=True)`, where the file
`f` holds `a` and `b`, the component `main` has the keys `a` and `c`, and casting to `int8` replaces large numbers by 2. -/

namespace Ex

def small (x : Tensor) : Tensor := ⟨.i8, x.shape, x.bytes.map fun b => if b < 2 then b else 2⟩

def int8 : Str := "int8".toList
def uint8 : Str := "uint8".toList

def move (_ : Option Str) (t : Option Str) (x : Tensor) : Except Err Tensor :=
  match t with
  | none => .ok x
  | some t => if t = int8 then .ok (small x) else if t = uint8 then .ok ⟨.u8, x.shape, x.bytes⟩ else .error .runtime

def entry : KeyMeta := ⟨none, none, [], false⟩

def cfg : ModelConfig := ⟨"t-c".toList, [("main".toList, [("a".toList, entry), ("c".toList, entry)]), ("other".toList, [("b".toList, entry)]),
  ("ema".toList, [("e".toList, entry)])]⟩

def P : PWorld (Option Int) Tensor where
  env := ⟨[(nFallback, fallbackSig), (nCast, castSig), (nPick, componentSig), (nOmit, componentSig)], ["t-c".toList], allSpaces, id⟩
  conv := ⟨fun _ => .error .value, fun _ => .error .value, fun _ => .error .type⟩
  tensors i := if i = 0 then StreamOut.exT [9, 0] else StreamOut.exT [7]
  configs c := if c = "t-c".toList then some cfg else none
  source m := if m = nFallback then fallbackSource else if m = nCast then castSource move else if m = nPick then pickSource else omitSource

theorem registered : Registered P move := by constructor <;> rfl

def f : Val (Option Int) := .model "f".toList (some "t-c".toList) (some "weight".toList)

def recipe : Val (Option Int) := .merge nPick [f, .lit (.str "main".toList) none "param".toList] []

def fb : Val (Option Int) :=
  .lit (.dict [("b".toList, .tensor 0), ("c".toList, .tensor 1), ("e".toList, .tensor 0)]) (some "t-c".toList) "weight".toList

def o : Options (Option Int) := ⟨some fb, none, some int8, none, some uint8, true, true⟩

def merged : Val (Option Int) := match prepare P.env o recipe with | .ok p => p.2 | .error _ => .none

def keys : List Str := ["a".toList, "c".toList, "b".toList]

def W : World (Option Int) Tensor := world P (stored Threads.Ex.opened)

theorem prepared : prepare P.env o recipe = .ok (recipe, merged) := by decide +kernel

theorem planned : plan W o merged = .ok keys := by decide +kernel

/-- Two threads: `a` holds the lock on the file while `c` starts. -/
def moves : List Threads.Ex.Move :=
  [.submit, .submit, .submit, .start, .start] ++ ["a", "a", "c", "a", "a", "c", "a", "a", "a", "a", "a", "a"].map (fun k => .job k.toList) ++
    [.start, .job "b".toList] ++ keys.map .see

def stores : List (Str × Tensor) := [("c".toList, StreamOut.exT [2]), ("a".toList, StreamOut.exT [1, 2, 2]), ("b".toList, StreamOut.exT [2, 0])]

theorem ran : Runs 2 (fileProgram P merged) Threads.Ex.opened keys stores .returned := by
  have h : (Threads.Ex.driveAll 2 (fileProgram P merged) (Threads.init keys Threads.Ex.opened Threads.Ex.none_) moves).map
      (fun t => (t.base.over, t.base.stores)) = some (some .returned, stores) := by decide +kernel
  obtain ⟨t, ht, he⟩ := Option.map_eq_some_iff.1 h
  exact ⟨_, t, Threads.Ex.driveAll_steps moves (.refl _) ht, (Prod.mk.inj he).1, (Prod.mk.inj he).2⟩

def text : Str := "version 0.1.0
model \"f\" model_config=\"t-c\" merge_space=\"weight\"
merge \"pick_component\" &0 \"main\"".toList

def declared : Dict Key StreamOut.Meta := keys.map fun k => (k, ⟨none, none⟩)

def actions : List StreamOut.Action :=
  [.begin 1 "c".toList (StreamOut.exT [2]), .begin 2 "a".toList (StreamOut.exT [1, 2, 2]), .locked 2, .finish 2, .begin 1 "b".toList (StreamOut.exT [2, 0]), .locked 1, .finish 1]

def writer : StreamOut.State :=
  (StreamOut.run (StreamOut.init declared (some text) 2 10000) actions).getD (StreamOut.init declared (some text) 2 10000)

def file : Bytes := match StreamOut.close writer with | .ok f => f | .error _ => []

def saves : Saves P Serialize.Ex.num o Threads.Ex.opened recipe 2 file where
  original := recipe
  merged := merged
  keys := keys
  stores := stores
  prepared := prepared
  planned := planned
  ran := ran
  text := some text
  declared := declared
  minBuf := 2
  cap := 10000
  actions := actions
  writer := writer
  serialized := by decide +kernel
  wrote := by decide +kernel
  quiet := by unfold StreamOut.Spec.Quiescent; decide +kernel
  assigned := by decide +kernel
  complete := ⟨by decide, by decide +kernel, by decide, by decide +kernel⟩
  closed := by decide +kernel

def tensors (i : ℕ) : Tensor := small (P.tensors i)

def enc : Val (Option Int) → ℕ
  | .tensor i => i
  | _ => 0

theorem fits_recipe : Fits W move tensors enc o recipe := by
  refine ⟨by simp [recipe, f, Proper, ProperL, ProperK], fun _ => ?_⟩
  have t0 : typeOf W nPick 2 (.pos 0) = some (.sd .typeVar) := by decide +kernel
  have t1 : typeOf W nPick 2 (.pos 1) = some (.val .str) := by decide +kernel
  unfold recipe
  rw [Castable]
  refine ⟨⟨by simp [Dict.keys], ?_, ?_⟩, ?_, ?_, by rw [CastableK]; trivial⟩
  · intro idx v h
    rcases arg2 h with ⟨_, rfl⟩ | ⟨_, rfl⟩ <;> simp [f, Proper]
  · intro idx v h
    rcases arg2 h with ⟨rfl, _⟩ | ⟨rfl, _⟩
    · simp only [List.length_cons, List.length_nil]; rw [t0]; rfl
    · simp only [List.length_cons, List.length_nil]; rw [t1]; rfl
  · rintro key e e' ⟨idx, v, ty, h1, h2, h3⟩ _
    rw [precastL, precastL, precastL, precastK] at h1
    rw [precastL, precastL, precastL] at h2
    simp only [List.length_cons, List.length_nil] at h2
    rcases arg2 h1 with ⟨rfl, _⟩ | ⟨rfl, hv⟩
    · have h3 : typeOf W nPick 2 (.pos 0) = some (.val ty) := h2
      rw [t0] at h3; cases h3
    · have h4 : typeOf W nPick 2 (.pos 1) = some (.val ty) := h2
      rw [t1] at h4; cases h4
      rw [precast] at hv
      · subst hv
        simp [castRun, isScalar, eval, castTo, RVal.isInstance] at h3
      · simp
  · rw [CastableL, CastableL, CastableL, f, Castable, Castable]
    · exact ⟨trivial, ⟨rfl, by simp [isScalar]⟩, trivial⟩
    · simp

theorem fits_fb : Fits W move tensors enc o fb := by
  refine ⟨trivial, fun _ => ?_⟩
  have hs : ∀ i, CastScalar W (move o.mergeDevice o.mergeDtype) tensors enc (.tensor i) := fun i =>
    ⟨.tensor (P.tensors i), P.tensors i, fun _ => by simp [eval]; rfl, by simp [castTo, RVal.isInstance], rfl⟩
  unfold fb
  rw [Castable, CastableD, CastableD, CastableD, CastableD, Castable, Castable]
  · exact ⟨rfl, .inl (by decide), fun _ => hs 0, trivial, fun _ => hs 1, trivial, fun _ => hs 0, trivial, trivial⟩
  all_goals simp

theorem fallback_is {fb' : Option (Val (Option Int))} (h : IsFallback P.env o fb') : fb' = some fb := by
  obtain ⟨b', h1, h2⟩ := h
  have : valueToNode P.env fb = .ok fb := rfl
  rw [this] at h1
  rw [h2, ← Except.ok.inj h1]

theorem values (k : Str) (hk : k ∈ keys) : ∃ t, final W move tensors enc o recipe (some fb) k = .ok (.tensor t) ∧ (k, t) ∈ stores := by
  have h : ∀ k ∈ keys, ∀ t, eval W merged k = .ok (.tensor t) → final W move tensors enc o recipe (some fb) k = .ok (.tensor t) := by
    intro k _ t ht
    obtain ⟨_, fb', h1, h2⟩ := facts (builtin registered _) (o := o) (tensors := tensors) (enc := enc) (by decide) (by decide)
      (fun x e h => by simp [move, o] at h) prepared fits_recipe
      (fun b b' hb hb' => by cases hb; cases hb'; exact fits_fb)
    rw [fallback_is h1] at h2
    exact (h2.eval k).symm.trans ht
  have hv : ∀ p ∈ stores, Program.Spec.value (stored Threads.Ex.opened) (program P merged p.1) = .ok (.tensor p.2) := by decide +kernel
  have hmem : ∀ k ∈ keys, ∃ p ∈ stores, p.1 = k := by decide +kernel
  obtain ⟨p, hp, rfl⟩ := hmem k hk
  refine ⟨p.2, h p.1 hk p.2 ?_, hp⟩
  rw [← hv p hp, program_value]
  rfl

example : ∃ s0, StreamIn.open_ file 2 1000 = .ok s0 ∧ s0.header.get? metadataKey = some (.metadata [("mecha_recipe".toList, text)]) ∧
    Serialize.deserialize Serialize.Ex.num P.env text = .ok recipe ∧
    (∀ k, k ∈ StreamIn.keys s0 ↔ k ∈ keys) ∧ ∃ s1 v, StreamIn.getItem s0 "a".toList = (s1, .ok v) ∧ s1.read v = [1, 2, 2] := by
  have hv : ∀ fb' k t, IsFallback P.env o fb' → k ∈ keys → final W move tensors enc o recipe fb' k = .ok (.tensor t) → (k, t) ∈ stores := by
    intro fb' k t h hk ht
    rw [fallback_is h] at ht
    obtain ⟨t', h1, h2⟩ := values k hk
    rw [h1] at ht
    cases ht
    exact h2
  have hkeys : ∀ k, Wanted cfg o k ↔ k ∈ keys := by
    intro k
    rw [show keys = Merge.targetKeys cfg o.omitEma by decide +kernel, Merge.mem_targetKeys]
    rfl
  obtain ⟨r, fb', cfg', s0, h1, h2, h3, _, h5, h6, h7, h8⟩ := C99_file_partial P move registered Serialize.Ex.num o
    ⟨by decide, by decide, fun x e h => by simp [move, o] at h⟩ Threads.Ex.opened Threads.Ex.opened_ok recipe 2 file saves tensors enc
    (fun r h => by cases h; exact fits_recipe) (fun b b' hb hb' => by cases hb; cases hb'; exact fits_fb) (by decide)
    (fun r fb' k t h h' hk ht => by
      cases h
      have : ∀ p ∈ stores, StreamOut.Spec.Tensor.WF p.2 := by decide
      exact this _ (hv fb' k t h' hk ht))
    2 1000 (by decide)
    (fun r fb' k t h h' hk ht => by
      cases h
      have : ∀ p ∈ stores, p.2.bytes.length ≤ 1000 := by decide
      exact this _ (hv fb' k t h' hk ht))
  obtain rfl : recipe = r := Except.ok.inj h1
  obtain rfl := fallback_is h2
  have hc : configOf W recipe = .ok (some cfg) := by decide +kernel
  obtain rfl : cfg = cfg' := by
    rcases h3 with h3 | ⟨h3, _⟩
    · exact Option.some.inj (Except.ok.inj (hc.symm.trans h3))
    · exact absurd (hc.symm.trans h3) (by simp)
  refine ⟨s0, h5, ?_, by decide +kernel, fun k => ?_, ?_⟩
  · rw [h6, show Serialize.serialize Serialize.Ex.num recipe = .ok text by decide +kernel]
  · rw [h7, hkeys]
    exact ⟨fun h => h.1, fun h => ⟨h, (values k h).imp fun _ h => h.1⟩⟩
  · obtain ⟨t, ht, hm⟩ := values "a".toList (by decide)
    obtain ⟨s1, v, g1, _, _, g2⟩ := h8 "a".toList t ((hkeys _).2 (by decide)) ht []
    refine ⟨s1, v, g1, ?_⟩
    rw [g2]
    have : ∀ p ∈ stores, p.1 = "a".toList → p.2.bytes = [1, 2, 2] := by decide
    exact this _ hm rfl

/-- In memory; the output had an entry before. -/
def returns : Returns (RVal (Option Int) Tensor) (program P) P o Threads.Ex.opened recipe 2 where
  original := recipe
  merged := merged
  keys := keys
  stores := stores.map fun p => (p.1, .tensor p.2)
  prepared := prepared
  planned := planned
  ran := by
    have h : (Threads.Ex.driveAll 2 (program P merged) (Threads.init keys Threads.Ex.opened Threads.Ex.none_) moves).map
        (fun t => (t.base.over, t.base.stores)) = some (some .returned, stores.map fun p => (p.1, .tensor p.2)) := by decide +kernel
    obtain ⟨t, ht, he⟩ := Option.map_eq_some_iff.1 h
    exact ⟨_, t, Threads.Ex.driveAll_steps moves (.refl _) ht, (Prod.mk.inj he).1, (Prod.mk.inj he).2⟩

example := C99_memory_partial P move registered o ⟨by decide, by decide, fun x e h => by simp [move, o] at h⟩ Threads.Ex.opened Threads.Ex.opened_ok recipe 2
  returns tensors enc (fun r h => by cases h; exact fits_recipe) (fun b b' hb hb' => by cases hb; cases hb'; exact fits_fb) [("e".toList, .int 3)]

example : Serialize.Spec.RT Serialize.Ex.num P.env recipe := by
  unfold recipe Serialize.Spec.RT
  refine ⟨by decide, by decide, by decide, by decide, ?_, by simp [Serialize.Spec.RTKA], by decide +kernel⟩
  rw [Serialize.RTL_cons, Serialize.RTL_cons]
  refine ⟨⟨?_, trivial⟩, ⟨?_, by show '=' ∉ "main".toList; decide⟩, by simp [Serialize.Spec.RTL]⟩
  · unfold f Serialize.Spec.raw Serialize.Spec.RT
    refine ⟨by decide, by decide, rfl, ?_, _, rfl, by decide, by decide⟩
    intro x hx; cases hx; decide
  · unfold Serialize.Spec.raw Serialize.Spec.RT; decide

end Ex

end Verif.Whole
