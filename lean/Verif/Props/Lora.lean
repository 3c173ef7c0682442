import Verif.Proofs.Lora
import Verif.Props.Registered
import Verif.Props.Readme

/-!
# Merging a LoRA into a model (C106)

`merge(add_difference(base, convert(lora, base), alpha=x), output=file)` as in examples/lora_merge.py, with and without `fallback_model=base`.
`held opened cfg p k` is the tensor that the file `p` has for the key `k` of the config; `parts` are the three tensors of the module of a key.
-/
namespace Verif.Lora
open Method Recipe Config Eval Eval.Spec Program Program.Spec Whole Whole.Spec Ieee Ieee.Spec Spec Shipped
open Readme (Torch alpha64 alphaTensor defaults move64 move16 cast_back)
open Readme.Spec (held)
open Threads.Spec (stored Opened)
open StreamOut (Tensor)

section
variable {F : Type}

/-- Arithmetic of torch on float64 tensors: what the conversion computes, and `addcmul` -/
structure Kernels where
  compose : Tensor → Tensor → Tensor → Except Err Tensor
  addcmul : Tensor → Tensor → Tensor → Except Err Tensor

/-- The base model -/
def base (pa c : Str) : Val F := .model pa (some c) (some weight)

/-- The recipe `add_difference(base, convert(lora, base), alpha=x)` -/
def recipe (conv pa pl c cl : Str) (x : F) : Val F :=
  .merge nAdd [base pa c, .merge conv [.model pl (some cl) (some weight)] [], .lit (.float x) none "param".toList] []

/-- The options of a merge that gives none but, possibly, the fallback model -/
def opts (fb : Option (Val F)) : Options F := { (defaults (F := F)) with fallback := fb }

/-- A tensor cast to float64 -/
def wide (T : Torch) (t : Tensor) : Tensor := Ieee.cast T.other .f64 t

/-- The library with its builtin methods and conversions, a float16 model and a LoRA whose layers have the shapes of those of the model.  `num x` is the
number a python float is. -/
structure Scene (T : Torch) (K : Kernels) (P : PWorld F Tensor) (num : F → FV) (one : F) (opened : Str → Option StreamIn.State) (bases : List Text)
    (s : Lycoris.State) (conv c cl : Str) (cfg cfgL : ModelConfig) (pa pl : Str) (x : F) (rcap : ℕ) : Prop where
  registered : Registered P (move T.other)
  add : P.source nAdd = addSource K.addcmul
  addSig : P.env.resolve nAdd = .ok (addSig one)
  lora : P.source conv = loraSource s K.compose
  loraSig : P.env.resolve conv = .ok (loraSig cl c)
  nonempty : bases ≠ []
  imported : Lycoris.register bases = some s
  tensor : ∀ x, P.conv.toTensor (.float x) = .ok (alphaTensor (num x))
  files : Opened opened
  a : opened pa ≠ none
  l : opened pl ≠ none
  config : P.configs c = some cfg
  configLora : P.configs cl = some cfgL
  names : ∀ k, Wanted cfg (defaults (F := F)) k → k ≠ metadataKey
  half : ∀ k u, Wanted cfg (defaults (F := F)) k → held opened cfg pa k = some u → u.dtype = .f16 ∧ 2 * numel u.shape ≤ rcap
  layers : ∀ k u al dn up, Wanted cfg (defaults (F := F)) k → held opened cfg pa k = some u → parts (held opened cfgL pl) k = some (al, dn, up) →
    ∃ d y, K.compose (wide T al) (wide T dn) (wide T up) = .ok d ∧ K.addcmul (wide T u) d (alpha64 T (num x)) = .ok y ∧ y.dtype = .f64 ∧ y.shape = u.shape

variable {T : Torch} {K : Kernels} {P : PWorld F Tensor} {num : F → FV} {one : F} {opened : Str → Option StreamIn.State} {bases : List Text}
  {s : Lycoris.State} {conv c cl : Str} {cfg cfgL : ModelConfig} {pa pl : Str} {x : F} {rcap : ℕ}

theorem Scene.fits (S : Scene T K P num one opened bases s conv c cl cfg cfgL pa pl x rcap) (fb : Option (Val F)) :
    Fits (world P (stored opened)) (move T.other) (fun _ => alpha64 T (num x)) (fun _ => 0) (opts fb) (recipe conv pa pl c cl x) := by
  refine ⟨by simp [recipe, base, Proper, ProperL, ProperK], fun _ => ?_⟩
  have hty : ∀ W : World F Tensor, W.impl nAdd = impl (P.source nAdd) → typeOf W nAdd 3 (.pos 0) = some (.sd .tensor) ∧
      typeOf W nAdd 3 (.pos 1) = some (.sd .tensor) ∧ typeOf W nAdd 3 (.pos 2) = some (.val .tensor) := by
    intro W hW
    unfold typeOf
    rw [hW, S.add]
    exact ⟨rfl, rfl, rfl⟩
  have hty' : ∀ W : World F Tensor, W.impl conv = impl (P.source conv) → typeOf W conv 1 (.pos 0) = some (.sd .tensor) := by
    intro W hW
    unfold typeOf
    rw [hW, S.lora]
    rfl
  obtain ⟨t0, t1, t2⟩ := hty (world P (stored opened)) rfl
  obtain ⟨s0, s1, s2⟩ := hty (castWorld (world P (stored opened)) (move T.other (opts fb).mergeDevice (opts fb).mergeDtype) fun _ => alpha64 T (num x)) rfl
  have u0 := hty' (world P (stored opened)) rfl
  have u1 := hty' (castWorld (world P (stored opened)) (move T.other (opts fb).mergeDevice (opts fb).mergeDtype) fun _ => alpha64 T (num x)) rfl
  have arg1 : ∀ {a v : Val F} {idx : Idx}, ArgAt [a] [] idx v → idx = .pos 0 ∧ v = a := by
    intro a v idx h
    cases idx with
    | name k => cases h
    | pos i =>
      have h' : [a][i]? = some v := h
      match i, h' with
      | 0, h' => simp at h'; exact ⟨rfl, h'.symm⟩
      | i + 1, h' => simp at h'
  unfold recipe base
  rw [Castable]
  refine ⟨⟨by simp [Dict.keys], ?_, ?_⟩, ?_, ?_, by rw [CastableK]; trivial⟩
  · intro idx v h
    rcases Readme.arg3 h with ⟨_, rfl⟩ | ⟨_, rfl⟩ | ⟨_, rfl⟩ <;> simp [Proper, ProperL, ProperK]
  · intro idx v h
    simp only [List.length_cons, List.length_nil]
    rcases Readme.arg3 h with ⟨rfl, _⟩ | ⟨rfl, _⟩ | ⟨rfl, _⟩
    · rw [t0]; rfl
    · rw [t1]; rfl
    · rw [t2]; rfl
  · rintro key e e' ⟨idx, v, ty, h1, h2, h3⟩ _
    exfalso
    rw [precastL, precastL, precastL, precastL, precastK] at h1
    rw [precastL, precastL, precastL, precastL] at h2
    simp only [List.length_cons, List.length_nil] at h2
    rcases Readme.arg3 h1 with ⟨rfl, _⟩ | ⟨rfl, _⟩ | ⟨rfl, hv⟩
    · rw [s0] at h2; cases h2
    · rw [s1] at h2; cases h2
    · rw [s2] at h2; cases h2
      rw [precast] at hv
      · subst hv
        simp [castRun, isScalar, eval, castTo, RVal.isInstance] at h3
      · simp
  · rw [CastableL, CastableL, CastableL, CastableL, Castable, Castable, Castable]
    · refine ⟨trivial, ⟨⟨by simp [Dict.keys], ?_, ?_⟩, ?_, ?_, by rw [CastableK]; trivial⟩,
        ⟨rfl, fun _ => ⟨.float x, alphaTensor (num x), fun _ => by rw [eval], ?_, move64 T _⟩⟩, trivial⟩
      · intro idx v h
        obtain ⟨_, rfl⟩ := arg1 h
        simp [Proper]
      · intro idx v h
        obtain ⟨rfl, _⟩ := arg1 h
        simp only [List.length_cons, List.length_nil]
        rw [u0]; rfl
      · rintro key e e' ⟨idx, v, ty, h1, h2, h3⟩ _
        exfalso
        rw [precastL, precastL, precastK] at h1
        rw [precastL, precastL] at h2
        simp only [List.length_cons, List.length_nil] at h2
        obtain ⟨rfl, _⟩ := arg1 h1
        rw [u1] at h2; cases h2
      · rw [CastableL, CastableL, Castable]
        exact ⟨trivial, trivial⟩
      · show (P.conv.toTensor (.float x)).map RVal.tensor = _
        rw [S.tensor]; rfl
    · simp

theorem fits_base (W : World F Tensor) (tensors : ℕ → Tensor) (enc : Val F → ℕ) (o : Options F) : Fits W (move T.other) tensors enc o (base pa c) :=
  ⟨by simp [base, Proper], fun _ => by simp [base, Castable]⟩

theorem Scene.configOf (S : Scene T K P num one opened bases s conv c cl cfg cfgL pa pl x rcap) :
    Eval.configOf (world P (stored opened)) (recipe conv pa pl c cl x) = .ok (some cfg) := by
  have h1 : (Val.merge conv [.model pl (some cl) (some weight)] []).config P.env = .ok (some c) := by
    rw [Val.config, S.loraSig, configL, configL, configK, Val.config]
    show Sig.returnConfig (Lora.loraSig cl c) [some cl] [] = _
    show (if cl ≠ cl then Except.error Err.value else Except.ok (some c)) = _
    simp
  have h : (recipe conv pa pl c cl x).config P.env = .ok (some c) := by
    unfold recipe base
    rw [Val.config, S.addSig, configL, configL, configL, configL, configK, h1, Val.config, Val.config]
    show Sig.returnConfig (Lora.addSig one) [some c, some c, none] [] = _
    show (if c ≠ c then Except.error Err.value else Except.ok (some c)) = _
    simp
  unfold Eval.configOf
  have h : (recipe conv pa pl c cl x).config (world P (stored opened)).env = _ := h
  rw [h]
  simp only
  show Except.ok (P.configs c) = _
  rw [S.config]

theorem Scene.hasConfig (S : Scene T K P num one opened bases s conv c cl cfg cfgL pa pl x rcap) {fb : Option (Val F)} {cfg' : ModelConfig}
    (h : HasConfig (world P (stored opened)) (recipe conv pa pl c cl x) fb cfg') : cfg = cfg' := by
  rcases h with h | ⟨h, _⟩
  · exact Option.some.inj (Except.ok.inj (S.configOf.symm.trans h))
  · rw [S.configOf] at h; cases h

/-- What an input answers, cast -/
def ans (F : Type) (T : Torch) (opened : Str → Option StreamIn.State) (cfg : ModelConfig) (p key : Str) : Res F Tensor :=
  match held opened cfg p key with | some t => .ok (.tensor (wide T t)) | none => .error .stateDictKey

theorem lora_parts (compose : Tensor → Tensor → Tensor → Except Err Tensor) (key : Str) :
    Lora.lora compose (ans F T opened cfgL pl) key =
      match parts (held opened cfgL pl) key with
      | some (al, dn, up) => (compose (wide T al) (wide T dn) (wide T up)).map RVal.tensor
      | none => .error .stateDictKey := by
  unfold Lora.lora parts
  split_ifs
  · rfl
  · unfold ans
    cases held opened cfgL pl (module key ++ ".alpha".toList) with
    | none => rfl
    | some al =>
      cases held opened cfgL pl (module key ++ ".lora_down.weight".toList) with
      | none => rfl
      | some dn =>
        cases held opened cfgL pl (module key ++ ".lora_up.weight".toList) with
        | none => rfl
        | some up => rfl

theorem castRun_ans (C : Conv F Tensor) (f : Str → Res F Tensor) (k : Str) (h : ∀ v, f k = .ok v → ∃ t, v = .tensor t) : castRun C .tensor f k = f k := by
  unfold castRun
  cases hf : f k with
  | error e => rfl
  | ok v =>
    obtain ⟨t, rfl⟩ := h v hf
    rfl

theorem Scene.computed (S : Scene T K P num one opened bases s conv c cl cfg cfgL pa pl x rcap) (fb : Option (Val F)) (key : Str) :
    computed (world P (stored opened)) (move T.other) (fun _ => alpha64 T (num x)) (fun _ => 0) (opts fb) (recipe conv pa pl c cl x) key =
      added K.addcmul (ans F T opened cfg pa key)
        (match parts (held opened cfgL pl) key with
          | some (al, dn, up) => (K.compose (wide T al) (wide T dn) (wide T up)).map RVal.tensor
          | none => .error .stateDictKey) (alpha64 T (num x)) := by
  have hpre : precast (fun _ => 0) (recipe conv pa pl c cl x) =
      .merge nAdd [.model pa (some c) (some weight), .merge conv [.model pl (some cl) (some weight)] [], .lit (.tensor 0) none "param".toList] [] := by
    unfold recipe base
    rw [precast, precastL, precastL, precastL, precastL, precastK, precast, precast, precast, precastL, precastL, precastK, precast] <;> simp [isScalar]
  unfold Whole.Spec.computed
  rw [if_neg (by simp [opts, defaults]), hpre]
  show eval (castWorld (world P (stored opened)) (move T.other (some "cpu".toList) (some "float64".toList)) fun _ => alpha64 T (num x)) _ key = _
  generalize hW : castWorld (world P (stored opened)) (move T.other (some "cpu".toList) (some "float64".toList)) (fun _ => alpha64 T (num x)) = W
  have i1 : W.impl nAdd = impl (addSource K.addcmul) := by rw [← hW, ← S.add]; rfl
  have i2 : W.impl conv = impl (loraSource s K.compose) := by rw [← hW, ← S.lora]; rfl
  have ha : ∀ k, eval W (.model pa (some c) (some weight)) k = ans F T opened cfg pa k := fun k => by
    rw [← hW]; exact Readme.eval_model S.config S.a _ _ k
  have hl : ∀ k, eval W (.model pl (some cl) (some weight)) k = ans F T opened cfgL pl k := fun k => by
    rw [← hW]; exact Readme.eval_model S.configLora S.l _ _ k
  have hans : ∀ cfg p k v, ans F T opened cfg p k = .ok v → ∃ t, v = .tensor t := by
    intro cfg p k v h
    unfold ans at h
    split at h <;> cases h
    exact ⟨_, rfl⟩
  have c1 : ∀ k, castRun W.conv .tensor (eval W (.model pa (some c) (some weight))) k = ans F T opened cfg pa k := fun k => by
    rw [castRun_ans _ _ _ fun v h => hans cfg pa k v (by rw [← ha]; exact h), ha]
  have c2 : castRun W.conv .tensor (eval W (.model pl (some cl) (some weight))) = ans F T opened cfgL pl := funext fun k => by
    rw [castRun_ans _ _ _ fun v h => hans cfgL pl k v (by rw [← hl]; exact h), hl]
  rw [eval_add K.addcmul W i1, c1]
  have hlo : ∀ k, eval W (.merge conv [.model pl (some cl) (some weight)] []) k = _ := fun k => eval_lora S.nonempty S.imported K.compose W conv i2 pl (some cl) (some weight) k
  rw [c2] at hlo
  have ht : W.tensors 0 = alpha64 T (num x) := by rw [← hW]; rfl
  have hres : ∀ k v, Lora.lora K.compose (ans F T opened cfgL pl) k = .ok v → ∃ t, v = .tensor t := by
    intro k v h
    rw [lora_parts] at h
    split at h
    · rename_i al dn up _
      cases hc : K.compose (wide T al) (wide T dn) (wide T up) with
      | error e => rw [hc] at h; cases h
      | ok d => rw [hc] at h; cases h; exact ⟨d, rfl⟩
    · cases h
  rw [castRun_ans _ _ _ fun v h => hres key v (by rw [← hlo]; exact h), hlo, lora_parts, ht]

theorem Scene.computedBase (S : Scene T K P num one opened bases s conv c cl cfg cfgL pa pl x rcap) (fb : Option (Val F)) (key : Str) :
    Whole.Spec.computed (world P (stored opened)) (move T.other) (fun _ => alpha64 T (num x)) (fun _ => 0) (opts fb) (base pa c) key = ans F T opened cfg pa key := by
  unfold Whole.Spec.computed base
  rw [if_neg (by simp [opts, defaults]), precast]
  · exact Readme.eval_model S.config S.a _ _ key
  all_goals simp

/-- A tensor that is stored is cast to float16. -/
theorem delivered_half (fb : Option (Val F)) (t : Tensor) :
    delivered P.conv (move T.other) (opts fb) (.tensor t) = .ok (.tensor (Ieee.cast T.other .f16 t)) := by
  unfold delivered
  rw [if_neg (by simp [opts, defaults])]
  have h : move T.other (opts fb).outputDevice (opts fb).outputDtype t = .ok (Ieee.cast T.other .f16 t) := move16 T t
  have hc : castTo P.conv .tensor (.tensor t : RVal F Tensor) = .ok (.tensor t) := rfl
  simp only [hc, h]

/-- What is stored for a key: with a module, the sum; without one, the tensor of the base model if that is the fallback, else nothing. -/
theorem Scene.final (S : Scene T K P num one opened bases s conv c cl cfg cfgL pa pl x rcap) (fb : Option (Val F)) (hfb : fb = none ∨ fb = some (base pa c)) (key : Str) :
    (∀ u al dn up d y, held opened cfg pa key = some u → parts (held opened cfgL pl) key = some (al, dn, up) → K.compose (wide T al) (wide T dn) (wide T up) = .ok d →
      K.addcmul (wide T u) d (alpha64 T (num x)) = .ok y →
      Whole.Spec.final (world P (stored opened)) (move T.other) (fun _ => alpha64 T (num x)) (fun _ => 0) (opts fb) (recipe conv pa pl c cl x) fb key =
        .ok (.tensor (Ieee.cast T.other .f16 y))) ∧
    (∀ u, held opened cfg pa key = some u → parts (held opened cfgL pl) key = none → fb ≠ none →
      Whole.Spec.final (world P (stored opened)) (move T.other) (fun _ => alpha64 T (num x)) (fun _ => 0) (opts fb) (recipe conv pa pl c cl x) fb key =
        .ok (.tensor (Ieee.cast T.other .f16 (wide T u)))) ∧
    ((held opened cfg pa key = none ∨ parts (held opened cfgL pl) key = none ∧ fb = none) →
      ∃ e, Whole.Spec.final (world P (stored opened)) (move T.other) (fun _ => alpha64 T (num x)) (fun _ => 0) (opts fb) (recipe conv pa pl c cl x) fb key = .error e) := by
  have h0 := S.computed fb key
  have hb := S.computedBase fb key
  unfold ans at h0 hb
  refine ⟨fun u al dn up d y hu hp hd hy => ?_, fun u hu hp hf => ?_, fun h => ?_⟩
  · rw [hu, hp] at h0
    simp only [hd, Except.map, added, hy] at h0
    have hcomb : combined (world P (stored opened)) (move T.other) (fun _ => alpha64 T (num x)) (fun _ => 0) (opts fb) (recipe conv pa pl c cl x) fb key =
        .ok (.tensor y) := by
      rcases hfb with rfl | rfl
      · exact h0
      · show orElse _ _ key = _
        unfold orElse
        rw [h0]
    unfold Whole.Spec.final
    rw [hcomb]
    exact delivered_half fb y
  · rcases hfb with rfl | rfl
    · exact absurd rfl hf
    rw [hu, hp] at h0
    rw [hu] at hb
    have hcomb : combined (world P (stored opened)) (move T.other) (fun _ => alpha64 T (num x)) (fun _ => 0) (opts (some (base pa c)))
        (recipe conv pa pl c cl x) (some (base pa c)) key = .ok (.tensor (wide T u)) := by
      show orElse _ _ key = _
      unfold orElse
      rw [h0]
      exact hb
    unfold Whole.Spec.final
    rw [hcomb]
    exact delivered_half _ _
  · have hcomb : ∃ e, combined (world P (stored opened)) (move T.other) (fun _ => alpha64 T (num x)) (fun _ => 0) (opts fb) (recipe conv pa pl c cl x) fb key =
        .error e := by
      rcases h with h | ⟨h, rfl⟩
      · rw [h] at h0 hb
        have h1 : ∃ e, Whole.Spec.computed (world P (stored opened)) (move T.other) (fun _ => alpha64 T (num x)) (fun _ => 0) (opts fb) (recipe conv pa pl c cl x) key = .error e := by
          rw [h0]
          unfold added
          split
          · exact ⟨_, rfl⟩
          · exact ⟨_, rfl⟩
        obtain ⟨e, he⟩ := h1
        rcases hfb with rfl | rfl
        · exact ⟨e, he⟩
        · show ∃ e, orElse _ _ key = _
          unfold orElse
          rw [he]
          split
          · exact ⟨_, hb⟩
          · exact ⟨_, rfl⟩
      · rw [h] at h0
        exact ⟨.stateDictKey, by show Whole.Spec.computed _ _ _ _ _ _ key = _; rw [h0]; unfold added; rfl⟩
    obtain ⟨e, he⟩ := hcomb
    exact ⟨e, by unfold Whole.Spec.final; rw [he]⟩

/-- A float64 tensor cast to float16 -/
theorem cast_half {y u : Tensor} (hd : y.dtype = .f64) (hs : y.shape = u.shape) (hc : 2 * numel u.shape ≤ rcap) :
    StreamOut.Spec.Tensor.WF (Ieee.cast T.other .f16 y) ∧ (Ieee.cast T.other .f16 y).bytes.length ≤ rcap := by
  have e : Ieee.cast T.other .f16 y = ofEntries .f16 y.shape ((entries y).map fun m => encode half (read y.dtype m)) := by
    rw [cast_ne (f := half) rfl (by rw [hd]; decide)]
  have h := wf_ofEntries .f16 y.shape ((entries y).map fun m => encode half (read y.dtype m)) (by rw [List.length_map, entries_length])
  rw [← e] at h
  refine ⟨h, ?_⟩
  rw [wf_iff] at h
  rw [h, e]
  show numel y.shape * 2 ≤ rcap
  rw [mul_comm, hs]
  exact hc

/-- **C106.**  `merge(add_difference(base, convert(lora, base), alpha=x), output=file)` for a float16 model and a LoRA, without a fallback model as in
examples/lora_merge.py or with `fallback_model=base`, all other options as they are by default: the file opens.  Every layer of the base model whose
module the LoRA has is in it with the sum that `addcmul` computes in float64 from the layer of the base model and what the conversion makes of the three
tensors of the module, cast to float16.  Without a fallback model no other key is in it; with it, all the others of the base model are, byte by byte. -/
theorem C106_file_partial (S : Scene T K P num one opened bases s conv c cl cfg cfgL pa pl x rcap) (N : Serialize.Num F) (fb : Option (Val F))
    (hfb : fb = none ∨ fb = some (base pa c)) (n : ℕ) (file : Bytes) (m : Saves P N (opts fb) opened (recipe conv pa pl c cl x) n file) (bs : ℕ)
    (hbs : bs ≤ rcap) :
    ∃ s0, StreamIn.open_ file bs rcap = .ok s0 ∧
      (∀ k, k ∈ StreamIn.keys s0 ↔ Wanted cfg (defaults (F := F)) k ∧ (held opened cfg pa k).isSome ∧
        (fb = none → (parts (held opened cfgL pl) k).isSome)) ∧
      (∀ k u al dn up, Wanted cfg (defaults (F := F)) k → held opened cfg pa k = some u → parts (held opened cfgL pl) k = some (al, dn, up) →
        ∃ d y, K.compose (wide T al) (wide T dn) (wide T up) = .ok d ∧ K.addcmul (wide T u) d (alpha64 T (num x)) = .ok y ∧
          ∀ history : List Key, ∃ s1 v, StreamIn.getItem (StreamIn.run s0 (history.map .load)).st k = (s1, .ok v) ∧
            (⟨v.dtype, v.shape, s1.read v⟩ : Tensor) = Ieee.cast T.other .f16 y) ∧
      (fb ≠ none → ∀ k u, Wanted cfg (defaults (F := F)) k → held opened cfg pa k = some u → parts (held opened cfgL pl) k = none → NoNan u →
        ∀ history : List Key, ∃ s1 v, StreamIn.getItem (StreamIn.run s0 (history.map .load)).st k = (s1, .ok v) ∧
          (⟨v.dtype, v.shape, s1.read v⟩ : Tensor) = u) := by
  have hmove : ∀ y e, move T.other (opts fb).mergeDevice (opts fb).mergeDtype y = .error e → Err.isKeyError e = false := fun y e h => by
    rw [show move T.other (opts fb).mergeDevice (opts fb).mergeDtype y = _ from move64 T y] at h; cases h
  have hisf : ∀ fb', IsFallback P.env (opts fb) fb' → fb' = fb := by
    intro fb' h
    rcases hfb with rfl | rfl
    · exact h
    · obtain ⟨b', h1, h2⟩ := h
      have h1 : valueToNode P.env (base pa c) = .ok b' := h1
      unfold base valueToNode at h1
      cases h1
      exact h2
  have hfits : ∀ b b', (opts fb).fallback = some b → valueToNode P.env b = .ok b' →
      Fits (world P (stored opened)) (move T.other) (fun _ => alpha64 T (num x)) (fun _ => 0) (opts fb) b' := by
    intro b b' h1 h2
    rcases hfb with rfl | rfl
    · cases h1
    · cases h1
      unfold base valueToNode at h2
      cases h2
      exact fits_base _ _ _ _
  have hw : ∀ k, k ∈ m.keys → Wanted cfg (defaults (F := F)) k := by
    have hv : Except.ok (recipe conv pa pl c cl x) = Except.ok m.original := prepare_node m.prepared
    obtain ⟨_, fb', f1, f2⟩ := facts (builtin S.registered (stored opened)) (fun s h => by cases h; decide) (fun s h => by cases h; decide) hmove
      m.prepared (by rw [← Except.ok.inj hv]; exact S.fits fb) hfits
    obtain ⟨_, cfg', p2, p3⟩ := plan_ok m.planned
    have hcfg := f2.config cfg' p2
    rw [← Except.ok.inj hv] at hcfg
    obtain rfl := S.hasConfig hcfg
    intro k hk
    rw [p3, Merge.mem_targetKeys] at hk
    exact hk
  have hfin : ∀ k u, Wanted cfg (defaults (F := F)) k →
      Whole.Spec.final (world P (stored opened)) (move T.other) (fun _ => alpha64 T (num x)) (fun _ => 0) (opts fb) (recipe conv pa pl c cl x) fb k = .ok (.tensor u) →
      StreamOut.Spec.Tensor.WF u ∧ u.bytes.length ≤ rcap := by
    intro k z hk hz
    obtain ⟨f1, f2, f3⟩ := S.final fb hfb k
    cases hu : held opened cfg pa k with
    | none => obtain ⟨e, he⟩ := f3 (.inl hu); rw [he] at hz; cases hz
    | some u =>
      obtain ⟨g1, g2⟩ := S.half k u hk hu
      cases hp : parts (held opened cfgL pl) k with
      | none =>
        by_cases hn : fb = none
        · obtain ⟨e, he⟩ := f3 (.inr ⟨hp, hn⟩); rw [he] at hz; cases hz
        · rw [f2 u hu hp hn] at hz
          cases hz
          obtain ⟨e1, e2, _⟩ := Readme.entries64 T g1
          exact cast_half (u := u) e1 e2 g2
      | some p =>
        obtain ⟨al, dn, up⟩ := p
        obtain ⟨d, y, h1, h2, h3, h4⟩ := S.layers k u al dn up hk hu hp
        rw [f1 u al dn up d y hu hp h1 h2] at hz
        cases hz
        exact cast_half h3 h4 g2
  obtain ⟨r, fb', cfg', s0, k1, k2, k3, _, k5, _, k7, k8⟩ := C99_file_partial P (move T.other) S.registered N (opts fb)
    ⟨fun s h => by cases h; decide, fun s h => by cases h; decide, hmove⟩
    opened S.files (recipe conv pa pl c cl x) n file m (fun _ => alpha64 T (num x)) (fun _ => 0)
    (fun r h => by cases h; exact S.fits fb) hfits
    (fun h => S.names _ (hw _ h) rfl)
    (fun r fb' k u h h' hk hu => by
      cases h
      rw [hisf fb' h'] at hu
      exact (hfin k u (hw k hk) hu).1)
    bs rcap hbs
    (fun r fb' k u h h' hk hu => by
      cases h
      rw [hisf fb' h'] at hu
      exact (hfin k u (hw k hk) hu).2)
  cases k1
  rw [hisf fb' k2] at k3 k7 k8
  obtain rfl := S.hasConfig k3
  refine ⟨s0, k5, fun k => ?_, fun k u al dn up hk hu hp => ?_, fun hn k u hk hu hp hnan history => ?_⟩
  · rw [k7]
    refine and_congr_right fun hk => ?_
    obtain ⟨f1, f2, f3⟩ := S.final fb hfb k
    cases hu : held opened cfg pa k with
    | none => obtain ⟨e, he⟩ := f3 (.inl hu); rw [he]; simp
    | some u =>
      cases hp : parts (held opened cfgL pl) k with
      | none =>
        by_cases hn : fb = none
        · obtain ⟨e, he⟩ := f3 (.inr ⟨hp, hn⟩); rw [he]; simp [hn]
        · rw [f2 u hu hp hn]; simp [hn]
      | some p =>
        obtain ⟨al, dn, up⟩ := p
        obtain ⟨d, y, h1, h2, _⟩ := S.layers k u al dn up hk hu hp
        rw [f1 u al dn up d y hu hp h1 h2]; simp
  · obtain ⟨d, y, h1, h2, _⟩ := S.layers k u al dn up hk hu hp
    refine ⟨d, y, h1, h2, fun history => ?_⟩
    obtain ⟨s1, v, q1, q2, q3, q4⟩ := k8 k _ hk ((S.final fb hfb k).1 u al dn up d y hu hp h1 h2) history
    exact ⟨s1, v, q1, by rw [q2, q3, q4]⟩
  · obtain ⟨s1, v, q1, q2, q3, q4⟩ := k8 k _ hk ((S.final fb hfb k).2.1 u hu hp hn) history
    refine ⟨s1, v, q1, ?_⟩
    rw [q2, q3, q4]
    have hd := (S.half k u hk hu).1
    have := C103_back T.other .f64 half double u (by rw [hd]; rfl) rfl Readme.wider (wf_iff.2 (Readme.held_wf S.files hu)) hnan
    rw [hd] at this
    exact this

theorem create_lora {E : Env F} {conv cl c : Str} (h : E.resolve conv = .ok (loraSig cl c)) (pl : Str) :
    createRecipe E conv [.model pl (some cl) (some weight)] [] = .ok (.merge conv [.model pl (some cl) (some weight)] []) ∧
    (Val.merge conv [.model pl (some cl) (some weight)] []).space E = .ok (some "delta".toList) := by
  have hsp : (Val.merge conv [.model pl (some cl) (some weight)] [] : Val F).space E = .ok (some "delta".toList) := by
    rw [Val.space, h]
    rfl
  refine ⟨?_, hsp⟩
  unfold createRecipe
  rw [h]
  have hb : Method.bind (loraSig cl c) [.model pl (some cl) (some weight)] [] = .ok ⟨[(.model pl (some cl) (some weight) : Val F)], []⟩ := rfl
  have hn : valuesToNodes E [.model pl (some cl) (some weight)] = .ok [(.model pl (some cl) (some weight) : Val F)] := rfl
  have hk : valuesToNodesK E [] = .ok [] := rfl
  simp only [Bind.bind, Except.bind, hb, hn, hk, hsp]

/-- `add_difference(base, r, alpha=x)`, as the user writes it, for what `convert` returned; the space of what it returned is that of differences. -/
theorem C106_recipe (S : Scene T K P num one opened bases s conv c cl cfg cfgL pa pl x rcap) :
    createRecipe P.env nAdd [base pa c, .merge conv [.model pl (some cl) (some weight)] []] [("alpha".toList, .float x)] = .ok (recipe conv pa pl c cl x) := by
  obtain ⟨_, hl⟩ := create_lora S.loraSig pl
  have hb : Method.bind (addSig one) [base pa c, .merge conv [.model pl (some cl) (some weight)] []] [("alpha".toList, .float x)] =
      .ok ⟨[base pa c, .merge conv [.model pl (some cl) (some weight)] [], .float x], []⟩ := rfl
  have hn : valuesToNodes P.env [base pa c, .merge conv [.model pl (some cl) (some weight)] [], .float x] =
      .ok [base pa c, .merge conv [.model pl (some cl) (some weight)] [], .lit (.float x) none "param".toList] := rfl
  have hk : valuesToNodesK P.env [] = .ok [] := rfl
  have hsp : (recipe conv pa pl c cl x).space P.env = .ok (some weight) := by
    unfold recipe
    rw [Val.space, S.addSig, spaceL, spaceL, spaceL, spaceL, spaceK, hl]
    rfl
  unfold recipe at hsp ⊢
  unfold createRecipe
  rw [S.addSig]
  simp only [Bind.bind, Except.bind, hb, hn, hk, hsp]

theorem lora_direct : ∀ b ∈ Shipped.names, ∀ n ∈ loraNamed b, n.tgt = b ∧ (n.src, n.tgt) ∈ direct ∧ str n.src ≠ "structural".toList ∧ str n.src ≠ str b ∧
    (∀ x ∈ imported ++ Shipped.names.flatMap loraNamed, str x.src = str n.src → x = n) ∧
    ∀ y ∈ direct, str y.1 = str b → str y.2 ≠ str b ∧ ∀ x ∈ direct ++ twoSteps, str x.1 = str y.2 → str x.2 ≠ str b := by
  decide +kernel

theorem lora_chain {bases : List Text} (hb : bases.Perm Shipped.names) {b : Text} (hbm : b ∈ Shipped.names) {n : Named} (hn : n ∈ loraNamed b) {p : List Str}
    (h : Conversion.Spec.Chain (registered bases) (str n.src) p (str b)) : p = [str n.name] := by
  obtain ⟨h1, _, _, h4, h5, h6⟩ := lora_direct b hbm n hn
  generalize hs : str n.src = s at h
  cases h with
  | nil => exact absurd hs h4
  | @cons _ q c hc hq =>
    obtain ⟨m, hm, rfl⟩ := List.mem_map.1 hc
    have hm' : m ∈ imported ++ Shipped.names.flatMap loraNamed := by
      rcases List.mem_append.1 hm with h | h
      · exact List.mem_append_left _ h
      · obtain ⟨b', hb', h⟩ := List.mem_flatMap.1 h
        exact List.mem_append_right _ (List.mem_flatMap.2 ⟨b', hb.mem_iff.1 hb', h⟩)
    obtain rfl := h5 m hm' hs.symm
    have ht : m.converter.tgt = str b := by rw [← h1]; rfl
    rw [ht] at hq
    have : q = [] := by
      generalize hs' : str b = s' at hq
      cases hq with
      | nil => rfl
      | cons c' hc' hq' =>
        exfalso
        obtain ⟨y, hy, e1, e2⟩ := mem_registered hb c' hc'
        obtain ⟨g1, g2⟩ := h6 y hy (by rw [hs', e1])
        rcases (C79_reach hb _ _).1 ⟨_, hq'⟩ with h | ⟨x, hx, e3, e4⟩
        · exact g1 (by rw [← e2, h, hs'])
        · exact g2 x hx (by rw [← e3, e2]) (by rw [← e4, hs'])
    rw [this]
    rfl

/-- **C106 (the conversion).**  After import, `convert(model(lora), base)` is the LoRA's own conversion to the config of its base model around the LoRA:
the search finds the only chain there is. -/
theorem C106_convert (E : Env F) {bases : List Text} (hb : bases.Perm Shipped.names) {b : Text} (hbm : b ∈ Shipped.names) {n : Named} (hn : n ∈ loraNamed b)
    (hsig : E.resolve (str n.name) = .ok (loraSig (str n.src) (str b))) (p : Str) :
    Conversion.convert E (registered bases) (.model p (some (str n.src)) (some weight)) (str n.src) (str b) =
      some (.ok (.merge (str n.name) [.model p (some (str n.src)) (some weight)] [])) := by
  obtain ⟨h1, h2, h3, _⟩ := lora_direct b hbm n hn
  unfold Conversion.convert
  rw [if_neg h3]
  unfold Conversion.conversionRecipe
  have hch : ∃ q, Conversion.Spec.Chain (registered bases) (str n.src) q (str b) :=
    (C79_reach hb _ _).2 (.inr ⟨_, List.mem_append_left _ h2, rfl, by rw [h1]⟩)
  rcases (Conversion.C20_complete (registered bases) (str n.src) (str b)).2 with ⟨_, q, hq⟩ | ⟨h, _⟩
  · rw [hq]
    have := lora_chain hb hbm hn (Conversion.C19_shortest _ _ _ q hq).1
    subst this
    simp only [Conversion.applyChain, (create_lora hsig p).1]
  · exact absurd hch h

end

/-- **C106 (what the layer does).**  In exact arithmetic: what the recipe evaluates to at a layer with a module acts on every image as the layer of the base
model, plus `x * alpha / rank` times the two layers of the module one after the other. -/
theorem C106_network {F K : Type} [Field K] {bases : List Text} (hb : bases ≠ []) {s : Lycoris.State} (hs : Lycoris.register bases = some s)
    (W : World F (Tens K)) {conv : Str} (hc : W.impl conv = impl (loraSource s composeExact)) (ha : W.impl nAdd = impl (addSource addcmulExact))
    (pa pl c cl : Str) (t : ℕ) (x : K) (ht : W.tensors t = .scalar x) (key : Str) (hbias : ¬ "bias".toList <:+ key)
    (w0 down up : Lycoris.Weight K) (alpha : K)
    (h0 : eval W (.model pa (some c) (some weight)) key = .ok (.tensor (.weight w0)))
    (h1 : eval W (.model pl (some cl) (some weight)) (module key ++ ".alpha".toList) = .ok (.tensor (.scalar alpha)))
    (h2 : eval W (.model pl (some cl) (some weight)) (module key ++ ".lora_down.weight".toList) = .ok (.tensor (.weight down)))
    (h3 : eval W (.model pl (some cl) (some weight)) (module key ++ ".lora_up.weight".toList) = .ok (.tensor (.weight up)))
    (hfit : Lycoris.Fit down up) (hshape : w0.linear = down.linear ∧ w0.out = up.out ∧ w0.inp = down.inp ∧ w0.kh = down.kh ∧ w0.kw = down.kw) :
    ∃ w, eval W (.merge nAdd [.model pa (some c) (some weight), .merge conv [.model pl (some cl) (some weight)] [], .lit (.tensor t) none "param".toList] []) key =
        .ok (.tensor (.weight w)) ∧
      w.linear = w0.linear ∧ w.out = w0.out ∧ w.inp = w0.inp ∧ w.kh = w0.kh ∧ w.kw = w0.kw ∧
      ∀ img o i j, w.apply img o i j = w0.apply img o i j + x * (alpha / (down.out : K)) * up.apply (down.apply img) o i j := by
  have hcast : ∀ {v : Val F} {k : Str} {y : Tens K}, eval W v k = .ok (.tensor y) → castRun W.conv .tensor (eval W v) k = .ok (.tensor y) := by
    intro v k y h
    unfold castRun
    rw [h]
    rfl
  obtain ⟨d, d1, d2, d3, d4, d5, d6, _⟩ := Lycoris.C58_compose alpha down up hfit
  have hl : eval W (.merge conv [.model pl (some cl) (some weight)] []) key = .ok (.tensor (.weight d)) := by
    rw [eval_lora hb hs composeExact W conv hc]
    unfold lora
    rw [if_neg hbias, hcast h1, hcast h2, hcast h3]
    simp only [composeExact, d1]
    rfl
  have hsh : w0.linear = d.linear ∧ w0.out = d.out ∧ w0.inp = d.inp ∧ w0.kh = d.kh ∧ w0.kw = d.kw := by
    rw [d2, d3, d4, d5, d6]; exact hshape
  refine ⟨{ w0 with at' := fun o i y z => w0.at' o i y z + d.at' o i y z * x }, ?_, rfl, rfl, rfl, rfl, rfl, fun img o i j => ?_⟩
  · rw [eval_add addcmulExact W ha, hcast h0, hcast hl, ht]
    simp only [added, addcmulExact, if_pos hsh]
    rfl
  · obtain ⟨d', e1, e2⟩ := Lycoris.C58_network alpha down up hfit img o i j
    rw [d1] at e1
    obtain rfl := Option.some.inj e1
    rw [mul_assoc, ← e2]
    unfold Lycoris.Weight.apply
    rw [← hsh.2.2.1, ← hsh.2.2.2.1, ← hsh.2.2.2.2, Finset.mul_sum, ← Finset.sum_add_distrib]
    refine Finset.sum_congr rfl fun a _ => ?_
    rw [Finset.mul_sum, ← Finset.sum_add_distrib]
    refine Finset.sum_congr rfl fun b _ => ?_
    rw [Finset.mul_sum, ← Finset.sum_add_distrib]
    refine Finset.sum_congr rfl fun e _ => ?_
    ring

/-! ## An example

`merge(add_difference(f, convert(g, f), alpha=0.5), fallback_model=f, output=...)`.  The file `f` holds `a.weight = [[1], [3]]` and `b.bias = [5]`, the LoRA
`g` a module of rank 1 for `a`, with `alpha = 2`, `down = [[3]]` and `up = [[1], [-4]]`: the sum is `[[4], [-9]]`. -/

namespace Ex

open Readme.Ex (stateOf openOf valid_of fresh num)

def textF : List Char :=
  "{\"a.weight\":{\"dtype\":\"F16\",\"shape\":[2,1],\"data_offsets\":[0,4]},\"b.bias\":{\"dtype\":\"F16\",\"shape\":[1],\"data_offsets\":[4,6]}}".toList

def textG : List Char :=
  "{\"lora_a.alpha\":{\"dtype\":\"F16\",\"shape\":[],\"data_offsets\":[0,2]},\"lora_a.lora_down.weight\":{\"dtype\":\"F16\",\"shape\":[1,1],\"data_offsets\":[2,4]},\"lora_a.lora_up.weight\":{\"dtype\":\"F16\",\"shape\":[2,1],\"data_offsets\":[4,8]}}".toList

def fileF : Bytes := le64 textF.length ++ asciiBytes textF ++ [0x00, 0x3C, 0x00, 0x42, 0x00, 0x45]
def fileG : Bytes := le64 textG.length ++ asciiBytes textG ++ [0x00, 0x40, 0x00, 0x42, 0x00, 0x3C, 0x00, 0xC4]

def headerF : Header := [("a.weight".toList, .tensor ⟨.f16, [2, 1], 0, 4⟩), ("b.bias".toList, .tensor ⟨.f16, [1], 4, 6⟩)]
def headerG : Header := [("lora_a.alpha".toList, .tensor ⟨.f16, [], 0, 2⟩), ("lora_a.lora_down.weight".toList, .tensor ⟨.f16, [1, 1], 2, 4⟩),
  ("lora_a.lora_up.weight".toList, .tensor ⟨.f16, [2, 1], 4, 8⟩)]

def opened (p : Str) : Option StreamIn.State :=
  if p = "f".toList then some (stateOf fileF textF.length headerF) else if p = "g".toList then some (stateOf fileG textG.length headerG) else none

theorem readF : StreamIn.readHeader fileF = .ok (textF.length, headerF) := by decide +kernel
theorem readG : StreamIn.readHeader fileG = .ok (textG.length, headerG) := by decide +kernel

theorem opened_ok : Opened opened := by
  intro p s h
  unfold opened at h
  split_ifs at h
  · rw [← Option.some.inj h]
    refine fresh readF fun p hp e he => ?_
    simp only [headerF, List.mem_cons, List.not_mem_nil, or_false] at hp
    rcases hp with rfl | rfl <;> cases he <;> exact ⟨by decide, by decide +kernel, by decide, by decide⟩
  · rw [← Option.some.inj h]
    refine fresh readG fun p hp e he => ?_
    simp only [headerG, List.mem_cons, List.not_mem_nil, or_false] at hp
    rcases hp with rfl | rfl | rfl <;> cases he <;> exact ⟨by decide, by decide +kernel, by decide, by decide⟩

def cfg : ModelConfig := ⟨"t-c".toList, [("main".toList, [("a.weight".toList, ⟨none, none, [], false⟩), ("b.bias".toList, ⟨none, none, [], false⟩)])]⟩

def cfgL : ModelConfig := ⟨"t-l".toList, [("main".toList, [("lora_a.alpha".toList, ⟨none, none, [], false⟩), ("lora_a.lora_down.weight".toList, ⟨none, none, [], false⟩),
  ("lora_a.lora_up.weight".toList, ⟨none, none, [], false⟩)])]⟩

/-- `compose_lora_up_down` for rank 1 without a division, and `addcmul` for tensors of one shape and a number -/
def K : Kernels where
  compose al dn up :=
    match entries al with
    | [c] => .ok (ofEntries .f64 [up.shape.headD 0, dn.shape.getLastD 0] ((entries up).flatMap fun u => (entries dn).map fun d =>
        encode double (Readme.fmul (Readme.fmul (decode double u) (decode double c)) (decode double d))))
    | _ => .error .runtime
  addcmul a b c :=
    match entries c with
    | [c] => if a.shape = b.shape then .ok (ofEntries .f64 a.shape (List.zipWith (fun x y =>
        encode double (Readme.fadd (decode double x) (Readme.fmul (decode double y) (decode double c)))) (entries a) (entries b))) else .error .runtime
    | _ => .error .runtime

def T : Torch := Readme.Ex.T

/-- Registration for one config -/
def s : Lycoris.State := (Lycoris.register [key% "t-c"]).getD ⟨none, [], []⟩

def conv : Str := "convert_lora".toList

def P : PWorld (Option Int) Tensor where
  env := ⟨[(nFallback, fallbackSig), (nCast, castSig), (nPick, componentSig), (nOmit, componentSig), (nAdd, addSig (some 4)),
    (conv, loraSig "t-l".toList "t-c".toList)], ["t-c".toList, "t-l".toList], allSpaces, id⟩
  conv := ⟨fun _ => .error .value, fun _ => .error .value, fun v => match v with | .float x => .ok (alphaTensor (num x)) | _ => .error .type⟩
  tensors _ := ⟨.u8, [0], []⟩
  configs c := if c = "t-c".toList then some cfg else if c = "t-l".toList then some cfgL else none
  source m := if m = nFallback then fallbackSource else if m = nCast then castSource (move T.other) else if m = nPick then pickSource
    else if m = nOmit then omitSource else if m = nAdd then addSource K.addcmul else loraSource s K.compose

theorem wanted {k : Str} (h : Wanted cfg (defaults (F := Option Int)) k) : k = "a.weight".toList ∨ k = "b.bias".toList := by
  obtain ⟨⟨p, hp, hk⟩, _⟩ := h
  simp only [cfg, List.mem_singleton] at hp
  subst hp
  simpa [Dict.keys] using hk

theorem scene : Scene T K P num (some 4) opened [key% "t-c"] s conv "t-c".toList "t-l".toList cfg cfgL "f".toList "g".toList (some 2) 1000 where
  registered := by constructor <;> rfl
  add := rfl
  addSig := rfl
  lora := rfl
  loraSig := rfl
  nonempty := by decide
  imported := by
    have : (Lycoris.register [key% "t-c"]).isSome := by decide +kernel
    unfold s
    obtain ⟨a, ha⟩ := Option.isSome_iff_exists.1 this
    rw [ha]
    rfl
  tensor _ := rfl
  files := opened_ok
  a := by decide +kernel
  l := by decide +kernel
  config := rfl
  configLora := rfl
  names k hk := by rcases wanted hk with rfl | rfl <;> decide
  half k u hk hu := by
    have h : ∀ k ∈ ["a.weight".toList, "b.bias".toList], ∀ u ∈ held opened cfg "f".toList k, u.dtype = .f16 ∧ 2 * numel u.shape ≤ 1000 := by
      decide +kernel
    exact h k (by rcases wanted hk with rfl | rfl <;> simp) u hu
  layers k u al dn up hk hu hp := by
    have h : ∀ k ∈ ["a.weight".toList, "b.bias".toList], ∀ u ∈ held opened cfg "f".toList k, ∀ q ∈ parts (held opened cfgL "g".toList) k,
        (match K.compose (wide T q.1) (wide T q.2.1) (wide T q.2.2) with
        | .ok d => (match K.addcmul (wide T u) d (alpha64 T (num (some 2))) with | .ok y => decide (y.dtype = .f64 ∧ y.shape = u.shape) | .error _ => false)
        | .error _ => false) = true := by
      decide +kernel
    have := h k (by rcases wanted hk with rfl | rfl <;> simp) u hu _ hp
    split at this
    · rename_i d hd
      split at this
      · rename_i y hy
        exact ⟨d, y, hd, hy, of_decide_eq_true this⟩
      · cases this
    · cases this

def fb : Option (Val (Option Int)) := some (base "f".toList "t-c".toList)

/-- `alpha=0.5` -/
def r : Val (Option Int) := recipe conv "f".toList "g".toList "t-c".toList "t-l".toList (some 2)

def merged : Val (Option Int) := match prepare P.env (opts fb) r with | .ok p => p.2 | .error _ => .none

def keys : List Str := ["a.weight".toList, "b.bias".toList]

/-- `[[4], [-9]]`; `[5]` -/
def stores : List (Str × Tensor) := [("a.weight".toList, ⟨.f16, [2, 1], [0x00, 0x44, 0x80, 0xC8]⟩), ("b.bias".toList, ⟨.f16, [1], [0x00, 0x45]⟩)]

def text : Option Str := match recipeText Serialize.Ex.num r with | .ok t => t | .error _ => none

def declared : Dict Key StreamOut.Meta := keys.map fun k => (k, ⟨none, none⟩)

def actions : List StreamOut.Action := stores.flatMap fun p => [.begin 0 p.1 p.2, .locked 0, .finish 0]

def writer : StreamOut.State := (StreamOut.run (StreamOut.init declared text 2 10000) actions).getD (StreamOut.init declared text 2 10000)

def file : Bytes := match StreamOut.close writer with | .ok f => f | .error _ => []

theorem ran : Threads.sequential (Threads.fileProgram P merged) opened keys = (stores, .returned) := by decide +kernel

def saves : Saves P Serialize.Ex.num (opts fb) opened r 0 file where
  original := r
  merged := merged
  keys := keys
  stores := stores
  prepared := by decide +kernel
  planned := by decide +kernel
  ran := ran
  text := text
  declared := declared
  minBuf := 2
  cap := 10000
  actions := actions
  writer := writer
  serialized := by decide +kernel
  wrote := by decide +kernel
  quiet := by unfold StreamOut.Spec.Quiescent; decide +kernel
  assigned := by decide +kernel
  complete := ⟨by decide, by decide +kernel, by decide, by decide +kernel⟩
  closed := by decide +kernel

/-- C106_file_partial applies: the layer is the sum, and the bias that of the base model. -/
example : ∃ s0, StreamIn.open_ file 2 1000 = .ok s0 ∧ "a.weight".toList ∈ StreamIn.keys s0 ∧ ∃ s1 v s2 v2,
    StreamIn.getItem s0 "a.weight".toList = (s1, .ok v) ∧ (⟨v.dtype, v.shape, s1.read v⟩ : Tensor) = ⟨.f16, [2, 1], [0x00, 0x44, 0x80, 0xC8]⟩ ∧
    StreamIn.getItem s0 "b.bias".toList = (s2, .ok v2) ∧ (⟨v2.dtype, v2.shape, s2.read v2⟩ : Tensor) = ⟨.f16, [1], [0x00, 0x45]⟩ := by
  obtain ⟨s0, h1, h2, h3, h4⟩ := C106_file_partial scene Serialize.Ex.num fb (.inr rfl) 0 file saves 2 (by decide)
  have hw : ∀ k ∈ keys, Wanted cfg (defaults (F := Option Int)) k := by
    intro k hk
    have : ∀ k ∈ keys, k ∈ Merge.targetKeys cfg true := by decide +kernel
    exact (Merge.mem_targetKeys _ _ _).1 (this k hk)
  obtain ⟨d, y, e1, e2, e3⟩ := h3 "a.weight".toList ⟨.f16, [2, 1], [0x00, 0x3C, 0x00, 0x42]⟩ ⟨.f16, [], [0x00, 0x40]⟩ ⟨.f16, [1, 1], [0x00, 0x42]⟩
    ⟨.f16, [2, 1], [0x00, 0x3C, 0x00, 0xC4]⟩ (hw _ (by decide)) (by decide +kernel) (by decide +kernel)
  obtain ⟨s1, v, q1, q2⟩ := e3 []
  obtain ⟨s2, v2, r1, r2⟩ := h4 (by simp [fb]) "b.bias".toList ⟨.f16, [1], [0x00, 0x45]⟩ (hw _ (by decide)) (by decide +kernel) (by decide +kernel)
    (by unfold NoNan; decide +kernel) []
  refine ⟨s0, h1, (h2 _).2 ⟨hw _ (by decide), by decide +kernel, by simp [fb]⟩, s1, v, s2, v2, q1, q2.trans ?_, r1, r2⟩
  have f1 : K.compose (wide T ⟨.f16, [], [0x00, 0x40]⟩) (wide T ⟨.f16, [1, 1], [0x00, 0x42]⟩) (wide T ⟨.f16, [2, 1], [0x00, 0x3C, 0x00, 0xC4]⟩) =
      .ok (ofEntries .f64 [2, 1] [0x4018000000000000, 0xC038000000000000]) := by decide +kernel
  obtain rfl := Except.ok.inj (f1.symm.trans e1)
  have f2 : K.addcmul (wide T ⟨.f16, [2, 1], [0x00, 0x3C, 0x00, 0x42]⟩) (ofEntries .f64 [2, 1] [0x4018000000000000, 0xC038000000000000])
      (alpha64 T (num (some 2))) = .ok (ofEntries .f64 [2, 1] [0x4010000000000000, 0xC022000000000000]) := by decide +kernel
  obtain rfl := Except.ok.inj (f2.symm.trans e2)
  decide +kernel

/-- C106_recipe applies. -/
example := C106_recipe scene

/-- C106_convert applies to a LoRA for SDXL. -/
example (E : Env (Option Int)) (h : E.resolve (str (key% "convert_'sdxl-sgm_kohya_lora'_to_base")) = .ok (loraSig (str (key% "sdxl-sgm_kohya_lora")) (str (key% "sdxl-sgm")))) :=
  C106_convert E (List.Perm.refl _) (b := key% "sdxl-sgm") (by decide) (n := ⟨key% "convert_'sdxl-sgm_kohya_lora'_to_base", key% "sdxl-sgm_kohya_lora", key% "sdxl-sgm"⟩)
    (by decide +kernel) h "lora.safetensors".toList

/-- `f` holds a 3×3 convolution of two channels to four, the LoRA a module of rank 1. -/
def W : World (Option Int) (Tens ℚ) where
  env := P.env
  conv := ⟨fun _ => .error .value, fun _ => .error .value, fun _ => .error .type⟩
  tensors _ := .scalar (1 / 2)
  read p k :=
    if p = "f".toList then if k = "a.weight".toList then .ok (.weight ⟨false, 4, 2, 3, 3, fun o i _ _ => o + i⟩) else .error .key
    else if k = "lora_a.alpha".toList then .ok (.scalar 3)
    else if k = "lora_a.lora_down.weight".toList then .ok (.weight ⟨false, 1, 2, 3, 3, fun _ i y x => i + y - x⟩)
    else if k = "lora_a.lora_up.weight".toList then .ok (.weight ⟨false, 4, 1, 1, 1, fun o _ _ _ => o⟩)
    else .error .key
  configs := P.configs
  impl m := if m = nAdd then impl (addSource addcmulExact) else impl (loraSource s composeExact)

/-- C106_network applies. -/
example := C106_network (by decide) scene.imported W (conv := conv) rfl rfl "f".toList "g".toList "t-c".toList "t-l".toList 0 (1 / 2) rfl "a.weight".toList
  (by decide) ⟨false, 4, 2, 3, 3, fun o i _ _ => o + i⟩ ⟨false, 1, 2, 3, 3, fun _ i y x => i + y - x⟩ ⟨false, 4, 1, 1, 1, fun o _ _ _ => o⟩ 3
  (by rw [eval]; rfl) (by rw [eval]; rfl) (by rw [eval]; rfl) (by rw [eval]; rfl) ⟨rfl, rfl, rfl, rfl, (fun h => by cases h), by decide⟩
  ⟨rfl, rfl, rfl, rfl, rfl⟩

end Ex

end Verif.Lora
