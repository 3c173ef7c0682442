import Verif.Proofs.Converted
import Verif.Proofs.Returned
import Verif.Props.Lora
import Verif.Props.Convert
import Verif.Props.Shipped

/-!
# Converted checkpoints (C118)

`merge(convert(model, config), output=file)` for a checkpoint in another layout.  `held opened cfg p k` is the tensor that the file `p` has for the key `k` of the
config; `needed` are the tensors a conversion reads for a key.
-/
namespace Verif.Converted
open Method Recipe Config Eval Eval.Spec Program Program.Spec Whole Whole.Spec Ieee Ieee.Spec Spec Shipped
open Readme (Torch defaults move64 move16)
open Readme.Spec (held)
open Threads.Spec (stored Opened)
open StreamOut (Tensor)
open Lora (codes wide ans castRun_ans)

section
variable {F : Type}

/-- A tensor in float16, by way of float64 -/
def narrow (T : Torch) (t : Tensor) : Tensor := Ieee.cast T.other .f16 (wide T t)

/-- The recipe `convert(model, config)` -/
def recipe (conv p cs : Str) : Val F := .merge conv [.model p (some cs) (some weight)] []

/-- The library with its builtin methods, a conversion, and a checkpoint -/
structure Scene (T : Torch) (P : PWorld F Tensor) (opened : Str → Option StreamIn.State) (f : Text → Option Convert.Conv) (conv name cs ct p : Str)
    (cfgS cfgT : ModelConfig) : Prop where
  registered : Registered P (move T.other)
  conversion : P.source conv = convSource f
  sig : P.env.resolve conv = .ok (convSig name cs ct)
  files : Opened opened
  model : opened p ≠ none
  source : P.configs cs = some cfgS
  target : P.configs ct = some cfgT
  names : ∀ k, Wanted cfgT (defaults (F := F)) k → k ≠ metadataKey

variable {T : Torch} {P : PWorld F Tensor} {opened : Str → Option StreamIn.State} {f : Text → Option Convert.Conv} {conv name cs ct p : Str} {cfgS cfgT : ModelConfig}

theorem Scene.fits (S : Scene T P opened f conv name cs ct p cfgS cfgT) (tensors : ℕ → Tensor) (enc : Val F → ℕ) (o : Options F) :
    Fits (world P (stored opened)) (move T.other) tensors enc o (recipe conv p cs) := by
  refine ⟨by simp [recipe, Proper, ProperL, ProperK], fun _ => ?_⟩
  have hty : ∀ W : World F Tensor, W.impl conv = impl (P.source conv) → typeOf W conv 1 (.pos 0) = some (.sd .tensor) := by
    intro W hW
    unfold typeOf
    rw [hW, S.conversion]
    rfl
  have u0 := hty (world P (stored opened)) rfl
  have u1 := hty (castWorld (world P (stored opened)) (move T.other o.mergeDevice o.mergeDtype) tensors) rfl
  have arg1 : ∀ {a v : Val F} {idx : Idx}, ArgAt [a] [] idx v → idx = .pos 0 ∧ v = a := by
    intro a v idx h
    cases idx with
    | name k => cases h
    | pos i =>
      have h' : [a][i]? = some v := h
      match i, h' with
      | 0, h' => simp at h'; exact ⟨rfl, h'.symm⟩
      | i + 1, h' => simp at h'
  unfold recipe
  rw [Castable]
  refine ⟨⟨by simp [Dict.keys], ?_, ?_⟩, ?_, ?_, by rw [CastableK]; trivial⟩
  · intro idx v h
    obtain ⟨_, rfl⟩ := arg1 h
    simp [Proper]
  · intro idx v h
    obtain ⟨rfl, _⟩ := arg1 h
    simp only [List.length_cons, List.length_nil]
    rw [u0]; rfl
  · rintro key e e' ⟨idx, v, ty, h1, h2, h3⟩ _
    exfalso
    rw [precastL, precastL, precastK] at h1
    rw [precastL, precastL] at h2
    simp only [List.length_cons, List.length_nil] at h2
    obtain ⟨rfl, _⟩ := arg1 h1
    rw [u1] at h2; cases h2
  · rw [CastableL, CastableL, Castable]
    exact ⟨trivial, trivial⟩

theorem Scene.configOf (S : Scene T P opened f conv name cs ct p cfgS cfgT) :
    Eval.configOf (world P (stored opened)) (recipe conv p cs) = .ok (some cfgT) := by
  have h : (recipe conv p cs).config P.env = .ok (some ct) := by
    unfold recipe
    rw [Val.config, S.sig, configL, configL, configK, Val.config]
    show Sig.returnConfig (convSig name cs ct) [some cs] [] = _
    show (if cs ≠ cs then Except.error Err.value else Except.ok (some ct)) = _
    simp
  unfold Eval.configOf
  have h : (recipe conv p cs).config (world P (stored opened)).env = _ := h
  rw [h]
  simp only
  show Except.ok (P.configs ct) = _
  rw [S.target]

theorem Scene.hasConfig (S : Scene T P opened f conv name cs ct p cfgS cfgT) {fb : Option (Val F)} {cfg' : ModelConfig}
    (h : HasConfig (world P (stored opened)) (recipe conv p cs) fb cfg') : cfgT = cfg' := by
  rcases h with h | ⟨h, _⟩
  · exact Option.some.inj (Except.ok.inj (S.configOf.symm.trans h))
  · rw [S.configOf] at h; cases h

theorem gather_held (ks : List Str) : gather (ans F T opened cfgS p) ks =
    match ks.mapM (held opened cfgS p) with | some us => .ok (us.map (wide T)) | none => .error .stateDictKey := by
  induction ks with
  | nil => rfl
  | cons k ks ih =>
    rw [gather, List.mapM_cons]
    have e : ans F T opened cfgS p k = match held opened cfgS p k with | some t => .ok (.tensor (wide T t)) | none => .error .stateDictKey := rfl
    rw [e]
    cases held opened cfgS p k with
    | none => rfl
    | some t =>
      simp only
      rw [ih]
      cases ks.mapM (held opened cfgS p) <;> rfl

/-- The tensors a conversion reads for a key -/
abbrev parts (opened : Str → Option StreamIn.State) (f : Text → Option Convert.Conv) (cfgS : ModelConfig) (p key : Str) : Option (List Tensor) :=
  needed f codes str (held opened cfgS p) key

theorem mapM_map {α β γ : Type} (g : α → β) (h : β → Option γ) : ∀ l : List α, (l.map g).mapM h = l.mapM fun a => h (g a)
  | [] => rfl
  | a :: l => by rw [List.map_cons, List.mapM_cons, List.mapM_cons, mapM_map g h l]

theorem Scene.computed (S : Scene T P opened f conv name cs ct p cfgS cfgT) (tensors : ℕ → Tensor) (enc : Val F → ℕ) (key : Str) :
    computed (world P (stored opened)) (move T.other) tensors enc defaults (recipe conv p cs) key =
      match f (codes key), parts opened f cfgS p key with
      | some c, some us => (make c (us.map (wide T))).map RVal.tensor
      | _, _ => .error .stateDictKey := by
  have hpre : precast enc (recipe conv p cs) = .merge conv [.model p (some cs) (some weight)] [] := by
    unfold recipe
    rw [precast, precastL, precastL, precastK, precast] <;> simp [isScalar]
  unfold Whole.Spec.computed
  rw [if_neg (by simp [defaults]), hpre]
  show eval (castWorld (world P (stored opened)) (move T.other (some "cpu".toList) (some "float64".toList)) tensors) _ key = _
  generalize hW : castWorld (world P (stored opened)) (move T.other (some "cpu".toList) (some "float64".toList)) tensors = W
  have i2 : W.impl conv = impl (convSource f) := by rw [← hW, ← S.conversion]; rfl
  have hl : ∀ k, eval W (.model p (some cs) (some weight)) k = ans F T opened cfgS p k := fun k => by
    rw [← hW]; exact Readme.eval_model S.source S.model _ _ k
  have hans : ∀ k v, ans F T opened cfgS p k = .ok v → ∃ t, v = .tensor t := by
    intro k v h
    unfold ans at h
    split at h <;> cases h
    exact ⟨_, rfl⟩
  have c2 : castRun W.conv .tensor (eval W (.model p (some cs) (some weight))) = ans F T opened cfgS p := funext fun k => by
    rw [castRun_ans _ _ _ fun v h => hans k v (by rw [← hl]; exact h), hl]
  rw [eval_conv f W conv i2, c2]
  unfold converted parts needed
  cases hf : f (codes key) with
  | none => rfl
  | some c =>
    simp only
    rw [gather_held, asked_eq, mapM_map]
    cases (Convert.Spec.reads c).mapM (fun k => held opened cfgS p (str k)) <;> rfl

theorem Scene.final (S : Scene T P opened f conv name cs ct p cfgS cfgT) (tensors : ℕ → Tensor) (enc : Val F → ℕ) (key : Str) :
    Whole.Spec.final (world P (stored opened)) (move T.other) tensors enc defaults (recipe conv p cs) none key =
      match f (codes key), parts opened f cfgS p key with
      | some c, some us => (make c (us.map (wide T))).map fun t => RVal.tensor (Ieee.cast T.other .f16 t)
      | _, _ => .error .stateDictKey := by
  unfold Whole.Spec.final
  have hcomb : combined (world P (stored opened)) (move T.other) tensors enc defaults (recipe conv p cs) none key =
      Whole.Spec.computed (world P (stored opened)) (move T.other) tensors enc defaults (recipe conv p cs) key := rfl
  rw [hcomb, S.computed]
  cases f (codes key) with
  | none => rfl
  | some c =>
    cases parts opened f cfgS p key with
    | none => rfl
    | some us =>
      simp only
      cases make c (us.map (wide T)) with
      | error e => rfl
      | ok y => exact Lora.delivered_half none y

theorem held_wide (h : Opened opened) {k : Str} {u : Tensor} (hu : held opened cfgS p k = some u) : (wide T u).dtype = .f64 ∧ Wf (wide T u) := by
  have hw := Readme.held_wf h hu
  unfold wide
  by_cases hd : u.dtype = .f64
  · have : Ieee.cast T.other .f64 u = u := by unfold Ieee.cast; rw [if_pos hd]
    rw [this]
    exact ⟨hd, hw⟩
  · rw [cast_ne (f := double) rfl hd]
    exact ⟨rfl, wf_iff.1 (wf_ofEntries _ _ _ (by rw [List.length_map, entries_length]))⟩

theorem mem_mapM {α β : Type} {h : α → Option β} : ∀ {l : List α} {us : List β}, l.mapM h = some us → ∀ u ∈ us, ∃ a ∈ l, h a = some u
  | [], us, e, u, hu => by
    cases e; cases hu
  | a :: l, us, e, u, hu => by
    rw [List.mapM_cons] at e
    cases ha : h a with
    | none => rw [ha] at e; cases e
    | some b =>
      cases hl : l.mapM h with
      | none => rw [ha, hl] at e; cases e
      | some vs =>
        rw [ha, hl] at e
        cases e
        rcases List.mem_cons.1 hu with rfl | hu
        · exact ⟨a, by simp, ha⟩
        · obtain ⟨a', h1, h2⟩ := mem_mapM hl u hu
          exact ⟨a', by simp [h1], h2⟩

/-- What is made of tensors in float64, cast to float16, is what is made of them in float16. -/
theorem made_half (h : Opened opened) {key : Str} {c : Convert.Conv} (hc : f (codes key) = some c) {us : List Tensor} (hu : parts opened f cfgS p key = some us)
    {y : Tensor} (hy : make c (us.map (wide T)) = .ok y) :
    make c (us.map (narrow T)) = .ok (Ieee.cast T.other .f16 y) ∧ StreamOut.Spec.Tensor.WF (Ieee.cast T.other .f16 y) := by
  have hm : ∀ u ∈ us, (wide T u).dtype = .f64 ∧ Wf (wide T u) := by
    intro u huu
    unfold parts needed at hu
    rw [hc] at hu
    obtain ⟨k, _, hk⟩ := mem_mapM hu u huu
    exact held_wide h hk
  have hcast : ∀ t : Tensor, t.dtype = .f64 → Ieee.cast T.other .f16 t = recode .f16 (fun n => encode half (read .f64 n)) t := by
    intro t ht
    rw [cast_ne (f := half) rfl (by rw [ht]; decide), ht]
    rfl
  obtain ⟨h1, h2, h3⟩ := make_recode .f16 (fun n => encode half (read .f64 n)) (d0 := .f64) c (ts := us.map (wide T)) (by
    intro t ht
    obtain ⟨u, hu, rfl⟩ := List.mem_map.1 ht
    exact hm u hu) hy
  rw [hcast y h1]
  refine ⟨?_, wf_ofEntries _ _ _ (by rw [List.length_map, entries_length])⟩
  rw [← h3, List.map_map]
  congr 1
  exact List.map_congr_left fun u hu => hcast _ (hm u hu).1

/-- **C118.**  `merge(convert(model, config), output=file)` with the options as they are by default: the file opens.  It lists a key if and only if the key is to
be merged and the checkpoint has all tensors that the conversion reads for it.  The tensor of a key has the bytes of these tensors in float16, one after the other,
and the shape that goes with them. -/
theorem C118_file_partial (S : Scene T P opened f conv name cs ct p cfgS cfgT) (N : Serialize.Num F) (n : ℕ) (file : Bytes)
    (m : Saves P N (defaults (F := F)) opened (recipe conv p cs) n file) (bs rcap : ℕ) (hbs : bs ≤ rcap) (hrc : ∀ q ∈ m.stores, q.2.bytes.length ≤ rcap) :
    ∃ s0, StreamIn.open_ file bs rcap = .ok s0 ∧
      (∀ k, k ∈ StreamIn.keys s0 ↔ Wanted cfgT (defaults (F := F)) k ∧ (parts opened f cfgS p k).isSome) ∧
      ∀ k c us, Wanted cfgT (defaults (F := F)) k → f (codes k) = some c → parts opened f cfgS p k = some us →
        ∃ t, Arranged c (us.map (narrow T)) t ∧ ∀ history : List Key, ∃ s1 v, StreamIn.getItem (StreamIn.run s0 (history.map .load)).st k = (s1, .ok v) ∧
          (⟨v.dtype, v.shape, s1.read v⟩ : Tensor) = t := by
  have hmove : ∀ y e, move T.other (defaults (F := F)).mergeDevice (defaults (F := F)).mergeDtype y = .error e → Err.isKeyError e = false := fun y e h => by
    rw [show move T.other (defaults (F := F)).mergeDevice (defaults (F := F)).mergeDtype y = _ from move64 T y] at h; cases h
  have hfits : ∀ b b', (defaults (F := F)).fallback = some b → valueToNode P.env b = .ok b' →
      Fits (world P (stored opened)) (move T.other) (fun _ => ⟨.u8, [0], []⟩) (fun _ => 0) defaults b' := by
    intro b b' h1; cases h1
  have hv : Except.ok (recipe conv p cs) = Except.ok m.original := prepare_node m.prepared
  obtain ⟨_, fb', f1, f2⟩ := facts (builtin S.registered (stored opened)) (fun s h => by cases h; decide) (fun s h => by cases h; decide) hmove
    m.prepared (by rw [← Except.ok.inj hv]; exact S.fits (fun _ => ⟨.u8, [0], []⟩) (fun _ => 0) _) hfits
  have hfb : fb' = none := f1
  subst hfb
  obtain ⟨_, cfg', p2, p3⟩ := plan_ok m.planned
  have hcfg := f2.config cfg' p2
  rw [← Except.ok.inj hv] at hcfg
  obtain rfl := S.hasConfig hcfg
  have hw : ∀ k, k ∈ m.keys ↔ Wanted cfgT (defaults (F := F)) k := by
    intro k
    rw [p3, Merge.mem_targetKeys]
    rfl
  have hev : ∀ k, eval (world P (stored opened)) m.merged k = Whole.Spec.final (world P (stored opened)) (move T.other) (fun _ => ⟨.u8, [0], []⟩) (fun _ => 0) defaults
      (recipe conv p cs) none k := by
    intro k
    have h := f2.eval k
    rw [← Except.ok.inj hv] at h
    exact h
  have hfin := S.final (fun _ => ⟨.u8, [0], []⟩) (fun _ => 0)
  -- what is computed
  have hmade : ∀ k c us, Wanted cfgT (defaults (F := F)) k → f (codes k) = some c → parts opened f cfgS p k = some us → ∃ y, make c (us.map (wide T)) = .ok y ∧
      Whole.Spec.final (world P (stored opened)) (move T.other) (fun _ => ⟨.u8, [0], []⟩) (fun _ => 0) defaults (recipe conv p cs) none k =
        .ok (.tensor (Ieee.cast T.other .f16 y)) := by
    intro k c us hk hc hu
    have h := hfin k
    rw [hc, hu] at h
    simp only at h
    cases hm : make c (us.map (wide T)) with
    | ok y => rw [hm] at h; exact ⟨y, rfl, h⟩
    | error e =>
      rw [hm] at h
      have he : e = .stateDictKey ∨ False := by
        rcases returned_ok S.files m ((hw k).2 hk) with h' | ⟨t, h'⟩
        · rw [hev, h] at h'; exact .inl (Except.error.inj h')
        · rw [hev, h] at h'; cases h'
      exfalso
      rcases he with rfl | he
      · match c, us, hm with
        | .read _, [], hm => cases hm
        | .read _, _ :: _ :: _, hm => cases hm
        | .transposed _, [], hm => cases hm
        | .transposed _, _ :: _ :: _, hm => cases hm
        | .conv1x1 _, [], hm => cases hm
        | .conv1x1 _, _ :: _ :: _, hm => cases hm
        | .stacked _, us, hm =>
          have hm : vstack (us.map (wide T)) = .error .stateDictKey := hm
          unfold vstack at hm
          split at hm
          · cases hm
          · split_ifs at hm <;> cases hm
      · exact he
  have hsome : ∀ k t, Whole.Spec.final (world P (stored opened)) (move T.other) (fun _ => ⟨.u8, [0], []⟩) (fun _ => 0) defaults (recipe conv p cs) none k =
      .ok (.tensor t) → ∃ c us y, f (codes k) = some c ∧ parts opened f cfgS p k = some us ∧ make c (us.map (wide T)) = .ok y ∧ t = Ieee.cast T.other .f16 y := by
    intro k t h
    rw [hfin] at h
    cases hc : f (codes k) with
    | none => rw [hc] at h; cases h
    | some c =>
      cases hu : parts opened f cfgS p k with
      | none => rw [hc, hu] at h; cases h
      | some us =>
        rw [hc, hu] at h
        simp only at h
        cases hm : make c (us.map (wide T)) with
        | error e => rw [hm] at h; cases h
        | ok y => rw [hm] at h; cases h; exact ⟨c, us, y, rfl, rfl, hm, rfl⟩
  obtain ⟨r, fb', cfg', s0, k1, k2, k3, _, k5, _, k7, k8⟩ := C99_file_partial P (move T.other) S.registered N defaults
    ⟨fun s h => by cases h; decide, fun s h => by cases h; decide, hmove⟩
    opened S.files (recipe conv p cs) n file m (fun _ => ⟨.u8, [0], []⟩) (fun _ => 0)
    (fun r h => by cases h; exact S.fits _ _ _) hfits
    (fun h => S.names _ ((hw _).1 h) rfl)
    (fun r fb' k u h h' hk hu => by
      cases h
      have hfb : fb' = none := h'
      subst hfb
      obtain ⟨c, us, y, q1, q2, q3, rfl⟩ := hsome k u hu
      exact (made_half S.files q1 q2 q3).2)
    bs rcap hbs
    (fun r fb' k u h h' hk hu => by
      cases h
      have hfb : fb' = none := h'
      subst hfb
      exact hrc _ (mem_stores S.files m hk (by rw [hev]; exact hu)))
  cases k1
  have hfb : fb' = none := k2
  subst hfb
  obtain rfl := S.hasConfig k3
  refine ⟨s0, k5, fun k => ?_, fun k c us hk hc hu => ?_⟩
  · rw [k7]
    refine and_congr_right fun hk => ⟨?_, ?_⟩
    · rintro ⟨t, ht⟩
      obtain ⟨c, us, _, _, h2, _⟩ := hsome k t ht
      rw [h2]
      rfl
    · intro h
      obtain ⟨us, hu⟩ := Option.isSome_iff_exists.1 h
      cases hc : f (codes k) with
      | none => unfold parts needed at hu; rw [hc] at hu; cases hu
      | some c =>
        obtain ⟨y, _, hy⟩ := hmade k c us hk hc hu
        exact ⟨_, hy⟩
  · obtain ⟨y, hy, hf⟩ := hmade k c us hk hc hu
    refine ⟨Ieee.cast T.other .f16 y, arranged (made_half S.files hc hu hy).1, fun history => ?_⟩
    obtain ⟨s1, v, q1, q2, q3, q4⟩ := k8 k _ hk hf history
    exact ⟨s1, v, q1, by rw [q2, q3, q4]⟩

/-- Nothing is lost for a checkpoint in float16 without NaN: what the file has is made of the very tensors of the checkpoint. -/
theorem C118_exact (h : Opened opened) {key : Str} {us : List Tensor} (hu : parts opened f cfgS p key = some us)
    (hus : ∀ u ∈ us, u.dtype = .f16 ∧ NoNan u) : us.map (narrow T) = us := by
  conv_rhs => rw [← List.map_id us]
  refine List.map_congr_left fun u huu => ?_
  obtain ⟨hd, hn⟩ := hus u huu
  have hk : ∃ k, held opened cfgS p k = some u := by
    unfold parts needed at hu
    split at hu
    · cases hu
    · obtain ⟨k, _, hk⟩ := mem_mapM hu u huu
      exact ⟨_, hk⟩
  obtain ⟨k, hk⟩ := hk
  have := C103_back T.other .f64 half double u (by rw [hd]; rfl) rfl Readme.wider (wf_iff.2 (Readme.held_wf h hk)) hn
  rw [hd] at this
  exact this

end

/-! ## The transposed matrix -/

/-- `v.T`: a view of the same storage -/
def transposeView (v : Strided.View) : Strided.View := { v with shape := v.shape.reverse, strides := v.strides.reverse }

/-- `v.to(dtype)` for a view of a whole storage: the strides stay (`torch.preserve_format`), the elements are converted one by one where they are. -/
def castView (d : DType) (g : ℕ → ℕ) (v : Strided.View) : Strided.View :=
  { v with
    dtype := d
    mem := (recode d g (Strided.toOut v)).bytes
    storageLen := (recode d g (Strided.toOut v)).bytes.length }

/-- What the writer sees of `v.T` is `flip` of what it sees of `v`. -/
theorem toOut_transpose (v : Strided.View) : Strided.toOut (transposeView v) = flip (Strided.toOut v) := by
  unfold Strided.toOut flip Strided.tensorToBytes transposeView
  simp only [numel_reverse]

/-- What the writer sees of a view that was cast -/
theorem toOut_cast (d : DType) (g : ℕ → ℕ) (v : Strided.View) (h0 : v.offset = 0) (hn : numel v.shape ≠ 0) :
    Strided.toOut (castView d g v) = recode d g (Strided.toOut v) := by
  have h : Strided.tensorToBytes (castView d g v) = (recode d g (Strided.toOut v)).bytes := by
    unfold Strided.tensorToBytes castView
    simp only [if_neg hn, h0, Nat.zero_mul]
    unfold slice
    rw [List.drop_zero, List.take_length]
  unfold Strided.toOut at h ⊢
  rw [h]
  rfl

/-- The matrix that a conversion transposes is in the file with the bytes it had before: it is transposed only if it is its own transpose. -/
theorem C118_transposed {k : Text} {u t : Tensor} {n : ℕ} (hs : u.shape = [n, n]) (h : Arranged (.transposed k) [u] t) :
    Transposed u t ↔ ∀ i j, i < n → j < n → (entries u)[j * n + i]? = (entries u)[i * n + j]? := by
  obtain ⟨u', hu, h1, h2, h3⟩ := h
  cases hu
  have he : entries t = entries u := entries_congr h1 (by rw [h3, numel_reverse]) h2
  constructor
  · rintro ⟨a, b, e1, e2, _, e4⟩ i j hi hj
    rw [hs] at e1
    cases e1
    rw [← e4 i j hi hj, he]
  · intro h
    exact ⟨n, n, hs, by rw [h3, hs]; rfl, h1, fun i j hi hj => by rw [he]; exact h i j hi hj⟩

/-! ## The conversions that come with the library -/

/-- A checkpoint has exactly the keys of a config, with the shapes of the config. -/
structure Matches (held : Str → Option Tensor) (es : List Data.Entry) : Prop where
  has : ∀ e ∈ es, ∃ u, held (str e.key) = some u ∧ u.shape = e.shape
  only : ∀ k u, held k = some u → ∃ e ∈ es, k = str e.key

theorem codes_str {t : Text} (h : ∀ c ∈ t, c < 128) : codes (str t) = t := by
  have hv : ∀ c, c < 128 → (Char.ofNat c).toNat = c := by decide +kernel
  unfold codes str
  rw [List.map_map]
  conv_rhs => rw [← List.map_id t]
  exact List.map_congr_left fun c hc => hv c (h c hc)

theorem cast_shape (T : Torch) {d : DType} {f : Fmt} (h : fmt d = some f) (t : Tensor) : (Ieee.cast T.other d t).shape = t.shape := by
  unfold Ieee.cast
  rw [h]
  split_ifs <;> rfl

theorem narrow_shape (T : Torch) (t : Tensor) : (narrow T t).shape = t.shape := by
  unfold narrow wide
  rw [cast_shape T (f := half) rfl, cast_shape T (f := double) rfl]

/-- What C76 to C78 say of a conversion holds of checkpoints: all that is read for the key is there, and the tensor of the file has the shape. -/
theorem given {held : Str → Option Tensor} {es : List Data.Entry} (hm : Matches held es) (T : Torch) {c : Convert.Conv} {shape : List ℕ}
    (h : Convert.Spec.Gives es c shape) : ∃ us, (Convert.Spec.reads c).mapM (fun k => held (str k)) = some us ∧
      ∀ t, Arranged c (us.map (narrow T)) t → t.shape = shape := by
  have many : ∀ ss : List Data.Entry, (∀ s ∈ ss, s ∈ es) → ∃ us, (ss.map (·.key)).mapM (fun k => held (str k)) = some us ∧ us.map (·.shape) = ss.map (·.shape) := by
    intro ss
    induction ss with
    | nil => intro _; exact ⟨[], rfl, rfl⟩
    | cons s ss ih =>
      intro h
      obtain ⟨u, hu, hs⟩ := hm.has s (h s (by simp))
      obtain ⟨us, hus, hss⟩ := ih fun s' h' => h s' (by simp [h'])
      exact ⟨u :: us, by rw [List.map_cons, List.mapM_cons, hu, hus]; rfl, by rw [List.map_cons, List.map_cons, hs, hss]⟩
  have one : ∀ s ∈ es, ∃ u, [s.key].mapM (fun k => held (str k)) = some [u] ∧ u.shape = s.shape := by
    intro s h
    obtain ⟨u, hu, hs⟩ := hm.has s h
    exact ⟨u, by rw [List.mapM_cons, hu]; rfl, hs⟩
  cases h with
  | read s h =>
    obtain ⟨u, hu, hs⟩ := one s h
    refine ⟨[u], hu, fun t ht => ?_⟩
    have ht : [narrow T u] = [t] := ht
    cases ht
    rw [narrow_shape, hs]
  | transposed s a b h hab =>
    obtain ⟨u, hu, hs⟩ := one s h
    refine ⟨[u], hu, fun t ⟨u', h1, _, _, h4⟩ => ?_⟩
    cases h1
    rw [h4, narrow_shape, hs, hab]
    rfl
  | kept s n h hn =>
    obtain ⟨u, hu, hs⟩ := one s h
    refine ⟨[u], hu, fun t ⟨u', h1, _, _, h4⟩ => ?_⟩
    cases h1
    rw [h4, narrow_shape, hs, hn]
    rfl
  | conv1x1 s h hn =>
    obtain ⟨u, hu, hs⟩ := one s h
    refine ⟨[u], hu, fun t ⟨u', h1, _, _, h4⟩ => ?_⟩
    cases h1
    rw [h4, narrow_shape, hs, if_neg hn]
  | matrices ss ms n h h0 hsh =>
    obtain ⟨us, hu, hs⟩ := many ss h
    refine ⟨us, hu, fun t ⟨_, _, h3, _⟩ => ?_⟩
    refine h3 ms [n] (by simp) ?_
    rw [List.map_map, ← hsh, ← hs]
    exact List.map_congr_left fun u _ => narrow_shape T u
  | vectors ss n h h0 hsh =>
    obtain ⟨us, hu, hs⟩ := many ss h
    refine ⟨us, hu, fun t ⟨_, _, _, h4⟩ => ?_⟩
    have hl : us.length = ss.length := by have := congrArg List.length hs; simpa using this
    rw [h4 n, List.length_map, hl]
    intro u' hu'
    obtain ⟨u, huu, rfl⟩ := List.mem_map.1 hu'
    rw [narrow_shape]
    have : u.shape ∈ ss.map (·.shape) := by rw [← hs]; exact List.mem_map.2 ⟨u, huu, rfl⟩
    obtain ⟨s, hss, e⟩ := List.mem_map.1 this
    rw [← e]
    exact hsh s hss

theorem ascii_of {p : Text × Data.Table} (hp : p ∈ tables) {e : Data.Entry} (he : e ∈ p.2.entries) : ∀ c ∈ e.key, c < 128 :=
  ((Fast.known p hp).plain e he _ List.mem_cons_self).ascii

/-- SD1 in the layout of kohya: all required keys but those of a normalization arrive with the right shape. -/
theorem C118_sd1_partial {held : Str → Option Tensor} (hm : Matches held Data.Sd1Kohya.table.entries) (T : Torch) (e : Data.Entry) (he : e ∈ Data.Sd1Ldm.table.entries)
    (ho : e.optional = false) (hn : ¬ key% ".attn_1.norm." <:+: e.key) : ∃ c us, Convert.sd1Kohya (codes (str e.key)) = some c ∧
      needed Convert.sd1Kohya codes str held (str e.key) = some us ∧ ∀ t, Arranged c (us.map (narrow T)) t → t.shape = e.shape := by
  have ha := codes_str (ascii_of (p := (key% "sd1-ldm", Data.Sd1Ldm.table)) (by simp [tables]) he)
  obtain ⟨c, h1, _, h3⟩ := Convert.C76_sd1_partial e he ho hn
  obtain ⟨us, h4, h5⟩ := given hm T h3
  exact ⟨c, us, by rw [ha]; exact h1, by unfold needed; rw [ha, h1]; exact h4, h5⟩

/-- SDXL in the layout of kohya: all required keys outside of the autoencoder, but the biases of attentions in the second text encoder, arrive with the right shape. -/
theorem C118_sdxl_partial {held : Str → Option Tensor} (hm : Matches held Data.SdxlKohya.table.entries) (T : Torch) (e : Data.Entry) (he : e ∈ Data.SdxlSgm.table.entries)
    (ho : e.optional = false) (hv : ¬ key% "first_stage_model." <+: e.key) (hb : ¬ key% ".attn.in_proj_bias" <:+ e.key) :
    ∃ c us, Convert.sdxlKohya (codes (str e.key)) = some c ∧ needed Convert.sdxlKohya codes str held (str e.key) = some us ∧
      ∀ t, Arranged c (us.map (narrow T)) t → t.shape = e.shape := by
  have ha := codes_str (ascii_of (p := (key% "sdxl-sgm", Data.SdxlSgm.table)) (by simp [tables]) he)
  obtain ⟨c, h1, _, h3⟩ := Convert.C77_sdxl_partial e he ho hv hb
  obtain ⟨us, h4, h5⟩ := given hm T h3
  exact ⟨c, us, by rw [ha]; exact h1, by unfold needed; rw [ha, h1]; exact h4, h5⟩

/-- SDXL in the layout of diffusers: all keys of the diffusion model, but those of a block, arrive with the right shape. -/
theorem C118_unet_partial {held : Str → Option Tensor} (hm : Matches held Data.SdxlDiffusersUnetOnly.table.entries) (T : Torch) (e : Data.Entry)
    (he : e ∈ Data.SdxlSgm.table.entries) (hd : key% "model.diffusion_model." <+: e.key) (h1 : ¬ key% "model.diffusion_model.output_blocks.2.1." <+: e.key)
    (h2 : ¬ key% "model.diffusion_model.output_blocks.2.2." <+: e.key) :
    ∃ c us, Convert.sdxlDiffusers (codes (str e.key)) = some c ∧ needed Convert.sdxlDiffusers codes str held (str e.key) = some us ∧
      ∀ t, Arranged c (us.map (narrow T)) t → t.shape = e.shape := by
  have ha := codes_str (ascii_of (p := (key% "sdxl-sgm", Data.SdxlSgm.table)) (by simp [tables]) he)
  obtain ⟨c, h1, _, h3⟩ := Convert.C78_unet_partial e he hd h1 h2
  obtain ⟨us, h4, h5⟩ := given hm T h3
  exact ⟨c, us, by rw [ha]; exact h1, by unfold needed; rw [ha, h1]; exact h4, h5⟩

/-- What a conversion reads for a key that gets a value is there. -/
theorem needed_keys {held : Str → Option Tensor} {es : List Data.Entry} (hm : Matches held es) {f : Text → Option Convert.Conv} {key : Str} {c : Convert.Conv}
    (hc : f (codes key) = some c) {us : List Tensor} (h : needed f codes str held key = some us) : ∀ k ∈ Convert.Spec.reads c, ∃ e ∈ es, str k = str e.key := by
  unfold needed at h
  rw [hc] at h
  simp only at h
  intro k hk
  generalize Convert.Spec.reads c = l at h hk
  induction l generalizing us with
  | nil => cases hk
  | cons a l ih =>
    rw [List.mapM_cons] at h
    cases ha : held (str a) with
    | none => rw [ha] at h; cases h
    | some u =>
      cases hl : l.mapM (fun k => held (str k)) with
      | none => rw [ha, hl] at h; cases h
      | some vs =>
        rcases List.mem_cons.1 hk with rfl | hk
        · exact hm.only _ _ ha
        · exact ih hl hk

/-- The autoencoder of SDXL is lost: the file has none of its keys (by C118_file_partial), although the checkpoint has them all. -/
theorem C118_vae_false {held : Str → Option Tensor} (hm : Matches held Data.SdxlKohya.table.entries) (k : Str) (hk : key% "first_stage_model." <+: codes k) :
    needed Convert.sdxlKohya codes str held k = none := by
  obtain ⟨r, hr⟩ := hk
  have hv : Convert.sdxlKohya (codes k) = some (Convert.convertVae (codes k)) := by rw [← hr]; rfl
  cases hu : needed Convert.sdxlKohya codes str held k with
  | none => rfl
  | some us =>
    exfalso
    obtain ⟨r', hr'⟩ := Convert.convertVae_reads (codes k)
    obtain ⟨e, he, hs⟩ := needed_keys hm hv hu (key% "vae." ++ r') (by rw [hr']; exact List.mem_cons_self)
    have ha := codes_str (ascii_of (p := (key% "sdxl-kohya", Data.SdxlKohya.table)) (by simp [tables]) he)
    have hp : key% "vae." <+: e.key := by
      rw [← ha, ← hs, str_append, Lora.codes_append]
      exact ⟨_, congrArg (· ++ _) (by decide)⟩
    have h1 : Fast.everywhere (fun e => !Fast.isPrefix (key% "vae.") e.key) Data.CertSdxl.source = true := by kernel_rfl
    rw [← Data.CertSdxl.source_eq] at he
    have := Fast.everywhere_sound _ _ h1 e he
    rw [Bool.not_eq_true', ← Bool.not_eq_true, Fast.isPrefix_eq, Text.isPrefixOf_iff] at this
    exact this hp

/-- A key that is read, if it can be read at all, gives what is at the key. -/
theorem not_needed {held : Str → Option Tensor} {p : Text × Data.Table} (hp : p ∈ tables) (hm : Matches held p.2.entries) {f : Text → Option Convert.Conv} {key : Str}
    {k : Text} (hk : Fast.ascii k = true) (hc : f (codes key) = some (.read k))
    (h : ¬ ∃ c shape, f (codes key) = some c ∧ Convert.Spec.Gives p.2.entries c shape) : needed f codes str held key = none := by
  cases hu : needed f codes str held key with
  | none => rfl
  | some us =>
    exfalso
    obtain ⟨e, he, hs⟩ := needed_keys hm hc hu k List.mem_cons_self
    have := str_inj (Fast.ascii_sound k hk) (ascii_of hp he) hs
    subst this
    exact h ⟨_, _, hc, .read e he⟩

/-- A normalization of the autoencoder of SD1 is lost. -/
theorem C118_norm_false {held : Str → Option Tensor} (hm : Matches held Data.Sd1Kohya.table.entries) (e : Data.Entry) (he : e ∈ Data.Sd1Ldm.table.entries)
    (hn : key% ".attn_1.norm." <:+: e.key) : needed Convert.sd1Kohya codes str held (str e.key) = none := by
  have ha := codes_str (ascii_of (p := (key% "sd1-ldm", Data.Sd1Ldm.table)) (by simp [tables]) he)
  have h1 : Fast.everywhere (fun e => !Fast.occ (key% ".attn_1.norm.") e.key || (match Fast.sd1Kohya e.key with | .read k => Fast.ascii k | _ => false))
      Data.CertSd1.target = true := by kernel_rfl
  have h2 := Convert.C76_sd1_false.1 e he hn
  have h := Fast.everywhere_sound _ _ h1 e (by rw [Data.CertSd1.target_eq]; exact he)
  have hocc : Fast.occ (key% ".attn_1.norm.") e.key = true := by rw [Fast.occ_eq _ _ (List.cons_ne_nil _ _), Text.occurs_iff]; exact hn
  rw [hocc, Bool.not_true, Bool.false_or] at h
  split at h
  · rename_i k hk
    refine not_needed (p := (key% "sd1-kohya", Data.Sd1Kohya.table)) (by simp [tables]) hm h (by rw [ha, Fast.sd1Kohya_eq, hk]) ?_
    rw [ha]
    exact h2
  · cases h

/-- Two blocks of the diffusion model of SDXL are lost if the checkpoint is in the layout of diffusers. -/
theorem C118_unet_false {held : Str → Option Tensor} (hm : Matches held Data.SdxlDiffusersUnetOnly.table.entries) (e : Data.Entry)
    (he : e ∈ Data.SdxlSgm.table.entries)
    (hp : key% "model.diffusion_model.output_blocks.2.1." <+: e.key ∨ key% "model.diffusion_model.output_blocks.2.2." <+: e.key) :
    needed Convert.sdxlDiffusers codes str held (str e.key) = none := by
  have ha := codes_str (ascii_of (p := (key% "sdxl-sgm", Data.SdxlSgm.table)) (by simp [tables]) he)
  have h1 : Fast.everywhere (fun e =>
      !(Fast.isPrefix (key% "model.diffusion_model.output_blocks.2.1.") e.key || Fast.isPrefix (key% "model.diffusion_model.output_blocks.2.2.") e.key) ||
      (match Fast.sdxlDiffusers e.key with | some (.read k) => Fast.ascii k | _ => false)) Data.CertUnet.target = true := by kernel_rfl
  have h2 := Convert.C78_unet_false.1 e he hp
  have h := Fast.everywhere_sound _ _ h1 e (by rw [Data.CertUnet.target_eq]; exact he)
  have hp' : (Fast.isPrefix (key% "model.diffusion_model.output_blocks.2.1.") e.key || Fast.isPrefix (key% "model.diffusion_model.output_blocks.2.2.") e.key) = true := by
    rw [Bool.or_eq_true, Fast.isPrefix_eq, Fast.isPrefix_eq, Text.isPrefixOf_iff, Text.isPrefixOf_iff]
    exact hp
  rw [hp', Bool.not_true, Bool.false_or] at h
  split at h
  · rename_i k hk
    refine not_needed (p := (key% "sdxl-diffusers_unet_only", Data.SdxlDiffusersUnetOnly.table)) (by simp [tables]) hm h (by rw [ha, Fast.sdxlDiffusers_eq, hk]) ?_
    rw [ha]
    exact h2
  · cases h

/-- The biases of the attentions in the second text encoder of SDXL arrive with another shape: three rows instead of one vector. -/
theorem C118_bias_false {held : Str → Option Tensor} (hm : Matches held Data.SdxlKohya.table.entries) (T : Torch) (e : Data.Entry)
    (he : e ∈ Data.SdxlSgm.table.entries) (ho : e.optional = false) (hv : ¬ key% "first_stage_model." <+: e.key) (hb : key% ".attn.in_proj_bias" <:+ e.key) :
    ∃ c us n, e.shape = [3 * n] ∧ Convert.sdxlKohya (codes (str e.key)) = some c ∧ needed Convert.sdxlKohya codes str held (str e.key) = some us ∧
      ∀ t, Arranged c (us.map (narrow T)) t → t.shape = [3, n] := by
  have ha := codes_str (ascii_of (p := (key% "sdxl-sgm", Data.SdxlSgm.table)) (by simp [tables]) he)
  have hnot := Convert.C77_bias_false.1 e he hb
  obtain ⟨c, hc⟩ := Data.CertSdxl.allGood.entry (by rw [Data.CertSdxl.target_eq]; exact he)
  rcases hc.gives with h | ⟨v, h1, _, h3 | ⟨_, n, h3, h4⟩⟩
  · rw [Fast.sdxlLost, ho, Bool.false_or, Fast.isPrefix_eq, Text.isPrefixOf_iff] at h
    exact absurd h hv
  · rw [Data.CertSdxl.source_eq] at h3
    exact absurd ⟨v, by rw [Fast.sdxlKohya_eq]; exact h1, h3⟩ hnot
  · rw [Data.CertSdxl.source_eq] at h4
    obtain ⟨us, h5, h6⟩ := given hm T h4
    have h1 : Convert.sdxlKohya e.key = some v := by rw [Fast.sdxlKohya_eq]; exact h1
    exact ⟨v, us, n, h3, by rw [ha]; exact h1, by unfold needed; rw [ha, h1]; exact h5, h6⟩

/-! ## Examples -/

theorem keys_nodup {p : Text × Data.Table} (hp : p ∈ tables) : (p.2.entries.map (·.key)).Nodup := by
  have this := (Fast.known p hp).names
  unfold Fast.names at this
  generalize p.2.entries = es at this
  induction es with
  | nil => simp
  | cons e l ih =>
    rw [List.flatMap_cons, List.nodup_append] at this
    rw [List.map_cons, List.nodup_cons]
    refine ⟨fun hm => ?_, ih this.2.1⟩
    obtain ⟨e', he', h⟩ := List.mem_map.1 hm
    exact this.2.2 e.key (by simp) e.key (List.mem_flatMap.2 ⟨e', he', by simp [h]⟩) rfl

/-- A checkpoint of zeros for a config that comes with the library -/
def zeros (es : List Data.Entry) (k : Str) : Option Tensor :=
  (es.find? fun e => decide (str e.key = k)).map fun e => ⟨.f16, e.shape, List.replicate (numel e.shape * 2) 0⟩

theorem zeros_matches {p : Text × Data.Table} (hp : p ∈ tables) : Matches (zeros p.2.entries) p.2.entries where
  has e he := by
    unfold zeros
    cases hf : p.2.entries.find? fun e' => decide (str e'.key = str e.key) with
    | none => exact absurd (List.find?_eq_none.1 hf e he) (by simp)
    | some e' =>
      have h1 := List.mem_of_find?_eq_some hf
      have h2 := of_decide_eq_true (List.find?_some (p := fun e' : Data.Entry => decide (str e'.key = str e.key)) hf)
      obtain rfl := List.inj_on_of_nodup_map (keys_nodup hp) h1 he (str_inj (ascii_of hp h1) (ascii_of hp he) h2)
      exact ⟨_, rfl, rfl⟩
  only k u h := by
    unfold zeros at h
    cases hf : p.2.entries.find? fun e' => decide (str e'.key = k) with
    | none => rw [hf] at h; cases h
    | some e' =>
      exact ⟨e', List.mem_of_find?_eq_some hf, (of_decide_eq_true (List.find?_some (p := fun e' : Data.Entry => decide (str e'.key = k)) hf)).symm⟩

/-- The conclusions about the conversions apply to such checkpoints. -/
example := C118_sd1_partial (zeros_matches (p := (key% "sd1-kohya", Data.Sd1Kohya.table)) (by simp [tables]))
example := C118_norm_false (zeros_matches (p := (key% "sd1-kohya", Data.Sd1Kohya.table)) (by simp [tables]))
example := C118_sdxl_partial (zeros_matches (p := (key% "sdxl-kohya", Data.SdxlKohya.table)) (by simp [tables]))
example := C118_bias_false (zeros_matches (p := (key% "sdxl-kohya", Data.SdxlKohya.table)) (by simp [tables]))
example := C118_unet_partial (zeros_matches (p := (key% "sdxl-diffusers_unet_only", Data.SdxlDiffusersUnetOnly.table)) (by simp [tables]))
example := C118_unet_false (zeros_matches (p := (key% "sdxl-diffusers_unet_only", Data.SdxlDiffusersUnetOnly.table)) (by simp [tables]))
example := C118_vae_false (zeros_matches (p := (key% "sdxl-kohya", Data.SdxlKohya.table)) (by simp [tables]))
  (str (key% "first_stage_model.decoder.conv_in.weight")) ⟨key% "decoder.conv_in.weight", by decide +kernel⟩

/-- A 2×3 matrix of bytes: `tensor.T` is written in the order of the storage. -/
example : Strided.toOut (transposeView ⟨.u8, [2, 3], [3, 1], 0, [1, 2, 3, 4, 5, 6], 6⟩) = ⟨.u8, [3, 2], [1, 2, 3, 4, 5, 6]⟩ ∧
    Strided.Spec.rowMajor (transposeView ⟨.u8, [2, 3], [3, 1], 0, [1, 2, 3, 4, 5, 6], 6⟩) = [1, 4, 2, 5, 3, 6] := by decide +kernel

namespace Ex
open Readme.Ex (stateOf openOf valid_of fresh num)

def textF : List Char :=
  "{\"te2.text_projection.weight\":{\"dtype\":\"F16\",\"shape\":[2,2],\"data_offsets\":[0,8]},\"te2.text_model.encoder.layers.0.self_attn.q_proj.bias\":{\"dtype\":\"F16\",\"shape\":[1],\"data_offsets\":[8,10]},\"te2.text_model.encoder.layers.0.self_attn.k_proj.bias\":{\"dtype\":\"F16\",\"shape\":[1],\"data_offsets\":[10,12]},\"te2.text_model.encoder.layers.0.self_attn.v_proj.bias\":{\"dtype\":\"F16\",\"shape\":[1],\"data_offsets\":[12,14]},\"first_stage_model.decoder.conv_in.weight\":{\"dtype\":\"F16\",\"shape\":[1],\"data_offsets\":[14,16]}}".toList

/-- `[[1, 3], [5, 7]]`; `[1]`, `[2]`, `[3]`; `[4]` -/
def fileF : Bytes := le64 textF.length ++ asciiBytes textF ++
  [0x00, 0x3C, 0x00, 0x42, 0x00, 0x45, 0x00, 0x47, 0x00, 0x3C, 0x00, 0x40, 0x00, 0x42, 0x00, 0x44]

def kT : Str := "te2.text_projection.weight".toList
def kQ : Str := "te2.text_model.encoder.layers.0.self_attn.q_proj.bias".toList
def kK : Str := "te2.text_model.encoder.layers.0.self_attn.k_proj.bias".toList
def kV : Str := "te2.text_model.encoder.layers.0.self_attn.v_proj.bias".toList
def kD : Str := "first_stage_model.decoder.conv_in.weight".toList

def tP : Str := "conditioner.embedders.1.model.text_projection".toList
def tB : Str := "conditioner.embedders.1.model.transformer.resblocks.0.attn.in_proj_bias".toList

def headerF : Header := [(kT, .tensor ⟨.f16, [2, 2], 0, 8⟩), (kQ, .tensor ⟨.f16, [1], 8, 10⟩), (kK, .tensor ⟨.f16, [1], 10, 12⟩), (kV, .tensor ⟨.f16, [1], 12, 14⟩),
  (kD, .tensor ⟨.f16, [1], 14, 16⟩)]

def opened (p : Str) : Option StreamIn.State := if p = "f".toList then some (stateOf fileF textF.length headerF) else none

theorem readF : StreamIn.readHeader fileF = .ok (textF.length, headerF) := by decide +kernel

theorem sound : headerF.all (fun p => match p.2 with
    | .tensor e => decide (e.start ≤ e.stop ∧ 8 + textF.length + e.stop ≤ fileF.length ∧ e.stop - e.start = numel e.shape * Safetensors.width e.dtype ∧ e.stop - e.start ≤ 1000)
    | _ => true) = true := by decide +kernel

theorem opened_ok : Opened opened := by
  intro p s h
  unfold opened at h
  split_ifs at h
  rw [← Option.some.inj h]
  refine fresh readF fun p hp e he => ?_
  have := List.all_eq_true.1 sound p hp
  rw [he] at this
  exact of_decide_eq_true this

def entry (k : Str) : Str × KeyMeta := (k, ⟨none, none, [], false⟩)
def cfgS : ModelConfig := ⟨"t-kohya".toList, [("main".toList, [entry kT, entry kQ, entry kK, entry kV, entry kD])]⟩
def cfgT : ModelConfig := ⟨"t-sgm".toList, [("main".toList, [entry tP, entry tB, entry kD])]⟩

def T : Torch := Readme.Ex.T

def conv : Str := "convert_t".toList

def P : PWorld (Option Int) Tensor where
  env := ⟨[(nFallback, fallbackSig), (nCast, castSig), (nPick, componentSig), (nOmit, componentSig), (conv, convSig "sd".toList "t-kohya".toList "t-sgm".toList)],
    ["t-kohya".toList, "t-sgm".toList], allSpaces, id⟩
  conv := ⟨fun _ => .error .value, fun _ => .error .value, fun _ => .error .type⟩
  tensors _ := ⟨.u8, [0], []⟩
  configs c := if c = "t-kohya".toList then some cfgS else if c = "t-sgm".toList then some cfgT else none
  source m := if m = nFallback then fallbackSource else if m = nCast then castSource (move T.other) else if m = nPick then pickSource
    else if m = nOmit then omitSource else convSource Convert.sdxlKohya

theorem wanted {k : Str} (h : Wanted cfgT (defaults (F := Option Int)) k) : k = tP ∨ k = tB ∨ k = kD := by
  obtain ⟨⟨p, hp, hk⟩, _⟩ := h
  simp only [cfgT, List.mem_singleton] at hp
  subst hp
  simpa [Dict.keys, entry] using hk

theorem scene : Scene T P opened Convert.sdxlKohya conv "sd".toList "t-kohya".toList "t-sgm".toList "f".toList cfgS cfgT where
  registered := by constructor <;> rfl
  conversion := rfl
  sig := rfl
  files := opened_ok
  model := by decide +kernel
  source := rfl
  target := rfl
  names k hk := by rcases wanted hk with rfl | rfl | rfl <;> decide

def r : Val (Option Int) := recipe conv "f".toList "t-kohya".toList

def merged : Val (Option Int) := match prepare P.env defaults r with | .ok p => p.2 | .error _ => .none

def keys : List Str := [tP, tB, kD]

def stores : List (Str × Tensor) := [(tP, ⟨.f16, [2, 2], [0x00, 0x3C, 0x00, 0x42, 0x00, 0x45, 0x00, 0x47]⟩), (tB, ⟨.f16, [3, 1], [0x00, 0x3C, 0x00, 0x40, 0x00, 0x42]⟩)]

def text : Option Str := match recipeText Serialize.Ex.num r with | .ok t => t | .error _ => none

def declared : Dict Key StreamOut.Meta := keys.map fun k => (k, ⟨none, none⟩)

def actions : List StreamOut.Action := stores.flatMap fun p => [.begin 0 p.1 p.2, .locked 0, .finish 0]

def writer : StreamOut.State := (StreamOut.run (StreamOut.init declared text 2 10000) actions).getD (StreamOut.init declared text 2 10000)

def file : Bytes := match StreamOut.close writer with | .ok f => f | .error _ => []

theorem ran : Threads.sequential (Threads.fileProgram P merged) opened keys = (stores, .returned) := by decide +kernel

def saves : Saves P Serialize.Ex.num defaults opened r 0 file where
  original := r
  merged := merged
  keys := keys
  stores := stores
  prepared := by decide +kernel
  planned := by decide +kernel
  ran := ran
  text := text
  declared := declared
  minBuf := 2
  cap := 10000
  actions := actions
  writer := writer
  serialized := by decide +kernel
  wrote := by decide +kernel
  quiet := by unfold StreamOut.Spec.Quiescent; decide +kernel
  assigned := by decide +kernel
  complete := ⟨by decide, by decide +kernel, by decide, by decide +kernel⟩
  closed := by decide +kernel

/-- C118_file_partial applies; the autoencoder is missing. -/
example : ∃ s0, StreamIn.open_ file 2 1000 = .ok s0 ∧ tP ∈ StreamIn.keys s0 ∧ tB ∈ StreamIn.keys s0 ∧ kD ∉ StreamIn.keys s0 := by
  obtain ⟨s0, h1, h2, _⟩ := C118_file_partial scene Serialize.Ex.num 0 file saves 2 1000 (by decide) (by decide +kernel)
  have hw : ∀ k ∈ keys, Wanted cfgT (defaults (F := Option Int)) k := by
    intro k hk
    have : ∀ k ∈ keys, k ∈ Merge.targetKeys cfgT true := by decide +kernel
    exact (Merge.mem_targetKeys _ _ _).1 (this k hk)
  refine ⟨s0, h1, (h2 _).2 ⟨hw _ (by decide), by decide +kernel⟩, (h2 _).2 ⟨hw _ (by decide), by decide +kernel⟩, fun h => ?_⟩
  have : (parts opened Convert.sdxlKohya cfgS "f".toList kD).isSome = false := by decide +kernel
  rw [((h2 kD).1 h).2] at this
  cases this

end Ex

namespace Ex
def projection : Tensor := ⟨.f16, [2, 2], [0x00, 0x3C, 0x00, 0x42, 0x00, 0x45, 0x00, 0x47]⟩
theorem wanted_projection : Wanted cfgT (defaults (F := Option Int)) tP := (Merge.mem_targetKeys _ _ _).1 (by decide +kernel)
theorem converts : Convert.sdxlKohya (codes tP) = some (.transposed (key% "te2.text_projection.weight")) := by decide +kernel
theorem parts_projection : parts opened Convert.sdxlKohya cfgS "f".toList tP = some [projection] := by decide +kernel
theorem held_projection : held opened cfgS "f".toList kT = some projection := by decide +kernel
theorem narrow_projection : narrow T projection = projection := by decide +kernel
theorem not_symmetric : (entries projection)[1 * 2 + 0]? ≠ (entries projection)[0 * 2 + 1]? := by decide +kernel
/-- C118_exact applies. -/
example : [projection].map (narrow T) = [projection] :=
  C118_exact opened_ok parts_projection (by unfold NoNan; decide +kernel)

theorem small : ∀ q ∈ saves.stores, q.2.bytes.length ≤ 1000 := by decide +kernel
theorem read_projection : ∃ (t : Tensor) (s0 s1 : StreamIn.State) (v : StreamIn.View), StreamIn.open_ file 2 1000 = .ok s0 ∧ StreamIn.getItem s0 tP = (s1, .ok v) ∧
    (⟨v.dtype, v.shape, s1.read v⟩ : Tensor) = t ∧ ¬ Transposed projection t := by
  obtain ⟨s0, h1, _, h3⟩ := C118_file_partial scene Serialize.Ex.num 0 file saves 2 1000 (by decide) small
  obtain ⟨t, ht, h⟩ := h3 tP _ [projection] wanted_projection converts parts_projection
  obtain ⟨s1, v, q1, q2⟩ := h []
  refine ⟨t, s0, s1, v, h1, q1, q2, ?_⟩
  rw [List.map_singleton] at ht
  have hn := narrow_projection
  rw [hn] at ht
  rw [C118_transposed (n := 2) rfl ht]
  exact fun hs => not_symmetric (hs 0 1 (by decide) (by decide))
end Ex

/-- False: after the conversion from the layout of kohya, the text projection in the file is the transpose of what the checkpoint has.  It has the shape of the
transpose, and nothing else. -/
theorem C118_transposed_false : ∃ (T : Torch) (P : PWorld (Option Int) Tensor) (opened : Str → Option StreamIn.State) (cfgS cfgT : ModelConfig) (conv name cs ct p : Str)
    (N : Serialize.Num (Option Int)) (file : Bytes) (_ : Saves P N (defaults (F := Option Int)) opened (recipe conv p cs) 0 file) (u t : Tensor) (s0 s1 : StreamIn.State)
    (v : StreamIn.View), Scene T P opened Convert.sdxlKohya conv name cs ct p cfgS cfgT ∧
      held opened cfgS p "te2.text_projection.weight".toList = some u ∧ StreamIn.open_ file 2 1000 = .ok s0 ∧
      StreamIn.getItem s0 "conditioner.embedders.1.model.text_projection".toList = (s1, .ok v) ∧ (⟨v.dtype, v.shape, s1.read v⟩ : Tensor) = t ∧ u.dtype = .f16 ∧ ¬ Transposed u t := by
  obtain ⟨t, s0, s1, v, h1, h2, h3, h4⟩ := Ex.read_projection
  exact ⟨Ex.T, Ex.P, Ex.opened, Ex.cfgS, Ex.cfgT, Ex.conv, _, _, _, _, _, Ex.file, Ex.saves, Ex.projection, t, s0, s1, v, Ex.scene, Ex.held_projection, h1, h2, h3, rfl, h4⟩

end Verif.Converted
