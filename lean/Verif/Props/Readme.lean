import Verif.Proofs.ReadmeEval

/-!
# The first example of the README (C104)

`Blended t m n o` says that the float16 number with bits `o` is a good weighted sum of those with bits `m` and `n`, see `Verif/Spec/Readme.lean`;
`held opened cfg p k` is the tensor that the file `p` has for the key `k` of the config.
-/
namespace Verif.Readme
open Method Recipe Config Eval Eval.Spec Program Program.Spec Whole Whole.Spec Ieee Ieee.Spec Spec
open Threads.Spec (stored Opened)
open StreamOut (Tensor)
variable {F : Type}

/-- The library with its builtin methods, and two float16 models of one architecture.  `num x` is the number a python float is. -/
structure Scene (T : Torch) (P : PWorld F Tensor) (num : F → FV) (dflt : F) (opened : Str → Option StreamIn.State) (c : Str) (cfg : ModelConfig)
    (pa pb : Str) (rcap : ℕ) : Prop where
  registered : Registered P (move T.other)
  source : P.source nWeighted = weightedSource T
  sig : P.env.resolve nWeighted = .ok (weightedSig dflt)
  tensor : ∀ x, P.conv.toTensor (.float x) = .ok (alphaTensor (num x))
  files : Opened opened
  a : opened pa ≠ none
  b : opened pb ≠ none
  config : P.configs c = some cfg
  names : ∀ k, Wanted cfg (defaults (F := F)) k → k ≠ metadataKey
  half : ∀ p k u, p = pa ∨ p = pb → Wanted cfg (defaults (F := F)) k → held opened cfg p k = some u → u.dtype = .f16 ∧ 2 * numel u.shape ≤ rcap
  shapes : ∀ k u w, Wanted cfg (defaults (F := F)) k → held opened cfg pa k = some u → held opened cfg pb k = some w → u.shape = w.shape

theorem arg3 {a b d v : Val F} {idx : Idx} (h : ArgAt [a, b, d] [] idx v) :
    (idx = .pos 0 ∧ v = a) ∨ (idx = .pos 1 ∧ v = b) ∨ (idx = .pos 2 ∧ v = d) := by
  cases idx with
  | name k => cases h
  | pos i =>
    have h' : [a, b, d][i]? = some v := h
    match i, h' with
    | 0, h' => left; simp at h'; exact ⟨rfl, h'.symm⟩
    | 1, h' => right; left; simp at h'; exact ⟨rfl, h'.symm⟩
    | 2, h' => right; right; simp at h'; exact ⟨rfl, h'.symm⟩
    | i + 3, h' => simp at h'

section

variable {T : Torch} {P : PWorld F Tensor} {num : F → FV} {dflt : F} {opened : Str → Option StreamIn.State} {c : Str} {cfg : ModelConfig}
  {pa pb : Str} {rcap : ℕ}

theorem Scene.fits (S : Scene T P num dflt opened c cfg pa pb rcap) (x : F) :
    Fits (world P (stored opened)) (move T.other) (fun _ => alpha64 T (num x)) (fun _ => 0) defaults (recipe pa pb c x) := by
  refine ⟨by simp [recipe, Proper, ProperL, ProperK], fun _ => ?_⟩
  have hty : ∀ W : World F Tensor, W.impl nWeighted = impl (P.source nWeighted) → typeOf W nWeighted 3 (.pos 0) = some (.sd .tensor) ∧
      typeOf W nWeighted 3 (.pos 1) = some (.sd .tensor) ∧ typeOf W nWeighted 3 (.pos 2) = some (.val .tensor) := by
    intro W hW
    unfold typeOf
    rw [hW, S.source]
    exact ⟨rfl, rfl, rfl⟩
  obtain ⟨t0, t1, t2⟩ := hty (world P (stored opened)) rfl
  obtain ⟨s0, s1, s2⟩ := hty (castWorld (world P (stored opened)) (move T.other (defaults (F := F)).mergeDevice (defaults (F := F)).mergeDtype) fun _ => alpha64 T (num x)) rfl
  unfold recipe
  rw [Castable]
  refine ⟨⟨by simp [Dict.keys], ?_, ?_⟩, ?_, ?_, by rw [CastableK]; trivial⟩
  · intro idx v h
    rcases arg3 h with ⟨_, rfl⟩ | ⟨_, rfl⟩ | ⟨_, rfl⟩ <;> simp [Proper]
  · intro idx v h
    simp only [List.length_cons, List.length_nil]
    rcases arg3 h with ⟨rfl, _⟩ | ⟨rfl, _⟩ | ⟨rfl, _⟩
    · rw [t0]; rfl
    · rw [t1]; rfl
    · rw [t2]; rfl
  · rintro key e e' ⟨idx, v, ty, h1, h2, h3⟩ _
    exfalso
    rw [precastL, precastL, precastL, precastL, precastK] at h1
    rw [precastL, precastL, precastL, precastL] at h2
    simp only [List.length_cons, List.length_nil] at h2
    rcases arg3 h1 with ⟨rfl, _⟩ | ⟨rfl, _⟩ | ⟨rfl, hv⟩
    · rw [s0] at h2; cases h2
    · rw [s1] at h2; cases h2
    · rw [s2] at h2; cases h2
      rw [precast] at hv
      · subst hv
        simp [castRun, isScalar, eval, castTo, RVal.isInstance] at h3
      · simp
  · rw [CastableL, CastableL, CastableL, CastableL, Castable, Castable, Castable]
    · refine ⟨trivial, trivial, ⟨rfl, fun _ => ⟨.float x, alphaTensor (num x), fun _ => by rw [eval], ?_, move64 T _⟩⟩, trivial⟩
      show (P.conv.toTensor (.float x)).map RVal.tensor = _
      rw [S.tensor]; rfl
    · simp

theorem Scene.configOf (S : Scene T P num dflt opened c cfg pa pb rcap) (x : F) : configOf (world P (stored opened)) (recipe pa pb c x) = .ok (some cfg) := by
  have h : (recipe pa pb c x).config P.env = .ok (some c) := by
    unfold recipe
    rw [Val.config, S.sig, configL, configL, configL, configL, configK, Val.config, Val.config, Val.config]
    show Sig.returnConfig (weightedSig dflt) [some c, some c, none] [] = _
    show (if c ≠ c then Except.error Err.value else Except.ok (some c)) = _
    simp
  unfold Eval.configOf
  have h : (recipe pa pb c x).config (world P (stored opened)).env = _ := h
  rw [h]
  simp only
  show Except.ok (P.configs c) = _
  rw [S.config]

theorem Scene.hasConfig (S : Scene T P num dflt opened c cfg pa pb rcap) {x : F} {cfg' : ModelConfig}
    (h : HasConfig (world P (stored opened)) (recipe pa pb c x) none cfg') : cfg = cfg' := by
  rcases h with h | ⟨_, fb, h, _⟩
  · exact Option.some.inj (Except.ok.inj ((S.configOf x).symm.trans h))
  · cases h

theorem held_wf (h : Opened opened) {p k : Str} {u : Tensor} (hu : held opened cfg p k = some u) : u.bytes.length = numel u.shape * u.dtype.size := by
  obtain ⟨name, _, hn⟩ := List.exists_of_findSome?_eq_some hu
  unfold tensorIn stored at hn
  cases ho : opened p with
  | none => rw [ho] at hn; cases hn
  | some s =>
    rw [ho] at hn
    simp only at hn
    split_ifs at hn
    split at hn
    · rename_i t ht
      split at ht
      · rename_i e he
        obtain ⟨file, bs, cap, h1, h2, _, _⟩ := h p s ho
        have hv := h2 _ _ he
        have hf : s.file = file := (StreamIn.open_fields h1).1
        cases ht; cases hn
        show (StreamIn.Spec.bytesOf s.file s.headerSize e).length = numel e.shape * e.dtype.size
        unfold StreamIn.Spec.bytesOf
        have := hv.inside
        have := hv.ordered
        rw [hf, List.length_take, List.length_drop, ← width_eq, ← hv.size]
        unfold StreamIn.Spec.first
        unfold StreamIn.Spec.last at *
        omega
      · cases ht
    · cases hn

/-- `weighted_sum(a, b, alpha=x)`, also with `alpha` by position -/
theorem C104_recipe (S : Scene T P num dflt opened c cfg pa pb rcap) (x : F) :
    createRecipe P.env nWeighted [.model pa (some c) (some weight), .model pb (some c) (some weight)] [("alpha".toList, .float x)] =
      .ok (recipe pa pb c x) := by
  unfold createRecipe
  rw [S.sig]
  have hb : Method.bind (weightedSig dflt) [.model pa (some c) (some weight), .model pb (some c) (some weight)] [("alpha".toList, .float x)] =
      .ok ⟨[.model pa (some c) (some weight), .model pb (some c) (some weight), .float x], []⟩ := by
    rfl
  have hsp : (recipe pa pb c x).space P.env = .ok (some weight) := by
    unfold recipe
    rw [Val.space, S.sig]
    rfl
  have hn : valuesToNodes P.env [.model pa (some c) (some weight), .model pb (some c) (some weight), .float x] =
      .ok [.model pa (some c) (some weight), .model pb (some c) (some weight), .lit (.float x) none "param".toList] := rfl
  have hk : valuesToNodesK P.env [] = .ok [] := rfl
  have hsp : (Val.merge nWeighted [.model pa (some c) (some weight), .model pb (some c) (some weight), .lit (.float x) none "param".toList] []).space P.env =
      .ok (some weight) := hsp
  simp only [Bind.bind, Except.bind, hb, hn, hk, hsp]
  rfl

/-- The weight is neither nearly zero nor nearly one. -/
theorem not_close {v : FV} {t : ℚ} (hv : val v = some t) (h0 : 1 / 2 ^ 13 ≤ t) (h1 : t ≤ 1 - 1 / 2 ^ 13) :
    isClose (alphaOf v) zero = false ∧ isClose (alphaOf v) one = false := by
  have hs : ∀ k : ℕ, k ≤ 2 ^ 13 → Has single (k * (2 : ℚ) ^ (-13 : ℤ)) := by
    intro k hk
    refine ⟨k, -13, by push_cast; rfl, ?_, by decide, ?_⟩
    · rw [abs_of_nonneg (by positivity)]
      have : single.p = 24 := by decide
      rw [this]
      have : k < 2 ^ 24 := by omega
      exact_mod_cast this
    · have : single.emax = (128 : ℕ) := by decide
      rw [this, zpow_natCast, abs_of_nonneg (by positivity)]
      have hk' : (k : ℚ) ≤ 2 ^ 13 := by exact_mod_cast hk
      have : (k : ℚ) * (2 : ℚ) ^ (-13 : ℤ) ≤ 1 := by
        calc (k : ℚ) * (2 : ℚ) ^ (-13 : ℤ) ≤ 2 ^ 13 * (2 : ℚ) ^ (-13 : ℤ) := mul_le_mul_of_nonneg_right hk' (by positivity)
          _ = 1 := by norm_num
      exact lt_of_le_of_lt this (one_lt_pow₀ (by norm_num) (by norm_num))
  have p13 : (2 : ℚ) ^ (-13 : ℤ) = 1 / 2 ^ 13 := by norm_num
  obtain ⟨al, l1, l2, l3, _, l5⟩ := alpha_val hv (le_trans (by norm_num) h0) (h1.trans (by norm_num))
  have g1 : (1 : ℚ) / 2 ^ 13 ≤ al := by
    have := l5.ge (hs 1 (by norm_num)) (by rw [p13]; push_cast; linarith)
    rw [p13] at this; push_cast at this; linarith
  have g2 : al ≤ 1 - 1 / 2 ^ 13 := by
    have := l5.le (hs 8191 (by norm_num)) (by rw [p13]; push_cast; norm_num at h1 ⊢; linarith)
    rw [p13] at this; push_cast at this; norm_num at this ⊢; linarith
  constructor
  · by_contra h
    rw [Bool.not_eq_false] at h
    have := close_zero l1 h
    rw [abs_of_nonneg l2] at this
    have e : (2 : ℚ) ^ (-26 : ℤ) < 1 / 2 ^ 13 := by norm_num
    exact absurd g1 (not_le.2 (this.trans e))
  · by_contra h
    rw [Bool.not_eq_false] at h
    have := close_one l1 h
    rw [abs_of_nonneg (by linarith)] at this
    have e : (2 : ℚ) ^ (-16 : ℤ) < 1 / 2 ^ 13 := by norm_num
    have := this.trans e
    linarith

/-- The weight is zero or one. -/
theorem close_end {v : FV} : (val v = some 0 → isClose (alphaOf v) zero = true) ∧
    (val v = some 1 → isClose (alphaOf v) zero = false ∧ isClose (alphaOf v) one = true) := by
  refine ⟨fun hv => ?_, fun hv => ?_⟩
  · obtain ⟨al, l1, _, _, _, l5⟩ := alpha_val hv le_rfl (by norm_num)
    rw [l5.eq (has_zero single)] at l1
    exact isClose_of_eq l1 val_zero
  · obtain ⟨al, l1, _, _, _, l5⟩ := alpha_val hv (by norm_num) le_rfl
    rw [l5.eq has_single_one] at l1
    refine ⟨?_, isClose_of_eq l1 val_one⟩
    by_contra h
    rw [Bool.not_eq_false] at h
    have := close_zero l1 h
    norm_num at this

/-- What is stored for a key is a tensor that fits the file. -/
theorem Scene.final_wf (S : Scene T P num dflt opened c cfg pa pb rcap) (x : F) {k : Str} {y : Tensor} (hk : Wanted cfg (defaults (F := F)) k)
    (hy : final (world P (stored opened)) (move T.other) (fun _ => alpha64 T (num x)) (fun _ => 0) defaults (recipe pa pb c x) none k = .ok (.tensor y)) :
    StreamOut.Spec.Tensor.WF y ∧ y.bytes.length ≤ rcap := by
  have hof : ∀ p u l, p = pa ∨ p = pb → held opened cfg p k = some u → l.length = numel u.shape → y = ofEntries .f16 u.shape l →
      StreamOut.Spec.Tensor.WF y ∧ y.bytes.length ≤ rcap := by
    intro p u l hp hu hl e
    have h := wf_ofEntries .f16 u.shape l hl
    rw [← e] at h
    refine ⟨h, ?_⟩
    rw [wf_iff] at h
    rw [h, e]
    show numel u.shape * 2 ≤ rcap
    rw [mul_comm]
    exact (S.half p k u hp hk hu).2
  have hback : ∀ p u, p = pa ∨ p = pb → held opened cfg p k = some u → y = Ieee.cast T.other .f16 (Ieee.cast T.other .f64 u) →
      StreamOut.Spec.Tensor.WF y ∧ y.bytes.length ≤ rcap := by
    intro p u hp hu e
    rw [cast_back T (S.half p k u hp hk hu).1] at e
    exact hof p u _ hp hu (by rw [List.length_map, entries_length]) e
  obtain ⟨o1, o2, o3⟩ := final_one S.source S.config S.a S.b (num x) x k
  by_cases c0 : isClose (alphaOf (num x)) zero = true
  · rw [o1 c0] at hy
    cases hu : held opened cfg pa k with
    | none => rw [hu] at hy; cases hy
    | some u => rw [hu] at hy; cases hy; exact hback pa u (.inl rfl) hu rfl
  rw [Bool.not_eq_true] at c0
  by_cases c1 : isClose (alphaOf (num x)) one = true
  · rw [o2 c0 c1] at hy
    cases hu : held opened cfg pb k with
    | none => rw [hu] at hy; cases hy
    | some u => rw [hu] at hy; cases hy; exact hback pb u (.inr rfl) hu rfl
  rw [Bool.not_eq_true] at c1
  cases hu : held opened cfg pa k with
  | none => rw [o3 c0 c1 (.inl hu)] at hy; cases hy
  | some u =>
    cases hw' : held opened cfg pb k with
    | none => rw [o3 c0 c1 (.inr hw')] at hy; cases hy
    | some w =>
      have hs := S.shapes k u w hk hu hw'
      rw [final_both S.source S.config S.a S.b (num x) x k hu hw' (S.half _ k u (.inl rfl) hk hu).1 (S.half _ k w (.inr rfl) hk hw').1 hs] at hy
      cases hy
      exact hof pa u _ (.inl rfl) hu (by rw [List.length_zipWith, entries_length, entries_length, hs, min_self]) rfl

/-- What is in the file under one key, if that is what `final` says -/
theorem Scene.each (S : Scene T P num dflt opened c cfg pa pb rcap) (x : F) (t : ℚ) (hx : val (num x) = some t) (h0 : 0 ≤ t) (h1 : t ≤ 1)
    {s0 : StreamIn.State} {k : Str} (hk : Wanted cfg (defaults (F := F)) k)
    (k7 : k ∈ StreamIn.keys s0 ↔ ∃ y, final (world P (stored opened)) (move T.other) (fun _ => alpha64 T (num x)) (fun _ => 0) defaults (recipe pa pb c x) none k =
      .ok (.tensor y))
    (k8 : ∀ y, final (world P (stored opened)) (move T.other) (fun _ => alpha64 T (num x)) (fun _ => 0) defaults (recipe pa pb c x) none k = .ok (.tensor y) →
      ∀ history : List Key, ∃ s1 v, StreamIn.getItem (StreamIn.run s0 (history.map .load)).st k = (s1, .ok v) ∧ v.dtype = y.dtype ∧ v.shape = y.shape ∧
        s1.read v = y.bytes) :
    (∀ u w, held opened cfg pa k = some u → held opened cfg pb k = some w → k ∈ StreamIn.keys s0 ∧
      ∀ history : List Key, ∃ s1 v, StreamIn.getItem (StreamIn.run s0 (history.map .load)).st k = (s1, .ok v) ∧ v.dtype = .f16 ∧ v.shape = u.shape ∧
        (entries ⟨v.dtype, v.shape, s1.read v⟩).length = (entries u).length ∧
        ∀ (i m n : ℕ), (entries u)[i]? = some m → (entries w)[i]? = some n →
          ∃ o, (entries ⟨v.dtype, v.shape, s1.read v⟩)[i]? = some o ∧ Blended t m n o) ∧
    (1 / 2 ^ 13 ≤ t → t ≤ 1 - 1 / 2 ^ 13 → (k ∈ StreamIn.keys s0 ↔ (held opened cfg pa k).isSome ∧ (held opened cfg pb k).isSome)) ∧
    ∀ p, t = 0 ∧ p = pa ∨ t = 1 ∧ p = pb →
      (k ∈ StreamIn.keys s0 ↔ (held opened cfg p k).isSome) ∧
      ∀ u, held opened cfg p k = some u → NoNan u → ∀ history : List Key, ∃ s1 v,
        StreamIn.getItem (StreamIn.run s0 (history.map .load)).st k = (s1, .ok v) ∧ (⟨v.dtype, v.shape, s1.read v⟩ : Tensor) = u := by
  obtain ⟨e0, e1⟩ := close_end (v := num x)
  refine ⟨fun u w hu hw' => ?_, fun g0 g1 => ?_, fun p hp => ?_⟩
  · have hs := S.shapes k u w hk hu hw'
    have hf := final_both S.source S.config S.a S.b (num x) x k hu hw' (S.half _ k u (.inl rfl) hk hu).1 (S.half _ k w (.inr rfl) hk hw').1 hs
    refine ⟨k7.2 ⟨_, hf⟩, fun history => ?_⟩
    obtain ⟨s1, v, q1, q2, q3, q4⟩ := k8 _ hf history
    have hv : (⟨v.dtype, v.shape, s1.read v⟩ : Tensor) = ofEntries .f16 u.shape (List.zipWith (out (num x)) (entries u) (entries w)) := by
      rw [q2, q3, q4]
    have hl : (List.zipWith (out (num x)) (entries u) (entries w)).length = numel u.shape := by
      rw [List.length_zipWith, entries_length, entries_length, hs, min_self]
    have hent : entries (ofEntries .f16 u.shape (List.zipWith (out (num x)) (entries u) (entries w))) = List.zipWith (out (num x)) (entries u) (entries w) := by
      refine entries_ofEntries _ _ _ hl fun n hn => ?_
      obtain ⟨i, hi⟩ := List.mem_iff_getElem?.1 hn
      rw [List.getElem?_zipWith] at hi
      split at hi
      · rw [← Option.some.inj hi]
        exact entry_lt _ _ _
      · cases hi
    refine ⟨s1, v, q1, q2, q3, ?_, ?_⟩
    · rw [hv, hent, hl, entries_length]
    · intro i m n hm hn
      refine ⟨out (num x) m n, ?_, ?_⟩
      · rw [hv, hent, List.getElem?_zipWith, hm, hn]
      · have := entries_lt u (held_wf S.files hu) m (List.mem_iff_getElem?.2 ⟨i, hm⟩)
        rw [(S.half _ k u (.inl rfl) hk hu).1] at this
        exact blended hx h0 h1 this
  · obtain ⟨c0, c1⟩ := not_close hx g0 g1
    obtain ⟨_, _, o3⟩ := final_one S.source S.config S.a S.b (num x) x k
    rw [k7]
    cases hu : held opened cfg pa k with
    | none => rw [o3 c0 c1 (.inl hu)]; simp
    | some u =>
      cases hw' : held opened cfg pb k with
      | none => rw [o3 c0 c1 (.inr hw')]; simp
      | some w =>
        rw [final_both S.source S.config S.a S.b (num x) x k hu hw' (S.half _ k u (.inl rfl) hk hu).1 (S.half _ k w (.inr rfl) hk hw').1
          (S.shapes k u w hk hu hw')]
        simp
  · have hf : final (world P (stored opened)) (move T.other) (fun _ => alpha64 T (num x)) (fun _ => 0) defaults (recipe pa pb c x) none k =
        match held opened cfg p k with
        | some u => .ok (.tensor (Ieee.cast T.other .f16 (Ieee.cast T.other .f64 u)))
        | none => .error .stateDictKey := by
      obtain ⟨o1, o2, _⟩ := final_one S.source S.config S.a S.b (num x) x k
      rcases hp with ⟨rfl, rfl⟩ | ⟨rfl, rfl⟩
      · exact o1 (e0 hx)
      · exact o2 (e1 hx).1 (e1 hx).2
    have hp' : p = pa ∨ p = pb := hp.imp And.right And.right
    refine ⟨?_, fun u hu hn history => ?_⟩
    · rw [k7, hf]
      cases held opened cfg p k <;> simp
    · rw [hu] at hf
      obtain ⟨s1, v, q1, q2, q3, q4⟩ := k8 _ hf history
      refine ⟨s1, v, q1, ?_⟩
      rw [q2, q3, q4]
      have hd := (S.half p k u hp' hk hu).1
      have := C103_back T.other .f64 Ieee.half double u (by rw [hd]; rfl) rfl wider (wf_iff.2 (held_wf S.files hu)) hn
      rw [hd] at this
      exact this

/-- **C104.**  `merge(weighted_sum(a, b, alpha=x), output=file)` with `0 <= x <= 1` and all other options as they are by default, for two float16
models of one architecture: the file opens; every key of the architecture that both models hold is in it, with a float16 tensor of the same shape, each
entry of which is a good weighted sum of those of the models.  No other key is in it, unless `x` is nearly zero or one: then those of `a` or `b` are.
With `x = 0` every tensor is that of `a`, byte by byte, and with `x = 1` that of `b`. -/
theorem C104_readme_partial (S : Scene T P num dflt opened c cfg pa pb rcap) (N : Serialize.Num F) (x : F) (t : ℚ) (hx : val (num x) = some t)
    (h0 : 0 ≤ t) (h1 : t ≤ 1) (n : ℕ) (file : Bytes) (m : Saves P N defaults opened (recipe pa pb c x) n file) (bs : ℕ) (hbs : bs ≤ rcap) :
    ∃ s0, StreamIn.open_ file bs rcap = .ok s0 ∧
      (∀ k u w, Wanted cfg (defaults (F := F)) k → held opened cfg pa k = some u → held opened cfg pb k = some w → k ∈ StreamIn.keys s0 ∧
        ∀ history : List Key, ∃ s1 v, StreamIn.getItem (StreamIn.run s0 (history.map .load)).st k = (s1, .ok v) ∧ v.dtype = .f16 ∧ v.shape = u.shape ∧
          (entries ⟨v.dtype, v.shape, s1.read v⟩).length = (entries u).length ∧
          ∀ (i m n : ℕ), (entries u)[i]? = some m → (entries w)[i]? = some n →
            ∃ o, (entries ⟨v.dtype, v.shape, s1.read v⟩)[i]? = some o ∧ Blended t m n o) ∧
      (1 / 2 ^ 13 ≤ t → t ≤ 1 - 1 / 2 ^ 13 → ∀ k, k ∈ StreamIn.keys s0 ↔
        Wanted cfg (defaults (F := F)) k ∧ (held opened cfg pa k).isSome ∧ (held opened cfg pb k).isSome) ∧
      ∀ p, t = 0 ∧ p = pa ∨ t = 1 ∧ p = pb →
        (∀ k, k ∈ StreamIn.keys s0 ↔ Wanted cfg (defaults (F := F)) k ∧ (held opened cfg p k).isSome) ∧
        ∀ k u, Wanted cfg (defaults (F := F)) k → held opened cfg p k = some u → NoNan u → ∀ history : List Key, ∃ s1 v,
          StreamIn.getItem (StreamIn.run s0 (history.map .load)).st k = (s1, .ok v) ∧ (⟨v.dtype, v.shape, s1.read v⟩ : Tensor) = u := by
  have hw : ∀ k, k ∈ m.keys → Wanted cfg (defaults (F := F)) k := by
    have hv : Except.ok (recipe pa pb c x) = Except.ok m.original := prepare_node m.prepared
    obtain ⟨_, fb, f1, f2⟩ := facts (builtin S.registered (stored opened)) (fun s h => by cases h; decide) (fun s h => by cases h; decide)
      (fun y e h => by rw [show move T.other (defaults (F := F)).mergeDevice (defaults (F := F)).mergeDtype y = _ from move64 T y] at h; cases h)
      m.prepared (by rw [← Except.ok.inj hv]; exact S.fits x) (fun b b' hb => by cases hb)
    obtain ⟨_, cfg', p2, p3⟩ := plan_ok m.planned
    have hcfg := f2.config cfg' p2
    rw [← Except.ok.inj hv] at hcfg
    cases f1
    obtain rfl := S.hasConfig hcfg
    intro k hk
    rw [p3, Merge.mem_targetKeys] at hk
    exact hk
  obtain ⟨r, fb, cfg', s0, k1, k2, k3, _, k5, _, k7, k8⟩ := C99_file_partial P (move T.other) S.registered N defaults
    ⟨fun s h => by cases h; decide, fun s h => by cases h; decide, fun y e h => by rw [show move T.other (defaults (F := F)).mergeDevice (defaults (F := F)).mergeDtype y = _ from move64 T y] at h; cases h⟩
    opened S.files (recipe pa pb c x) n file m (fun _ => alpha64 T (num x)) (fun _ => 0)
    (fun r h => by cases h; exact S.fits x) (fun b b' hb => by cases hb)
    (fun h => S.names _ (hw _ h) rfl)
    (fun r fb k u h h' hk hu => by
      cases h; cases h'
      exact (S.final_wf x (hw k hk) hu).1)
    bs rcap hbs
    (fun r fb k u h h' hk hu => by
      cases h; cases h'
      exact (S.final_wf x (hw k hk) hu).2)
  cases k1; cases k2
  obtain rfl := S.hasConfig k3
  have hall := fun k (hk : Wanted cfg (defaults (F := F)) k) => S.each x t hx h0 h1 hk ((k7 k).trans ⟨fun h => h.2, fun h => ⟨hk, h⟩⟩) fun y hy => k8 k y hk hy
  have hin := fun k (h : k ∈ StreamIn.keys s0) => ((k7 k).1 h).1
  refine ⟨s0, k5, fun k u w hk => (hall k hk).1 u w, fun g0 g1 k => ?_, fun p hp => ⟨fun k => ?_, fun k u hk => ((hall k hk).2.2 p hp).2 u⟩⟩
  · exact ⟨fun h => ⟨hin k h, ((hall k (hin k h)).2.1 g0 g1).1 h⟩, fun h => ((hall k h.1).2.1 g0 g1).2 h.2⟩
  · exact ⟨fun h => ⟨hin k h, ((hall k (hin k h)).2.2 p hp).1.1 h⟩, fun h => ((hall k h.1).2.2 p hp).1.2 h.2⟩

end

/-! ## An example

`merge(weighted_sum(f, g, alpha=0.25), output=...)`.  The file `f` holds `a = [1, -0, 0.1]`, `b = [3]` and `c = [5]`, `g` holds `a = [2, -0, 0.2]` and
`old.b = [-4]`, where `old.b` is an alias of `b`. -/

namespace Ex

def textF : List Char :=
  "{\"a\":{\"dtype\":\"F16\",\"shape\":[3],\"data_offsets\":[0,6]},\"b\":{\"dtype\":\"F16\",\"shape\":[],\"data_offsets\":[6,8]},\"c\":{\"dtype\":\"F16\",\"shape\":[],\"data_offsets\":[8,10]}}".toList

def textG : List Char :=
  "{\"a\":{\"dtype\":\"F16\",\"shape\":[3],\"data_offsets\":[0,6]},\"old.b\":{\"dtype\":\"F16\",\"shape\":[],\"data_offsets\":[6,8]}}".toList

def fileF : Bytes := le64 textF.length ++ asciiBytes textF ++ [0x00, 0x3C, 0x00, 0x80, 0x66, 0x2E, 0x00, 0x42, 0x00, 0x45]
def fileG : Bytes := le64 textG.length ++ asciiBytes textG ++ [0x00, 0x40, 0x00, 0x80, 0x66, 0x32, 0x00, 0xC4]

def headerF : Header := [("a".toList, .tensor ⟨.f16, [3], 0, 6⟩), ("b".toList, .tensor ⟨.f16, [], 6, 8⟩), ("c".toList, .tensor ⟨.f16, [], 8, 10⟩)]
def headerG : Header := [("a".toList, .tensor ⟨.f16, [3], 0, 6⟩), ("old.b".toList, .tensor ⟨.f16, [], 6, 8⟩)]

def stateOf (file : Bytes) (size : ℕ) (header : Header) : StreamIn.State :=
  { file := file, defaultBufferSize := 2, cap := 1000, headerSize := size, header := header, heap := [[]], buf := 0, bufStart := 8 + size }

theorem openOf {file : Bytes} {size : ℕ} {header : Header} (h : StreamIn.readHeader file = .ok (size, header)) :
    StreamIn.open_ file 2 1000 = .ok (stateOf file size header) := by
  simp [StreamIn.open_, h, stateOf, Bind.bind, Except.bind, pure, Except.pure]

def opened (p : Str) : Option StreamIn.State :=
  if p = "f".toList then some (stateOf fileF textF.length headerF) else if p = "g".toList then some (stateOf fileG textG.length headerG) else none

theorem valid_of {file : Bytes} {size : ℕ} {header : Header}
    (h : ∀ p ∈ header, ∀ e, p.2 = .tensor e → e.start ≤ e.stop ∧ 8 + size + e.stop ≤ file.length ∧ e.stop - e.start = numel e.shape * Safetensors.width e.dtype ∧
      e.stop - e.start ≤ 1000) : StreamIn.Spec.ValidHeader file size header ∧ ∀ k e, header.get? k = some (.tensor e) → e.stop - e.start ≤ 1000 := by
  constructor
  · intro k e hk
    obtain ⟨h1, h2, h3, _⟩ := h _ (Dict.mem_of_get? hk) e rfl
    exact ⟨h1, h2, h3⟩
  · intro k e hk
    exact (h _ (Dict.mem_of_get? hk) e rfl).2.2.2

theorem readF : StreamIn.readHeader fileF = .ok (textF.length, headerF) := by decide +kernel
theorem readG : StreamIn.readHeader fileG = .ok (textG.length, headerG) := by decide +kernel

theorem fresh {file : Bytes} {size : ℕ} {header : Header} (h : StreamIn.readHeader file = .ok (size, header))
    (hv : ∀ p ∈ header, ∀ e, p.2 = .tensor e → e.start ≤ e.stop ∧ 8 + size + e.stop ≤ file.length ∧
      e.stop - e.start = numel e.shape * Safetensors.width e.dtype ∧ e.stop - e.start ≤ 1000) :
    ∃ file' bs cap, StreamIn.open_ file' bs cap = .ok (stateOf file size header) ∧
      StreamIn.Spec.ValidHeader file' (stateOf file size header).headerSize (stateOf file size header).header ∧ bs ≤ cap ∧
      ∀ k e, (stateOf file size header).header.get? k = some (.tensor e) → e.stop - e.start ≤ cap :=
  ⟨file, 2, 1000, openOf h, (valid_of hv).1, by decide, (valid_of hv).2⟩

theorem entriesF : ∀ p ∈ headerF, ∀ e, p.2 = .tensor e → e.start ≤ e.stop ∧ 8 + textF.length + e.stop ≤ fileF.length ∧
    e.stop - e.start = numel e.shape * Safetensors.width e.dtype ∧ e.stop - e.start ≤ 1000 := by
  intro p hp e he
  simp only [headerF, List.mem_cons, List.not_mem_nil, or_false] at hp
  rcases hp with rfl | rfl | rfl <;> cases he <;> exact ⟨by decide, by decide +kernel, by decide, by decide⟩

theorem entriesG : ∀ p ∈ headerG, ∀ e, p.2 = .tensor e → e.start ≤ e.stop ∧ 8 + textG.length + e.stop ≤ fileG.length ∧
    e.stop - e.start = numel e.shape * Safetensors.width e.dtype ∧ e.stop - e.start ≤ 1000 := by
  intro p hp e he
  simp only [headerG, List.mem_cons, List.not_mem_nil, or_false] at hp
  rcases hp with rfl | rfl <;> cases he <;> exact ⟨by decide, by decide +kernel, by decide, by decide⟩

theorem opened_ok : Opened opened := by
  intro p s h
  unfold opened at h
  split_ifs at h
  · rw [← Option.some.inj h]
    exact fresh readF entriesF
  · rw [← Option.some.inj h]
    exact fresh readG entriesG

def cfg : ModelConfig := ⟨"t-c".toList, [("main".toList, [("a".toList, ⟨none, none, [], false⟩), ("b".toList, ⟨none, none, ["old.b".toList], false⟩),
  ("c".toList, ⟨none, none, [], false⟩)])]⟩

def T : Torch := ⟨fun _ _ => .error .runtime, fun _ _ _ => .error .runtime, fun _ t => t⟩

/-- Floats are counted in quarters. -/
def num : Option Int → FV
  | some i => .fin (decide (i < 0)) i.natAbs (-2)
  | none => .inf false

def P : PWorld (Option Int) Tensor where
  env := ⟨[(nFallback, fallbackSig), (nCast, castSig), (nPick, componentSig), (nOmit, componentSig), (nWeighted, weightedSig (some 2))], ["t-c".toList], allSpaces, id⟩
  conv := ⟨fun _ => .error .value, fun _ => .error .value, fun v => match v with | .float x => .ok (alphaTensor (num x)) | _ => .error .type⟩
  tensors _ := ⟨.u8, [0], []⟩
  configs c := if c = "t-c".toList then some cfg else none
  source m := if m = nFallback then fallbackSource else if m = nCast then castSource (move T.other) else if m = nPick then pickSource
    else if m = nOmit then omitSource else weightedSource T

theorem wanted {k : Str} (h : Wanted cfg (defaults (F := Option Int)) k) : k = "a".toList ∨ k = "b".toList ∨ k = "c".toList := by
  obtain ⟨⟨p, hp, hk⟩, _⟩ := h
  simp only [cfg, List.mem_singleton] at hp
  subst hp
  simpa [Dict.keys] using hk

theorem scene : Scene T P num (some 2) opened "t-c".toList cfg "f".toList "g".toList 1000 where
  registered := by constructor <;> rfl
  source := rfl
  sig := rfl
  tensor _ := rfl
  files := opened_ok
  a := by decide +kernel
  b := by decide +kernel
  config := rfl
  names k hk := by rcases wanted hk with rfl | rfl | rfl <;> decide
  half p k u hp hk hu := by
    have h : ∀ p ∈ ["f".toList, "g".toList], ∀ k ∈ ["a".toList, "b".toList, "c".toList], ∀ u ∈ held opened cfg p k, u.dtype = .f16 ∧ 2 * numel u.shape ≤ 1000 := by
      decide +kernel
    exact h p (by rcases hp with rfl | rfl <;> simp) k (by rcases wanted hk with rfl | rfl | rfl <;> simp) u hu
  shapes k u w hk hu hw := by
    have h : ∀ k ∈ ["a".toList, "b".toList, "c".toList], ∀ u ∈ held opened cfg "f".toList k, ∀ w ∈ held opened cfg "g".toList k, u.shape = w.shape := by
      decide +kernel
    exact h k (by rcases wanted hk with rfl | rfl | rfl <;> simp) u hu w hw

/-- `alpha=0.25` -/
def r : Val (Option Int) := recipe "f".toList "g".toList "t-c".toList (some 1)

def merged : Val (Option Int) := match prepare P.env defaults r with | .ok p => p.2 | .error _ => .none

def keys : List Str := ["a".toList, "b".toList, "c".toList]

/-- `1.25`, `-0`, `0.125` (halfway between two numbers); `1.25` -/
def stores : List (Str × Tensor) := [("a".toList, ⟨.f16, [3], [0x00, 0x3D, 0x00, 0x80, 0x00, 0x30]⟩), ("b".toList, ⟨.f16, [], [0x00, 0x3D]⟩)]

def text : Option Str := match recipeText Serialize.Ex.num r with | .ok t => t | .error _ => none

def declared : Dict Key StreamOut.Meta := keys.map fun k => (k, ⟨none, none⟩)

def actions : List StreamOut.Action := stores.flatMap fun p => [.begin 0 p.1 p.2, .locked 0, .finish 0]

def writer : StreamOut.State := (StreamOut.run (StreamOut.init declared text 2 10000) actions).getD (StreamOut.init declared text 2 10000)

def file : Bytes := match StreamOut.close writer with | .ok f => f | .error _ => []

theorem ran : Threads.sequential (Threads.fileProgram P merged) opened keys = (stores, .returned) := by decide +kernel

def saves : Saves P Serialize.Ex.num defaults opened r 0 file where
  original := r
  merged := merged
  keys := keys
  stores := stores
  prepared := by decide +kernel
  planned := by decide +kernel
  ran := ran
  text := text
  declared := declared
  minBuf := 2
  cap := 10000
  actions := actions
  writer := writer
  serialized := by decide +kernel
  wrote := by decide +kernel
  quiet := by unfold StreamOut.Spec.Quiescent; decide +kernel
  assigned := by decide +kernel
  complete := ⟨by decide, by decide +kernel, by decide, by decide +kernel⟩
  closed := by decide +kernel

/-- C104_readme_partial applies: `b` is found under its alias, and `c`, which `g` lacks, is not in the file. -/
example : ∃ s0, StreamIn.open_ file 2 1000 = .ok s0 ∧ "b".toList ∈ StreamIn.keys s0 ∧ "c".toList ∉ StreamIn.keys s0 ∧ ∃ s1 v o,
    StreamIn.getItem s0 "b".toList = (s1, .ok v) ∧ entries ⟨v.dtype, v.shape, s1.read v⟩ = [o] ∧ Blended (1 / 4) 0x4200 0xC400 o := by
  obtain ⟨s0, h1, h2, h3, _⟩ := C104_readme_partial scene Serialize.Ex.num (some 1) (1 / 4) (by simp [num, val]; norm_num) (by norm_num) (by norm_num) 0 file
    saves 2 (by decide)
  have hw : Wanted cfg (defaults (F := Option Int)) "b".toList := by
    have : "b".toList ∈ Merge.targetKeys cfg true := by decide +kernel
    exact (Merge.mem_targetKeys _ _ _).1 this
  obtain ⟨g1, g2⟩ := h2 "b".toList ⟨.f16, [], [0x00, 0x42]⟩ ⟨.f16, [], [0x00, 0xC4]⟩ hw (by decide +kernel) (by decide +kernel)
  obtain ⟨s1, v, q1, _, _, q4, q5⟩ := g2 []
  refine ⟨s0, h1, g1, fun h => ?_, s1, v, ?_⟩
  · have := ((h3 (by norm_num) (by norm_num) "c".toList).1 h).2.2
    exact absurd this (by decide +kernel)
  · obtain ⟨o, o1, o2⟩ := q5 0 0x4200 0xC400 (by decide) (by decide)
    refine ⟨o, q1, ?_, o2⟩
    have hl : (entries ⟨v.dtype, v.shape, s1.read v⟩).length = 1 := q4.trans (by decide)
    obtain ⟨o', ho'⟩ := List.length_eq_one_iff.1 hl
    rw [ho'] at o1 ⊢
    simpa using o1

/-- C104_recipe applies. -/
example := C104_recipe scene (some 1)

/-- What `Blended` says in the example: `3 * 0.75 - 4 * 0.25 = 1.25`. -/
example (o : ℕ) (h : Blended (1 / 4) 0x4200 0xC400 o) : val (decode half o) = some (5 / 4) := by
  have a : val (decode half 0x4200) = some 3 := by
    have : decode half 0x4200 = .fin false 1536 (-9) := by decide
    rw [this]; simp only [val]; norm_num
  have b : val (decode half 0xC400) = some (-4) := by
    have : decode half 0xC400 = .fin true 1024 (-8) := by decide
    rw [this]; simp only [val]; norm_num
  obtain ⟨r, h1, h2⟩ := h.once 1 2 (by decide) (by norm_num) 3 (-4) a b
  have := (h2 (5 / 4) ⟨5, -2, by norm_num, by decide, by decide, by
    have : half.emax = 16 := by decide
    rw [this, abs_of_pos (by norm_num)]; norm_num⟩).1
  norm_num at this
  rw [h1, sub_eq_zero.1 this]

end Ex

end Verif.Readme
