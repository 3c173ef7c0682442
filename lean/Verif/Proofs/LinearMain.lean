import Verif.Proofs.Linear
import Verif.Props.Readme

/-!
# Merges of linear recipes
-/
namespace Verif.Linear
open Method Recipe Config Eval Eval.Spec Program Program.Spec Whole Whole.Spec Ieee Ieee.Spec Spec Readme Readme.Spec
open Threads.Spec (stored Opened)
open StreamOut (Tensor)
variable {F : Type}

section

variable {A : Arith} {P : PWorld F Tensor} {num : F → FV} {d1 d2 : F} {opened : Str → Option StreamIn.State} {c : Str} {cfg : ModelConfig}
  {shape : Str → List ℕ} {rcap : ℕ}

theorem models_three {p : Str → Option Str → Prop} {m : Str} {a b : Val F} (x : F) (ha : Models p a) (hb : Models p b) :
    Models p (.merge m [a, b, param x] []) := by
  rw [Models, ModelsL, ModelsL, ModelsL, ModelsL, ModelsK]
  exact ⟨⟨ha, hb, by simp [param, Models], trivial⟩, trivial⟩

theorem Spec.Linear.models {paths : Str → Prop} {s : Str} {r : Val F} {l : List Str} (h : Linear num paths c s r l) :
    Models (fun _ cc => cc = some c) r := by
  induction h with
  | model _ _ => rw [Models]
  | zero _ _ _ _ ih1 ih2 => exact models_three _ ih1 ih2
  | one _ _ _ _ _ ih1 ih2 => exact models_three _ ih1 ih2
  | sum _ _ _ _ _ ih1 ih2 => exact models_three _ ih1 ih2
  | mean a l _ ih =>
    rw [Spec.average, Models, modelsL_iff, ModelsK]
    refine ⟨fun v hv => ?_, trivial⟩
    obtain ⟨i, rfl⟩ := mem_ofFn_iff.1 hv
    exact ih i
  | add _ _ _ ih1 ih2 => exact models_three _ ih1 ih2
  | sub _ _ ih1 ih2 =>
    rw [subtract, Models, ModelsL, ModelsL, ModelsL, ModelsK]
    exact ⟨⟨ih1, ih2, trivial⟩, trivial⟩

theorem config_param (E : Env F) (x : F) : (param x).config E = .ok none := by
  unfold param
  rw [Val.config]

theorem Scene.config_of (S : Scene A P num d1 d2 opened c cfg shape rcap) {paths : Str → Prop} {s : Str} {r : Val F} {l : List Str}
    (h : Linear num paths c s r l) : r.config P.env = .ok (some c) := by
  have hsum : ∀ {a b : Val F} (x : F), a.config P.env = .ok (some c) → b.config P.env = .ok (some c) → (weightedSum a b x).config P.env = .ok (some c) := by
    intro a b x ha hb
    unfold weightedSum
    rw [Val.config, show P.env.resolve "weighted_sum".toList = _ from S.weightedSig, configL, configL, configL, configL, configK, ha, hb, config_param]
    show (if c ≠ c then Except.error Err.value else Except.ok (some c)) = _
    simp
  induction h with
  | model _ _ => rw [Val.config]
  | zero _ _ _ _ ih1 ih2 => exact hsum _ ih1 ih2
  | one _ _ _ _ _ ih1 ih2 => exact hsum _ ih1 ih2
  | sum _ _ _ _ _ ih1 ih2 => exact hsum _ ih1 ih2
  | mean a l _ ih =>
    refine average_config S.meanSig (fun v hv => ?_) (by simp [List.ofFn_succ])
    obtain ⟨i, rfl⟩ := mem_ofFn_iff.1 hv
    exact ih i
  | add _ _ _ ih1 ih2 =>
    unfold addDifference
    rw [Val.config, show P.env.resolve "add_difference".toList = _ from S.addSig, configL, configL, configL, configL, configK, ih1, ih2, config_param]
    show (if c ≠ c then Except.error Err.value else Except.ok (some c)) = _
    simp
  | sub _ _ ih1 ih2 =>
    unfold subtract
    rw [Val.config, show P.env.resolve "subtract".toList = _ from S.subSig, configL, configL, configL, configK, ih1, ih2]
    show (if c ≠ c then Except.error Err.value else Except.ok (some c)) = _
    simp

theorem Scene.castable_three (S : Scene A P num d1 d2 opened c cfg shape rcap) {m : Str} (src : Source F Tensor) (hs : P.source m = src)
    (hty : src.types = ⟨[.sd .tensor, .sd .tensor, .val .tensor], none, []⟩) {a b : Val F} (x : F) (pa : Proper a) (pb : Proper b)
    (ha : Castable (world P (stored opened)) (move A.torch.other (some "cpu".toList) (some "float64".toList)) (tensors A) (enc num) a)
    (hb : Castable (world P (stored opened)) (move A.torch.other (some "cpu".toList) (some "float64".toList)) (tensors A) (enc num) b) :
    Castable (world P (stored opened)) (move A.torch.other (some "cpu".toList) (some "float64".toList)) (tensors A) (enc num) (.merge m [a, b, param x] []) := by
  have hty : ∀ W : World F Tensor, W.impl m = impl (P.source m) → typeOf W m 3 (.pos 0) = some (.sd .tensor) ∧
      typeOf W m 3 (.pos 1) = some (.sd .tensor) ∧ typeOf W m 3 (.pos 2) = some (.val .tensor) := by
    intro W hW
    have : (impl src).types = _ := hty
    unfold typeOf
    rw [hW, hs, this]
    exact ⟨rfl, rfl, rfl⟩
  obtain ⟨t0, t1, t2⟩ := hty (world P (stored opened)) rfl
  obtain ⟨s0, s1, s2⟩ := hty (castW A P opened) rfl
  rw [Castable]
  refine ⟨⟨by simp [Dict.keys], ?_, ?_⟩, ?_, ?_, by rw [CastableK]; trivial⟩
  · intro idx v h
    rcases Readme.arg3 h with ⟨_, rfl⟩ | ⟨_, rfl⟩ | ⟨_, rfl⟩
    · exact pa
    · exact pb
    · simp [param, Proper]
  · intro idx v h
    simp only [List.length_cons, List.length_nil]
    rcases Readme.arg3 h with ⟨rfl, _⟩ | ⟨rfl, _⟩ | ⟨rfl, _⟩
    · rw [t0]; rfl
    · rw [t1]; rfl
    · rw [t2]; rfl
  · rintro key e e' ⟨idx, v, ty, h1, h2, h3⟩ _
    exfalso
    rw [precastL, precastL, precastL, precastL, precastK] at h1
    rw [precastL, precastL, precastL, precastL] at h2
    simp only [List.length_cons, List.length_nil] at h2
    rcases Readme.arg3 h1 with ⟨rfl, _⟩ | ⟨rfl, _⟩ | ⟨rfl, hv⟩
    · have h2 : typeOf (castW A P opened) m 3 (.pos 0) = _ := h2
      rw [s0] at h2; cases h2
    · have h2 : typeOf (castW A P opened) m 3 (.pos 1) = _ := h2
      rw [s1] at h2; cases h2
    · have h2 : typeOf (castW A P opened) m 3 (.pos 2) = _ := h2
      rw [s2] at h2; cases h2
      rw [precast_param] at hv
      subst hv
      simp [castRun, isScalar, eval, castTo, RVal.isInstance] at h3
  · rw [CastableL, CastableL, CastableL, CastableL]
    refine ⟨ha, hb, ?_, trivial⟩
    unfold param
    rw [Castable]
    · refine ⟨rfl, fun _ => ⟨.float x, alphaTensor (num x), fun _ => by rw [eval], ?_, move64 A.torch _⟩⟩
      show (P.conv.toTensor (.float x)).map RVal.tensor = _
      rw [S.tensor]; rfl
    · simp

theorem castableL_iff {W : World F Tensor} {move : Tensor → Except Err Tensor} {ts : ℕ → Tensor} {e : Val F → ℕ} {l : List (Val F)} :
    CastableL W move ts e l ↔ ∀ v ∈ l, Castable W move ts e v := by
  induction l with
  | nil => simp [CastableL]
  | cons v l ih => simp [CastableL, ih]

theorem Scene.castable (S : Scene A P num d1 d2 opened c cfg shape rcap) {s : Str} {r : Val F} {l : List Str}
    (h : Linear num (fun p => opened p ≠ none) c s r l) :
    Castable (world P (stored opened)) (move A.torch.other (some "cpu".toList) (some "float64".toList)) (tensors A) (enc num) r := by
  induction h with
  | model _ _ => rw [Castable]; trivial
  | zero ha hb _ _ ih1 ih2 => exact S.castable_three _ S.weightedIs rfl _ ha.proper hb.proper ih1 ih2
  | one ha hb _ _ _ ih1 ih2 => exact S.castable_three _ S.weightedIs rfl _ ha.proper hb.proper ih1 ih2
  | sum ha hb _ _ _ ih1 ih2 => exact S.castable_three _ S.weightedIs rfl _ ha.proper hb.proper ih1 ih2
  | mean a l ha ih =>
    unfold Spec.average
    rw [Castable, castableL_iff, CastableK]
    refine ⟨call_average (show impl (P.source nAverage) = impl (averageSource A) by rw [S.meanIs]) (fun v hv => ?_), ?_, fun v hv => ?_, trivial⟩
    · obtain ⟨i, rfl⟩ := mem_ofFn_iff.1 hv
      exact (ha i).proper
    · intro key e e' h h'
      rw [getElem_precastL, List.map_ofFn, precastK] at h h'
      have hp : ∀ v ∈ List.ofFn (precast (enc num) ∘ a), (∃ t, eval (castW A P opened) v key = .ok (.tensor t)) ∨ eval (castW A P opened) v key = .error .stateDictKey := by
        intro v hv
        obtain ⟨i, rfl⟩ := mem_ofFn_iff.1 hv
        rcases S.outcome (ha i) key with ⟨_, t, h, _⟩ | ⟨_, h⟩
        · exact .inl ⟨t, h⟩
        · exact .inr h
      rw [((fails_average S.meanImpl hp).1 h).1, ((fails_average S.meanImpl hp).1 h').1]
    · obtain ⟨i, rfl⟩ := mem_ofFn_iff.1 hv
      exact ih i
  | add ha hb _ ih1 ih2 => exact S.castable_three _ S.addIs rfl _ ha.proper hb.proper ih1 ih2
  | sub ha hb ih1 ih2 =>
    unfold subtract
    rw [Castable, CastableL, CastableL, CastableL, CastableK]
    refine ⟨call_of_two (show impl (P.source Wrappers.nSub) = impl (subSource A) by rw [S.subIs]) rfl ha.proper hb.proper, ?_, ⟨ih1, ih2, trivial⟩, trivial⟩
    have plain : ∀ {s : Str} {r : Val F} {l : List Str}, Linear num (fun p => opened p ≠ none) c s r l → ∀ key,
        Plain key (eval (castW A P opened) (precast (enc num) r)) := by
      intro s r l h key
      rcases S.outcome h key with ⟨_, t, h, _⟩ | ⟨_, h⟩
      · exact .inl ⟨t, h⟩
      · exact .inr h
    intro key e e' h h'
    rw [precastL, precastL, precastL, precastK] at h h'
    obtain ⟨one, _⟩ := S.sub_missing ha.proper hb.proper key (plain ha key) (plain hb key)
    rw [one e h, one e' h']

theorem Scene.fits (S : Scene A P num d1 d2 opened c cfg shape rcap) {s : Str} {r : Val F} {l : List Str}
    (h : Linear num (fun p => opened p ≠ none) c s r l) : Fits (world P (stored opened)) (move A.torch.other) (tensors A) (enc num) defaults r :=
  ⟨h.proper, fun _ => S.castable h⟩

theorem Scene.configIs (S : Scene A P num d1 d2 opened c cfg shape rcap) {paths : Str → Prop} {s : Str} {r : Val F} {l : List Str}
    (h : Linear num paths c s r l) : configOf (world P (stored opened)) r = .ok (some cfg) := by
  unfold Eval.configOf
  have h : r.config (world P (stored opened)).env = _ := S.config_of h
  rw [h]
  simp only
  show Except.ok (P.configs c) = _
  rw [S.config]

theorem Scene.hasConfig (S : Scene A P num d1 d2 opened c cfg shape rcap) {paths : Str → Prop} {s : Str} {r : Val F} {l : List Str}
    (h : Linear num paths c s r l) {cfg' : ModelConfig} (hc : HasConfig (world P (stored opened)) r none cfg') : cfg = cfg' := by
  rcases hc with hc | ⟨_, fb, hc, _⟩
  · exact Option.some.inj (Except.ok.inj ((S.configIs h).symm.trans hc))
  · cases hc

/-- What a merge stores -/
theorem Scene.final (S : Scene A P num d1 d2 opened c cfg shape rcap) {s : Str} {r : Val F} {l : List Str}
    (h : Linear num (fun p => opened p ≠ none) c s r l) (key : Str) :
    ((∀ p ∈ l, (held opened cfg p key).isSome) ∧ ∃ t, eval (castW A P opened) (precast (enc num) r) key = .ok (.tensor t) ∧ Is64 (shape key) t ∧
      Whole.Spec.final (world P (stored opened)) (move A.torch.other) (tensors A) (enc num) defaults r none key =
        .ok (.tensor (Ieee.cast A.torch.other .f16 t))) ∨
    ((∃ p ∈ l, held opened cfg p key = none) ∧
      Whole.Spec.final (world P (stored opened)) (move A.torch.other) (tensors A) (enc num) defaults r none key = .error .stateDictKey) := by
  have hf : Whole.Spec.final (world P (stored opened)) (move A.torch.other) (tensors A) (enc num) defaults r none key =
      match eval (castW A P opened) (precast (enc num) r) key with
      | .error e => .error e
      | .ok v => delivered P.conv (move A.torch.other) defaults v := by
    unfold Whole.Spec.final combined computed
    rw [if_neg (by simp [defaults])]
    simp only
    have e : eval (castWorld (world P (stored opened)) (move A.torch.other (defaults (F := F)).mergeDevice (defaults (F := F)).mergeDtype) (tensors A))
      (precast (enc num) r) key = eval (castW A P opened) (precast (enc num) r) key := rfl
    rw [e]
    cases eval (castW A P opened) (precast (enc num) r) key <;> rfl
  rcases S.outcome h key with ⟨h1, t, h2, h3⟩ | ⟨h1, h2⟩
  · refine .inl ⟨h1, t, h2, h3, ?_⟩
    rw [hf, h2]
    simp only
    unfold delivered
    rw [if_neg (by simp [defaults])]
    show (match move A.torch.other (some "cpu".toList) (some "float16".toList) t with | .ok y => Except.ok (RVal.tensor y) | .error e => .error e) = _
    rw [move16]
  · refine .inr ⟨h1, ?_⟩
    rw [hf, h2]

/-- A float64 number as float16 -/
theorem stored_half {m : ℕ} {q : ℚ} (h : val (decode double m) = some q) : Stored q (encode half (decode double m)) := by
  have hl : limit half = 65520 := C103_limits.1
  have hr := rounded half (by decide) (by decide) (decode double m)
  obtain ⟨sg, a, e, hv, _⟩ := val_cases h
  have hq0 : q ≠ 0 → sg = decide (q < 0) := by
    intro hq
    have := isNeg_of_ne h hq
    rw [hv] at this
    exact this
  rw [hv] at h hr ⊢
  obtain ⟨q', h1, h2, h3⟩ := hr
  obtain rfl : q = q' := Option.some.inj (h.symm.trans h1)
  rw [hl] at h2 h3
  refine ⟨fun hlt => (h3 hlt).2, fun hge => ?_, fun hle => ?_⟩
  · have : sg = false := by rw [hq0 (by rintro rfl; norm_num at hge)]; simp; linarith
    rw [← this]
    exact h2 (by rw [abs_of_nonneg (by linarith)]; exact hge)
  · have : sg = true := by rw [hq0 (by rintro rfl; norm_num at hle)]; simp; linarith
    rw [← this]
    exact h2 (by rw [abs_of_nonpos (by linarith)]; linarith)

end

end Verif.Linear
