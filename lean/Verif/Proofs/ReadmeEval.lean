import Verif.Proofs.ReadmeEntry
import Verif.Props.Whole
import Verif.Props.Ieee
import Verif.Proofs.Program

/-!
# What a merge of a weighted sum computes
-/
namespace Verif.Readme
open Method Recipe Config Eval Eval.Spec Program Program.Spec Whole Whole.Spec Ieee Ieee.Spec Spec
open Threads.Spec (stored)
open StreamOut (Tensor)
variable {F : Type}

/-- The recipe `weighted_sum(a, b, alpha=x)` -/
def recipe (pa pb c : Str) (x : F) : Val F :=
  .merge nWeighted [.model pa (some c) (some weight), .model pb (some c) (some weight), .lit (.float x) none "param".toList] []

/-- `weighted_sum` of what the mappings `a` and `b` answer -/
def weighted (T : Torch) (a b : Res F Tensor) (alpha : Tensor) : Res F Tensor :=
  match allClose T zero alpha with
  | .error e => .error e
  | .ok true => a
  | .ok false =>
    match allClose T one alpha with
    | .error e => .error e
    | .ok true => b
    | .ok false =>
      match a with
      | .ok (.tensor a) =>
        match b with
        | .ok (.tensor b) => (mix T a b alpha).map RVal.tensor
        | .ok _ => .error .type
        | .error e => .error e
      | .ok _ => .error .type
      | .error e => .error e

theorem eval_weighted (T : Torch) (W : World F Tensor) (h : W.impl nWeighted = impl (weightedSource T)) (pa pb : Str) (ca cb sa sb : Option Str)
    (i : ℕ) (cc : Option Str) (s : Str) (key : Str) :
    eval W (.merge nWeighted [.model pa ca sa, .model pb cb sb, .lit (.tensor i) cc s] []) key =
      weighted T (castRun W.conv .tensor (eval W (.model pa ca sa)) key) (castRun W.conv .tensor (eval W (.model pb cb sb)) key) (W.tensors i) := by
  have hm : ∀ args, eval W (.merge nWeighted args []) = applyMerge W.conv (W.impl nWeighted) args.length (evalL W 0 args ++ evalK W []) := by
    intro args; rw [eval]
  rw [hm, h]
  have he : eval W (.lit (.tensor i) cc s) = fun _ => .ok (.tensor (W.tensors i)) := by
    rw [eval] <;> simp [eval]
  have hch : evalL W 0 [.model pa ca sa, .model pb cb sb, .lit (.tensor i) cc s] ++ evalK W [] =
      [⟨.pos 0, eval W (.model pa ca sa), some 1, configOf W (.model pa ca sa)⟩, ⟨.pos 1, eval W (.model pb cb sb), some 1, configOf W (.model pb cb sb)⟩,
        ⟨.pos 2, fun _ => .ok (.tensor (W.tensors i)), some 0, configOf W (.lit (.tensor i) cc s)⟩] := by
    rw [evalL, evalL, evalL, evalL, evalK, he]
    rfl
  rw [hch]
  generalize eval W (.model pa ca sa) = fa
  generalize eval W (.model pb cb sb) = fb
  generalize configOf W (.model pa ca sa) = ga
  generalize configOf W (.model pb cb sb) = gb
  show result _ ((weightedSource T).body [.sd ga, .sd gb, .val (.tensor (W.tensors i))] _ key) = _
  unfold weighted weightedSource
  simp only
  generalize W.tensors i = alpha
  cases allClose T zero alpha with
  | error e => rfl
  | ok b0 =>
    cases b0 with
    | true => rfl
    | false =>
      simp only
      cases allClose T one alpha with
      | error e => rfl
      | ok b1 =>
        cases b1 with
        | true => rfl
        | false =>
          simp only [result]
          have e1 : (look (argAt [Arg.sd (castRun W.conv .tensor fa) ga, .sd (castRun W.conv .tensor fb) gb, .val (.tensor alpha)] (fun _ => none) (.pos 0)) key)
            = castRun W.conv .tensor fa key := rfl
          have e2 : (look (argAt [Arg.sd (castRun W.conv .tensor fa) ga, .sd (castRun W.conv .tensor fb) gb, .val (.tensor alpha)] (fun _ => none) (.pos 1)) key)
            = castRun W.conv .tensor fb key := rfl
          change result _ (match castRun W.conv .tensor fa key with | .ok (.tensor a) => _ | .ok _ => _ | .error e => _) = _
          cases castRun W.conv .tensor fa key with
          | error e => rfl
          | ok va =>
            cases va <;> try rfl
            simp only [result]
            change result _ (match castRun W.conv .tensor fb key with | .ok (.tensor a) => _ | .ok _ => _ | .error e => _) = _
            cases castRun W.conv .tensor fb key with
            | error e => rfl
            | ok vb => cases vb <;> rfl

/-- What a file that is open answers for a key and its aliases -/
theorem visit_held {opened : Str → Option StreamIn.State} {path : Str} (h : opened path ≠ none) (ks : List Str) (hk : ks ≠ []) :
    visitKeys (stored opened path) ks = match ks.findSome? (tensorIn opened path) with | some t => .ok t | none => .error .stateDictKey := by
  have hs : ∀ k, stored opened path k = match tensorIn opened path k with | some t => .ok t | none => .error .stateDictKey := by
    intro k
    unfold tensorIn stored
    cases ho : opened path with
    | none => exact absurd ho h
    | some s =>
      simp only
      split_ifs
      · rfl
      · split <;> rfl
  induction ks with
  | nil => exact absurd rfl hk
  | cons k ks ih =>
    cases ks with
    | nil =>
      rw [visitKeys, hs, List.findSome?_cons]
      cases tensorIn opened path k <;> rfl
    | cons k' ks =>
      rw [visitKeys_two, hs, List.findSome?_cons, ih (by simp)]
      cases tensorIn opened path k <;> rfl

theorem move64 (T : Torch) (t : Tensor) : move T.other (some "cpu".toList) (some "float64".toList) t = .ok (Ieee.cast T.other .f64 t) := by
  unfold Ieee.move
  rw [if_pos (.inr rfl)]
  have : dtypeOf "float64".toList = some .f64 := by decide
  simp only [this]

theorem move16 (T : Torch) (t : Tensor) : move T.other (some "cpu".toList) (some "float16".toList) t = .ok (Ieee.cast T.other .f16 t) := by
  unfold Ieee.move
  rw [if_pos (.inr rfl)]
  have : dtypeOf "float16".toList = some .f16 := by decide
  simp only [this]

/-- What an input answers, cast -/
theorem eval_model {P : PWorld F Tensor} {T : Torch} {opened : Str → Option StreamIn.State} {c : Str} {cfg : ModelConfig} (hc : P.configs c = some cfg)
    {path : Str} (h : opened path ≠ none) (tensors : ℕ → Tensor) (s : Option Str) (key : Str) :
    eval (castWorld (world P (stored opened)) (move T.other (some "cpu".toList) (some "float64".toList)) tensors) (.model path (some c) s) key =
      match held opened cfg path key with | some t => .ok (.tensor (Ieee.cast T.other .f64 t)) | none => .error .stateDictKey := by
  rw [eval]
  unfold visitSd
  have hc' : (castWorld (world P (stored opened)) (move T.other (some "cpu".toList) (some "float64".toList)) tensors).configs c = some cfg := hc
  simp only [hc']
  have hr : (castWorld (world P (stored opened)) (move T.other (some "cpu".toList) (some "float64".toList)) tensors).read path =
      fun k => (stored opened path k).map (Ieee.cast T.other .f64) := by
    funext k
    unfold castWorld world
    simp only
    cases stored opened path k with
    | ok x => exact move64 T x
    | error e => rfl
  rw [hr, visitKeys_map, visit_held h _ (by simp)]
  unfold held
  cases ((key :: (cfg.aliases.get? key).getD []).findSome? (tensorIn opened path)) <;> rfl

/-- The tensor `alpha` is turned into -/
def alpha64 (T : Torch) (v : FV) : Tensor := Ieee.cast T.other .f64 (alphaTensor v)

theorem final_eq {P : PWorld F Tensor} {T : Torch} (hs : P.source nWeighted = weightedSource T) {opened : Str → Option StreamIn.State} {c : Str}
    {cfg : ModelConfig} (hc : P.configs c = some cfg) {pa pb : Str} (ha : opened pa ≠ none) (hb : opened pb ≠ none) (v : FV) (x : F) (key : Str) :
    final (world P (stored opened)) (move T.other) (fun _ => alpha64 T v) (fun _ => 0) defaults (recipe pa pb c x) none key =
      match weighted (F := F) T (match held opened cfg pa key with | some t => .ok (.tensor (Ieee.cast T.other .f64 t)) | none => .error .stateDictKey)
        (match held opened cfg pb key with | some t => .ok (.tensor (Ieee.cast T.other .f64 t)) | none => .error .stateDictKey) (alpha64 T v) with
      | .ok (.tensor t) => .ok (.tensor (Ieee.cast T.other .f16 t))
      | .ok v => delivered P.conv (move T.other) defaults v
      | .error e => .error e := by
  have hpre : precast (fun _ => 0) (recipe pa pb c x) =
      .merge nWeighted [.model pa (some c) (some weight), .model pb (some c) (some weight), .lit (.tensor 0) none "param".toList] [] := by
    unfold recipe
    rw [precast, precastL, precastL, precastL, precastL, precastK, precast, precast, precast] <;> simp [isScalar]
  unfold final combined computed
  rw [if_neg (by simp [defaults])]
  simp only
  rw [hpre]
  have hcast : ∀ p k, castRun P.conv .tensor (eval (castWorld (world P (stored opened)) (move T.other (some "cpu".toList) (some "float64".toList))
      (fun _ => alpha64 T v)) (.model p (some c) (some weight))) k =
      eval (castWorld (world P (stored opened)) (move T.other (some "cpu".toList) (some "float64".toList))
      (fun _ => alpha64 T v)) (.model p (some c) (some weight)) k := by
    intro p k
    unfold castRun
    rw [eval]
    dsimp only
    split
    · rename_i v' hv
      split at hv
      · cases hv; rfl
      · cases hv
    · rename_i e he
      rw [he]
  have hev := eval_weighted T (castWorld (world P (stored opened)) (move T.other (some "cpu".toList) (some "float64".toList)) (fun _ => alpha64 T v))
    (show impl (P.source nWeighted) = _ by rw [hs]) pa pb (some c) (some c) (some weight) (some weight) 0 none "param".toList key
  have hev : eval (castWorld (world P (stored opened)) (move T.other (defaults (F := F)).mergeDevice (defaults (F := F)).mergeDtype) fun _ => alpha64 T v)
      (.merge nWeighted [.model pa (some c) (some weight), .model pb (some c) (some weight), .lit (.tensor 0) none "param".toList] []) key = _ := hev
  rw [hev]
  have h1 := (hcast pa key).trans (eval_model hc ha _ _ key)
  have h2 := (hcast pb key).trans (eval_model hc hb _ _ key)
  have h1' : castRun (castWorld (world P (stored opened)) (move T.other (some "cpu".toList) (some "float64".toList)) (fun _ => alpha64 T v)).conv .tensor
    (eval (castWorld (world P (stored opened)) (move T.other (some "cpu".toList) (some "float64".toList)) (fun _ => alpha64 T v))
      (.model pa (some c) (some weight))) key = _ := h1
  have h2' : castRun (castWorld (world P (stored opened)) (move T.other (some "cpu".toList) (some "float64".toList)) (fun _ => alpha64 T v)).conv .tensor
    (eval (castWorld (world P (stored opened)) (move T.other (some "cpu".toList) (some "float64".toList)) (fun _ => alpha64 T v))
      (.model pb (some c) (some weight))) key = _ := h2
  rw [h1', h2']
  have ht : (castWorld (world P (stored opened)) (move T.other (some "cpu".toList) (some "float64".toList)) (fun _ => alpha64 T v)).tensors 0 = alpha64 T v := rfl
  rw [ht]
  generalize weighted T _ _ (alpha64 T v) = w
  cases w with
  | error e => rfl
  | ok w =>
    cases w with
    | tensor t =>
      show delivered P.conv (move T.other) defaults (.tensor t) = _
      unfold delivered
      rw [if_neg (by simp [defaults])]
      have : castTo P.conv .tensor (RVal.tensor t : RVal F Tensor) = .ok (.tensor t) := rfl
      rw [this]
      have hm := move16 T t
      have hm : move T.other (defaults (F := F)).outputDevice (defaults (F := F)).outputDtype t = _ := hm
      simp only [hm]
    | _ => rfl

/-! ### The entries -/

theorem alpha64_entries (T : Torch) (v : FV) : (alpha64 T v).dtype = .f64 ∧ (alpha64 T v).shape = [] ∧
    ∃ n, entries (alpha64 T v) = [n] ∧ read .f64 n = alphaOf v := by
  have hne : (alphaTensor v).dtype ≠ .f64 := by simp [alphaTensor, ofEntries]
  unfold alpha64
  refine ⟨by rw [cast_ne (f := double) rfl hne]; rfl, by rw [cast_ne (f := double) rfl hne]; rfl, ?_⟩
  rw [entries_cast (f := double) rfl hne]
  have : entries (alphaTensor v) = [encode single v] := by
    unfold alphaTensor
    exact entries_ofEntries .f32 [] [encode single v] rfl (fun n hn => by
      rw [List.mem_singleton.1 hn]
      exact encode_lt (f := single) (by decide) v)
  rw [this]
  exact ⟨_, rfl, rfl⟩

theorem close_eq (T : Torch) (y v : FV) : allClose T y (alpha64 T v) = .ok (isClose (alphaOf v) y) := by
  obtain ⟨h1, _, n, h3, h4⟩ := alpha64_entries T v
  unfold allClose
  rw [if_pos h1, h3]
  simp [h4]

theorem wide_wide (v : FV) : wide (wide v) = wide v := by
  unfold wide
  by_cases h : decode double (encode double v) = .nan
  · rw [h, decode_encode_nan (by decide) (by decide)]
  · rw [encode_decode (f := double) (encode_lt (by decide) v) h]

theorem wide_mixed (al x y : FV) : wide (mixed al x y) = mixed al x y := wide_wide (add _ _)

/-- Bits that are stored for the entries `m` of `a` and `n` of `b` -/
def out (v : FV) (m n : ℕ) : ℕ := entry (alphaOf v) (decode half m) (decode half n)

theorem entries64 (T : Torch) {u : Tensor} (h : u.dtype = .f16) : (Ieee.cast T.other .f64 u).dtype = .f64 ∧ (Ieee.cast T.other .f64 u).shape = u.shape ∧
    entries (Ieee.cast T.other .f64 u) = (entries u).map fun m => encode double (decode half m) := by
  have hne : u.dtype ≠ .f64 := by rw [h]; decide
  refine ⟨by rw [cast_ne (f := double) rfl hne]; rfl, by rw [cast_ne (f := double) rfl hne]; rfl, ?_⟩
  rw [entries_cast (f := double) rfl hne, h]
  rfl

/-- A float16 tensor, cast to float64 and back -/
theorem cast_back (T : Torch) {u : Tensor} (h : u.dtype = .f16) :
    Ieee.cast T.other .f16 (Ieee.cast T.other .f64 u) = ofEntries .f16 u.shape ((entries u).map fun m => encode half (wide (decode half m))) := by
  obtain ⟨h1, h2, h3⟩ := entries64 T h
  rw [cast_ne (f := half) rfl (by rw [h1]; decide), h1, h2, h3, List.map_map]
  rfl

theorem zipWith_fst {α β γ : Type} (f : α → γ) : ∀ (l : List α) (l' : List β), l.length = l'.length → List.zipWith (fun a _ => f a) l l' = l.map f
  | [], [], _ => rfl
  | a :: l, b :: l', h => by simp [zipWith_fst f l l' (by simpa using h)]

theorem zipWith_snd {α β γ : Type} (f : β → γ) : ∀ (l : List α) (l' : List β), l.length = l'.length → List.zipWith (fun _ b => f b) l l' = l'.map f
  | [], [], _ => rfl
  | a :: l, b :: l', h => by simp [zipWith_snd f l l' (by simpa using h)]

theorem mix_eq (T : Torch) (v : FV) {u w : Tensor} (hu : u.dtype = .f16) (hw : w.dtype = .f16) (hs : u.shape = w.shape) :
    mix T (Ieee.cast T.other .f64 u) (Ieee.cast T.other .f64 w) (alpha64 T v) =
      .ok (ofEntries .f64 u.shape (List.zipWith (fun m n => encode double (mixed (alphaOf v) (wide (decode half m)) (wide (decode half n)))) (entries u) (entries w))) := by
  obtain ⟨a1, a2, x, a3, a4⟩ := alpha64_entries T v
  obtain ⟨u1, u2, u3⟩ := entries64 T hu
  obtain ⟨w1, w2, w3⟩ := entries64 T hw
  unfold mix
  rw [a3]
  simp only
  rw [if_pos ⟨u1, w1, a1, a2, by rw [u2, w2, hs]⟩, u2, u3, w3, List.zipWith_map]
  rw [a4]
  rfl

/-- What is stored if both models hold the key -/
theorem final_both {P : PWorld F Tensor} {T : Torch} (hsrc : P.source nWeighted = weightedSource T) {opened : Str → Option StreamIn.State} {c : Str}
    {cfg : ModelConfig} (hc : P.configs c = some cfg) {pa pb : Str} (ha : opened pa ≠ none) (hb : opened pb ≠ none) (v : FV) (x : F) (key : Str)
    {u w : Tensor} (hu : held opened cfg pa key = some u) (hw : held opened cfg pb key = some w) (du : u.dtype = .f16) (dw : w.dtype = .f16)
    (hs : u.shape = w.shape) :
    final (world P (stored opened)) (move T.other) (fun _ => alpha64 T v) (fun _ => 0) defaults (recipe pa pb c x) none key =
      .ok (.tensor (ofEntries .f16 u.shape (List.zipWith (out v) (entries u) (entries w)))) := by
  have hlen : (entries u).length = (entries w).length := by rw [entries_length, entries_length, hs]
  rw [final_eq hsrc hc ha hb, hu, hw]
  unfold weighted
  rw [close_eq, close_eq]
  by_cases c0 : isClose (alphaOf v) zero = true
  · simp only [c0]
    rw [cast_back T du, ← zipWith_fst _ _ _ hlen]
    unfold out entry
    simp only [c0, if_true]
  · rw [Bool.not_eq_true] at c0
    simp only [c0]
    by_cases c1 : isClose (alphaOf v) one = true
    · simp only [c1]
      rw [cast_back T dw, ← zipWith_snd _ _ _ hlen, hs]
      unfold out entry
      simp only [c0, c1, if_true, Bool.false_eq_true, if_false]
    · rw [Bool.not_eq_true] at c1
      simp only [c1]
      rw [mix_eq T v du dw hs]
      simp only [Except.map]
      rw [cast_ne (f := half) rfl (by simp [ofEntries])]
      have hl : (List.zipWith (fun m n => encode double (mixed (alphaOf v) (wide (decode half m)) (wide (decode half n)))) (entries u) (entries w)).length
          = numel u.shape := by rw [List.length_zipWith, ← hlen, min_self, entries_length]
      rw [entries_ofEntries _ _ _ hl]
      · show Except.ok (RVal.tensor (ofEntries .f16 u.shape _)) = _
        rw [List.map_zipWith]
        have : (fun m n => encode half (read .f64 (encode double (mixed (alphaOf v) (wide (decode half m)) (wide (decode half n)))))) = out v := by
          funext m n
          show encode half (wide (mixed _ _ _)) = _
          rw [wide_mixed]
          unfold out entry
          simp only [c0, c1, Bool.false_eq_true, if_false]
        have h2 : (ofEntries DType.f64 u.shape (List.zipWith (fun m n => encode double (mixed (alphaOf v) (wide (decode half m)) (wide (decode half n))))
          (entries u) (entries w))).dtype = .f64 := rfl
        rw [h2, this]
      · intro n hn
        obtain ⟨i, hi⟩ := List.mem_iff_getElem?.1 hn
        rw [List.getElem?_zipWith] at hi
        split at hi
        · rw [← Option.some.inj hi]
          exact encode_lt (f := double) (by decide) _
        · cases hi

/-- What is stored if a model lacks the key, and if `alpha` is nearly zero or one -/
theorem final_one {P : PWorld F Tensor} {T : Torch} (hsrc : P.source nWeighted = weightedSource T) {opened : Str → Option StreamIn.State} {c : Str}
    {cfg : ModelConfig} (hc : P.configs c = some cfg) {pa pb : Str} (ha : opened pa ≠ none) (hb : opened pb ≠ none) (v : FV) (x : F) (key : Str) :
    (isClose (alphaOf v) zero = true →
      final (world P (stored opened)) (move T.other) (fun _ => alpha64 T v) (fun _ => 0) defaults (recipe pa pb c x) none key =
        match held opened cfg pa key with
        | some u => .ok (.tensor (Ieee.cast T.other .f16 (Ieee.cast T.other .f64 u)))
        | none => .error .stateDictKey) ∧
    (isClose (alphaOf v) zero = false → isClose (alphaOf v) one = true →
      final (world P (stored opened)) (move T.other) (fun _ => alpha64 T v) (fun _ => 0) defaults (recipe pa pb c x) none key =
        match held opened cfg pb key with
        | some u => .ok (.tensor (Ieee.cast T.other .f16 (Ieee.cast T.other .f64 u)))
        | none => .error .stateDictKey) ∧
    (isClose (alphaOf v) zero = false → isClose (alphaOf v) one = false → (held opened cfg pa key = none ∨ held opened cfg pb key = none) →
      final (world P (stored opened)) (move T.other) (fun _ => alpha64 T v) (fun _ => 0) defaults (recipe pa pb c x) none key = .error .stateDictKey) := by
  rw [final_eq hsrc hc ha hb]
  unfold weighted
  rw [close_eq, close_eq]
  refine ⟨fun c0 => ?_, fun c0 c1 => ?_, fun c0 c1 h => ?_⟩
  · simp only [c0]
    cases held opened cfg pa key <;> rfl
  · simp only [c0, c1]
    cases held opened cfg pb key <;> rfl
  · simp only [c0, c1]
    rcases h with h | h
    · rw [h]
    · rw [h]
      cases held opened cfg pa key <;> rfl

end Verif.Readme
