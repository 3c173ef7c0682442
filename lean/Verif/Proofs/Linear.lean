import Verif.Proofs.LinearVar
import Verif.Proofs.LinearMean

/-!
# What linear recipes are
-/
namespace Verif.Linear
open Method Recipe Config Eval Eval.Spec Program Program.Spec Whole Whole.Spec Ieee Ieee.Spec Spec Readme Readme.Spec
open Threads.Spec (stored Opened)
open StreamOut (Tensor)
variable {F : Type}

/-- The library with its builtin methods, and floating point models of one architecture whose tensors have the same shapes.  `num x` is the number a python
float is; `d1` and `d2` are the defaults of `alpha`. -/
structure Scene (A : Arith) (P : PWorld F Tensor) (num : F → FV) (d1 d2 : F) (opened : Str → Option StreamIn.State) (c : Str) (cfg : ModelConfig)
    (shape : Str → List ℕ) (rcap : ℕ) : Prop where
  registered : Registered P (move A.torch.other)
  fma : A.Fma
  rounds : Mean A
  weightedIs : P.source nWeighted = weightedSource A.torch
  addIs : P.source Lora.nAdd = Lora.addSource (addcmul A)
  subIs : P.source Wrappers.nSub = subSource A
  meanIs : P.source nAverage = averageSource A
  weightedSig : P.env.resolve nWeighted = .ok (weightedSig d1)
  addSig : P.env.resolve Lora.nAdd = .ok (Lora.addSig d2)
  subSig : P.env.resolve Wrappers.nSub = .ok Wrappers.subtractSig
  meanSig : P.env.resolve nAverage = .ok Linear.averageSig
  tensor : ∀ x, P.conv.toTensor (.float x) = .ok (alphaTensor (num x))
  files : Opened opened
  config : P.configs c = some cfg
  names : ∀ k, Wanted cfg (defaults (F := F)) k → k ≠ metadataKey
  floats : ∀ p k u, held opened cfg p k = some u → (fmt u.dtype).isSome ∧ u.shape = shape k ∧ 2 * numel u.shape ≤ rcap

/-- The literals as tensors: a float is known by its bits as float32. -/
def enc (num : F → FV) : Val F → ℕ
  | .float x => encode single (num x)
  | _ => 0

def tensors (A : Arith) (n : ℕ) : Tensor := Ieee.cast A.torch.other .f64 (ofEntries .f32 [] [n])

/-- A world where inputs are cast -/
def castW (A : Arith) (P : PWorld F Tensor) (opened : Str → Option StreamIn.State) : World F Tensor :=
  castWorld (world P (stored opened)) (move A.torch.other (some "cpu".toList) (some "float64".toList)) (tensors A)

theorem held_open {opened : Str → Option StreamIn.State} {cfg : ModelConfig} {p k : Str} {u : Tensor} (h : held opened cfg p k = some u) :
    opened p ≠ none := by
  intro ho
  obtain ⟨name, _, hn⟩ := List.exists_of_findSome?_eq_some h
  unfold tensorIn stored at hn
  rw [ho] at hn
  cases hn

theorem weight_val {v : FV} {w : ℚ} (h : Weight v w) : val (alphaOf v) = some w ∧ Has single w := by
  have h2 : Has single w := decode_has (by decide) h
  exact ⟨(wide_val wider_single h h2).1, h2⟩

section

variable {A : Arith} {P : PWorld F Tensor} {num : F → FV} {d1 d2 : F} {opened : Str → Option StreamIn.State} {c : Str} {cfg : ModelConfig}
  {shape : Str → List ℕ} {rcap : ℕ}

theorem precast_model (p : Str) (cc s : Option Str) : precast (enc num) (.model p cc s) = .model p cc s := by
  rw [precast]; all_goals simp

theorem precast_param (x : F) : precast (enc num) (param x) = .lit (.tensor (encode single (num x))) none "param".toList := by
  unfold param
  rw [precast]
  · rfl
  · simp

theorem precast_sum (a b : Val F) (x : F) : precast (enc num) (weightedSum a b x) =
    .merge nWeighted [precast (enc num) a, precast (enc num) b, .lit (.tensor (encode single (num x))) none "param".toList] [] := by
  unfold weightedSum
  rw [precast, precastL, precastL, precastL, precastL, precastK, precast_param]
  rfl

theorem precast_add (a b : Val F) (x : F) : precast (enc num) (addDifference a b x) =
    .merge Lora.nAdd [precast (enc num) a, precast (enc num) b, .lit (.tensor (encode single (num x))) none "param".toList] [] := by
  unfold addDifference
  rw [precast, precastL, precastL, precastL, precastL, precastK, precast_param]
  rfl

theorem precast_sub (a b : Val F) : precast (enc num) (subtract a b) = .merge Wrappers.nSub [precast (enc num) a, precast (enc num) b] [] := by
  unfold subtract
  rw [precast, precastL, precastL, precastL, precastK]
  rfl

theorem precast_average (l : List (Val F)) : precast (enc num) (Spec.average l) = .merge nAverage (l.map (precast (enc num))) [] := by
  unfold Spec.average
  rw [precast, precastK, getElem_precastL]
  rfl

theorem properL_iff {l : List (Val F)} : ProperL l ↔ ∀ v ∈ l, Proper v := by
  induction l with
  | nil => simp [ProperL]
  | cons v l ih => simp [ProperL, ih]

theorem proper_average {l : List (Val F)} : Proper (Spec.average l) ↔ l ≠ [] ∧ ∀ v ∈ l, Proper v := by
  rw [← properL_iff]
  simp [Spec.average, Proper, ProperK, and_comm]

theorem mem_ofFn_iff {α : Type} {n : ℕ} {a : Fin n → α} {x : α} : x ∈ List.ofFn a ↔ ∃ i, a i = x := by simp [List.mem_ofFn]

theorem proper_sum {a b : Val F} {x : F} : Proper (weightedSum a b x) ↔ Proper a ∧ Proper b := by
  simp [weightedSum, param, Proper, ProperL, ProperK]

theorem proper_add {a b : Val F} {x : F} : Proper (addDifference a b x) ↔ Proper a ∧ Proper b := by
  simp [addDifference, param, Proper, ProperL, ProperK]

theorem proper_sub {a b : Val F} : Proper (subtract a b) ↔ Proper a ∧ Proper b := by
  simp [subtract, Proper, ProperL, ProperK]

theorem Spec.Linear.proper {paths : Str → Prop} {s : Str} {r : Val F} {l : List Str} (h : Linear num paths c s r l) : Proper r := by
  induction h with
  | model _ _ => simp [Proper]
  | zero _ _ _ _ ih1 ih2 => exact proper_sum.2 ⟨ih1, ih2⟩
  | one _ _ _ _ _ ih1 ih2 => exact proper_sum.2 ⟨ih1, ih2⟩
  | sum _ _ _ _ _ ih1 ih2 => exact proper_sum.2 ⟨ih1, ih2⟩
  | mean a l _ ih =>
    refine proper_average.2 ⟨by simp [List.ofFn_succ], fun v hv => ?_⟩
    obtain ⟨i, rfl⟩ := mem_ofFn_iff.1 hv
    exact ih i
  | add _ _ _ ih1 ih2 => exact proper_add.2 ⟨ih1, ih2⟩
  | sub _ _ ih1 ih2 => exact proper_sub.2 ⟨ih1, ih2⟩

theorem alpha_tensor (v : FV) : (tensors A (encode single v)) = alpha64 A.torch v := rfl

/-! ### Tensors of float64 -/

/-- A float64 tensor of the shape a key has -/
def Is64 (sh : List ℕ) (t : Tensor) : Prop := t.dtype = .f64 ∧ t.shape = sh

theorem zip_is (sh : List ℕ) (f : ℕ → ℕ → FV) {x y : Tensor} (hx : Is64 sh x) (hy : Is64 sh y) :
    Is64 sh (ofEntries .f64 x.shape (List.zipWith (fun m n => encode double (f m n)) (entries x) (entries y))) ∧
    entries (ofEntries .f64 x.shape (List.zipWith (fun m n => encode double (f m n)) (entries x) (entries y))) =
      List.zipWith (fun m n => encode double (f m n)) (entries x) (entries y) := by
  refine ⟨⟨rfl, hx.2⟩, ?_⟩
  refine entries_ofEntries _ _ _ ?_ ?_
  · rw [List.length_zipWith, entries_length, entries_length, hx.2, hy.2, min_self]
  · intro n hn
    obtain ⟨i, hi⟩ := List.mem_iff_getElem?.1 hn
    rw [List.getElem?_zipWith] at hi
    split at hi
    · rw [← Option.some.inj hi]
      exact encode_lt (f := double) (by decide) _
    · cases hi

theorem zip_at (sh : List ℕ) (f : ℕ → ℕ → FV) {x y : Tensor} (hx : Is64 sh x) (hy : Is64 sh y) {i m n : ℕ} (hm : (entries x)[i]? = some m)
    (hn : (entries y)[i]? = some n) {r : ℚ} (hr : val (f m n) = some r) (hh : Has double r) :
    ∃ o, (entries (ofEntries .f64 x.shape (List.zipWith (fun m n => encode double (f m n)) (entries x) (entries y))))[i]? = some o ∧
      val (decode double o) = some r := by
  refine ⟨encode double (f m n), ?_, (round_has (by decide) (by decide) hr hh).1⟩
  rw [(zip_is sh f hx hy).2, List.getElem?_zipWith, hm, hn]

theorem mix_is {sh : List ℕ} (v : FV) {x y : Tensor} (hx : Is64 sh x) (hy : Is64 sh y) :
    mix A.torch x y (alpha64 A.torch v) = .ok (ofEntries .f64 x.shape
      (List.zipWith (fun m n => encode double (mixed (alphaOf v) (decode double m) (decode double n))) (entries x) (entries y))) := by
  obtain ⟨a1, a2, n, a3, a4⟩ := alpha64_entries A.torch v
  unfold mix
  rw [a3]
  simp only
  rw [if_pos ⟨hx.1, hy.1, a1, a2, by rw [hx.2, hy.2]⟩, a4]
  rfl

theorem addcmul_is {sh : List ℕ} (v : FV) {x y : Tensor} (hx : Is64 sh x) (hy : Is64 sh y) :
    addcmul A x y (alpha64 A.torch v) = .ok (ofEntries .f64 x.shape
      (List.zipWith (fun m n => encode double (A.addcmul (decode double m) (decode double n) (alphaOf v))) (entries x) (entries y))) := by
  obtain ⟨a1, a2, n, a3, a4⟩ := alpha64_entries A.torch v
  unfold addcmul
  rw [a3]
  simp only
  rw [if_pos ⟨hx.1, hy.1, a1, a2, by rw [hx.2, hy.2]⟩, a4]
  rfl

theorem minus_is {sh : List ℕ} {x y : Tensor} (hx : Is64 sh x) (hy : Is64 sh y) :
    minus A x y = .ok (ofEntries .f64 x.shape
      (List.zipWith (fun m n => encode double (fadd (decode double m) (Ieee.neg (decode double n)))) (entries x) (entries y))) := by
  unfold minus
  rw [if_pos ⟨hx.1, hy.1, by rw [hx.2, hy.2]⟩]
  rfl

theorem average_is {sh : List ℕ} {ts : List Tensor} (hne : ts ≠ []) (h : ∀ t ∈ ts, Is64 sh t) :
    Linear.average A ts = .ok (ofEntries .f64 sh ((List.range (numel sh)).map fun i => encode double (A.mean sh i (ts.map fun u => decode double ((entries u).getD i 0))))) ∧
    entries (ofEntries .f64 sh ((List.range (numel sh)).map fun i => encode double (A.mean sh i (ts.map fun u => decode double ((entries u).getD i 0))))) =
      (List.range (numel sh)).map fun i => encode double (A.mean sh i (ts.map fun u => decode double ((entries u).getD i 0))) := by
  refine ⟨?_, entries_ofEntries _ _ _ (by simp) ?_⟩
  · cases ts with
    | nil => exact absurd rfl hne
    | cons t ts =>
      have ht : t.shape = sh := (h t (by simp)).2
      unfold Linear.average
      simp only
      rw [if_pos, ht]
      · rfl
      · simp only [List.all_eq_true, decide_eq_true_eq]
        intro u hu
        rw [ht]
        exact h u hu
  · intro n hn
    obtain ⟨i, _, rfl⟩ := List.mem_map.1 hn
    exact encode_lt (f := double) (by decide) _

theorem forall2_ofFn {α β : Type} {R : α → β → Prop} {n : ℕ} {a : Fin n → α} {b : Fin n → β} (h : ∀ i, R (a i) (b i)) :
    List.Forall₂ R (List.ofFn a) (List.ofFn b) := by
  induction n with
  | zero => simp
  | succ n ih =>
    rw [List.ofFn_succ, List.ofFn_succ]
    exact .cons (h 0) (ih fun i => h i.succ)

/-! ### What the nodes are -/

/-- A model's tensor in float64 -/
theorem entries_wide (T : Torch) {u : Tensor} (h : (fmt u.dtype).isSome) : Is64 u.shape (Ieee.cast T.other .f64 u) ∧
    ∀ (i m : ℕ) (a : ℚ), (entries u)[i]? = some m → val (read u.dtype m) = some a →
      ∃ m', (entries (Ieee.cast T.other .f64 u))[i]? = some m' ∧ val (decode double m') = some a := by
  by_cases hd : u.dtype = .f64
  · have e : Ieee.cast T.other .f64 u = u := by unfold Ieee.cast; rw [if_pos hd]
    rw [e]
    refine ⟨⟨hd, rfl⟩, fun i m a hm ha => ⟨m, hm, ?_⟩⟩
    rw [hd] at ha
    exact ha
  · obtain ⟨f, hf⟩ := Option.isSome_iff_exists.1 h
    obtain ⟨g1, _, _, g4⟩ := fmt_ok hf
    refine ⟨⟨by rw [cast_ne (f := double) rfl hd]; rfl, by rw [cast_ne (f := double) rfl hd]; rfl⟩, fun i m a hm ha => ?_⟩
    refine ⟨encode double (read u.dtype m), by rw [entries_cast (f := double) rfl hd, List.getElem?_map, hm]; rfl, ?_⟩
    have hw : Wider f double := (C103_wider u.dtype .f64 f double hf rfl).2 (.inr (.inl rfl))
    refine (wide_val hw ha ?_).1
    rw [g4] at ha
    exact decode_has (by omega) ha

/-- Tensor, or missing -/
def Plain (key : Str) (f : Str → Res F Tensor) : Prop := (∃ t, f key = .ok (.tensor t)) ∨ f key = .error .stateDictKey

theorem Scene.sum_eq (S : Scene A P num d1 d2 opened c cfg shape rcap) {a b : Val F} {x : F} {w : ℚ} (hw : Weight (num x) w) (ha : Proper a) (hb : Proper b)
    (key : Str) :
    eval (castW A P opened) (precast (enc num) (weightedSum a b x)) key =
      weighted A.torch (castRun P.conv .tensor (eval (castW A P opened) (precast (enc num) a)) key)
        (castRun P.conv .tensor (eval (castW A P opened) (precast (enc num) b)) key) (alpha64 A.torch (num x)) := by
  rw [precast_sum]
  exact eval_sum A.torch (castW A P opened) (show impl (P.source nWeighted) = _ by rw [S.weightedIs]) ((proper_precast _ a).2 ha) ((proper_precast _ b).2 hb) _ _ _ key

theorem weighted_cases {v : FV} {w : ℚ} (hw : Weight v w) (a b : Res F Tensor) :
    (NearZero w → weighted A.torch a b (alpha64 A.torch v) = a) ∧
    (¬ NearZero w → NearOne w → weighted A.torch a b (alpha64 A.torch v) = b) ∧
    (¬ NearZero w → ¬ NearOne w → weighted A.torch a b (alpha64 A.torch v) = match a with
      | .ok (.tensor a) =>
        match b with
        | .ok (.tensor b) => (mix A.torch a b (alpha64 A.torch v)).map RVal.tensor
        | .ok _ => .error .type
        | .error e => .error e
      | .ok _ => .error .type
      | .error e => .error e) := by
  obtain ⟨h1, h2⟩ := weight_val hw
  have z := nearZero_iff h1 h2
  have o := nearOne_iff h1 h2
  unfold weighted
  rw [close_eq, close_eq]
  refine ⟨fun h => ?_, fun h h' => ?_, fun h h' => ?_⟩
  · rw [z.2 h]
  · have h0 : isClose (alphaOf v) zero = false := by rw [← Bool.not_eq_true, z]; exact h
    rw [h0, o.2 h']
  · have h0 : isClose (alphaOf v) zero = false := by rw [← Bool.not_eq_true, z]; exact h
    have h1 : isClose (alphaOf v) one = false := by rw [← Bool.not_eq_true, o]; exact h'
    rw [h0, h1]
    rfl

theorem Scene.add_eq (S : Scene A P num d1 d2 opened c cfg shape rcap) {a b : Val F} (x : F) (ha : Proper a) (hb : Proper b) (key : Str) :
    eval (castW A P opened) (precast (enc num) (addDifference a b x)) key =
      Lora.added (addcmul A) (castRun P.conv .tensor (eval (castW A P opened) (precast (enc num) a)) key)
        (castRun P.conv .tensor (eval (castW A P opened) (precast (enc num) b)) key) (alpha64 A.torch (num x)) := by
  rw [precast_add]
  exact eval_addDifference (addcmul A) (castW A P opened) (show impl (P.source Lora.nAdd) = _ by rw [S.addIs]) ((proper_precast _ a).2 ha)
    ((proper_precast _ b).2 hb) _ _ _ key

theorem Scene.sub_eq (S : Scene A P num d1 d2 opened c cfg shape rcap) {a b : Val F} (ha : Proper a) (hb : Proper b) (key : Str) {x y : Tensor}
    (hx : eval (castW A P opened) (precast (enc num) a) key = .ok (.tensor x)) (hy : eval (castW A P opened) (precast (enc num) b) key = .ok (.tensor y)) :
    eval (castW A P opened) (precast (enc num) (subtract a b)) key = (minus A x y).map RVal.tensor := by
  rw [precast_sub]
  exact eval_subtract A (castW A P opened) (show impl (P.source Wrappers.nSub) = _ by rw [S.subIs]) ((proper_precast _ a).2 ha) ((proper_precast _ b).2 hb) key hx hy

/-- Arguments of `subtract` that are missing -/
theorem Scene.sub_missing (S : Scene A P num d1 d2 opened c cfg shape rcap) {a b : Val F} (ha : Proper a) (hb : Proper b) (key : Str)
    (pa : Plain key (eval (castW A P opened) (precast (enc num) a))) (pb : Plain key (eval (castW A P opened) (precast (enc num) b))) :
    (∀ e, Fails (castW A P opened) Wrappers.nSub [precast (enc num) a, precast (enc num) b] [] key e → e = .stateDictKey) ∧
    ((eval (castW A P opened) (precast (enc num) a) key = .error .stateDictKey ∨ eval (castW A P opened) (precast (enc num) b) key = .error .stateDictKey) →
      eval (castW A P opened) (precast (enc num) (subtract a b)) key = .error .stateDictKey) := by
  have himpl : (castW A P opened).impl Wrappers.nSub = impl (subSource A) := show impl (P.source Wrappers.nSub) = _ by rw [S.subIs]
  have hcall : Call (castW A P opened) Wrappers.nSub [precast (enc num) a, precast (enc num) b] [] :=
    call_of_two himpl rfl ((proper_precast _ a).2 ha) ((proper_precast _ b).2 hb)
  have hty : ∀ i, i = 0 ∨ i = 1 → typeOf (castW A P opened) Wrappers.nSub 2 (.pos i) = some (.val .tensor) := by
    intro i hi
    unfold typeOf
    rw [himpl]
    rcases hi with rfl | rfl <;> rfl
  have hone : ∀ e, Fails (castW A P opened) Wrappers.nSub [precast (enc num) a, precast (enc num) b] [] key e → e = .stateDictKey := by
    rintro e ⟨idx, v, t, h1, h2, h3⟩
    have key_of : ∀ v, Plain key (eval (castW A P opened) v) → ∀ t, t = .tensor → castRun (castW A P opened).conv t (eval (castW A P opened) v) key = .error e →
        e = .stateDictKey := by
      intro v hv t ht h
      subst ht
      rw [castRun_id hv] at h
      rcases hv with ⟨t, hv⟩ | hv
      · rw [hv] at h; cases h
      · rw [hv] at h; cases h; rfl
    cases idx with
    | name k => cases h1
    | pos i =>
      have h1 : [precast (enc num) a, precast (enc num) b][i]? = some v := h1
      match i, h1, h2 with
      | 0, h1, h2 =>
        have h2 : typeOf _ _ 2 _ = _ := h2
        rw [hty 0 (.inl rfl)] at h2
        cases h2
        simp at h1
        subst h1
        exact key_of _ pa _ rfl h3
      | 1, h1, h2 =>
        have h2 : typeOf _ _ 2 _ = _ := h2
        rw [hty 1 (.inr rfl)] at h2
        cases h2
        simp at h1
        subst h1
        exact key_of _ pb _ rfl h3
      | i + 2, h1, _ => simp at h1
  refine ⟨hone, fun h => ?_⟩
  have hf : Fails (castW A P opened) Wrappers.nSub [precast (enc num) a, precast (enc num) b] [] key .stateDictKey := by
    rcases h with h | h
    · exact ⟨.pos 0, _, .tensor, rfl, hty 0 (.inl rfl), (castRun_id pa).trans h⟩
    · exact ⟨.pos 1, _, .tensor, rfl, hty 1 (.inr rfl), (castRun_id pb).trans h⟩
  obtain ⟨e, h1, h2⟩ := eval_fails hcall ⟨_, hf⟩
  rw [precast_sub, h2, hone e h1]

theorem Scene.meanImpl (S : Scene A P num d1 d2 opened c cfg shape rcap) : (castW A P opened).impl nAverage = impl (averageSource A) :=
  show impl (P.source nAverage) = _ by rw [S.meanIs]

/-- A linear recipe has a value where the models it needs do. -/
theorem Scene.outcome (S : Scene A P num d1 d2 opened c cfg shape rcap) {s : Str} {r : Val F} {l : List Str}
    (h : Linear num (fun p => opened p ≠ none) c s r l) (key : Str) :
    ((∀ p ∈ l, (held opened cfg p key).isSome) ∧ ∃ t, eval (castW A P opened) (precast (enc num) r) key = .ok (.tensor t) ∧ Is64 (shape key) t) ∨
    ((∃ p ∈ l, held opened cfg p key = none) ∧ eval (castW A P opened) (precast (enc num) r) key = .error .stateDictKey) := by
  have plain : ∀ {f : Str → Res F Tensor} {p q : Prop},
      (p ∧ ∃ t, f key = .ok (.tensor t) ∧ Is64 (shape key) t) ∨ (q ∧ f key = .error .stateDictKey) → Plain key f := by
    rintro f p q (⟨_, t, h, _⟩ | ⟨_, h⟩)
    · exact .inl ⟨t, h⟩
    · exact .inr h
  induction h with
  | @model p s hp _ =>
    rw [precast_model]
    have := eval_model (T := A.torch) S.config hp (tensors A) (some s) key
    have : eval (castW A P opened) (.model p (some c) (some s)) key = _ := this
    rw [this]
    cases hh : held opened cfg p key with
    | none => exact .inr ⟨⟨p, by simp, hh⟩, rfl⟩
    | some u =>
      obtain ⟨h1, h2, _⟩ := S.floats p key u hh
      exact .inl ⟨by simp [hh], _, rfl, h2 ▸ (entries_wide A.torch h1).1⟩
  | zero ha hb hw h0 iha ihb =>
    rw [S.sum_eq hw ha.proper hb.proper, (weighted_cases hw _ _).1 h0, castRun_id (plain iha)]
    exact iha
  | one ha hb hw h0 h1 iha ihb =>
    rw [S.sum_eq hw ha.proper hb.proper, (weighted_cases hw _ _).2.1 h0 h1, castRun_id (plain ihb)]
    exact ihb
  | sum ha hb hw h0 h1 iha ihb =>
    rw [S.sum_eq hw ha.proper hb.proper, (weighted_cases hw _ _).2.2 h0 h1, castRun_id (plain iha), castRun_id (plain ihb)]
    rcases iha with ⟨la, x, ex, ix⟩ | ⟨⟨p, hp, np⟩, ex⟩
    · rcases ihb with ⟨lb, y, ey, iy⟩ | ⟨⟨p, hp, np⟩, ey⟩
      · rw [ex, ey]
        simp only
        rw [mix_is _ ix iy]
        refine .inl ⟨fun p hp => ?_, _, rfl, (zip_is _ _ ix iy).1⟩
        rcases List.mem_append.1 hp with h | h
        · exact la p h
        · exact lb p h
      · rw [ex, ey]
        exact .inr ⟨⟨p, List.mem_append.2 (.inr hp), np⟩, rfl⟩
    · rw [ex]
      exact .inr ⟨⟨p, List.mem_append.2 (.inl hp), np⟩, rfl⟩
  | mean a l ha ih =>
    rw [precast_average, List.map_ofFn]
    have hp : ∀ v ∈ List.ofFn (precast (enc num) ∘ a), Proper v := by
      intro v hv
      obtain ⟨i, rfl⟩ := mem_ofFn_iff.1 hv
      exact (proper_precast _ _).2 (ha i).proper
    have hpl : ∀ v ∈ List.ofFn (precast (enc num) ∘ a), Plain key (eval (castW A P opened) v) := by
      intro v hv
      obtain ⟨i, rfl⟩ := mem_ofFn_iff.1 hv
      exact plain (ih i)
    by_cases hall : ∀ i, ∃ t, eval (castW A P opened) (precast (enc num) (a i)) key = .ok (.tensor t) ∧ Is64 (shape key) t
    · choose t h1 h2 using hall
      rw [eval_average S.meanImpl hp (ts := List.ofFn t) (forall2_ofFn h1)]
      obtain ⟨e1, _⟩ := average_is (A := A) (sh := shape key) (ts := List.ofFn t) (by simp [List.ofFn_succ]) (by
        intro u hu
        obtain ⟨i, rfl⟩ := mem_ofFn_iff.1 hu
        exact h2 i)
      rw [e1]
      refine .inl ⟨fun p hp => ?_, _, rfl, rfl, rfl⟩
      obtain ⟨l', hl', hp⟩ := List.mem_flatten.1 hp
      obtain ⟨i, rfl⟩ := mem_ofFn_iff.1 hl'
      rcases ih i with ⟨h, _⟩ | ⟨_, h⟩
      · exact h p hp
      · rw [h1 i] at h; cases h
    · push Not at hall
      obtain ⟨i, hi⟩ := hall
      rcases ih i with ⟨_, t, h1, h2⟩ | ⟨⟨p, hp1, hp2⟩, h⟩
      · exact absurd h2 (hi t h1)
      · refine .inr ⟨⟨p, List.mem_flatten.2 ⟨_, mem_ofFn_iff.2 ⟨i, rfl⟩, hp1⟩, hp2⟩, ?_⟩
        exact average_missing S.meanImpl hp hpl ⟨_, mem_ofFn_iff.2 ⟨i, rfl⟩, h⟩
  | add ha hb hw iha ihb =>
    rw [S.add_eq _ ha.proper hb.proper, castRun_id (plain iha), castRun_id (plain ihb)]
    unfold Lora.added
    rcases ihb with ⟨lb, y, ey, iy⟩ | ⟨⟨p, hp, np⟩, ey⟩
    · rcases iha with ⟨la, x, ex, ix⟩ | ⟨⟨p, hp, np⟩, ex⟩
      · rw [ex, ey]
        simp only
        rw [addcmul_is _ ix iy]
        refine .inl ⟨fun p hp => ?_, _, rfl, (zip_is _ _ ix iy).1⟩
        rcases List.mem_append.1 hp with h | h
        · exact la p h
        · exact lb p h
      · rw [ex, ey]
        exact .inr ⟨⟨p, List.mem_append.2 (.inl hp), np⟩, rfl⟩
    · rw [ey]
      exact .inr ⟨⟨p, List.mem_append.2 (.inr hp), np⟩, rfl⟩
  | sub ha hb iha ihb =>
    obtain ⟨_, hm⟩ := S.sub_missing ha.proper hb.proper key (plain iha) (plain ihb)
    rcases iha with ⟨la, x, ex, ix⟩ | ⟨⟨p, hp, np⟩, ex⟩
    · rcases ihb with ⟨lb, y, ey, iy⟩ | ⟨⟨p, hp, np⟩, ey⟩
      · rw [S.sub_eq ha.proper hb.proper key ex ey, minus_is ix iy]
        refine .inl ⟨fun p hp => ?_, _, rfl, (zip_is _ _ ix iy).1⟩
        rcases List.mem_append.1 hp with h | h
        · exact la p h
        · exact lb p h
      · exact .inr ⟨⟨p, List.mem_append.2 (.inr hp), np⟩, hm (.inr ey)⟩
    · exact .inr ⟨⟨p, List.mem_append.2 (.inl hp), np⟩, hm (.inl ex)⟩

theorem modelsL_iff {p : Str → Option Str → Prop} {l : List (Val F)} : ModelsL p l ↔ ∀ v ∈ l, Models p v := by
  induction l with
  | nil => simp [ModelsL]
  | cons v l ih => simp [ModelsL, ih]

/-- The entries of a linear recipe -/
theorem Scene.term (S : Scene A P num d1 d2 opened c cfg shape rcap) {key : Str} {i : ℕ} {r : Val F} {v s : ℚ} {n g : ℕ}
    (h : Term (entryOf opened cfg key i) num r v s n g) (hc : Models (fun _ cc => cc = some c) r) (hr : Proper r) (hn : n ≤ 2 ^ 50) :
    ∃ t m q, eval (castW A P opened) (precast (enc num) r) key = .ok (.tensor t) ∧ Is64 (shape key) t ∧ (entries t)[i]? = some m ∧
      val (decode double m) = some q ∧ Good n g s v q := by
  have ok : ∀ {f : Str → Res F Tensor} {t : Tensor}, f key = .ok (.tensor t) → castRun P.conv .tensor f key = .ok (.tensor t) := by
    intro f t h
    rw [castRun_id (.inl ⟨t, h⟩), h]
  induction h with
  | @model p cc s a z g ha hz hlt =>
    obtain rfl : cc = some c := hc
    rw [precast_model]
    unfold entryOf at ha
    split at ha
    · rename_i u hu
      split at ha
      · rename_i m hm
        have := eval_model (T := A.torch) S.config (held_open hu) (tensors A) s key
        have : eval (castW A P opened) (.model p (some c) s) key = _ := this
        rw [this, hu]
        obtain ⟨h1, h2, _⟩ := S.floats p key u hu
        obtain ⟨e1, e2⟩ := entries_wide A.torch h1
        obtain ⟨m', m1, m2⟩ := e2 i m a hm ha
        exact ⟨_, m', a, rfl, h2 ▸ e1, m1, m2, given_good hz hlt⟩
      · cases ha
    · cases ha
  | zero hw h0 _ ih =>
    obtain ⟨p1, p2⟩ := proper_sum.1 hr
    rw [weightedSum, Models, ModelsL, ModelsL] at hc
    obtain ⟨t, m, q, h1, h2⟩ := ih hc.1.1 p1 hn
    rw [S.sum_eq hw p1 p2, (weighted_cases hw _ _).1 h0, ok h1]
    exact ⟨t, m, q, rfl, h2⟩
  | one hw h0 h1 _ ih =>
    obtain ⟨p1, p2⟩ := proper_sum.1 hr
    rw [weightedSum, Models, ModelsL, ModelsL] at hc
    obtain ⟨t, m, q, h2, h3⟩ := ih hc.1.2.1 p2 hn
    rw [S.sum_eq hw p1 p2, (weighted_cases hw _ _).2.1 h0 h1, ok h2]
    exact ⟨t, m, q, rfl, h3⟩
  | sum hw h0 h1 hj _ _ hlt ih1 ih2 =>
    obtain ⟨p1, p2⟩ := proper_sum.1 hr
    rw [weightedSum, Models, ModelsL, ModelsL] at hc
    obtain ⟨x, m, a, a1, a2, a3, a4, a5⟩ := ih1 hc.1.1 p1 (by omega)
    obtain ⟨y, m', b, b1, b2, b3, b4, b5⟩ := ih2 hc.1.2.1 p2 (by omega)
    rw [S.sum_eq hw p1 p2, (weighted_cases hw _ _).2.2 h0 h1, ok a1, ok b1]
    simp only
    rw [mix_is _ a2 b2]
    obtain ⟨w1, w2⟩ := weight_val hw
    obtain ⟨q, q1, q2⟩ := mixed_good w1 w2 h0 h1 ⟨_, hj⟩ a4 b4 a5 b5 hn hlt
    obtain ⟨o, o1, o2⟩ := zip_at _ (fun m n => mixed (alphaOf _) (decode double m) (decode double n)) a2 b2 a3 b3 q1 (decode_has (f := double) (by decide) q1)
    exact ⟨_, o, q, rfl, (zip_is _ _ a2 b2).1, o1, o2, q2⟩
  | @mean k a v s m h n g _ hm hlt hgr ih =>
    have hc' : ∀ j, Models (fun _ cc => cc = some c) (a j) := by
      rw [Spec.average, Models, modelsL_iff] at hc
      exact fun j => hc.1 _ (mem_ofFn_iff.2 ⟨j, rfl⟩)
    have hp := (proper_average.1 hr).2
    have hall := fun j => ih j (hc' j) (hp _ (mem_ofFn_iff.2 ⟨j, rfl⟩)) ((hm j).trans (by omega))
    choose t e q a1 a2 a3 a4 a5 using hall
    rw [precast_average, List.map_ofFn, eval_average S.meanImpl (l := List.ofFn (precast (enc num) ∘ a)) (ts := List.ofFn t) (by
      intro v hv
      obtain ⟨j, rfl⟩ := mem_ofFn_iff.1 hv
      exact (proper_precast _ _).2 (hp _ (mem_ofFn_iff.2 ⟨j, rfl⟩))) (forall2_ofFn a1)]
    obtain ⟨e1, e2⟩ := average_is (A := A) (sh := shape key) (ts := List.ofFn t) (by simp [List.ofFn_succ]) (by
      intro u hu
      obtain ⟨i, rfl⟩ := mem_ofFn_iff.1 hu
      exact a2 i)
    rw [e1]
    have hi : i < numel (shape key) := by
      have := (List.getElem?_eq_some_iff.1 (a3 0)).1
      rwa [entries_length, (a2 0).2] at this
    obtain ⟨l, hl⟩ : ∃ l, l = List.ofFn fun j => (v j, s j) := ⟨_, rfl⟩
    have hv : vals l = (List.ofFn v).sum := by rw [hl, vals, List.map_ofFn]; rfl
    have hs : sizes l = (List.ofFn s).sum := by rw [hl, sizes, List.map_ofFn]; rfl
    obtain ⟨xs, hxs⟩ : ∃ xs, xs = (List.ofFn t).map fun u => decode double ((entries u).getD i 0) := ⟨_, rfl⟩
    have hlen : xs.length = k + 1 := by rw [hxs]; simp
    have hnear : List.Forall₂ (fun x (p : ℚ × ℚ) => ∃ q n' h', val x = some q ∧ Has double q ∧ Good n' h' p.2 p.1 q ∧ n' ≤ n ∧ ∃ j, h j = h') xs l := by
      rw [hxs, hl, List.forall₂_map_left_iff]
      refine forall2_ofFn fun j => ⟨q j, m j, h j, ?_, decode_has (f := double) (by decide) (a4 j), a5 j, hm j, j, rfl⟩
      rw [List.getD_eq_getElem?_getD, a3 j]
      exact a4 j
    have hgr' : (∃ j, xs.length = 2 ^ j ∧ ∀ h', (∃ i, h i = h') → h' + j ≤ g) ∨ 2 ^ 53 ≤ (sizes l / xs.length + eta) * 2 ^ g := by
      rw [hlen, hs]
      refine hgr.imp (fun ⟨j, j1, j2⟩ => ⟨j, j1, ?_⟩) id
      rintro _ ⟨i, rfl⟩
      exact j2 i
    obtain ⟨r, r1, hh, r2⟩ := mean_good S.rounds (shape key) i (xs := xs) (l := l) (N := n) (by rw [← List.length_pos_iff]; omega) hnear (by omega) (by rw [hs]; exact hlt) hgr'
    refine ⟨_, encode double (A.mean (shape key) i xs), r, rfl, ⟨rfl, rfl⟩, ?_, (round_has (by decide) (by decide) r1 hh).1, ?_⟩
    · rw [e2, List.getElem?_map, List.getElem?_range hi, hxs]
      rfl
    · rw [hlen, hs, hv] at r2
      exact r2
  | add hw hj _ _ hlt ih1 ih2 =>
    obtain ⟨p1, p2⟩ := proper_add.1 hr
    rw [addDifference, Models, ModelsL, ModelsL] at hc
    obtain ⟨x, m, a, a1, a2, a3, a4, a5⟩ := ih1 hc.1.1 p1 (by omega)
    obtain ⟨y, m', b, b1, b2, b3, b4, b5⟩ := ih2 hc.1.2.1 p2 (by omega)
    rw [S.add_eq _ p1 p2, ok a1, ok b1]
    unfold Lora.added
    simp only
    rw [addcmul_is _ a2 b2]
    obtain ⟨w1, w2⟩ := weight_val hw
    obtain ⟨q, q1, q2⟩ := addcmul_good S.fma w1 ⟨_, hj⟩ a4 b4 a5 b5 hn hlt
    have hq : Has double q := by
      rcases S.fma (decode double m) (decode double m') (alphaOf _) with e | e
      · rw [e] at q1; exact decode_has (f := double) (by decide) q1
      · rw [e] at q1; exact decode_has (f := double) (by decide) q1
    obtain ⟨o, o1, o2⟩ := zip_at _ (fun m n => A.addcmul (decode double m) (decode double n) (alphaOf _)) a2 b2 a3 b3 q1 hq
    exact ⟨_, o, q, rfl, (zip_is _ _ a2 b2).1, o1, o2, q2⟩
  | sub _ _ hlt ih1 ih2 =>
    obtain ⟨p1, p2⟩ := proper_sub.1 hr
    rw [subtract, Models, ModelsL, ModelsL] at hc
    obtain ⟨x, m, a, a1, a2, a3, a4, a5⟩ := ih1 hc.1.1 p1 (by omega)
    obtain ⟨y, m', b, b1, b2, b3, b4, b5⟩ := ih2 hc.1.2.1 p2 (by omega)
    rw [S.sub_eq p1 p2 key a1 b1, minus_is a2 b2]
    obtain ⟨q, q1, q2⟩ := minus_good a4 b4 a5 b5 hn hlt
    obtain ⟨o, o1, o2⟩ := zip_at _ (fun m n => fadd (decode double m) (Ieee.neg (decode double n))) a2 b2 a3 b3 q1 (decode_has (f := double) (by decide) q1)
    exact ⟨_, o, q, rfl, (zip_is _ _ a2 b2).1, o1, o2, q2⟩

end

end Verif.Linear
