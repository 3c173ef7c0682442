import Verif.Props.Readme

/-!
# Merging nothing but a model (C103)
-/
namespace Verif.Readme
open Method Recipe Config Eval Eval.Spec Program Program.Spec Whole Whole.Spec Ieee Ieee.Spec Spec
open Threads.Spec (stored Opened)
open StreamOut (Tensor)
variable {F : Type}

theorem rounded_same {f : Fmt} {v w : FV} {n : ℕ} (h : Same v w) (hr : Rounded f w n) : Rounded f v n := by
  cases v with
  | nan => cases w with
    | nan => exact hr
    | inf t => exact h.elim
    | fin t m e => exact h.elim
  | inf s => cases w with
    | nan => exact h.elim
    | inf t => obtain rfl : s = t := h; exact hr
    | fin t m e => exact h.elim
  | fin s m e => cases w with
    | nan => exact h.elim
    | inf t => exact h.elim
    | fin t n' g =>
      obtain ⟨rfl, h2⟩ := h
      obtain ⟨q, q1, q2, q3⟩ := hr
      exact ⟨q, h2.trans q1, q2, q3⟩

theorem same_refl (v : FV) : Same v v := by cases v <;> simp [Ieee.Spec.Same]

theorem wider_double {d : DType} {f : Fmt} (h : fmt d = some f) : Wider f double := by
  cases d <;> simp only [fmt, Option.some.injEq, reduceCtorEq] at h <;> subst h <;> exact ⟨by decide, by decide, by decide⟩

theorem forall₂_trans_ {α β γ : Type} {R : α → β → Prop} {S : β → γ → Prop} {Q : α → γ → Prop} (h : ∀ a b c, R a b → S b c → Q a c) :
    ∀ {l l' l''}, List.Forall₂ R l l' → List.Forall₂ S l' l'' → List.Forall₂ Q l l''
  | _, _, _, .nil, .nil => .nil
  | _, _, _, .cons h1 t1, .cons h2 t2 => .cons (h _ _ _ h1 h2) (forall₂_trans_ h t1 t2)

/-- A tensor that is cast to float64 and then to float16 is rounded once. -/
theorem cast_twice (T : Torch) (u : Tensor) {f : Fmt} (hu : fmt u.dtype = some f) :
    (Ieee.cast T.other .f16 (Ieee.cast T.other .f64 u)).dtype = .f16 ∧ (Ieee.cast T.other .f16 (Ieee.cast T.other .f64 u)).shape = u.shape ∧
    StreamOut.Spec.Tensor.WF (Ieee.cast T.other .f16 (Ieee.cast T.other .f64 u)) ∧
    List.Forall₂ (fun n o => Rounded half (read u.dtype n) o) (entries u) (entries (Ieee.cast T.other .f16 (Ieee.cast T.other .f64 u))) := by
  have h64 : (Ieee.cast T.other .f64 u).dtype = .f64 ∧ (Ieee.cast T.other .f64 u).shape = u.shape ∧
      List.Forall₂ (fun n m => Same (read u.dtype n) (read .f64 m)) (entries u) (entries (Ieee.cast T.other .f64 u)) := by
    by_cases hd : u.dtype = .f64
    · have : Ieee.cast T.other .f64 u = u := by unfold Ieee.cast; rw [if_pos hd]
      rw [this]
      refine ⟨hd, rfl, ?_⟩
      rw [List.forall₂_same, hd]
      exact fun n _ => same_refl _
    · obtain ⟨h1, h2, _, _⟩ := C103_round T.other .f64 double rfl u hd
      exact ⟨h1, h2, C103_widen T.other .f64 f double u hu rfl (wider_double hu) hd⟩
  obtain ⟨h1, h2, h3⟩ := h64
  obtain ⟨g1, g2, g3, g4⟩ := C103_round T.other .f16 half rfl (Ieee.cast T.other .f64 u) (by rw [h1]; decide)
  refine ⟨g1, by rw [g2, h2], g3, ?_⟩
  rw [h1] at g4
  exact forall₂_trans_ (R := fun n m => Ieee.Spec.Same (read u.dtype n) (read .f64 m)) (S := fun m o => Rounded half (read .f64 m) o)
    (Q := fun n o => Rounded half (read u.dtype n) o) (fun a b c hab hbc => rounded_same hab hbc) h3 g4

/-- **C103** for a merge: `merge(model, output=file)` with all options as they are by default.  The file has the keys of the architecture that the model
holds, under their own names; a tensor of any floating point dtype is rounded to float16, once; a float16 tensor without NaN is kept byte by byte. -/
theorem C103_copy_partial (T : Torch) (P : PWorld F Tensor) (hP : Registered P (move T.other)) (N : Serialize.Num F)
    (opened : Str → Option StreamIn.State) (hop : Opened opened) (path c : Str) (cfg : ModelConfig) (hc : P.configs c = some cfg) (hp : opened path ≠ none)
    (n : ℕ) (file : Bytes) (m : Saves P N defaults opened (.model path (some c) (some weight)) n file) (bs rcap : ℕ) (hbs : bs ≤ rcap)
    (hmeta : ∀ k, Wanted cfg (defaults (F := F)) k → k ≠ metadataKey)
    (hh : ∀ k u, Wanted cfg (defaults (F := F)) k → held opened cfg path k = some u → (fmt u.dtype).isSome ∧ 2 * numel u.shape ≤ rcap) :
    ∃ s0, StreamIn.open_ file bs rcap = .ok s0 ∧
      (∀ k, k ∈ StreamIn.keys s0 ↔ Wanted cfg (defaults (F := F)) k ∧ (held opened cfg path k).isSome) ∧
      ∀ k u, Wanted cfg (defaults (F := F)) k → held opened cfg path k = some u → ∀ history : List Key, ∃ s1 v,
        StreamIn.getItem (StreamIn.run s0 (history.map .load)).st k = (s1, .ok v) ∧ v.dtype = .f16 ∧ v.shape = u.shape ∧
        List.Forall₂ (fun n o => Rounded half (read u.dtype n) o) (entries u) (entries ⟨v.dtype, v.shape, s1.read v⟩) ∧
        (u.dtype = .f16 → NoNan u → (⟨v.dtype, v.shape, s1.read v⟩ : Tensor) = u) := by
  have hmove : ∀ y e, move T.other (defaults (F := F)).mergeDevice (defaults (F := F)).mergeDtype y = .error e → Err.isKeyError e = false :=
    fun y e h => by rw [show move T.other (defaults (F := F)).mergeDevice (defaults (F := F)).mergeDtype y = _ from move64 T y] at h; cases h
  have hfits : Fits (world P (stored opened)) (move T.other) (fun _ => ⟨.u8, [], []⟩) (fun _ => 0) (defaults (F := F)) (.model path (some c) (some weight)) :=
    ⟨trivial, fun _ => by rw [Castable]; trivial⟩
  have hconf : configOf (world P (stored opened)) (.model path (some c) (some weight)) = .ok (some cfg) := by
    unfold Eval.configOf
    rw [Val.config]
    show Except.ok (P.configs c) = _
    rw [hc]
  have hcfg : ∀ cfg', HasConfig (world P (stored opened)) (.model path (some c) (some weight)) none cfg' → cfg = cfg' := by
    rintro cfg' (h | ⟨_, fb, h, _⟩)
    · exact Option.some.inj (Except.ok.inj (hconf.symm.trans h))
    · cases h
  have hfin : ∀ k, final (world P (stored opened)) (move T.other) (fun _ => ⟨.u8, [], []⟩) (fun _ => 0) (defaults (F := F)) (.model path (some c) (some weight)) none k =
      match held opened cfg path k with
      | some u => .ok (.tensor (Ieee.cast T.other .f16 (Ieee.cast T.other .f64 u)))
      | none => .error .stateDictKey := by
    intro k
    unfold final combined computed
    rw [if_neg (by simp [defaults])]
    simp only
    have hpre : precast (fun _ => 0) (.model path (some c) (some weight) : Val F) = .model path (some c) (some weight) := by rw [precast] <;> simp
    rw [hpre]
    have := eval_model (P := P) (T := T) hc hp (fun _ => ⟨.u8, [], []⟩) (some weight) k
    have this : eval (castWorld (world P (stored opened)) (move T.other (defaults (F := F)).mergeDevice (defaults (F := F)).mergeDtype) fun _ => ⟨.u8, [], []⟩)
      (.model path (some c) (some weight)) k = _ := this
    rw [this]
    cases held opened cfg path k with
    | none => rfl
    | some u =>
      simp only
      unfold delivered
      rw [if_neg (by simp [defaults])]
      have h1 : castTo (world P (stored opened)).conv .tensor (RVal.tensor (Ieee.cast T.other .f64 u) : RVal F Tensor) = .ok (.tensor (Ieee.cast T.other .f64 u)) := rfl
      rw [h1]
      have hm : move T.other (defaults (F := F)).outputDevice (defaults (F := F)).outputDtype (Ieee.cast T.other .f64 u) = _ := move16 T _
      simp only [hm]
  have hw : ∀ k, k ∈ m.keys → Wanted cfg (defaults (F := F)) k := by
    have hv : Except.ok (.model path (some c) (some weight)) = Except.ok m.original := prepare_node m.prepared
    obtain ⟨_, fb, f1, f2⟩ := facts (builtin hP (stored opened)) (fun s h => by cases h; decide) (fun s h => by cases h; decide) hmove
      m.prepared (by rw [← Except.ok.inj hv]; exact hfits) (fun b b' hb => by cases hb)
    obtain ⟨_, cfg', p2, p3⟩ := plan_ok m.planned
    have hcfg' := f2.config cfg' p2
    rw [← Except.ok.inj hv] at hcfg'
    cases f1
    obtain rfl := hcfg _ hcfg'
    intro k hk
    rw [p3, Merge.mem_targetKeys] at hk
    exact hk
  have hwf : ∀ k y, Wanted cfg (defaults (F := F)) k →
      final (world P (stored opened)) (move T.other) (fun _ => ⟨.u8, [], []⟩) (fun _ => 0) (defaults (F := F)) (.model path (some c) (some weight)) none k = .ok (.tensor y) →
      StreamOut.Spec.Tensor.WF y ∧ y.bytes.length ≤ rcap := by
    intro k y hk hy
    rw [hfin] at hy
    cases hu : held opened cfg path k with
    | none => rw [hu] at hy; cases hy
    | some u =>
      rw [hu] at hy
      cases hy
      obtain ⟨h1, h2⟩ := hh k u hk hu
      obtain ⟨f, hf⟩ := Option.isSome_iff_exists.1 h1
      obtain ⟨g1, g2, g3, _⟩ := cast_twice T u hf
      refine ⟨g3, ?_⟩
      rw [wf_iff.1 g3, g1, g2]
      show numel u.shape * 2 ≤ rcap
      omega
  obtain ⟨r, fb, cfg', s0, k1, k2, k3, _, k5, _, k7, k8⟩ := C99_file_partial P (move T.other) hP N defaults
    ⟨fun s h => by cases h; decide, fun s h => by cases h; decide, hmove⟩ opened hop _ n file m (fun _ => ⟨.u8, [], []⟩) (fun _ => 0)
    (fun r h => by cases h; exact hfits) (fun b b' hb => by cases hb) (fun h => hmeta _ (hw _ h) rfl)
    (fun r fb k u h h' hk hu => by cases h; cases h'; exact (hwf k u (hw k hk) hu).1) bs rcap hbs
    (fun r fb k u h h' hk hu => by cases h; cases h'; exact (hwf k u (hw k hk) hu).2)
  cases k1; cases k2
  obtain rfl := hcfg _ k3
  refine ⟨s0, k5, fun k => ?_, fun k u hk hu history => ?_⟩
  · rw [k7, hfin]
    refine and_congr_right fun _ => ?_
    cases held opened cfg path k <;> simp
  · have hf := hfin k
    rw [hu] at hf
    obtain ⟨s1, v, q1, q2, q3, q4⟩ := k8 k _ hk hf history
    obtain ⟨f, hd⟩ := Option.isSome_iff_exists.1 (hh k u hk hu).1
    obtain ⟨g1, g2, g3, g4⟩ := cast_twice T u hd
    refine ⟨s1, v, q1, by rw [q2, g1], by rw [q3, g2], ?_, fun h16 hn => ?_⟩
    · rw [q2, q3, q4]; exact g4
    · rw [q2, q3, q4]
      have := C103_back T.other .f64 f double u hd rfl (wider_double hd) (wf_iff.2 (held_wf hop hu)) hn
      rw [h16] at this
      exact this

/-! ## An example: a copy of `g`, see `Verif/Props/Readme.lean` -/

namespace Ex

def copied : Val (Option Int) := .model "g".toList (some "t-c".toList) (some weight)

def mergedC : Val (Option Int) := match prepare P.env defaults copied with | .ok p => p.2 | .error _ => .none

def storesC : List (Str × Tensor) := [("a".toList, ⟨.f16, [3], [0x00, 0x40, 0x00, 0x80, 0x66, 0x32]⟩), ("b".toList, ⟨.f16, [], [0x00, 0xC4]⟩)]

def textC : Option Str := match recipeText Serialize.Ex.num copied with | .ok t => t | .error _ => none

def actionsC : List StreamOut.Action := storesC.flatMap fun p => [.begin 0 p.1 p.2, .locked 0, .finish 0]

def writerC : StreamOut.State := (StreamOut.run (StreamOut.init declared textC 2 10000) actionsC).getD (StreamOut.init declared textC 2 10000)

def fileC : Bytes := match StreamOut.close writerC with | .ok f => f | .error _ => []

theorem ranC : Threads.sequential (Threads.fileProgram P mergedC) opened keys = (storesC, .returned) := by decide +kernel

def savesC : Saves P Serialize.Ex.num defaults opened copied 0 fileC where
  original := copied
  merged := mergedC
  keys := keys
  stores := storesC
  prepared := by decide +kernel
  planned := by decide +kernel
  ran := ranC
  text := textC
  declared := declared
  minBuf := 2
  cap := 10000
  actions := actionsC
  writer := writerC
  serialized := by decide +kernel
  wrote := by decide +kernel
  quiet := by unfold StreamOut.Spec.Quiescent; decide +kernel
  assigned := by decide +kernel
  complete := ⟨by decide, by decide +kernel, by decide, by decide +kernel⟩
  closed := by decide +kernel

example : ∃ s0, StreamIn.open_ fileC 2 1000 = .ok s0 ∧ "c".toList ∉ StreamIn.keys s0 ∧ ∃ s1 v,
    StreamIn.getItem s0 "b".toList = (s1, .ok v) ∧ (⟨v.dtype, v.shape, s1.read v⟩ : Tensor) = ⟨.f16, [], [0x00, 0xC4]⟩ := by
  obtain ⟨s0, h1, h2, h3⟩ := C103_copy_partial T P scene.registered Serialize.Ex.num opened opened_ok "g".toList "t-c".toList cfg rfl (by decide +kernel) 0 fileC
    savesC 2 1000 (by decide) scene.names (fun k u hk hu => by
      obtain ⟨h1, h2⟩ := scene.half "g".toList k u (.inr rfl) hk hu
      rw [h1]
      exact ⟨rfl, h2⟩)
  have hw : Wanted cfg (defaults (F := Option Int)) "b".toList := by
    have : "b".toList ∈ Merge.targetKeys cfg true := by decide +kernel
    exact (Merge.mem_targetKeys _ _ _).1 this
  obtain ⟨s1, v, q1, _, _, _, q5⟩ := h3 "b".toList ⟨.f16, [], [0x00, 0xC4]⟩ hw (by decide +kernel) []
  refine ⟨s0, h1, fun h => ?_, s1, v, q1, q5 rfl (by decide +kernel)⟩
  exact absurd ((h2 "c".toList).1 h).2 (by decide +kernel)

end Ex

end Verif.Readme
