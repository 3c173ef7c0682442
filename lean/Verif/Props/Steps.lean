import Verif.Proofs.StepsCalm
import Verif.Proofs.Text
import Verif.Props.Blocks

/-!
# Merging in two steps (C122)

`q.fill fun _ => g` is a recipe with the sub-recipe `g` in some places; `after disk path s0` is the disk after `g` was merged to the file `path`.
-/
namespace Verif.Steps
open Method Recipe Config Eval Eval.Spec Program Program.Spec Whole Blocks Blocks.Spec Spec
open Threads (fileProgram)
open Threads.Spec (Runs Opened stored)
open StreamOut (Tensor)
variable {F : Type}

theorem keys_nodup {P : PWorld F Tensor} {N : Serialize.Num F} {o : Options F} {opened : Str → Option StreamIn.State}
    {recipe : Val F} {n : ℕ} {file : Bytes} (m : Saves P N o opened recipe n file) : m.keys.Nodup := by
  obtain ⟨_, cfg, _, p3⟩ := plan_ok m.planned
  rw [p3]; exact Merge.targetKeys_nodup _ _

theorem opened_after {disk : Str → Option StreamIn.State} (hop : Opened disk) {path : Str} {s0 : StreamIn.State} {file : Bytes} {bs rcap : ℕ} (hbs : bs ≤ rcap)
    (h1 : StreamIn.open_ file bs rcap = .ok s0) (h2 : StreamIn.Spec.ValidHeader file s0.headerSize s0.header)
    (h3 : ∀ k e, s0.header.get? k = some (.tensor e) → e.stop - e.start ≤ rcap) : Opened (after disk path s0) := by
  intro p s hs
  unfold after at hs
  split_ifs at hs
  · cases hs; exact ⟨file, bs, rcap, h1, h2, hbs, h3⟩
  · exact hop p s hs

theorem fresh_merged {P : PWorld F Tensor} {move} (hP : Registered P move) {N : Serialize.Num F} {o : Options F} {disk : Str → Option StreamIn.State} {recipe : Val F}
    {n : ℕ} {file : Bytes} (m : Saves P N o disk recipe n file) {method as ks} (hr : recipe = .merge method as ks) {path : Str}
    (hfresh : Models (fun p _ => p ≠ path) recipe)
    (hfb : ∀ b b', o.fallback = some b → valueToNode P.env b = .ok b' → Models (fun p _ => p ≠ path) b') : Models (fun p _ => p ≠ path) m.merged := by
  have hW := builtin hP (stored disk)
  have hn : recipe.isNode = true := by rw [hr]; rfl
  obtain ⟨r1, r2, h0, h1, h2, h3⟩ := prepare_ok m.prepared
  rw [Serialize.valueToNode_node hn] at h0
  rw [← Except.ok.inj h0] at h1
  have f1 : Models (fun p _ => p ≠ path) r1 ∧ ∃ m as ks, r1 = .merge m as ks := by
    unfold withFallback at h1
    cases hf : o.fallback with
    | none => rw [hf] at h1; rw [← Except.ok.inj h1]; exact ⟨hfresh, _, _, _, hr⟩
    | some b =>
      rw [hf] at h1
      obtain ⟨b', b1, rfl⟩ := orNode_shape hW hn h1
      rw [Models, ModelsL, ModelsL, ModelsL, ModelsK]
      exact ⟨⟨⟨hfresh, hfb b b' hf b1, trivial⟩, trivial⟩, _, _, _, rfl⟩
  have f2 : Models (fun p _ => p ≠ path) r2 ∧ r2.isNode = true := by
    obtain ⟨f1, _, _, _, rfl⟩ := f1
    unfold withInputs at h2
    split_ifs at h2
    · exact ⟨castInputs_models hW _ _ f1 h2, castInputs_node h2⟩
    · rw [← Except.ok.inj h2]; exact ⟨f1, rfl⟩
  unfold withOutput at h3
  split_ifs at h3
  · rw [toNode_shape hW f2.2 h3]; exact models_castNode f2.1 _ _
  · rw [← Except.ok.inj h3]; exact f2.1

theorem modelsL_all_iff {p : Str → Option Str → Prop} : ∀ {l : List (Val F)}, ModelsL p l ↔ ∀ v ∈ l, Models p v
  | [] => by simp [ModelsL]
  | v :: l => by rw [ModelsL, modelsL_all_iff]; simp

theorem modelsK_all_iff {p : Str → Option Str → Prop} : ∀ {l : List (Str × Val F)}, ModelsK p l ↔ ∀ v ∈ l, Models p v.2
  | [] => by simp [ModelsK]
  | (k, v) :: l => by rw [ModelsK, modelsK_all_iff]; simp

mutual
theorem calm_read {P : PWorld F Tensor} {disk : Str → Option StreamIn.State} {path : Str} {s0 : StreamIn.State} {k : Str} : ∀ {v : Val F}, Models (fun p _ => p ≠ path) v →
    Calm (world P (stored disk)) k v → Calm (world P (stored (after disk path s0))) k v
  | .merge m args kwargs, h, hc => by
    rw [Calm] at hc ⊢
    have hh := h
    rw [Models] at h
    obtain ⟨c1, c2, c3, c4⟩ := hc
    refine ⟨⟨c1.names, c1.proper, c1.typed⟩, ?_, calmL_read h.1 c3, calmK_read h.2 c4⟩
    rintro e ⟨idx, v, t, h1, h2, h3⟩
    refine c2 e ⟨idx, v, t, h1, h2, ?_⟩
    have hm : Models (fun p _ => p ≠ path) v := by
      cases idx with
      | pos i => exact (modelsL_all_iff.1 h.1) v (List.mem_of_getElem? h1)
      | name x => exact (modelsK_all_iff.1 h.2) (x, v) (Dict.mem_of_get? h1)
    rw [after_read (s0 := s0) hm]
    exact h3
  | .lit .., _, _ => by rw [Calm] <;> simp
  | .model .., _, _ => by rw [Calm] <;> simp
  | .str _, _, _ => by rw [Calm] <;> simp
  | .int _, _, _ => by rw [Calm] <;> simp
  | .float _, _, _ => by rw [Calm] <;> simp
  | .bool _, _, _ => by rw [Calm] <;> simp
  | .none, _, _ => by rw [Calm] <;> simp
  | .tensor _, _, _ => by rw [Calm] <;> simp
  | .dict _, _, _ => by rw [Calm] <;> simp
theorem calmL_read {P : PWorld F Tensor} {disk : Str → Option StreamIn.State} {path : Str} {s0 : StreamIn.State} {k : Str} : ∀ {l : List (Val F)},
    ModelsL (fun p _ => p ≠ path) l → CalmL (world P (stored disk)) k l → CalmL (world P (stored (after disk path s0))) k l
  | [], _, _ => by rw [CalmL]; trivial
  | v :: l, h, hc => by
    rw [ModelsL] at h
    rw [CalmL] at hc ⊢
    exact ⟨calm_read h.1 hc.1, calmL_read h.2 hc.2⟩
theorem calmK_read {P : PWorld F Tensor} {disk : Str → Option StreamIn.State} {path : Str} {s0 : StreamIn.State} {k : Str} : ∀ {l : List (Str × Val F)},
    ModelsK (fun p _ => p ≠ path) l → CalmK (world P (stored disk)) k l → CalmK (world P (stored (after disk path s0))) k l
  | [], _, _ => by rw [CalmK]; trivial
  | (x, v) :: l, h, hc => by
    rw [ModelsK] at h
    rw [CalmK] at hc ⊢
    exact ⟨calm_read h.1 hc.1, calmK_read h.2 hc.2⟩
end

/-- **C122.**  A recipe `g` is merged to a file, at a path that is not in use, without a fallback model.  A larger recipe with `g` in some places is merged to a
file; and the larger recipe with the first file in these places is merged to another file, with the same options, any numbers of threads.  If the tensors of `g` are
changed neither by being saved nor by being loaded again, all files open, and for each key merged in the first step: the last two files both list it or both do not, and
if they do, it has the same dtype, shape and bytes in both. -/
theorem C122_steps_partial (P : PWorld F Tensor) (move : Option Str → Option Str → Tensor → Except Err Tensor) (hP : Registered P move) (N : Serialize.Num F)
    (o₁ o : Options F) (ho₁ : Sane move o₁) (ho : Sane move o) (hd : o₁.mergeDevice = o.mergeDevice) (ht : o₁.mergeDtype = o.mergeDtype) (hfb₁ : o₁.fallback = none)
    (disk : Str → Option StreamIn.State) (hop : Opened disk)
    (g : Val F) (hpr : Proper g) (hkn : Known g) (c : Str) (hcfg : g.config P.env = .ok (some c)) (cfg : ModelConfig) (hc : P.configs c = some cfg)
    (method : Str) (args : List (Plan F)) (kwargs : List (Str × Plan F)) (hq : Here (world P (stored disk)) (.merge method args kwargs))
    (n₁ : ℕ) (file₁ : Bytes) (m₁ : Saves P N o₁ disk g n₁ file₁) (bs₁ bs bs' rcap : ℕ) (hbs₁ : bs₁ ≤ rcap) (hbs : bs ≤ rcap) (hbs' : bs' ≤ rcap)
    (hmeta₁ : metadataKey ∉ m₁.keys) (hwf₁ : ∀ p ∈ m₁.stores, StreamOut.Spec.Tensor.WF p.2) (hrc₁ : ∀ p ∈ m₁.stores, p.2.bytes.length ≤ rcap)
    (halias : ∀ k ∈ m₁.keys, ∀ a ∈ (cfg.aliases.get? k).getD [], a ∉ m₁.keys)
    (hres : ∀ g', withInputs P.env o₁ g = .ok g' → ∀ k ∈ m₁.keys, ∀ v, eval (world P (stored disk)) g' k = .ok v → ∃ t, v = .tensor t ∧ Kept move o₁ o t)
    (path : Str) (hfg : Models (fun p _ => p ≠ path) g) (hfr : Models (fun p _ => p ≠ path) ((Plan.merge method args kwargs).fill fun _ => g))
    (hfb : ∀ b b', o.fallback = some b → valueToNode P.env b = .ok b' → Models (fun p _ => p ≠ path) b') :
    ∃ s₁, StreamIn.open_ file₁ bs₁ rcap = .ok s₁ ∧
      ∀ (n n' : ℕ) (file file' : Bytes) (sp : Option Str) (m : Saves P N o disk ((Plan.merge method args kwargs).fill fun _ => g) n file)
        (m' : Saves P N o (after disk path s₁) ((Plan.merge method args kwargs).fill fun _ => .model path (some c) sp) n' file'),
        metadataKey ∉ m.keys → (∀ p ∈ m.stores, StreamOut.Spec.Tensor.WF p.2) → (∀ p ∈ m'.stores, StreamOut.Spec.Tensor.WF p.2) →
        (∀ p ∈ m.stores, p.2.bytes.length ≤ rcap) → (∀ p ∈ m'.stores, p.2.bytes.length ≤ rcap) →
        ∃ s0 s0', StreamIn.open_ file bs rcap = .ok s0 ∧ StreamIn.open_ file' bs' rcap = .ok s0' ∧
          (∀ k, k ∈ StreamIn.keys s0 ∨ k ∈ StreamIn.keys s0' → k ∈ m.keys) ∧
          ∀ k ∈ m₁.keys, Calm (world P (stored disk)) k m.merged →
            (k ∈ StreamIn.keys s0 ↔ k ∈ StreamIn.keys s0') ∧
            (k ∈ StreamIn.keys s0 → ∀ history history' : List Key, ∃ s1 v s1' v',
              StreamIn.getItem (StreamIn.run s0 (history.map .load)).st k = (s1, .ok v) ∧
              StreamIn.getItem (StreamIn.run s0' (history'.map .load)).st k = (s1', .ok v') ∧
              v.dtype = v'.dtype ∧ v.shape = v'.shape ∧ s1.read v = s1'.read v') := by
  have hg : g.isNode = true := by cases g <;> first | rfl | exact absurd hpr (by simp [Proper])
  obtain ⟨s₁, w1, w2, w3, w4⟩ := saved hop m₁ hmeta₁ hwf₁ bs₁ rcap hrc₁
  refine ⟨s₁, w1, ?_⟩
  intro n n' file file' sp m m' hmeta hwf hwf' hrc hrc'
  have hop' : Opened (after disk path s₁) := opened_after hop hbs₁ w1 w2 w3
  have hW := builtin hP (stored disk)
  have hW' := builtin hP (stored (after disk path s₁))
  have hpath : after disk path s₁ path = some s₁ := by unfold after; rw [if_pos rfl]
  have hplace := fun {v w : Val F} hv hw {k : Str} hk => in_place hP ho₁ ho hd ht hfb₁ hop hg hpr hkn hcfg hc m₁ hfg (s0 := s₁)
    (fun k => w4 _ path hpath k) halias hres (sp := sp) (v := v) (w := w) hv hw (k := k) hk
  -- the recipes that are merged
  have hq' : Here (world P (stored (after disk path s₁))) (.merge method args kwargs) := here_world (W := world P (stored disk)) (W' := world P (stored (after disk path s₁))) rfl _ hq
  obtain ⟨Q, a1, a2, a3, a4⟩ := prepare_swap (q := .merge method args kwargs) hW trivial hq m.prepared
  obtain ⟨Q', b1, b2, b3, b4⟩ := prepare_swap (q := .merge method args kwargs) hW' trivial hq' m'.prepared
  obtain rfl : Q = Q' := Except.ok.inj (a1.symm.trans b1)
  have hin : ∀ (f : ℕ → Val F) i, (o.castsInputs = true → castInputs P.env o.mergeDevice o.mergeDtype (f i) = .ok (prepF P.env o f i)) →
      withInputs P.env o (f i) = .ok (prepF P.env o f i) := by
    intro f i h
    unfold withInputs
    split_ifs with hx
    · exact h hx
    · unfold prepF; rw [if_neg hx]
  have hsame : ∀ k ∈ m₁.keys, Q.Every fun i => Same (world P (stored (after disk path s₁))) k (prepF P.env o (fun _ => .model path (some c) sp) i)
      (prepF P.env o (fun _ => g) i) := by
    intro k hk
    refine every_mono ?_ _ (every_and _ a4 b4)
    rintro i ⟨h1, h2⟩
    exact hplace (hin (fun _ => .model path (some c) sp) i h2) (hin (fun _ => g) i h1) hk
  have hfm := fresh_merged hP m (by rw [Plan.fill]) hfr hfb
  have hread := after_read (P := P) (disk := disk) (s0 := s₁) hfm
  have hkeys : m'.keys = m.keys := by
    have he := config_swap (E := P.env) (f := prepF P.env o fun _ => .model path (some c) sp) (g := prepF P.env o fun _ => g) Q (by
      refine every_mono ?_ _ (every_and _ a4 b4)
      rintro i ⟨h1, h2⟩
      exact in_place_config hP hkn hcfg (hin (fun _ => .model path (some c) sp) i h2) (hin (fun _ => g) i h1))
    have he : m'.merged.config P.env = m.merged.config P.env := by rw [a3, b3]; exact he
    obtain ⟨_, cfg, p2, p3⟩ := plan_ok m.planned
    obtain ⟨_, cfg', p2', p3'⟩ := plan_ok m'.planned
    unfold configOf at p2 p2'
    have e1 : (world P (stored disk)).env = P.env := rfl
    have e2 : (world P (stored (after disk path s₁))).env = P.env := rfl
    rw [e2, he] at p2'
    rw [e1] at p2
    have : some cfg' = some cfg := Except.ok.inj (p2'.symm.trans p2)
    rw [p3, p3', Option.some.inj this]
  obtain ⟨s0, x1, x2, _, x4⟩ := Threads.C98_file P m.merged disk hop m.keys (keys_nodup m) hmeta n m.stores m.ran m.declared m.text m.minBuf m.cap m.actions m.writer
    file m.wrote m.quiet m.assigned m.complete m.closed (fun k t hkk he => hwf _ (mem_stores hop m hkk he)) bs rcap hbs
    (fun k t hkk he => hrc _ (mem_stores hop m hkk he))
  obtain ⟨s0', y1, y2, _, y4⟩ := Threads.C98_file P m'.merged (after disk path s₁) hop' m'.keys (keys_nodup m') (by rw [hkeys]; exact hmeta) n' m'.stores m'.ran
    m'.declared m'.text m'.minBuf m'.cap m'.actions m'.writer file' m'.wrote m'.quiet m'.assigned m'.complete m'.closed
    (fun k t hkk he => hwf' _ (mem_stores hop' m' hkk he)) bs' rcap hbs' (fun k t hkk he => hrc' _ (mem_stores hop' m' hkk he))
  refine ⟨s0, s0', x1, y1, ?_, ?_⟩
  · rintro k (h | h)
    · exact ((x2 k).1 h).1
    · rw [← hkeys]; exact ((y2 k).1 h).1
  intro k hk hcalm
  have he : eval (world P (stored (after disk path s₁))) m'.merged k = eval (world P (stored disk)) m.merged k := by
    rw [hread, a3, b3]
    refine eval_swap Q b2 (hsame k hk) ?_
    rw [← a3]
    exact calm_read hfm hcalm
  refine ⟨by rw [x2, y2, hkeys, he], ?_⟩
  intro hkk history history'
  obtain ⟨k1, t, k2⟩ := (x2 k).1 hkk
  obtain ⟨s1, v, d1, d2, d3, d4⟩ := x4 k t k1 k2 history
  obtain ⟨s1', v', e1, e2, e3, e4⟩ := y4 k t (by rw [hkeys]; exact k1) (by rw [he]; exact k2) history'
  exact ⟨s1, v, s1', v', d1, e1, by rw [d2, e2], by rw [d3, e3], by rw [d4, e4]⟩

/-- Without a fallback model, the keys that are merged are those of the config of the recipe. -/
theorem keys_of {P : PWorld F Tensor} {move} (hP : Registered P move) {N : Serialize.Num F} {o : Options F} (hfb : o.fallback = none) {opened : Str → Option StreamIn.State}
    {r : Val F} (hpr : Proper r) (hkn : Known r) {c : Str} (hcfg : r.config P.env = .ok (some c)) {cfg : ModelConfig} (hc : P.configs c = some cfg)
    {n : ℕ} {file : Bytes} (m : Saves P N o opened r n file) : m.keys = Merge.targetKeys cfg o.omitEma := by
  have hW := builtin hP (stored opened)
  have hnode : ∀ {v : Val F}, Proper v → v.isNode = true := fun {v} h => by cases v <;> first | rfl | exact absurd h (by simp [Proper])
  obtain ⟨r1, r2, h0, h1, h2, h3⟩ := prepare_ok m.prepared
  rw [Serialize.valueToNode_node (hnode hpr)] at h0
  unfold withFallback at h1
  rw [hfb, ← Except.ok.inj h0] at h1
  rw [← Except.ok.inj h1] at h2
  have hn2 : Proper r2 ∧ r2.config P.env = .ok (some c) := by
    unfold withInputs at h2
    split_ifs at h2
    · exact ⟨Assembly.proper_cast hW _ _ hpr h2, (castInputs_config hW _ _ hkn h2).1.trans hcfg⟩
    · cases h2; exact ⟨hpr, hcfg⟩
  have hm : m.merged.config P.env = .ok (some c) := by
    unfold withOutput at h3
    split_ifs at h3
    · rw [toNode_shape hW (hnode hn2.1) h3]
      exact (config_castNode hW _ _ _).trans hn2.2
    · rw [← Except.ok.inj h3]; exact hn2.2
  obtain ⟨_, cfg', p2, p3⟩ := plan_ok m.planned
  unfold configOf at p2
  have hm : m.merged.config (world P (stored opened)).env = .ok (some c) := hm
  rw [hm] at p2
  have : P.configs c = some cfg' := Except.ok.inj p2
  rw [hc] at this
  rw [p3, ← Option.some.inj this]

section
open Readme (Torch defaults)

/-- The options to save in the dtype of the result: `merge(g, output_dtype=None)` -/
def asIs : Options F := { (defaults (F := F)) with outputDtype := none }

theorem sane_asIs (T : Torch) : Sane (Ieee.move T.other) (asIs (F := F)) :=
  ⟨(sane_defaults (F := F) T).mergeDtype, (fun _ h => by cases h), (sane_defaults (F := F) T).move⟩

/-- **C122, merging in two steps without rounding.**  A recipe `g` is saved with `merge(g, output_dtype=None)` at a path that is not in use, and all tensors in the file are
float64.  Then every recipe of the same config with `g` in some places, and the recipe with the file in these places, give the same file with all other options as they
are by default: the same keys, each with the same dtype, shape and bytes. -/
theorem C122_float64_partial {T : Torch} (P : PWorld F Tensor) (hP : Registered P (Ieee.move T.other)) (N : Serialize.Num F)
    (disk : Str → Option StreamIn.State) (hop : Opened disk)
    (g : Val F) (hpr : Proper g) (hkn : Known g) (c : Str) (hcfg : g.config P.env = .ok (some c)) (cfg : ModelConfig) (hc : P.configs c = some cfg)
    (halias : ∀ k ∈ Merge.targetKeys cfg true, ∀ a ∈ (cfg.aliases.get? k).getD [], a ∉ Merge.targetKeys cfg true) (hmeta : metadataKey ∉ Merge.targetKeys cfg true)
    (method : Str) (args : List (Plan F)) (kwargs : List (Str × Plan F)) (hq : Here (world P (stored disk)) (.merge method args kwargs))
    (hpq : Proper ((Plan.merge method args kwargs).fill fun _ => g)) (hkq : Known ((Plan.merge method args kwargs).fill fun _ => g)) (hcq : ((Plan.merge method args kwargs).fill fun _ => g).config P.env = .ok (some c))
    (n₁ : ℕ) (file₁ : Bytes) (m₁ : Saves P N asIs disk g n₁ file₁) (bs₁ bs bs' rcap : ℕ) (hbs₁ : bs₁ ≤ rcap) (hbs : bs ≤ rcap) (hbs' : bs' ≤ rcap)
    (hwf₁ : ∀ p ∈ m₁.stores, StreamOut.Spec.Tensor.WF p.2) (hrc₁ : ∀ p ∈ m₁.stores, p.2.bytes.length ≤ rcap) (h64 : ∀ p ∈ m₁.stores, p.2.dtype = .f64)
    (hten : ∀ g', withInputs P.env asIs g = .ok g' → ∀ k ∈ m₁.keys, ∀ v, eval (world P (stored disk)) g' k = .ok v → ∃ t, v = .tensor t)
    (path : Str) (hfg : Models (fun p _ => p ≠ path) g) (hfr : Models (fun p _ => p ≠ path) ((Plan.merge method args kwargs).fill fun _ => g)) :
    ∃ s₁, StreamIn.open_ file₁ bs₁ rcap = .ok s₁ ∧
      ∀ (n n' : ℕ) (file file' : Bytes) (sp : Option Str) (m : Saves P N defaults disk ((Plan.merge method args kwargs).fill fun _ => g) n file)
        (m' : Saves P N defaults (after disk path s₁) ((Plan.merge method args kwargs).fill fun _ => .model path (some c) sp) n' file'),
        (∀ p ∈ m.stores, StreamOut.Spec.Tensor.WF p.2) → (∀ p ∈ m'.stores, StreamOut.Spec.Tensor.WF p.2) →
        (∀ p ∈ m.stores, p.2.bytes.length ≤ rcap) → (∀ p ∈ m'.stores, p.2.bytes.length ≤ rcap) →
        (∀ k ∈ m.keys, Calm (world P (stored disk)) k m.merged) →
        ∃ s0 s0', StreamIn.open_ file bs rcap = .ok s0 ∧ StreamIn.open_ file' bs' rcap = .ok s0' ∧
          ∀ k, (k ∈ StreamIn.keys s0 ↔ k ∈ StreamIn.keys s0') ∧
            (k ∈ StreamIn.keys s0 → ∀ history history' : List Key, ∃ s1 v s1' v',
              StreamIn.getItem (StreamIn.run s0 (history.map .load)).st k = (s1, .ok v) ∧
              StreamIn.getItem (StreamIn.run s0' (history'.map .load)).st k = (s1', .ok v') ∧
              v.dtype = v'.dtype ∧ v.shape = v'.shape ∧ s1.read v = s1'.read v') := by
  have hW := builtin hP (stored disk)
  have hg : g.isNode = true := by cases g <;> first | rfl | exact absurd hpr (by simp [Proper])
  have hk₁ : m₁.keys = Merge.targetKeys cfg true := keys_of hP rfl hpr hkn hcfg hc m₁
  have hmove : ∀ t : Tensor, t.dtype = .f64 → Ieee.move T.other (defaults (F := F)).mergeDevice (defaults (F := F)).mergeDtype t = .ok t := by
    intro t h
    rw [show Ieee.move T.other (defaults (F := F)).mergeDevice (defaults (F := F)).mergeDtype t = _ from Readme.move64 T t]
    unfold Ieee.cast
    rw [if_pos h]
  obtain ⟨s₁, w1, w2⟩ := C122_steps_partial P _ hP N asIs defaults (sane_asIs T) (sane_defaults T) rfl rfl rfl disk hop g hpr hkn c hcfg cfg hc method args kwargs hq n₁ file₁ m₁
    bs₁ bs bs' rcap hbs₁ hbs hbs' (by rw [hk₁]; exact hmeta) hwf₁ hrc₁ (by rw [hk₁]; exact halias)
    (by
      intro g' hg' k hk v hv
      have hgp : Proper g' := by
        unfold withInputs at hg'
        split_ifs at hg'
        · exact Assembly.proper_cast hW _ _ hpr hg'
        · cases hg'; exact hpr
      have hmerged : eval (world P (stored disk)) m₁.merged k = castLeaf P.conv (Ieee.move T.other (asIs (F := F)).outputDevice (asIs (F := F)).outputDtype) (eval (world P (stored disk)) g' k) := by
        obtain ⟨r1, r2, h0, h1, h2, h3⟩ := prepare_ok m₁.prepared
        rw [Serialize.valueToNode_node hg] at h0
        unfold withFallback at h1
        rw [show (asIs (F := F)).fallback = none from rfl, ← Except.ok.inj h0] at h1
        rw [← Except.ok.inj h1, hg'] at h2
        rw [← Except.ok.inj h2] at h3
        unfold withOutput at h3
        rw [if_pos (by rfl)] at h3
        have hn : g'.isNode = true := by cases g' <;> first | rfl | exact absurd hgp (by simp [Proper])
        rw [toNode_shape hW hn h3]
        exact eval_castNode hW hgp (sane_asIs T).outputDtype k
      obtain ⟨t, rfl⟩ := hten g' hg' k hk v hv
      rw [hv, castLeaf_tensor] at hmerged
      have := h64 _ (mem_stores hop m₁ hk (t := t) hmerged)
      exact ⟨t, rfl, fun _ => rfl, fun _ => hmove t this⟩)
    path hfg hfr (fun b b' h => by cases h)
  refine ⟨s₁, w1, ?_⟩
  intro n n' file file' sp m m' h1 h2 h3 h4 hcalm
  have hk : m.keys = Merge.targetKeys cfg true := keys_of hP rfl hpq hkq hcq hc m
  obtain ⟨s0, s0', a1, a2, a0, a3⟩ := w2 n n' file file' sp m m' (by rw [hk]; exact hmeta) h1 h2 h3 h4
  refine ⟨s0, s0', a1, a2, fun k => ?_⟩
  by_cases hkk : k ∈ m.keys
  · exact a3 k (by rw [hk₁, ← hk]; exact hkk) (hcalm k hkk)
  · exact ⟨⟨fun h => absurd (a0 k (.inl h)) hkk, fun h => absurd (a0 k (.inr h)) hkk⟩, fun h => absurd (a0 k (.inl h)) hkk⟩

end

/-! ## An example

`weighted_sum(weighted_sum(f, g, alpha=0.25), g, alpha=0.5)`, for two models of SD1, where `g` lacks a key: in one step, with `weighted_sum(f, g, alpha=0.25)` saved as
float64, and with it saved as float16. -/

namespace Ex
open Readme (nWeighted defaults weightedSource)
open Readme.Ex (T stateOf fresh)
open Blocks.Ex (P kIn kMid kBase keys declared textG headerG scene cfg)

def textH : List Char := "{\"model.diffusion_model.input_blocks.1.a\":{\"dtype\":\"F16\",\"shape\":[2],\"data_offsets\":[0,4]}}".toList
def fileF : Bytes := le64 textG.length ++ asciiBytes textG ++ [0x00, 0x3C, 0x00, 0x42, 0x00, 0x3C]
def fileG : Bytes := le64 textH.length ++ asciiBytes textH ++ [0x01, 0x3C, 0x00, 0x42]
def headerH : Header := [(kIn, .tensor ⟨.f16, [2], 0, 4⟩)]

def disk (p : Str) : Option StreamIn.State :=
  if p = "f".toList then some (stateOf fileF textG.length headerG) else if p = "g".toList then some (stateOf fileG textH.length headerH) else none

theorem readF : StreamIn.readHeader fileF = .ok (textG.length, headerG) := by decide +kernel
theorem readG : StreamIn.readHeader fileG = .ok (textH.length, headerH) := by decide +kernel

theorem disk_ok : Opened disk := by
  intro p s h
  unfold disk at h
  split_ifs at h
  · rw [← Option.some.inj h]
    refine fresh readF fun p hp e he => ?_
    simp only [headerG, List.mem_cons, List.not_mem_nil, or_false] at hp
    rcases hp with rfl | rfl <;> cases he <;> exact ⟨by decide, by decide +kernel, by decide, by decide⟩
  · rw [← Option.some.inj h]
    refine fresh readG fun p hp e he => ?_
    simp only [headerH, List.mem_cons, List.not_mem_nil, or_false] at hp
    rcases hp with rfl <;> cases he <;> exact ⟨by decide, by decide +kernel, by decide, by decide⟩

def model (p : Str) : Val (Option Int) := .model p (some sd1.model) (some weight)
/-- `weighted_sum(f, g, alpha=0.25)` -/
def g : Val (Option Int) := .merge nWeighted [model "f".toList, model "g".toList, number (.float (some 1))] []
/-- `weighted_sum(…, g, alpha=0.5)` -/
def args : List (Plan (Option Int)) := [.hole 0, .fixed (model "g".toList), .fixed (number (.float (some 2)))]
def big (v : Val (Option Int)) : Val (Option Int) := (Plan.merge nWeighted args []).fill fun _ => v

def merged (o : Options (Option Int)) (r : Val (Option Int)) : Val (Option Int) := match prepare P.env o r with | .ok p => p.2 | .error _ => .none
def text (r : Val (Option Int)) : Option Str := match recipeText Serialize.Ex.num r with | .ok t => t | .error _ => none
def actions (stores : List (Str × Tensor)) : List StreamOut.Action := stores.flatMap fun p => [.begin 0 p.1 p.2, .locked 0, .finish 0]
def writer (r : Val (Option Int)) (stores : List (Str × Tensor)) : StreamOut.State :=
  (StreamOut.run (StreamOut.init declared (text r) 2 10000) (actions stores)).getD (StreamOut.init declared (text r) 2 10000)
def file (r : Val (Option Int)) (stores : List (Str × Tensor)) : Bytes := match StreamOut.close (writer r stores) with | .ok f => f | .error _ => []

/-- All steps of a call of `merge` went well. -/
structure Went (o : Options (Option Int)) (opened : Str → Option StreamIn.State) (r : Val (Option Int)) (stores : List (Str × Tensor)) : Prop where
  prepared : prepare P.env o r = .ok (r, merged o r)
  planned : plan (world P (stored opened)) o (merged o r) = .ok keys
  ran : Threads.sequential (fileProgram P (merged o r)) opened keys = (stores, .returned)
  serialized : recipeText Serialize.Ex.num r = .ok (text r)
  wrote : StreamOut.run (StreamOut.init declared (text r) 2 10000) (actions stores) = some (writer r stores)
  quiet : StreamOut.Spec.Quiescent (writer r stores)
  assigned : (StreamOut.Spec.stored (actions stores)).Perm stores
  complete : StreamOut.Spec.Complete declared (text r) 2 10000 (StreamOut.Spec.stored (actions stores))
  closed : StreamOut.close (writer r stores) = .ok (file r stores)

def Went.saves {o : Options (Option Int)} {opened : Str → Option StreamIn.State} {r : Val (Option Int)} {stores : List (Str × Tensor)} (h : Went o opened r stores) :
    Saves P Serialize.Ex.num o opened r 0 (file r stores) :=
  { h with original := r, merged := merged o r, keys := keys, stores := stores, text := text r, declared := declared, minBuf := 2, cap := 10000,
           actions := actions stores, writer := writer r stores }

/-- `1 + 2 ^ -12` and `3` -/
def st64 : List (Str × Tensor) := [(kIn, ⟨.f64, [2], [0, 0, 0, 0, 0, 1, 0xF0, 0x3F, 0, 0, 0, 0, 0, 0, 8, 0x40]⟩)]
def st16 : List (Str × Tensor) := [(kIn, ⟨.f16, [2], [0x00, 0x3C, 0x00, 0x42]⟩)]
def stBig : List (Str × Tensor) := [(kIn, ⟨.f16, [2], [0x01, 0x3C, 0x00, 0x42]⟩)]

def opens (f : Bytes) : StreamIn.State := match StreamIn.open_ f 2 1000 with | .ok s => s | .error _ => stateOf [] 0 []

def path : Str := "h".toList
def disk64 : Str → Option StreamIn.State := after disk path (opens (file g st64))
def disk16 : Str → Option StreamIn.State := after disk path (opens (file g st16))

theorem opens_ok {f : Bytes} (h : (StreamIn.open_ f 2 1000).isOk = true) : StreamIn.open_ f 2 1000 = .ok (opens f) := by
  unfold opens
  cases hh : StreamIn.open_ f 2 1000 with
  | ok s => rfl
  | error e => rw [hh] at h; cases h

theorem open64 : StreamIn.open_ (file g st64) 2 1000 = .ok (opens (file g st64)) := opens_ok (by decide +kernel)
theorem open16 : StreamIn.open_ (file g st16) 2 1000 = .ok (opens (file g st16)) := opens_ok (by decide +kernel)

theorem went64 : Went asIs disk g st64 :=
  ⟨by decide +kernel, by decide +kernel, by decide +kernel, by decide +kernel, by decide +kernel, by unfold StreamOut.Spec.Quiescent; decide +kernel, by decide +kernel,
    ⟨by decide +kernel, by decide +kernel, by decide +kernel, by decide +kernel⟩, by decide +kernel⟩
theorem went16 : Went defaults disk g st16 :=
  ⟨by decide +kernel, by decide +kernel, by decide +kernel, by decide +kernel, by decide +kernel, by unfold StreamOut.Spec.Quiescent; decide +kernel, by decide +kernel,
    ⟨by decide +kernel, by decide +kernel, by decide +kernel, by decide +kernel⟩, by decide +kernel⟩
theorem wentBig : Went defaults disk (big g) stBig :=
  ⟨by decide +kernel, by decide +kernel, by decide +kernel, by decide +kernel, by decide +kernel, by unfold StreamOut.Spec.Quiescent; decide +kernel, by decide +kernel,
    ⟨by decide +kernel, by decide +kernel, by decide +kernel, by decide +kernel⟩, by decide +kernel⟩
theorem wentBig64 : Went defaults disk64 (big (model path)) stBig :=
  ⟨by decide +kernel, by decide +kernel, by decide +kernel, by decide +kernel, by decide +kernel, by unfold StreamOut.Spec.Quiescent; decide +kernel, by decide +kernel,
    ⟨by decide +kernel, by decide +kernel, by decide +kernel, by decide +kernel⟩, by decide +kernel⟩
theorem wentBig16 : Went defaults disk16 (big (model path)) st16 :=
  ⟨by decide +kernel, by decide +kernel, by decide +kernel, by decide +kernel, by decide +kernel, by unfold StreamOut.Spec.Quiescent; decide +kernel, by decide +kernel,
    ⟨by decide +kernel, by decide +kernel, by decide +kernel, by decide +kernel⟩, by decide +kernel⟩

theorem registered : Registered P (Ieee.move T.other) := scene.registered

theorem here (opened : Str → Option StreamIn.State) : Here (world P (stored opened)) (.merge nWeighted args []) := by
  have himpl : (world P (stored opened)).impl nWeighted = impl (weightedSource T) := rfl
  simp only [Here, args, HereL, HereK, and_true, himpl]
  exact local_weighted T

theorem calmBig : ∀ k ∈ keys, calmB (world P (stored disk)) k (merged defaults (big g)) = true := by decide +kernel

/-- What was merged is a tensor, for each key. -/
def tensorB (r : Res (Option Int) Tensor) : Bool := match r with | .ok (.tensor _) => true | .ok _ => false | .error _ => true

theorem tensor_of {r : Res (Option Int) Tensor} (h : tensorB r = true) (v : RVal (Option Int) Tensor) (hv : r = .ok v) : ∃ t, v = .tensor t := by
  subst hv
  cases v <;> first | exact ⟨_, rfl⟩ | cases h

theorem wf {st : List (Str × Tensor)} (h : st = st64 ∨ st = st16 ∨ st = stBig) : ∀ p ∈ st, StreamOut.Spec.Tensor.WF p.2 := by
  rcases h with rfl | rfl | rfl <;> simp [st64, st16, stBig, StreamOut.Spec.Tensor.WF, numel, Safetensors.width]

/-- C122_float64 applies. -/
example : ∃ s0 s0', StreamIn.open_ (file (big g) stBig) 2 1000 = .ok s0 ∧ StreamIn.open_ (file (big (model path)) stBig) 2 1000 = .ok s0' ∧
    kIn ∈ StreamIn.keys s0 ∧ (kIn ∈ StreamIn.keys s0 ↔ kIn ∈ StreamIn.keys s0') := by
  obtain ⟨s₁, h1, h2⟩ := C122_float64_partial P registered Serialize.Ex.num disk disk_ok g (proper_of (by decide +kernel))
    (by simp [g, model, number, Known, KnownL, KnownK]) sd1.model (by decide +kernel) cfg rfl (by decide +kernel) (by decide +kernel) nWeighted args [] (here disk)
    (proper_of (by decide +kernel)) (by simp [Plan.fill, fillL, fillK, args, g, model, number, Known, KnownL, KnownK]) (by decide +kernel) 0 _ went64.saves 2 2 2 1000 (by decide) (by decide)
    (by decide) (wf (.inl rfl)) (by show ∀ p ∈ st64, _; decide +kernel) (by show ∀ p ∈ st64, _; decide +kernel)
    (by
      have e : withInputs P.env asIs g = .ok (match withInputs P.env asIs g with | .ok g' => g' | .error _ => .none) := by decide +kernel
      intro g' hg' k hk v hv
      rw [e] at hg'
      cases hg'
      have h : ∀ k ∈ keys, tensorB (eval (world P (stored disk)) (match withInputs P.env asIs g with | .ok g' => g' | .error _ => .none) k) = true := by decide +kernel
      exact tensor_of (h k hk) v hv)
    path (by simp [g, model, number, Models, ModelsL, ModelsK, path])
    (by simp [Plan.fill, fillL, fillK, args, g, model, number, Models, ModelsL, ModelsK, path])
  obtain rfl : opens (file g st64) = s₁ := Except.ok.inj (open64.symm.trans h1)
  obtain ⟨s0, s0', a1, a2, a3⟩ := h2 0 0 _ _ (some weight) wentBig.saves wentBig64.saves (wf (.inr (.inr rfl))) (wf (.inr (.inr rfl)))
    (by show ∀ p ∈ stBig, _; decide +kernel) (by show ∀ p ∈ stBig, _; decide +kernel) (fun k hk => calm_of (calmBig k hk))
  refine ⟨s0, s0', a1, a2, ?_, (a3 kIn).1⟩
  have h : (StreamIn.open_ (file (big g) stBig) 2 1000).map StreamIn.keys = .ok [kIn] := by decide +kernel
  rw [a1] at h
  rw [(Except.ok.inj h : StreamIn.keys s0 = _)]
  simp

/-- **C122 needs that the first step does not round.**  It is false that merging in two steps, both with the options as they are by default, gives the tensors that merging
in one step gives: the first file is float16, and the rounding is seen in the last file. -/
theorem _root_.Verif.Steps.C122_rounded_false :
    ¬ ∀ (P : PWorld (Option Int) Tensor) (_ : Registered P (Ieee.move T.other)) (N : Serialize.Num (Option Int)) (disk : Str → Option StreamIn.State) (_ : Opened disk)
      (g : Val (Option Int)) (_ : Proper g) (_ : Known g) (c : Str) (_ : g.config P.env = .ok (some c)) (method : Str) (args : List (Plan (Option Int)))
      (kwargs : List (Str × Plan (Option Int))) (_ : Here (world P (stored disk)) (.merge method args kwargs)) (file₁ : Bytes) (_ : Saves P N defaults disk g 0 file₁)
      (path : Str) (_ : Models (fun p _ => p ≠ path) ((Plan.merge method args kwargs).fill fun _ => g)) (s₁ : StreamIn.State) (_ : StreamIn.open_ file₁ 2 1000 = .ok s₁)
      (file file' : Bytes) (sp : Option Str) (m : Saves P N defaults disk ((Plan.merge method args kwargs).fill fun _ => g) 0 file)
      (_ : Saves P N defaults (after disk path s₁) ((Plan.merge method args kwargs).fill fun _ => .model path (some c) sp) 0 file') (s0 s0' : StreamIn.State)
      (_ : StreamIn.open_ file 2 1000 = .ok s0) (_ : StreamIn.open_ file' 2 1000 = .ok s0') (k : Str) (_ : Calm (world P (stored disk)) k m.merged)
      (s1 s1' : StreamIn.State) (v v' : StreamIn.View), StreamIn.getItem s0 k = (s1, .ok v) → StreamIn.getItem s0' k = (s1', .ok v') → s1.read v = s1'.read v' := by
  intro h
  have o1 : StreamIn.open_ (file (big g) stBig) 2 1000 = .ok (opens (file (big g) stBig)) := opens_ok (by decide +kernel)
  have o2 : StreamIn.open_ (file (big (model path)) st16) 2 1000 = .ok (opens (file (big (model path)) st16)) := opens_ok (by decide +kernel)
  have hr : ∀ (s : StreamIn.State) (r : Bytes), (match StreamIn.getItem s kIn with | (s1, .ok v) => some (s1.read v) | _ => none) = some r →
      ∃ s1 v, StreamIn.getItem s kIn = (s1, .ok v) ∧ s1.read v = r := by
    intro s r hh
    rcases hg : StreamIn.getItem s kIn with ⟨s1, x⟩
    rw [hg] at hh
    cases x with
    | ok v => exact ⟨s1, v, rfl, Option.some.inj hh⟩
    | error e => cases hh
  obtain ⟨s1, v, a1, a2⟩ := hr (opens (file (big g) stBig)) [0x01, 0x3C, 0x00, 0x42] (by decide +kernel)
  obtain ⟨s1', v', b1, b2⟩ := hr (opens (file (big (model path)) st16)) [0x00, 0x3C, 0x00, 0x42] (by decide +kernel)
  have := h P registered Serialize.Ex.num disk disk_ok g (proper_of (by decide +kernel)) (by simp [g, model, number, Known, KnownL, KnownK]) sd1.model (by decide +kernel)
    nWeighted args [] (here disk) _ went16.saves path (by simp [Plan.fill, fillL, fillK, args, g, model, number, Models, ModelsL, ModelsK, path]) _ open16 _ _ (some weight)
    wentBig.saves wentBig16.saves _ _ o1 o2 kIn (calm_of (calmBig kIn (by simp [keys]))) s1 s1' v v' a1 b1
  rw [a2, b2] at this
  revert this
  decide

end Ex

end Verif.Steps
