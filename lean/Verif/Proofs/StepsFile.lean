import Verif.Proofs.Steps
import Verif.Proofs.Assembly

/-!
# What a merged file holds when it is an input of another merge
-/
namespace Verif.Steps
open Method Recipe Config Eval Eval.Spec Program Program.Spec Whole Blocks Blocks.Spec Spec
open Threads (fileProgram)
open Threads.Spec (Runs Opened stored)
open StreamOut (Tensor)
variable {F : Type}

theorem stored_iff {P : PWorld F Tensor} {N : Serialize.Num F} {o : Options F} {opened : Str → Option StreamIn.State} (hop : Opened opened)
    {recipe : Val F} {n : ℕ} {file : Bytes} (m : Saves P N o opened recipe n file) (k : Str) (t : Tensor) :
    (k, t) ∈ StreamOut.Spec.stored m.actions ↔ k ∈ m.keys ∧ eval (world P (stored opened)) m.merged k = .ok (.tensor t) := by
  rw [m.assigned.mem_iff]
  refine ⟨fun h => ?_, fun h => mem_stores hop m h.1 h.2⟩
  obtain ⟨fin, can, q1, q2, q3, _⟩ := Merge.runs_facts (runs_of hop m)
  rw [(q3 rfl).1, List.append_nil] at q1
  rw [q2] at h
  obtain ⟨k', hk', he⟩ := List.mem_filterMap.1 h
  unfold Merge.storeOf at he
  cases ht : (Merge.track (Merge.fileJob (eval (world P (stored opened)) m.merged) k')).1 with
  | none => rw [ht] at he; cases he
  | some v =>
    rw [ht] at he
    simp only [Option.map_some, Option.some.injEq, Prod.mk.injEq] at he
    obtain ⟨rfl, rfl⟩ := he
    refine ⟨q1.mem_iff.1 hk', ?_⟩
    have := Merge.track_fst_iff.1 ht
    unfold Merge.fileJob at this
    split at this <;> simp_all

theorem stored_nodup {P : PWorld F Tensor} {N : Serialize.Num F} {o : Options F} {opened : Str → Option StreamIn.State} (hop : Opened opened)
    {recipe : Val F} {n : ℕ} {file : Bytes} (m : Saves P N o opened recipe n file) : ((StreamOut.Spec.stored m.actions).map (·.1)).Nodup := by
  obtain ⟨fin, can, q1, q2, q3, _⟩ := Merge.runs_facts (runs_of hop m)
  rw [(q3 rfl).1, List.append_nil] at q1
  rw [(m.assigned.map _).nodup_iff, q2]
  have := Merge.stores_keys (Merge.fileJob (eval (world P (stored opened)) m.merged)) fin
  unfold Dict.keys at this
  rw [this]
  obtain ⟨_, cfg, _, p3⟩ := plan_ok m.planned
  have hnd : m.keys.Nodup := by rw [p3]; exact Merge.targetKeys_nodup _ _
  exact (q1.nodup_iff.2 hnd).filter _

/-- A merged file opens, is valid, and holds what was computed. -/
theorem saved {P : PWorld F Tensor} {N : Serialize.Num F} {o : Options F} {opened : Str → Option StreamIn.State} (hop : Opened opened)
    {recipe : Val F} {n : ℕ} {file : Bytes} (m : Saves P N o opened recipe n file) (hmeta : metadataKey ∉ m.keys)
    (hwf : ∀ p ∈ m.stores, StreamOut.Spec.Tensor.WF p.2) (bs rcap : ℕ) (hrc : ∀ p ∈ m.stores, p.2.bytes.length ≤ rcap) :
    ∃ s0, StreamIn.open_ file bs rcap = .ok s0 ∧ StreamIn.Spec.ValidHeader file s0.headerSize s0.header ∧
      (∀ k e, s0.header.get? k = some (.tensor e) → e.stop - e.start ≤ rcap) ∧
      ∀ (opened' : Str → Option StreamIn.State) (path : Str), opened' path = some s0 → ∀ k,
        (∀ t, k ∈ m.keys → eval (world P (stored opened)) m.merged k = .ok (.tensor t) → stored opened' path k = .ok t) ∧
        ((∀ t, k ∈ m.keys → eval (world P (stored opened)) m.merged k ≠ .ok (.tensor t)) → stored opened' path k = .error .stateDictKey) := by
  obtain ⟨Lg, h, hb, FF⟩ := StreamOut.file_facts m.wrote m.quiet m.complete m.closed
  obtain ⟨s0, ho, hsz, hhd⟩ := FF.opens bs rcap
  have hp : s0.header.Perm h := by rw [hhd]; exact StreamIn.sortBy_perm _ _
  have hnd0 : s0.header.keys.Nodup := (hp.map _).nodup_iff.2 FF.nodup
  have hget : ∀ k v, s0.header.get? k = some v ↔ h.get? k = some v := by
    intro k v
    rw [Dict.get?_eq_some_iff hnd0, Dict.get?_eq_some_iff FF.nodup, hp.mem_iff]
  have hfile : s0.file = file := by
    unfold StreamIn.open_ at ho
    cases hr : StreamIn.readHeader file with
    | error e => rw [hr] at ho; cases ho
    | ok x => rw [hr] at ho; cases ho; rfl
  refine ⟨s0, ho, ?_, ?_, ?_⟩
  · intro k e hk
    rw [hget] at hk
    obtain ⟨t, h1, h2, h3, h4, h5, h6, _⟩ := FF.stored_of_entry hk
    refine ⟨h4, by rw [hsz]; exact h6, ?_⟩
    rw [h5, h2, h3]; exact hwf _ (m.assigned.mem_iff.1 h1)
  · intro k e hk
    rw [hget] at hk
    obtain ⟨t, h1, _, _, _, h5, _, _⟩ := FF.stored_of_entry hk
    rw [h5]; exact hrc _ (m.assigned.mem_iff.1 h1)
  · intro opened' path hpath k
    constructor
    · intro t hk he
      have hin := (stored_iff hop m k t).2 ⟨hk, he⟩
      have hne : k ≠ metadataKey := fun h => hmeta (h ▸ hk)
      obtain ⟨e, h1 | ⟨h1, _⟩⟩ := FF.get_stored (k := k) (List.mem_map.2 ⟨_, hin, rfl⟩)
      · obtain ⟨t', h2, h3, h4, _, _, _, h7⟩ := FF.stored_of_entry h1
        have ht : t = t' := by
          have hd : Dict.keys (StreamOut.Spec.stored m.actions) |>.Nodup := stored_nodup hop m
          exact Option.some.inj ((Dict.get?_of_mem hd hin).symm.trans (Dict.get?_of_mem hd h2))
        subst ht
        rw [Threads.stored_eq hpath ((hget _ _).2 h1) hne, Overwrite.Spec.tensorAt, hfile, hsz, h7, h3, h4]
      · exact absurd h1 hne
    · intro hno
      unfold stored
      simp only [hpath]
      split_ifs with hm
      · rfl
      · cases hk : s0.header.get? k with
        | none => rfl
        | some v =>
          cases v with
          | metadata _ => rfl
          | tensor e =>
            rw [hget] at hk
            obtain ⟨t, h1, _⟩ := FF.stored_of_entry hk
            obtain ⟨h2, h3⟩ := (stored_iff hop m k t).1 h1
            exact absurd h3 (hno t h2)

theorem castLeaf_tensor {C : Conv F Tensor} {move : Tensor → Except Err Tensor} (t : Tensor) : castLeaf C move (.ok (.tensor t)) = (move t).map RVal.tensor := by
  unfold castLeaf
  simp [castTo, RVal.isInstance]

/-- The disk after the first step -/
def after (disk : Str → Option StreamIn.State) (path : Str) (s0 : StreamIn.State) : Str → Option StreamIn.State :=
  fun p => if p = path then some s0 else disk p

theorem after_read {P : PWorld F Tensor} {disk : Str → Option StreamIn.State} {path : Str} {s0 : StreamIn.State} {v : Val F} (h : Models (fun p _ => p ≠ path) v) :
    eval (world P (stored disk)) v = eval (world P (stored (after disk path s0))) v := by
  refine eval_read (world P (stored disk)) (stored (after disk path s0)) v (models_mono ?_ v h)
  intro p c hp
  funext k
  show stored disk p k = stored (after disk path s0) p k
  unfold stored after
  rw [if_neg hp]

theorem visitKeys_none {get : Str → Except Err Tensor} : ∀ {l : List Str}, (∀ a ∈ l, get a = .error .stateDictKey) → visitKeys get l = .error .stateDictKey
  | [], _ => rfl
  | [a], h => by
    rw [visitKeys, h a (by simp)]
    rfl
  | a :: b :: l, h => by
    rw [visitKeys, h a (by simp)]
    · exact visitKeys_none (l := b :: l) fun x hx => h x (by simp [List.mem_cons.1 hx])
    · simp

theorem visitKeys_first {get : Str → Except Err Tensor} {k : Str} {t : Tensor} (h : get k = .ok t) : ∀ l, visitKeys get (k :: l) = .ok t
  | [] => by rw [visitKeys, h]
  | a :: l => by
    rw [visitKeys, h]
    simp

/-- The file in place of the recipe that it was made of -/
theorem in_place {P : PWorld F Tensor} {move : Option Str → Option Str → Tensor → Except Err Tensor} (hP : Registered P move) {N : Serialize.Num F} {o₁ o : Options F}
    (ho₁ : Sane move o₁) (ho : Sane move o) (hd : o₁.mergeDevice = o.mergeDevice) (ht : o₁.mergeDtype = o.mergeDtype) (hfb : o₁.fallback = none)
    {disk : Str → Option StreamIn.State} (hop : Opened disk) {g : Val F} (hg : g.isNode = true) (hpr : Proper g) (hkn : Known g) {c : Str}
    (hcfg : g.config P.env = .ok (some c)) {cfg : ModelConfig} (hc : P.configs c = some cfg) {n₁ : ℕ} {file₁ : Bytes} (m₁ : Saves P N o₁ disk g n₁ file₁)
    {path : Str} (hfresh : Models (fun p _ => p ≠ path) g) {s0 : StreamIn.State}
    (hs : ∀ k, (∀ t, k ∈ m₁.keys → eval (world P (stored disk)) m₁.merged k = .ok (.tensor t) → stored (after disk path s0) path k = .ok t) ∧
        ((∀ t, k ∈ m₁.keys → eval (world P (stored disk)) m₁.merged k ≠ .ok (.tensor t)) → stored (after disk path s0) path k = .error .stateDictKey))
    (halias : ∀ k ∈ m₁.keys, ∀ a ∈ (cfg.aliases.get? k).getD [], a ∉ m₁.keys)
    (hres : ∀ g', withInputs P.env o₁ g = .ok g' → ∀ k ∈ m₁.keys, ∀ v, eval (world P (stored disk)) g' k = .ok v → ∃ t, v = .tensor t ∧ Kept move o₁ o t)
    {sp : Option Str} {v w : Val F} (hv : withInputs P.env o (.model path (some c) sp) = .ok v) (hw : withInputs P.env o g = .ok w) {k : Str} (hk : k ∈ m₁.keys) :
    Same (world P (stored (after disk path s0))) k v w := by
  have hW := builtin hP (stored disk)
  have hW' := builtin hP (stored (after disk path s0))
  have hcasts : o₁.castsInputs = o.castsInputs := by unfold Options.castsInputs; rw [hd, ht]
  have hw₁ : withInputs P.env o₁ g = .ok w := by rw [← hw]; unfold withInputs; rw [hcasts, hd, ht]
  -- what is known of `w`
  have hwp : Proper w ∧ w.config P.env = .ok (some c) ∧ Models (fun p _ => p ≠ path) w := by
    unfold withInputs at hw
    split_ifs at hw
    · exact ⟨Assembly.proper_cast hW _ _ hpr hw, (castInputs_config hW _ _ hkn hw).1.trans hcfg, castInputs_models hW _ _ hfresh hw⟩
    · cases hw; exact ⟨hpr, hcfg, hfresh⟩
  -- the file as a model
  have hmodel : eval (world P (stored (after disk path s0))) (.model path (some c) sp) k =
      match visitKeys (stored (after disk path s0) path) (k :: (cfg.aliases.get? k).getD []) with | .ok t => .ok (.tensor t) | .error e => .error e := by
    rw [eval]
    have : ∀ get : Str → Except Err Tensor, visitSd (world P (stored (after disk path s0))) get (some c) k = visitKeys get (k :: (cfg.aliases.get? k).getD []) := by
      intro get
      unfold visitSd
      have : (world P (stored (after disk path s0))).configs c = some cfg := hc
      simp only [this]
    simp only [this]
    have hr : (world P (stored (after disk path s0))).read path = stored (after disk path s0) path := rfl
    rw [hr]
    cases visitKeys (stored (after disk path s0) path) (k :: (cfg.aliases.get? k).getD []) <;> rfl
  have hvv : v.config P.env = .ok (some c) ∧ Proper v ∧
      eval (world P (stored (after disk path s0))) v k =
        if o.castsInputs = true then castLeaf P.conv (move o.mergeDevice o.mergeDtype) (eval (world P (stored (after disk path s0))) (.model path (some c) sp) k)
        else eval (world P (stored (after disk path s0))) (.model path (some c) sp) k := by
    unfold withInputs at hv
    split_ifs at hv ⊢
    · rw [castInputs] at hv
      rw [toNode_shape hW' rfl hv]
      refine ⟨(config_castNode hW' _ _ _).trans (by rw [Val.config]), proper_castNode (by simp [Proper]) _ _, ?_⟩
      exact eval_castNode hW' (by simp [Proper]) ho.mergeDtype k
    · cases hv; exact ⟨by rw [Val.config], by simp [Proper], rfl⟩
  refine ⟨hvv.1.trans hwp.2.1.symm, hvv.2.1, ?_⟩
  rw [hvv.2.2, ← after_read (s0 := s0) hwp.2.2]
  -- what was merged in the first step
  have hmerged : eval (world P (stored disk)) m₁.merged k =
      if o₁.castsOutput = true then castLeaf P.conv (move o₁.outputDevice o₁.outputDtype) (eval (world P (stored disk)) w k) else eval (world P (stored disk)) w k := by
    obtain ⟨r1, r2, h0, h1, h2, h3⟩ := prepare_ok m₁.prepared
    rw [Serialize.valueToNode_node hg] at h0
    unfold withFallback at h1
    rw [hfb, ← Except.ok.inj h0] at h1
    rw [← Except.ok.inj h1, hw₁] at h2
    rw [← Except.ok.inj h2] at h3
    unfold withOutput at h3
    split_ifs at h3 ⊢
    · have hn : w.isNode = true := by
        cases w <;> first | rfl | exact absurd hwp.1 (by simp [Proper])
      rw [toNode_shape hW hn h3]
      exact eval_castNode hW hwp.1 ho₁.outputDtype k
    · rw [Except.ok.inj h3]
  cases he : eval (world P (stored disk)) w k with
  | ok x =>
    obtain ⟨t, rfl, k1, k2⟩ := hres w hw₁ k hk x he
    have hst : stored (after disk path s0) path k = .ok t := by
      refine (hs k).1 t hk ?_
      rw [hmerged, he]
      split_ifs with h
      · rw [castLeaf_tensor, k1 h]; rfl
      · rfl
    have hmod : eval (world P (stored (after disk path s0))) (.model path (some c) sp) k = .ok (.tensor t) := by
      rw [hmodel, visitKeys_first hst]
    rw [hmod]
    split_ifs with h
    · rw [castLeaf_tensor, k2 h]; rfl
    · rfl
  | error e =>
    have hme : eval (world P (stored disk)) m₁.merged k = .error e := by
      rw [hmerged, he]
      split_ifs <;> rfl
    obtain rfl : e = .stateDictKey := by
      rcases returned_ok hop m₁ hk with h | ⟨t, h⟩
      · rw [hme] at h; exact Except.error.inj h
      · rw [hme] at h; cases h
    have hmod : eval (world P (stored (after disk path s0))) (.model path (some c) sp) k = .error .stateDictKey := by
      rw [hmodel, visitKeys_none]
      intro a ha
      refine (hs a).2 fun t hka hta => ?_
      rcases List.mem_cons.1 ha with rfl | ha
      · rw [hme] at hta; cases hta
      · exact halias k hk a ha hka
    rw [hmod]
    split_ifs <;> rfl

/-- The file is of the config of the recipe that it was made of. -/
theorem in_place_config {P : PWorld F Tensor} {move : Option Str → Option Str → Tensor → Except Err Tensor} (hP : Registered P move) {o : Options F}
    {g : Val F} (hkn : Known g) {c : Str} (hcfg : g.config P.env = .ok (some c)) {path : Str}
    {sp : Option Str} {v w : Val F} (hv : withInputs P.env o (.model path (some c) sp) = .ok v) (hw : withInputs P.env o g = .ok w) : v.config P.env = w.config P.env := by
  have hW := builtin hP (fun _ _ => .error .type)
  have h1 : w.config P.env = .ok (some c) := by
    unfold withInputs at hw
    split_ifs at hw
    · exact (castInputs_config hW _ _ hkn hw).1.trans hcfg
    · cases hw; exact hcfg
  rw [h1]
  unfold withInputs at hv
  split_ifs at hv
  · rw [castInputs] at hv
    rw [toNode_shape hW rfl hv]
    exact (config_castNode hW _ _ _).trans (by rw [Val.config])
  · cases hv; rw [Val.config]

theorem here_world {T : Type} {W W' : World F T} (h : W'.impl = W.impl) (q : Plan F) : Here W q → Here W' q := by
  induction q using plan_induct with
  | hh i => intro _; rw [Here]; trivial
  | hf v => intro _; rw [Here]; trivial
  | hm m args kwargs ha hk =>
    simp only [Here, hereL_iff, hereK_iff]
    rintro ⟨h1, h2, h3⟩
    exact ⟨by rw [h]; exact h1, fun a hm => ha a hm (h2 a hm), fun p hp => hk p hp (h3 p hp)⟩

/-- What is merged for a merge node is a merge node. -/
theorem castInputs_node {E : Env F} {d t : Option Str} {m : Str} {args : List (Val F)} {kwargs : List (Str × Val F)} {r : Val F}
    (h : castInputs E d t (.merge m args kwargs) = .ok r) : r.isNode = true := by
  obtain ⟨_, _, _, _, rfl⟩ := castInputs_merge h
  rfl

end Verif.Steps
