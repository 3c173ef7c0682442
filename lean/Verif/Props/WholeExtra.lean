import Verif.Proofs.WholeExtra
import Verif.Props.Whole
import Verif.Props.Reproducible
import Verif.Proofs.ByName

/-!
# C113
-/
namespace Verif.WholeExtra
open Method Recipe Config Eval Eval.Spec Program Threads Threads.Spec Whole Whole.Spec Spec
open StreamOut (Tensor)
variable {F : Type}

/-- A call of `merge` with `omit_extra_keys=False` that returned. -/
structure Returns (V : Type) (start : Val F → Str → Prog Tensor (Except Err V)) (P : PWorld F Tensor) (I : Extra.Inputs F) (o : Options F)
    (opened : Str → Option StreamIn.State) (recipe : Val F) (n : ℕ) where
  original : Val F
  merged : Val F
  new : Val F
  metadata : Dict Str TensorMeta
  stores : List (Str × V)
  prepared : prepare P.env o recipe = .ok (original, merged)
  planned : planExtra (world P (stored opened)) I o merged = .ok (new, metadata)
  ran : Runs n (start new) opened metadata.keys stores .returned

/-- A call that wrote `file`, as in C99. -/
structure Saves (P : PWorld F Tensor) (N : Serialize.Num F) (I : Extra.Inputs F) (o : Options F) (opened : Str → Option StreamIn.State) (recipe : Val F)
    (n : ℕ) (file : Bytes) extends Returns Tensor (fileProgram P) P I o opened recipe n where
  text : Option Str
  declared : Dict Key StreamOut.Meta
  minBuf : ℕ
  cap : ℕ
  actions : List StreamOut.Action
  writer : StreamOut.State
  serialized : recipeText N original = .ok text
  wrote : StreamOut.run (StreamOut.init declared text minBuf cap) actions = some writer
  quiet : StreamOut.Spec.Quiescent writer
  assigned : (StreamOut.Spec.stored actions).Perm stores
  complete : StreamOut.Spec.Complete declared text minBuf cap (StreamOut.Spec.stored actions)
  closed : StreamOut.close writer = .ok file

/-! ## Proofs -/

/-- What `planExtra` does if it succeeds -/
theorem planExtra_ok {T : Type} {W : World F T} {I : Extra.Inputs F} {o : Options F} {r new : Val F} {md : Dict Str TensorMeta}
    (h : planExtra W I o r = .ok (new, md)) :
    (o.strict = true → r.space W.env = .ok (some weight)) ∧
    ∃ md0, Extra.copyExtra W I r = .ok (new, md0) ∧ dropEma W o.omitEma new md0 = .ok md := by
  unfold planExtra at h
  cases hc : Extra.copyExtra W I r with
  | error e =>
    rw [hc] at h
    dsimp only at h
    split_ifs at h
    · split at h
      · cases h
      · cases h
      · split_ifs at h
  | ok p =>
    obtain ⟨new', md0⟩ := p
    rw [hc] at h
    dsimp only at h
    cases hd : dropEma W o.omitEma new' md0 with
    | error e =>
      rw [hd] at h
      dsimp only at h
      split_ifs at h
      · split at h
        · cases h
        · cases h
        · split_ifs at h
    | ok md' =>
      rw [hd] at h
      dsimp only at h
      split_ifs at h with hs
      · split at h
        · cases h
        · cases h
        · rename_i s hsp
          split_ifs at h with hw
          obtain ⟨rfl, rfl⟩ := Prod.mk.inj (Except.ok.inj h)
          refine ⟨fun _ => ?_, md0, rfl, hd⟩
          rw [hsp]
          by_contra hne
          exact hw fun he => hne (by rw [he])
      · obtain ⟨rfl, rfl⟩ := Prod.mk.inj (Except.ok.inj h)
        exact ⟨fun h' => absurd h' hs, md0, rfl, hd⟩

theorem config_both {T : Type} {W : World F T} {move} (hW : Builtin W move) {a b : Val F} {c : Str} (ha : a.config W.env = .ok (some c))
    (hb : b.config W.env = .ok (some c)) : (Val.merge nFallback [a, b] []).config W.env = .ok (some c) := by
  rw [Val.config, hW.sigFallback]
  simp only [configL, configK, ha, hb]
  show (if c ≠ c then .error .value else .ok (some c) : Except Err (Option Str)) = .ok (some c)
  simp

theorem source_config {E : Env F} {r n : Val F} {c : Str} {space : Option Str} (h : Extra.Spec.Source r c space n) : n.config E = .ok (some c) := by
  cases h <;> rw [Val.config]

/-- The config of a recipe completed by its inputs is that of the recipe. -/
theorem orAll_config {T : Type} {W : World F T} {move} (hW : Builtin W move) {c : Str} : ∀ (ns : List (Val F)) (r r' : Val F), Proper r →
    (∀ n ∈ ns, Proper n ∧ n.config W.env = .ok (some c)) → Extra.orAll W.env r ns = .ok r' → r.config W.env = .ok (some c) →
    r'.config W.env = .ok (some c)
  | [], r, r', _, _, h, hc => by cases h; exact hc
  | n :: ns, r, r', hr, hns, h, hc => by
    rw [Extra.orAll] at h
    cases ho : orNode W.env r n with
    | error e => rw [ho] at h; cases h
    | ok r1 =>
      rw [ho] at h
      obtain ⟨hn, hcn⟩ := hns n (by simp)
      obtain ⟨b', e1, rfl⟩ := orNode_shape hW hr.isNode ho
      rw [Serialize.valueToNode_node hn.isNode] at e1; cases e1
      exact orAll_config hW ns _ r' (proper_fallback hr hn) (fun m hm => hns m (by simp [hm])) h (config_both hW hc hcn)

theorem dropEma_ok {T : Type} {W : World F T} {o : Options F} {r : Val F} {md md' : Dict Str TensorMeta} {c : Str} {cfg : ModelConfig}
    (hc : r.config W.env = .ok (some c)) (hcfg : W.configs c = some cfg) (h : dropEma W o.omitEma r md = .ok md') (hd : md.keys.Nodup) :
    md'.keys.Nodup ∧ ∀ k, k ∈ md'.keys ↔ k ∈ md.keys ∧ ¬ Dropped cfg o k := by
  unfold dropEma at h
  unfold Dropped
  by_cases ho : o.omitEma = true
  · rw [if_pos ho] at h
    have hcf : configOf W r = .ok (some cfg) := by unfold configOf; rw [hc]; simp [hcfg]
    rw [hcf] at h
    simp only at h
    cases he : cfg.components.get? "ema".toList with
    | none =>
      rw [he] at h
      obtain rfl := Except.ok.inj h
      exact ⟨hd, fun k => by simp⟩
    | some ema =>
      rw [he] at h
      obtain rfl := Except.ok.inj h
      refine ⟨?_, fun k => ?_⟩
      · unfold Dict.keys at hd ⊢
        exact hd.sublist (List.Sublist.map _ List.filter_sublist)
      · simp only [Dict.keys, List.mem_map, List.mem_filter, decide_eq_true_eq, ho, true_and, Option.some.injEq, exists_eq_left']
        constructor
        · rintro ⟨p, ⟨h1, h2⟩, rfl⟩
          exact ⟨⟨p, h1, rfl⟩, h2⟩
        · rintro ⟨⟨p, h1, rfl⟩, h2⟩
          exact ⟨p, ⟨h1, h2⟩, rfl⟩
  · rw [if_neg ho] at h
    obtain rfl := Except.ok.inj h
    exact ⟨hd, fun k => by simp [ho]⟩

theorem keys_stored {opened : Str → Option StreamIn.State} (hop : Opened opened) {p : Str} {s : StreamIn.State} (h : opened p = some s) (k : Str) :
    k ∈ StreamIn.keys s ↔ ∃ t, stored opened p k = .ok t := by
  obtain ⟨file, bs, cap, ho, _⟩ := hop p s h
  obtain ⟨_, _, _, _, _, _, hr⟩ := StreamIn.open_fields ho
  unfold StreamIn.readHeader at hr
  simp only at hr
  split at hr
  · cases hr
  · split at hr
    · cases hr
    · rename_i h' hdec
      simp only [Except.ok.injEq, Prod.mk.injEq] at hr
      have hall : ∀ p ∈ s.header, p.1 ≠ metadataKey → ∃ e, p.2 = .tensor e := by
        intro p hp
        rw [← hr.2] at hp
        exact ByName.decHeader_tensor hdec p ((StreamIn.sortBy_perm _ _).mem_iff.1 hp)
      unfold StreamIn.keys stored
      rw [h, List.mem_filter]
      simp only [ne_eq, decide_not, Bool.not_eq_true', decide_eq_false_iff_not]
      constructor
      · rintro ⟨h1, h2⟩
        rw [if_neg h2]
        obtain ⟨v, hv⟩ := Option.isSome_iff_exists.1 ((Dict.get?_isSome_iff s.header k).2 h1)
        obtain ⟨e, he⟩ := hall (k, v) (Dict.mem_of_get? hv) h2
        simp only at he
        subst he
        rw [hv]
        exact ⟨_, rfl⟩
      · rintro ⟨t, ht⟩
        by_cases h2 : k = metadataKey
        · rw [if_pos h2] at ht; cases ht
        · rw [if_neg h2] at ht
          refine ⟨(Dict.get?_isSome_iff s.header k).1 ?_, h2⟩
          cases hv : s.header.get? k with
          | none => rw [hv] at ht; cases ht
          | some v => rfl

variable {tm : ℕ → TensorMeta} {eq : ℕ → Val F → Except Err Bool}

theorem keyOf_iff {opened : Str → Option StreamIn.State} (hop : Opened opened) (n : Val F) (k : Str) :
    Extra.Spec.KeyOf (inputsOf opened tm eq) n k ↔ Listed opened n k := by
  constructor
  · intro h
    cases h with
    | @file path c s d k hf hk =>
      unfold inputsOf at hf
      simp only at hf
      cases ho : opened path with
      | none => rw [ho] at hf; cases hf
      | some st =>
        rw [ho] at hf
        obtain rfl := Except.ok.inj hf
        obtain ⟨file, bs, cap, hopen, _⟩ := hop path st ho
        rw [(ByName.metadata_keys hopen).1] at hk
        obtain ⟨t, ht⟩ := (keys_stored hop ho k).1 hk
        exact .file ht
    | dict hk => exact .dict hk
  · intro h
    cases h with
    | @file path c s k t hs =>
      cases ho : opened path with
      | none => unfold stored at hs; rw [ho] at hs; cases hs
      | some st =>
        obtain ⟨file, bs, cap, hopen, _⟩ := hop path st ho
        refine .file (d := ByName.metadata st) (by unfold inputsOf; simp only [ho]) ?_
        rw [(ByName.metadata_keys hopen).1]
        exact (keys_stored hop ho k).2 ⟨t, hs⟩
    | dict hk => exact .dict hk

theorem name_unique {cfg : ModelConfig} (hu : Unambiguous cfg) {k' k1 k2 : Str} (h1 : Extra.Spec.Name cfg k' k1) (h2 : Extra.Spec.Name cfg k' k2) :
    k1 = k2 := by
  rcases h1 with ⟨as1, a1, a2⟩ | ⟨rfl, a1⟩ <;> rcases h2 with ⟨as2, b1, b2⟩ | ⟨rfl, b1⟩
  · exact hu _ _ _ _ _ a1 b1 a2 b2
  · exact absurd a2 (b1 _ _ a1)
  · exact absurd b2 (a1 _ _ b1)
  · rfl

/-- An input has a value for the name of each of its keys. -/
theorem listed_value {P : PWorld F Tensor} {opened : Str → Option StreamIn.State} {r n : Val F} {c : Str} {cfg : ModelConfig}
    {space : Option Str} (hcfg : P.configs c = some cfg) (hn : Extra.Spec.Source r c space n) {k' k : Str} (hl : Listed opened n k')
    (hk : Extra.Spec.Name cfg k' k) : ∃ t, eval (world P (stored opened)) n k = .ok (.tensor t) := by
  have hmem : k' ∈ k :: (cfg.aliases.get? k).getD [] := by
    rcases hk with ⟨as, h1, h2⟩ | ⟨rfl, _⟩
    · rw [h1]; exact List.mem_cons_of_mem _ h2
    · simp
  cases hn with
  | @file path s h =>
    cases hl with
    | @file _ _ _ _ t ht =>
      obtain ⟨h1, _, _⟩ := C33_model (W := world P (stored opened)) path c s cfg hcfg k
      obtain ⟨pre, k0, post, e, ⟨t0, ht0⟩, hpre⟩ := Extra.first_in (p := fun x => ∃ t, stored opened path x = .ok t) ⟨k', hmem, t, ht⟩
      refine ⟨t0, h1 pre k0 post t0 e (fun x hx => ?_) ht0⟩
      have hx := hpre x hx
      show ∃ e, stored opened path x = .error e ∧ _
      unfold stored at hx ht ⊢
      cases ho : opened path with
      | none => rw [ho] at ht; cases ht
      | some st =>
        rw [ho] at hx
        simp only at hx ⊢
        split_ifs at hx ⊢ with hm
        · exact ⟨_, rfl, rfl⟩
        · split at hx
          · exact absurd ⟨_, rfl⟩ hx
          · exact ⟨_, rfl, rfl⟩
  | @dict es s h hs hne ht =>
    cases hl with
    | dict hk' => exact (Extra.eval_tensors (W := world P (stored opened)) hcfg ht k).1 ⟨k', hmem, hk'⟩

/-- What holds of a call before its keys are merged -/
structure Facts (P : PWorld F Tensor) (move : Option Str → Option Str → Tensor → Except Err Tensor) (tensors : ℕ → Tensor) (enc : Val F → ℕ)
    (o : Options F) (opened : Str → Option StreamIn.State) (recipe r : Val F) (fb : Option (Val F)) (c : Str) (cfg : ModelConfig) (space : Option Str)
    (new : Val F) (md : Dict Str TensorMeta) : Prop where
  asked : Asked (world P (stored opened)) o recipe r fb c cfg space
  eval : ∀ k, eval (world P (stored opened)) new k = kept (world P (stored opened)) move tensors enc o r fb c space k
  nodup : md.keys.Nodup
  wanted : ∀ k ∈ md.keys, WantedExtra opened cfg o (allInputs c space r fb) k
  config : ∀ k, (∃ p ∈ cfg.components, k ∈ Dict.keys p.2) → ¬ Dropped cfg o k → k ∈ md.keys
  input : ∀ n ∈ allInputs c space r fb, ∀ k', Listed opened n k' → ∃ k, Extra.Spec.Name cfg k' k ∧ (¬ Dropped cfg o k → k ∈ md.keys)
  value : ∀ n ∈ allInputs c space r fb, ∀ k' k, Listed opened n k' → Extra.Spec.Name cfg k' k →
    kept (world P (stored opened)) move tensors enc o r fb c space k ≠ .error .stateDictKey

theorem facts {P : PWorld F Tensor} {move : Option Str → Option Str → Tensor → Except Err Tensor} (hP : Registered P move) {o : Options F}
    (ho : Sane move o) {opened : Str → Option StreamIn.State} (hop : Opened opened) {recipe original merged new : Val F} {md : Dict Str TensorMeta}
    {tensors : ℕ → Tensor} {enc : Val F → ℕ}
    (hr : ∀ r, valueToNode P.env recipe = .ok r → Fits (world P (stored opened)) move tensors enc o r)
    (hfb : ∀ b b', o.fallback = some b → valueToNode P.env b = .ok b' → Fits (world P (stored opened)) move tensors enc o b')
    (hd : ∀ r fb c space, valueToNode P.env recipe = .ok r → IsFallback P.env o fb → ∀ es s, .lit (.dict es) (some c) s ∈ allInputs c space r fb →
      (Dict.keys es).Nodup)
    (hprep : prepare P.env o recipe = .ok (original, merged))
    (hplan : planExtra (world P (stored opened)) (inputsOf opened tm eq) o merged = .ok (new, md)) :
    ∃ fb c cfg space, Facts P move tensors enc o opened recipe original fb c cfg space new md := by
  have hW := builtin hP (stored opened)
  have hv := prepare_node hprep
  obtain ⟨_, fb, f1, f2⟩ := Whole.facts hW ho.mergeDtype ho.outputDtype ho.move hprep (hr _ hv) hfb
  obtain ⟨p1, md0, p2, p3⟩ := planExtra_ok hplan
  obtain ⟨c, hc⟩ : ∃ c, merged.config P.env = .ok (some c) := by
    unfold Extra.copyExtra at p2
    split at p2
    · cases p2
    · cases p2
    · rename_i c hc
      exact ⟨c, hc⟩
  obtain ⟨cfg, hcfg⟩ : ∃ cfg, P.configs c = some cfg := by
    unfold Extra.copyExtra at p2
    have hc' : merged.config (world P (stored opened)).env = .ok (some c) := hc
    rw [hc'] at p2
    simp only at p2
    split at p2
    · cases p2
    · rename_i cfg hcfg
      exact ⟨cfg, hcfg⟩
  obtain ⟨space, hsp⟩ : ∃ space, merged.space P.env = .ok space := by
    unfold Extra.copyExtra at p2
    have hc' : merged.config (world P (stored opened)).env = .ok (some c) := hc
    have hcfg' : (world P (stored opened)).configs c = some cfg := hcfg
    rw [hc'] at p2
    simp only [hcfg'] at p2
    split at p2
    · cases p2
    · rename_i space hsp
      exact ⟨space, hsp⟩
  have hnode : original.isNode = true := (hr _ hv).proper.isNode
  have hin : inputs c space merged = allInputs c space original fb := by
    refine inputs_prepare hW hnode hprep f1 fun r1 h1 => ?_
    unfold withFallback at h1
    split at h1
    · cases h1; exact hnode
    · obtain ⟨b', _, rfl⟩ := orNode_shape hW hnode h1
      rfl
  have hdist : Extra.Distinct merged c space := by
    intro es s hs
    exact hd original fb c space hv f1 es s (by rw [← hin]; exact mem_inputs.2 hs)
  obtain ⟨found, hdone, hor, hmd⟩ := Extra.copyExtra_ok (W := world P (stored opened)) hdist hc hcfg hsp p2
  have hnewc : new.config P.env = .ok (some c) := orAll_config hW _ merged new f2.proper (fun n hn => by
    obtain ⟨m, hm, rfl⟩ := List.mem_map.1 hn
    exact ⟨(hdone.good m hm).1.proper, source_config (hdone.good m hm).1⟩) hor hc
  have hnd0 : md0.keys.Nodup := by rw [hmd]; exact Dict.nodup_update (Dict.nodup_ofList _) _
  obtain ⟨d1, d2⟩ := dropEma_ok (W := world P (stored opened)) hnewc hcfg p3 hnd0
  obtain ⟨k1, k2, k3⟩ := Extra.C46_keys_partial (W := world P (stored opened)) hdist hc hcfg hsp p2
  have hsrc : ∀ n, n ∈ allInputs c space original fb ↔ Extra.Spec.Source merged c space n := fun n => by rw [← hin]; exact mem_inputs
  refine ⟨fb, c, cfg, space, ⟨hv, f1, f2.name c hc, hcfg, ?_, ?_⟩, ?_, d1, ?_, ?_, ?_, ?_⟩
  · rintro s rfl
    exact f2.space s hsp
  · intro hs
    have h : merged.space P.env = .ok (some weight) := p1 hs
    rw [hsp] at h
    exact Except.ok.inj h
  · intro k
    rw [copyExtra_first hW f2.proper hdist hc hcfg hsp p2 k, f2.eval k, hin]
    rfl
  · intro k hk
    obtain ⟨hk0, hnd⟩ := (d2 k).1 hk
    refine ⟨?_, hnd⟩
    rcases k3 k hk0 with h | ⟨n, k', h1, h2, h3⟩
    · exact .inl ((Merge.mem_metadata_keys cfg k).1 h)
    · exact .inr ⟨n, (hsrc n).2 h1, k', (keyOf_iff hop n k').1 h2, h3⟩
  · intro k hk hnd
    exact (d2 k).2 ⟨k1 k ((Merge.mem_metadata_keys cfg k).2 hk), hnd⟩
  · intro n hn k' hl
    obtain ⟨k, hk, hname⟩ := k2 n k' ((hsrc n).1 hn) ((keyOf_iff hop n k').2 hl)
    exact ⟨k, hname, fun hnd => (d2 k).2 ⟨hk, hnd⟩⟩
  · intro n hn k' k hl hname
    obtain ⟨t, ht⟩ := listed_value (P := P) (opened := opened) hcfg ((hsrc n).1 hn) hl hname
    unfold kept
    refine firstOf_ne (x := .ok (.tensor t)) (List.mem_cons_of_mem _ (List.mem_map.2 ⟨n, hn, ht⟩)) (by simp)

/-! ## C113 -/

/-- **C113** for a file (partial: a call can raise, see C46).  If `merge(..., omit_extra_keys=False)` returns, the file opens; its header keeps the recipe
that was asked for; every key in it is one of the config or the name of a key of an input of the config, and no ema key if these are to be omitted; each
key of each such input is there under its name; and each tensor reads back as what the merge stores without extra keys, or, where that has no value, what
the first input holds that has the key, neither cast to the merge dtype nor to the output dtype. -/
theorem C113_file_partial (P : PWorld F Tensor) (move : Option Str → Option Str → Tensor → Except Err Tensor) (hP : Registered P move)
    (N : Serialize.Num F) (o : Options F) (ho : Sane move o) (opened : Str → Option StreamIn.State) (hop : Opened opened)
    (tm : ℕ → TensorMeta) (eq : ℕ → Val F → Except Err Bool)
    (recipe : Val F) (n : ℕ) (file : Bytes) (m : Saves P N (inputsOf opened tm eq) o opened recipe n file) (tensors : ℕ → Tensor) (enc : Val F → ℕ)
    (hr : ∀ r, valueToNode P.env recipe = .ok r → Fits (world P (stored opened)) move tensors enc o r)
    (hfb : ∀ b b', o.fallback = some b → valueToNode P.env b = .ok b' → Fits (world P (stored opened)) move tensors enc o b')
    (hd : ∀ r fb c space, valueToNode P.env recipe = .ok r → IsFallback P.env o fb → ∀ es s, .lit (.dict es) (some c) s ∈ allInputs c space r fb →
      (Dict.keys es).Nodup)
    (hmeta : metadataKey ∉ m.metadata.keys)
    (hwf : ∀ r fb c cfg space k t, Asked (world P (stored opened)) o recipe r fb c cfg space → k ∈ m.metadata.keys →
      kept (world P (stored opened)) move tensors enc o r fb c space k = .ok (.tensor t) → StreamOut.Spec.Tensor.WF t)
    (bs rcap : ℕ) (hbs : bs ≤ rcap)
    (hrc : ∀ r fb c cfg space k t, Asked (world P (stored opened)) o recipe r fb c cfg space → k ∈ m.metadata.keys →
      kept (world P (stored opened)) move tensors enc o r fb c space k = .ok (.tensor t) → t.bytes.length ≤ rcap) :
    ∃ r fb c cfg space s0, Asked (world P (stored opened)) o recipe r fb c cfg space ∧ StreamIn.open_ file bs rcap = .ok s0 ∧
      s0.header.get? metadataKey = some (.metadata (match Serialize.serialize N r with | .ok t => [("mecha_recipe".toList, t)] | .error _ => [])) ∧
      (∀ k ∈ StreamIn.keys s0, WantedExtra opened cfg o (allInputs c space r fb) k ∧
        ∃ t, kept (world P (stored opened)) move tensors enc o r fb c space k = .ok (.tensor t)) ∧
      (∀ k t, (∃ p ∈ cfg.components, k ∈ Dict.keys p.2) → ¬ Dropped cfg o k →
        kept (world P (stored opened)) move tensors enc o r fb c space k = .ok (.tensor t) → k ∈ StreamIn.keys s0) ∧
      (∀ i ∈ allInputs c space r fb, ∀ k', Listed opened i k' → ∃ k, Extra.Spec.Name cfg k' k ∧ (¬ Dropped cfg o k → k ∈ StreamIn.keys s0)) ∧
      (Unambiguous cfg → ∀ i ∈ allInputs c space r fb, ∀ k' k, Listed opened i k' → Extra.Spec.Name cfg k' k → ¬ Dropped cfg o k → k ∈ StreamIn.keys s0) ∧
      ∀ k ∈ StreamIn.keys s0, ∀ t, kept (world P (stored opened)) move tensors enc o r fb c space k = .ok (.tensor t) → ∀ history : List Key, ∃ s1 v,
        StreamIn.getItem (StreamIn.run s0 (history.map .load)).st k = (s1, .ok v) ∧
        v.dtype = t.dtype ∧ v.shape = t.shape ∧ s1.read v = t.bytes := by
  obtain ⟨fb, c, cfg, space, f⟩ := facts hP ho hop hr hfb hd m.prepared m.planned
  have hev : eval (world P (stored opened)) m.new = kept (world P (stored opened)) move tensors enc o m.original fb c space := funext f.eval
  obtain ⟨s0, g1, g2, g3, g4⟩ := Threads.C98_file P m.new opened hop m.metadata.keys f.nodup hmeta n m.stores m.ran
    m.declared m.text m.minBuf m.cap m.actions m.writer file m.wrote m.quiet m.assigned m.complete m.closed
    (fun k t hk h => hwf _ fb c cfg space k t f.asked hk (by rw [← hev]; exact h)) bs rcap hbs
    (fun k t hk h => hrc _ fb c cfg space k t f.asked hk (by rw [← hev]; exact h))
  rw [hev] at g2 g4
  have hruns : Merge.Spec.Runs n (Merge.fileJob (eval (world P (stored opened)) m.new)) m.metadata.keys m.stores .returned := by
    have h := m.ran
    cases n with
    | zero =>
      have h : sequential (fileProgram P m.new) opened m.metadata.keys = (m.stores, .returned) := h
      rw [sequential_value hop _ (loaded_start opened), Reproducible.file_outcome] at h
      exact h
    | succ n =>
      obtain ⟨jobs, s, h1, h2, h3⟩ := h
      have := (inv_steps f.nodup hop h1).2
      rw [Reproducible.file_outcome] at this
      exact ⟨s.base, this, h2, h3⟩
  have hval : ∀ k ∈ m.metadata.keys, kept (world P (stored opened)) move tensors enc o m.original fb c space k ≠ .error .stateDictKey →
      k ∈ StreamIn.keys s0 := by
    intro k hk hne
    refine (g2 k).2 ⟨hk, ?_⟩
    have he := (Merge.C30_returned _ m.metadata.keys f.nodup n m.stores hruns [] k).2 hk
    rw [hev] at he
    unfold Merge.fileJob at he
    cases hx : kept (world P (stored opened)) move tensors enc o m.original fb c space k with
    | error e =>
      rw [hx] at he
      exact absurd (by rw [hx, he e rfl]) hne
    | ok v =>
      rw [hx] at he
      cases v with
      | tensor t => exact ⟨t, rfl⟩
      | _ => cases he _ rfl
  refine ⟨m.original, fb, c, cfg, space, s0, f.asked, g1, ?_, ?_, ?_, ?_, ?_, ?_⟩
  · rw [g3]
    have := m.serialized
    unfold recipeText at this
    cases hser : Serialize.serialize N m.original with
    | ok t => rw [hser] at this; rw [← Except.ok.inj this]; rfl
    | error e =>
      rw [hser] at this
      cases e with
      | type => rw [← Except.ok.inj this]; rfl
      | _ => cases this
  · intro k hk
    obtain ⟨h1, h2⟩ := (g2 k).1 hk
    exact ⟨f.wanted k h1, h2⟩
  · intro k t h1 h2 h3
    exact (g2 k).2 ⟨f.config k h1 h2, t, h3⟩
  · intro i hi k' hl
    obtain ⟨k, hname, hk⟩ := f.input i hi k' hl
    exact ⟨k, hname, fun hnd => hval k (hk hnd) (f.value i hi k' k hl hname)⟩
  · intro hu i hi k' k hl hname hnd
    obtain ⟨k0, hname0, hk0⟩ := f.input i hi k' hl
    obtain rfl := name_unique hu hname hname0
    exact hval k (hk0 hnd) (f.value i hi k' k hl hname)
  · intro k hk t h
    exact g4 k t ((g2 k).1 hk).1 h

/-- **C113** for a mapping in memory that is updated. -/
theorem C113_memory_partial (P : PWorld F Tensor) (move : Option Str → Option Str → Tensor → Except Err Tensor) (hP : Registered P move)
    (o : Options F) (ho : Sane move o) (opened : Str → Option StreamIn.State) (hop : Opened opened)
    (tm : ℕ → TensorMeta) (eq : ℕ → Val F → Except Err Bool)
    (recipe : Val F) (n : ℕ) (m : Returns (RVal F Tensor) (program P) P (inputsOf opened tm eq) o opened recipe n) (tensors : ℕ → Tensor) (enc : Val F → ℕ)
    (hr : ∀ r, valueToNode P.env recipe = .ok r → Fits (world P (stored opened)) move tensors enc o r)
    (hfb : ∀ b b', o.fallback = some b → valueToNode P.env b = .ok b' → Fits (world P (stored opened)) move tensors enc o b')
    (hd : ∀ r fb c space, valueToNode P.env recipe = .ok r → IsFallback P.env o fb → ∀ es s, .lit (.dict es) (some c) s ∈ allInputs c space r fb →
      (Dict.keys es).Nodup) (out : Dict Str (RVal F Tensor)) :
    ∃ r fb c cfg space, Asked (world P (stored opened)) o recipe r fb c cfg space ∧
      (∀ k, (Merge.finalOutput out m.stores).get? k ≠ out.get? k → WantedExtra opened cfg o (allInputs c space r fb) k ∧
        ∃ v, kept (world P (stored opened)) move tensors enc o r fb c space k = .ok v ∧ (Merge.finalOutput out m.stores).get? k = some v) ∧
      (∀ k v, (∃ p ∈ cfg.components, k ∈ Dict.keys p.2) → ¬ Dropped cfg o k → kept (world P (stored opened)) move tensors enc o r fb c space k = .ok v →
        (Merge.finalOutput out m.stores).get? k = some v) ∧
      ∀ i ∈ allInputs c space r fb, ∀ k', Listed opened i k' → ∃ k, Extra.Spec.Name cfg k' k ∧ (¬ Dropped cfg o k → ∃ v,
        kept (world P (stored opened)) move tensors enc o r fb c space k = .ok v ∧ (Merge.finalOutput out m.stores).get? k = some v) := by
  obtain ⟨fb, c, cfg, space, f⟩ := facts hP ho hop hr hfb hd m.prepared m.planned
  have hrun := Threads.C98_threads P m.new opened hop m.metadata.keys f.nodup n m.stores .returned m.ran
  have h1 : ∀ k, (Merge.finalOutput out m.stores).get? k = Merge.Spec.expected (eval (world P (stored opened)) m.new) m.metadata.keys out k :=
    fun k => (Merge.C30_returned _ m.metadata.keys f.nodup n m.stores hrun out k).1
  have h2 : ∀ k, k ∈ m.metadata.keys → ∀ e, kept (world P (stored opened)) move tensors enc o m.original fb c space k = .error e → e = .stateDictKey := by
    intro k hk e he
    exact (Merge.C30_returned _ m.metadata.keys f.nodup n m.stores hrun out k).2 hk e (by rw [f.eval k]; exact he)
  have h3 : ∀ k v, k ∈ m.metadata.keys → kept (world P (stored opened)) move tensors enc o m.original fb c space k = .ok v →
      (Merge.finalOutput out m.stores).get? k = some v := by
    intro k v hk hv
    rw [h1 k]
    unfold Merge.Spec.expected
    rw [if_pos hk, f.eval k, hv]
  refine ⟨m.original, fb, c, cfg, space, f.asked, fun k hk => ?_, fun k v hk hnd hv => h3 k v (f.config k hk hnd) hv, fun i hi k' hl => ?_⟩
  · rw [h1 k] at hk
    unfold Merge.Spec.expected at hk
    by_cases hmem : k ∈ m.metadata.keys
    · refine ⟨f.wanted k hmem, ?_⟩
      rw [if_pos hmem, f.eval k] at hk
      cases hx : kept (world P (stored opened)) move tensors enc o m.original fb c space k with
      | error e => rw [hx] at hk; exact absurd rfl hk
      | ok v => exact ⟨v, rfl, h3 k v hmem hx⟩
    · rw [if_neg hmem] at hk
      exact absurd rfl hk
  · obtain ⟨k, hname, hk⟩ := f.input i hi k' hl
    refine ⟨k, hname, fun hnd => ?_⟩
    cases hx : kept (world P (stored opened)) move tensors enc o m.original fb c space k with
    | error e => exact absurd (by rw [hx, h2 k (hk hnd) e hx]) (f.value i hi k' k hl hname)
    | ok v => exact ⟨v, rfl, h3 k v (hk hnd) hx⟩

/-! ## An example

`merge(pick_component(f, "main"), output_dtype=int8, omit_extra_keys=False, omit_ema=True)`, where the file `f` holds `a` and `b`, and the config has the
keys `a` and `c` in the component `main` and `e` in `ema`. -/

namespace Ex
open Whole.Ex (move int8 entry f recipe small)

def cfg : ModelConfig := ⟨"t-c".toList, [("main".toList, [("a".toList, entry), ("c".toList, entry)]), ("ema".toList, [("e".toList, entry)])]⟩

def P : PWorld (Option Int) Tensor := { Whole.Ex.P with configs := fun c => if c = "t-c".toList then some cfg else none }

theorem registered : Registered P move := by constructor <;> rfl

def o : Options (Option Int) := ⟨none, none, none, none, some int8, true, true⟩

def I : Extra.Inputs (Option Int) := inputsOf Threads.Ex.opened (fun _ => ⟨none, none⟩) (fun _ _ => .error .runtime)

def W : World (Option Int) Tensor := world P (stored Threads.Ex.opened)

def merged : Val (Option Int) := match prepare P.env o recipe with | .ok p => p.2 | .error _ => .none

def planned : Val (Option Int) × Dict Str TensorMeta := match planExtra W I o merged with | .ok p => p | .error _ => (.none, [])

def stores : List (Str × Tensor) := [("a".toList, small (StreamOut.exT [1, 2, 3])), ("b".toList, StreamOut.exT [4, 5])]

def declared : Dict Key StreamOut.Meta := planned.2.map fun p => (p.1, ⟨none, none⟩)

def actions : List StreamOut.Action :=
  [.begin 0 "a".toList (small (StreamOut.exT [1, 2, 3])), .locked 0, .finish 0, .begin 0 "b".toList (StreamOut.exT [4, 5]), .locked 0, .finish 0]

def text : Str := Whole.Ex.text

def writer : StreamOut.State :=
  (StreamOut.run (StreamOut.init declared (some text) 2 10000) actions).getD (StreamOut.init declared (some text) 2 10000)

def file : Bytes := match StreamOut.close writer with | .ok f => f | .error _ => []

def saves : Saves P Serialize.Ex.num I o Threads.Ex.opened recipe 0 file where
  original := recipe
  merged := merged
  new := planned.1
  metadata := planned.2
  stores := stores
  prepared := by decide +kernel
  planned := by decide +kernel
  ran := by
    show Threads.sequential (fileProgram P planned.1) Threads.Ex.opened planned.2.keys = (stores, .returned)
    decide +kernel
  text := some text
  declared := declared
  minBuf := 2
  cap := 10000
  actions := actions
  writer := writer
  serialized := by decide +kernel
  wrote := by decide +kernel
  quiet := by unfold StreamOut.Spec.Quiescent; decide +kernel
  assigned := by decide +kernel
  complete := ⟨by decide, by decide +kernel, by decide, by decide +kernel⟩
  closed := by decide +kernel

def enc (_ : Val (Option Int)) : ℕ := 0

theorem fits : Fits W move P.tensors enc o recipe :=
  ⟨by simp [recipe, f, Proper, ProperL, ProperK], fun h => absurd ⟨rfl, rfl⟩ h⟩

theorem sane : Sane move o := ⟨by decide, by decide, fun x e h => by simp [move, o] at h⟩

theorem asked {r : Val (Option Int)} {fb : Option (Val (Option Int))} {c : Str} {cfg' : ModelConfig} {space : Option Str}
    (h : Asked W o recipe r fb c cfg' space) : r = recipe ∧ fb = none ∧ c = "t-c".toList ∧ cfg' = cfg ∧ space = some weight := by
  have h1 : recipe = r := Except.ok.inj h.node
  subst h1
  have h2 : fb = none := h.given
  subst h2
  have hc : recipe.config W.env = .ok (some "t-c".toList) := by decide +kernel
  have h3 : c = "t-c".toList := by
    rcases h.named with h3 | ⟨h3, _⟩
    · exact Option.some.inj (Except.ok.inj (h3.symm.trans hc))
    · rw [hc] at h3; cases h3
  subst h3
  exact ⟨rfl, rfl, rfl, (Option.some.inj h.config).symm, h.strict rfl⟩

theorem values {k : Str} {t : Tensor} (hk : k ∈ planned.2.keys)
    (h : kept W move P.tensors enc o recipe none "t-c".toList (some weight) k = .ok (.tensor t)) : (k, t) ∈ stores := by
  obtain ⟨fb, c, cfg', space, f⟩ := facts registered sane Threads.Ex.opened_ok (fun r h => by cases h; exact fits) (fun b b' hb hb' => by cases hb)
    (fun r fb c space h h' es s hm => by
      cases h
      have h' : fb = none := h'
      subst h'
      have hin : ∀ c space, allInputs c space recipe none = inputs c space f := by
        intro c space
        simp [allInputs, recipe, inputs, inputsL, inputsK, f]
      rw [hin] at hm
      unfold f at hm
      rw [inputs] at hm
      split_ifs at hm <;> simp at hm)
    saves.prepared saves.planned
  obtain ⟨_, rfl, rfl, rfl, rfl⟩ := asked f.asked
  have h : eval W planned.1 k = .ok (.tensor t) := (f.eval k).trans h
  have hv : ∀ k ∈ planned.2.keys, (match eval W planned.1 k with | .ok (.tensor t) => decide ((k, t) ∈ stores) | _ => true) = true := by decide +kernel
  have := hv k hk
  rw [h] at this
  simpa using this

example : ∃ s0, StreamIn.open_ file 2 1000 = .ok s0 ∧ s0.header.get? metadataKey = some (.metadata [("mecha_recipe".toList, text)]) ∧
    "a".toList ∈ StreamIn.keys s0 ∧ "b".toList ∈ StreamIn.keys s0 := by
  obtain ⟨r, fb, c, cfg', space, s0, h1, h2, h3, _, h5, _, h7, _⟩ := C113_file_partial P move registered Serialize.Ex.num o sane Threads.Ex.opened
    Threads.Ex.opened_ok _ _ recipe 0 file saves P.tensors enc (fun r h => by cases h; exact fits) (fun b b' hb hb' => by cases hb)
    (fun r fb c space h h' es s hm => by
      cases h
      have h' : fb = none := h'
      subst h'
      simp [allInputs, recipe, inputs, inputsL, inputsK, f] at hm)
    (by decide)
    (fun r fb c cfg' space k t h hk ht => by
      obtain ⟨rfl, rfl, rfl, rfl, rfl⟩ := asked h
      have : ∀ p ∈ stores, StreamOut.Spec.Tensor.WF p.2 := by decide
      exact this _ (values hk ht))
    2 1000 (by decide)
    (fun r fb c cfg' space k t h hk ht => by
      obtain ⟨rfl, rfl, rfl, rfl, rfl⟩ := asked h
      have : ∀ p ∈ stores, p.2.bytes.length ≤ 1000 := by decide
      exact this _ (values hk ht))
  obtain ⟨rfl, rfl, rfl, rfl, rfl⟩ := asked h1
  have hu : Unambiguous cfg := by
    have ha : ∀ p ∈ cfg.aliases, p.2 = [] := by decide
    intro k1 k2 as1 as2 a e1 _ e3 _
    have : as1 = [] := ha (k1, as1) (Dict.mem_of_get? e1)
    rw [this] at e3
    cases e3
  have hname : ∀ k, Extra.Spec.Name cfg k k := fun k => .inr ⟨rfl, fun k0 as h hk => by
    have ha : ∀ p ∈ cfg.aliases, p.2 = [] := by decide
    have : as = [] := ha (k0, as) (Dict.mem_of_get? h)
    rw [this] at hk
    cases hk⟩
  have hf : f ∈ allInputs "t-c".toList (some weight) recipe none := by simp [allInputs, recipe, inputs, inputsL, inputsK, f]
  refine ⟨s0, h2, ?_, ?_, ?_⟩
  · rw [h3, show Serialize.serialize Serialize.Ex.num recipe = .ok text by decide +kernel]
  · exact h7 hu f hf "a".toList "a".toList (.file (t := StreamOut.exT [1, 2, 3]) (by decide +kernel)) (hname _) (by
      rintro ⟨_, ema, h1, h2⟩
      have : cfg.components.get? "ema".toList = some [("e".toList, entry)] := by decide
      rw [this] at h1
      cases h1
      simp [Dict.keys] at h2)
  · exact h7 hu f hf "b".toList "b".toList (.file (t := StreamOut.exT [4, 5]) (by decide +kernel)) (hname _) (by
      rintro ⟨_, ema, h1, h2⟩
      have : cfg.components.get? "ema".toList = some [("e".toList, entry)] := by decide
      rw [this] at h1
      cases h1
      simp [Dict.keys] at h2)

/-- In memory; the output had an entry before. -/
def returns : Returns (RVal (Option Int) Tensor) (program P) P I o Threads.Ex.opened recipe 0 where
  original := recipe
  merged := merged
  new := planned.1
  metadata := planned.2
  stores := stores.map fun p => (p.1, .tensor p.2)
  prepared := by decide +kernel
  planned := by decide +kernel
  ran := by
    show Threads.sequential (program P planned.1) Threads.Ex.opened planned.2.keys = (stores.map fun p => (p.1, .tensor p.2), .returned)
    decide +kernel

example := C113_memory_partial P move registered o sane Threads.Ex.opened Threads.Ex.opened_ok _ _ recipe 0 returns P.tensors enc
  (fun r h => by cases h; exact fits) (fun b b' hb hb' => by cases hb)
  (fun r fb c space h h' es s hm => by
    cases h
    have h' : fb = none := h'
    subst h'
    simp [allInputs, recipe, inputs, inputsL, inputsK, f] at hm) [("e".toList, .int 3)]

/-- **C113 (negation).**  The dtype that was asked for is not that of all tensors in the output: `b` keeps its own. -/
theorem C113_dtype_false : ∃ (P : PWorld (Option Int) Tensor) (o : Options (Option Int)) (opened : Str → Option StreamIn.State) (recipe : Val (Option Int))
    (file : Bytes) (m : Saves P Serialize.Ex.num I o opened recipe 0 file) (k : Str) (t : Tensor),
    Registered P move ∧ Opened opened ∧ o.outputDtype = some int8 ∧ (∀ d x y, move d (some int8) x = .ok y → y.dtype = .i8) ∧
    (k, t) ∈ m.stores ∧ t.dtype = .u8 :=
  ⟨P, o, Threads.Ex.opened, recipe, file, saves, "b".toList, StreamOut.exT [4, 5], registered, Threads.Ex.opened_ok, rfl,
    fun d x y h => by simp [move, small] at h; rw [← h], by decide, rfl⟩

end Ex
end Verif.WholeExtra
