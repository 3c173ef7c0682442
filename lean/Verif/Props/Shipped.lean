import Verif.Proofs.TableSigns

/-!
# C89–C91: the configs the library comes with
-/
namespace Verif.Shipped
open Method Config Data Infer Infer.Spec Text Fast

/-! ## Strings -/

theorem str_inj {a b : Text} (ha : ∀ c ∈ a, c < 128) (hb : ∀ c ∈ b, c < 128) (h : str a = str b) : a = b := by
  induction a generalizing b with
  | nil => cases b with
    | nil => rfl
    | cons c b => cases h
  | cons c a ih => cases b with
    | nil => cases h
    | cons d b =>
      rw [List.forall_mem_cons] at ha hb
      obtain ⟨h1, h2⟩ := List.cons.inj h
      have hv : ∀ c, c < 128 → (Char.ofNat c).toNat = c := by decide +kernel
      rw [ih ha.2 hb.2 h2, ← hv c ha.1, ← hv d hb.1, h1]

theorem str_append (a b : Text) : str (a ++ b) = str a ++ str b := List.map_append

/-! ## The keys of the configs -/

theorem moduleName_stem (pre : Text) (e : Entry) : Lycoris.moduleName pre e.key (floating e.dtype) =
    if endsWith (key% "bias") e.key || !floating e.dtype then none else some (pre ++ key% "_" ++ stem e.key) := by
  cases hf : floating e.dtype with
  | false => simp [Lycoris.moduleName]
  | true => rw [Lycoris.moduleName_eq, Bool.not_true, Bool.or_false]; rfl

theorem mem_entries {t : Table} {e : Entry} : e ∈ t.entries ↔ ∃ c ∈ t.components, e ∈ c.2 := List.mem_flatMap

theorem flat_base (t : Table) : (t.components.map fun c => (str c.1, c.2.map fun e => (str e.key, keyMeta e))).flatMap (fun p => p.2) =
    t.entries.map fun e => (str e.key, keyMeta e) := by
  rw [List.flatMap_map, Table.entries, List.map_flatMap]

theorem base_keys {p : Text × Table} (hp : p ∈ tables) : (base p.1 p.2).keys = p.2.entries.map fun e => (str e.key, keyMeta e) := by
  have hk := known p hp
  have h1 : (p.2.entries.map (·.key)).Nodup := by
    have := hk.names
    unfold names at this
    clear hk
    generalize p.2.entries = es at this
    induction es with
    | nil => simp
    | cons e l ih =>
      rw [List.flatMap_cons, List.nodup_append] at this
      rw [List.map_cons, List.nodup_cons]
      refine ⟨fun hm => ?_, ih this.2.1⟩
      obtain ⟨e', he', h⟩ := List.mem_map.1 hm
      exact this.2.2 e.key (by simp) e.key (List.mem_flatMap.2 ⟨e', he', by simp [h]⟩) rfl
  unfold ModelConfig.keys base
  dsimp only
  rw [flat_base]
  refine Dict.ofList_of_nodup ?_
  show ((p.2.entries.map fun e => (str e.key, keyMeta e)).map (·.1)).Nodup
  rw [List.map_map]
  have h2 := List.Nodup.map_on (f := str) (fun a ha b hb h => ?_) h1
  · rw [List.map_map] at h2; exact h2
  · obtain ⟨e, he, rfl⟩ := List.mem_map.1 ha
    obtain ⟨e', he', rfl⟩ := List.mem_map.1 hb
    exact str_inj (hk.plain e he _ List.mem_cons_self).ascii (hk.plain e' he' _ List.mem_cons_self).ascii h

theorem known_base {p : Text × Table} (hp : p ∈ tables) (k : Str) : Spec.Known (base p.1 p.2) k ↔ ∃ e ∈ p.2.entries, ∃ a ∈ e.key :: e.aliases, k = str a := by
  unfold Spec.Known
  rw [base_keys hp]
  constructor
  · rintro ⟨q, hq, h⟩
    obtain ⟨e, he, rfl⟩ := List.mem_map.1 hq
    refine ⟨e, he, ?_⟩
    rcases h with h | h
    · exact ⟨e.key, by simp, h⟩
    · obtain ⟨a, ha, rfl⟩ := List.mem_map.1 h
      exact ⟨a, by simp [ha], rfl⟩
  · rintro ⟨e, he, a, ha, rfl⟩
    refine ⟨_, List.mem_map.2 ⟨e, he, rfl⟩, ?_⟩
    rcases List.mem_cons.1 ha with rfl | ha
    · exact .inl rfl
    · exact .inr (List.mem_map.2 ⟨a, ha, rfl⟩)

/-- The LoRA keys of an entry -/
def loraKeys (pre : Text) (e : Entry) : List (Str × KeyMeta) := match Lycoris.moduleName pre e.key (floating e.dtype) with
  | none => []
  | some m => Lycoris.suffixes.map fun s => (str (m ++ key% "." ++ s), { keyMeta e with shape := some [], optional := true })

theorem loraComponent_eq (pre : Text) (es : List Entry) : loraComponent pre es = Dict.ofList (es.flatMap (loraKeys pre)) := rfl

theorem mem_loraKeys {pre : Text} {e : Entry} {q : Str × KeyMeta} : q ∈ loraKeys pre e ↔
    (endsWith (key% "bias") e.key || !floating e.dtype) = false ∧ ∃ s ∈ Lycoris.suffixes, q = (str (pre ++ key% "_" ++ stem e.key ++ key% "." ++ s), { keyMeta e with shape := some [], optional := true }) := by
  unfold loraKeys
  rw [moduleName_stem]
  cases endsWith (key% "bias") e.key || !floating e.dtype with
  | true => simp
  | false =>
    rw [if_neg Bool.false_ne_true]
    simp only [List.mem_map, true_and]
    exact ⟨fun ⟨s, hs, h⟩ => ⟨s, hs, h.symm⟩, fun ⟨s, hs, h⟩ => ⟨s, hs, h.symm⟩⟩

theorem lora_known {c : Lycoris.Config} {t : Table} {k : Str} (h : Spec.Known (lora c t) k) :
    ∃ e ∈ t.entries, (∃ s ∈ Lycoris.suffixes, k = str (c.pre ++ key% "_" ++ stem e.key ++ key% "." ++ s)) ∨ ∃ a ∈ e.aliases, k = str a := by
  obtain ⟨q, hq, h⟩ := h
  have h1 := Dict.mem_ofList hq
  obtain ⟨p, hp, hq⟩ := List.mem_flatMap.1 h1
  obtain ⟨p', hp', rfl⟩ := List.mem_map.1 hp
  obtain ⟨e, he, hq⟩ := List.mem_flatMap.1 (Dict.mem_ofList hq)
  obtain ⟨_, s, hs, rfl⟩ := mem_loraKeys.1 hq
  refine ⟨e, mem_entries.2 ⟨p', hp', he⟩, ?_⟩
  rcases h with rfl | h
  · exact .inl ⟨s, hs, rfl⟩
  · obtain ⟨a, ha, rfl⟩ := List.mem_map.1 h
    exact .inr ⟨a, ha, rfl⟩

theorem known_lora {c : Lycoris.Config} {t : Table} {e : Entry} (he : e ∈ t.entries) (hb : endsWith (key% "bias") e.key = false) (hf : floating e.dtype = true)
    {s : Text} (hs : s ∈ Lycoris.suffixes) : str (c.pre ++ key% "_" ++ stem e.key ++ key% "." ++ s) ∈ (lora c t).keys.keys := by
  obtain ⟨p, hp, he⟩ := mem_entries.1 he
  unfold ModelConfig.keys
  rw [Dict.mem_keys_ofList]
  have h1 : str (c.pre ++ key% "_" ++ stem e.key ++ key% "." ++ s) ∈ (loraComponent c.pre p.2).keys := by
    rw [loraComponent_eq, Dict.mem_keys_ofList]
    exact List.mem_map.2 ⟨_, List.mem_flatMap.2 ⟨e, he, mem_loraKeys.2 ⟨by rw [hb, hf]; rfl, s, hs, rfl⟩⟩, rfl⟩
  obtain ⟨q, hq, h1⟩ := List.mem_map.1 h1
  exact List.mem_map.2 ⟨q, List.mem_flatMap.2 ⟨_, List.mem_map.2 ⟨p, hp, rfl⟩, hq⟩, h1⟩

/-! ## The registry -/

theorem mem_configs {c : RegCfg} : c ∈ configs ↔ ∃ p ∈ tables, c = ⟨base p.1 p.2, true⟩ ∨ ∃ l ∈ Lycoris.configsOf p.1, c = ⟨lora l p.2, true⟩ := by
  unfold configs
  rw [List.mem_append, List.mem_map, List.mem_flatMap]
  constructor
  · rintro (⟨p, hp, rfl⟩ | ⟨p, hp, h⟩)
    · exact ⟨p, hp, .inl rfl⟩
    · obtain ⟨l, hl, rfl⟩ := List.mem_map.1 h
      exact ⟨p, hp, .inr ⟨l, hl, rfl⟩⟩
  · rintro ⟨p, hp, rfl | ⟨l, hl, rfl⟩⟩
    · exact .inl ⟨p, hp, rfl⟩
    · exact .inr ⟨p, hp, List.mem_map.2 ⟨l, hl, rfl⟩⟩

theorem configs_nodup : configs.Nodup := by
  refine List.Nodup.of_map (f := fun c => c.config.identifier) ?_
  have h : configs.map (fun c => c.config.identifier) = (tables.map (·.1)).map str ++ (tables.map (·.1)).flatMap fun b => (Lycoris.configsOf b).map fun c => str c.identifier := by
    unfold configs
    rw [List.map_append, List.map_map, List.map_map, List.map_flatMap, List.flatMap_map]
    rfl
  rw [h]
  have h1 : tables.map (·.1) = [key% "flux-flux", key% "flux-flux_diffuser_only", key% "sd1-kohya", key% "sd1-ldm", key% "sd1-supermerger_blocks",
    key% "sd3-comfyui", key% "sdxl-diffusers_unet_only", key% "sdxl-kohya", key% "sdxl-sgm", key% "sdxl-supermerger_blocks"] := rfl
  rw [h1]
  decide +kernel

theorem tables_inj {p q : Text × Table} (hp : p ∈ tables) (hq : q ∈ tables) (h : p.1 = q.1) : p = q := by
  have h1 : (tables.map (·.1)).Nodup := by
    show [key% "flux-flux", key% "flux-flux_diffuser_only", key% "sd1-kohya", key% "sd1-ldm", key% "sd1-supermerger_blocks",
      key% "sd3-comfyui", key% "sdxl-diffusers_unet_only", key% "sdxl-kohya", key% "sdxl-sgm", key% "sdxl-supermerger_blocks"].Nodup
    decide +kernel
  exact List.inj_on_of_nodup_map h1 hp hq h

theorem pres {b : Text} {l : Lycoris.Config} (h : l ∈ Lycoris.configsOf b) : l.base = b ∧ (l.pre = key% "lycoris" ∧ l.name = key% "lycoris" ∨ l.pre = key% "lora" ∧ l.name = key% "kohya") := by
  rcases List.mem_cons.1 h with rfl | h
  · exact ⟨rfl, .inl ⟨rfl, rfl⟩⟩
  · rcases List.mem_cons.1 h with rfl | h
    · exact ⟨rfl, .inr ⟨rfl, rfl⟩⟩
    · cases h

/-- A stem has no dots. -/
theorem stem_no_dot (key : Text) : 46 ∉ stem key := by
  unfold stem
  intro h
  obtain ⟨c, _, h⟩ := List.mem_map.1 h
  split at h <;> omega

theorem stem_ascii {key : Text} (h : ∀ c ∈ key, c < 128) : ∀ c ∈ stem key, c < 128 := by
  intro c hc
  obtain ⟨d, hd, rfl⟩ := List.mem_map.1 ((stem_prefix key).subset hc)
  split
  · omega
  · exact h d hd

theorem suffix_ascii {s : Text} (h : s ∈ Lycoris.suffixes) : ∀ c ∈ s, c < 128 := by
  revert s
  decide +kernel

/-- A LoRA key is ASCII. -/
theorem loraKey_ascii {pre key s : Text} (hpre : pre = key% "lycoris" ∨ pre = key% "lora") (hk : ∀ c ∈ key, c < 128) (hs : s ∈ Lycoris.suffixes) :
    ∀ c ∈ pre ++ key% "_" ++ stem key ++ key% "." ++ s, c < 128 := by
  intro c hc
  simp only [List.mem_append] at hc
  rcases hc with (((hc | hc) | hc) | hc) | hc
  · rcases hpre with rfl | rfl <;> revert c <;> decide +kernel
  · revert c; decide +kernel
  · exact stem_ascii hk c hc
  · revert c; decide +kernel
  · exact suffix_ascii hs c hc

/-- The parts of a LoRA key can be read off it. -/
theorem loraKey_inj {pre a b s s' : Text} (ha : 46 ∉ a) (hb : 46 ∉ b) (h : pre ++ key% "_" ++ a ++ key% "." ++ s = pre ++ key% "_" ++ b ++ key% "." ++ s') : a = b ∧ s = s' := by
  simp only [List.append_assoc, List.append_cancel_left_eq] at h
  induction a generalizing b with
  | nil =>
    cases b with
    | nil => exact ⟨rfl, by simpa using h⟩
    | cons d b =>
      obtain ⟨h1, _⟩ := List.cons.inj h
      exact absurd (by simp [← h1]) hb
  | cons c a ih =>
    cases b with
    | nil =>
      obtain ⟨h1, _⟩ := List.cons.inj h
      exact absurd (by simp [h1]) ha
    | cons d b =>
      obtain ⟨h1, h2⟩ := List.cons.inj h
      rw [List.mem_cons, not_or] at ha hb
      obtain ⟨h3, h4⟩ := ih ha.2 hb.2 h2
      exact ⟨by rw [h1, h3], h4⟩

/-- A LoRA key is not a name in a table. -/
theorem loraKey_plain {pre r a : Text} (hpre : pre = key% "lycoris" ∨ pre = key% "lora") (ha : Plain a) : pre ++ key% "_" ++ r ≠ a := by
  rintro rfl
  rcases hpre with rfl | rfl
  · exact ha.lycoris ⟨r, rfl⟩
  · exact ha.lora ⟨r, rfl⟩

theorem flat_lora (pre : Text) (es : List Entry) : (es.flatMap (loraKeys pre)).map (·.1) =
    (stems es ×ˢ Lycoris.suffixes).map fun q => str (pre ++ key% "_" ++ q.1 ++ key% "." ++ q.2) := by
  induction es with
  | nil => rfl
  | cons e es ih =>
    rw [List.flatMap_cons, List.map_append, ih]
    unfold stems
    rw [List.filterMap_cons]
    unfold loraKeys
    rw [moduleName_stem]
    cases endsWith (key% "bias") e.key || !floating e.dtype with
    | true => rfl
    | false =>
      rw [if_neg Bool.false_ne_true, if_neg Bool.false_ne_true]
      simp only [List.product_cons, List.map_append, List.map_map]
      rfl

theorem flat_lora_nodup {p : Text × Table} (hp : p ∈ tables) {pre : Text} (hpre : pre = key% "lycoris" ∨ pre = key% "lora") :
    ((p.2.entries.flatMap (loraKeys pre)).map (·.1)).Nodup := by
  have hk := known p hp
  rw [flat_lora]
  have hst : ∀ m ∈ stems p.2.entries, ∃ e ∈ p.2.entries, m = stem e.key := by
    intro m hm
    obtain ⟨e, he, h⟩ := List.mem_filterMap.1 hm
    split at h
    · cases h
    · exact ⟨e, he, (Option.some.inj h).symm⟩
  refine List.Nodup.map_on ?_ (hk.stems.product (by decide +kernel))
  rintro ⟨m, s⟩ h ⟨m', s'⟩ h' heq
  rw [List.mem_product] at h h'
  obtain ⟨e, he, rfl⟩ := hst m h.1
  obtain ⟨e', he', rfl⟩ := hst m' h'.1
  have h1 := str_inj (loraKey_ascii hpre (hk.plain e he _ List.mem_cons_self).ascii h.2) (loraKey_ascii hpre (hk.plain e' he' _ List.mem_cons_self).ascii h'.2) heq
  obtain ⟨h2, h3⟩ := loraKey_inj (stem_no_dot _) (stem_no_dot _) h1
  exact Prod.ext h2 h3

theorem lora_keys {p : Text × Table} (hp : p ∈ tables) {l : Lycoris.Config} (hl : l ∈ Lycoris.configsOf p.1) : (lora l p.2).keys = p.2.entries.flatMap (loraKeys l.pre) := by
  have hpre : l.pre = key% "lycoris" ∨ l.pre = key% "lora" := (pres hl).2.imp And.left And.left
  have hnd := flat_lora_nodup hp hpre
  have h1 : ∀ c ∈ p.2.components, loraComponent l.pre c.2 = c.2.flatMap (loraKeys l.pre) := by
    intro c hc
    refine Dict.ofList_of_nodup (hnd.sublist (List.Sublist.map _ ?_))
    rw [Table.entries, List.flatMap_assoc]
    obtain ⟨a, b, h⟩ := List.append_of_mem hc
    rw [h, List.flatMap_append, List.flatMap_cons]
    exact (List.sublist_append_left _ _).trans (List.sublist_append_right _ _)
  have h2 : (p.2.components.map fun q => (str q.1, loraComponent l.pre q.2)).flatMap (fun q => q.2) = p.2.entries.flatMap (loraKeys l.pre) := by
    rw [List.flatMap_map, Table.entries, List.flatMap_assoc]
    exact List.flatMap_congr fun c hc => h1 c hc
  unfold ModelConfig.keys lora
  dsimp only
  rw [h2]
  exact Dict.ofList_of_nodup hnd

theorem lora_length {p : Text × Table} (hp : p ∈ tables) {l : Lycoris.Config} (hl : l ∈ Lycoris.configsOf p.1) : (lora l p.2).keys.length = 3 * (stems p.2.entries).length := by
  have h := congrArg List.length (flat_lora l.pre p.2.entries)
  rw [List.length_map, List.length_map, List.length_product] at h
  rw [lora_keys hp hl, h]
  show _ * 3 = _
  omega

/-- A name belongs to one entry only. -/
theorem names_unique {es : List Entry} (h : (names es).Nodup) {e e' : Entry} (he : e ∈ es) (he' : e' ∈ es) {a : Text} (ha : a ∈ e.key :: e.aliases)
    (ha' : a ∈ e'.key :: e'.aliases) : e = e' := by
  by_contra hne
  unfold names at h
  have h1 := (List.pairwise_flatMap.1 h).2
  have : Std.Symm fun a₁ a₂ : Entry => ∀ x ∈ a₁.key :: a₁.aliases, ∀ y ∈ a₂.key :: a₂.aliases, x ≠ y := ⟨fun x y h a ha b hb => (h b hb a ha).symm⟩
  exact h1.forall he he' hne a ha a ha' rfl

theorem own_base {p : Text × Table} (hp : p ∈ tables) : ∃ q ∈ (base p.1 p.2).keys, q.2.optional = false ∧ q.2.aliases = [] ∧
    ∀ d ∈ configs, d ≠ ⟨base p.1 p.2, true⟩ → ¬ Spec.Known d.config q.1 := by
  have hk := known p hp
  obtain ⟨w, v, ⟨⟨e, he, hw⟩, _⟩, hfree⟩ := hk.sign
  refine ⟨_, by rw [base_keys hp]; exact List.mem_map.2 ⟨e, he, rfl⟩, hw.optional, ?_, ?_⟩
  · show e.aliases.map str = []
    rw [hw.aliases]
    rfl
  · intro d hd hne hkn
    have hpl := hk.plain e he _ List.mem_cons_self
    rw [hw.key] at hpl
    simp only [hw.key] at hkn
    obtain ⟨q, hq, rfl | ⟨l, hl, rfl⟩⟩ := mem_configs.1 hd
    · obtain ⟨e', he', a, ha, h⟩ := (known_base hq _).1 hkn
      have h1 := str_inj hpl.ascii ((known q hq).plain e' he' a ha).ascii h
      have h2 : q.1 ≠ p.1 := fun h => hne (by rw [tables_inj hq hp h])
      exact (hfree q hq h2 e' he').name (h1 ▸ ha)
    · have hpre : l.pre = key% "lycoris" ∨ l.pre = key% "lora" := (pres hl).2.imp And.left And.left
      obtain ⟨e', he', ⟨s, hs, h⟩ | ⟨a, ha, h⟩⟩ := lora_known hkn
      · have h1 := str_inj hpl.ascii (loraKey_ascii hpre ((known q hq).plain e' he' _ List.mem_cons_self).ascii hs) h
        refine loraKey_plain hpre hpl (r := stem e'.key ++ key% "." ++ s) ?_
        rw [h1]
        simp only [List.append_assoc]
      · have h1 := str_inj hpl.ascii ((known q hq).plain e' he' a (List.mem_cons_of_mem _ ha)).ascii h
        by_cases h2 : q.1 = p.1
        · -- an alias in the same table
          obtain rfl := tables_inj hq hp h2
          obtain rfl := names_unique (known q hp).names he he' (a := w) (by simp [hw.key]) (h1 ▸ List.mem_cons_of_mem _ ha)
          rw [hw.aliases] at ha
          cases ha
        · exact (hfree q hq h2 e' he').name (h1 ▸ List.mem_cons_of_mem _ ha)

theorem own_lora {p : Text × Table} (hp : p ∈ tables) {l : Lycoris.Config} (hl : l ∈ Lycoris.configsOf p.1) : ∃ k ∈ (lora l p.2).keys.keys,
    ∀ d ∈ configs, d ≠ ⟨lora l p.2, true⟩ → ¬ Spec.Known d.config k := by
  have hk := known p hp
  obtain ⟨w, v, ⟨_, e, he, hv⟩, hfree⟩ := hk.sign
  have hs : key% "alpha" ∈ Lycoris.suffixes := by simp [Lycoris.suffixes]
  have hpre : l.pre = key% "lycoris" ∨ l.pre = key% "lora" := (pres hl).2.imp And.left And.left
  have hasc := loraKey_ascii hpre (hk.plain e he _ List.mem_cons_self).ascii hs
  have hno : ∀ a, Plain a → str (l.pre ++ key% "_" ++ stem e.key ++ key% "." ++ key% "alpha") ≠ str a := fun a ha h => by
    refine loraKey_plain hpre ha (r := stem e.key ++ key% "." ++ key% "alpha") ?_
    rw [← str_inj hasc ha.ascii h]
    simp only [List.append_assoc]
  refine ⟨_, known_lora he hv.bias hv.floating hs, ?_⟩
  intro d hd hne hkn
  obtain ⟨q, hq, rfl | ⟨l', hl', rfl⟩⟩ := mem_configs.1 hd
  · obtain ⟨e', he', a, ha, h⟩ := (known_base hq _).1 hkn
    exact hno a ((known q hq).plain e' he' a ha) h
  · have hpre' : l'.pre = key% "lycoris" ∨ l'.pre = key% "lora" := (pres hl').2.imp And.left And.left
    obtain ⟨e', he', ⟨s, hs', h⟩ | ⟨a, ha, h⟩⟩ := lora_known hkn
    · have h1 := str_inj hasc (loraKey_ascii hpre' ((known q hq).plain e' he' _ List.mem_cons_self).ascii hs') h
      have h2 : l.pre = l'.pre := by
        rcases hpre with hp1 | hp1 <;> rcases hpre' with hp2 | hp2
        · rw [hp1, hp2]
        · rw [hp1, hp2] at h1; simp only [List.append_assoc, List.cons_append, List.nil_append, List.cons.injEq] at h1; omega
        · rw [hp1, hp2] at h1; simp only [List.append_assoc, List.cons_append, List.nil_append, List.cons.injEq] at h1; omega
        · rw [hp1, hp2]
      rw [← h2] at h1
      have h3 := (loraKey_inj (stem_no_dot _) (stem_no_dot _) h1).1
      by_cases h4 : q.1 = p.1
      · obtain rfl := tables_inj hq hp h4
        apply hne
        have h5 : l' = l := by
          obtain ⟨a1, b1⟩ := pres hl
          obtain ⟨a2, b2⟩ := pres hl'
          obtain ⟨x, y, z⟩ := l
          obtain ⟨x', y', z'⟩ := l'
          dsimp only at a1 b1 a2 b2 h2
          subst h2
          rcases b1 with ⟨h, h'⟩ | ⟨h, h'⟩ <;> rcases b2 with ⟨g, g'⟩ | ⟨g, g'⟩
          · rw [a1, a2, h', g']
          · rw [h] at g; exact absurd g (by decide)
          · rw [h] at g; exact absurd g (by decide)
          · rw [a1, a2, h', g']
        rw [h5]
      · refine (hfree q hq h4 e' he').stem ?_
        rw [← h3, hv.stem]
    · exact hno a ((known q hq).plain e' he' a (List.mem_cons_of_mem _ ha)) h

/-- The key or an alias of an entry is `w`. -/
noncomputable def eqName (w : Text) (e : Entry) : Bool := !eachName (fun a => !eq a w) e

theorem eqName_sound (w : Text) (e : Entry) (h : eqName w e = true) : ∃ a ∈ e.key :: e.aliases, w = a := by
  refine ⟨w, ?_, rfl⟩
  by_contra hn
  have h1 : ∀ l : List Text, w ∉ l → each (fun a => !eq a w) l = true := by
    intro l hl
    induction l with
    | nil => rfl
    | cons a l ih =>
      rw [List.mem_cons, not_or] at hl
      show Bool.rec (motive := fun _ => Bool) false (each (fun a => !eq a w) l) (!eq a w) = true
      have h2 := eq_iff a w
      cases hb : eq a w with
      | true => exact absurd (h2.1 hb).symm hl.1
      | false => exact ih hl.2
  rw [List.mem_cons, not_or] at hn
  have h2 := eq_iff e.key w
  have h3 : eachName (fun a => !eq a w) e = true := by
    show Bool.rec (motive := fun _ => Bool) false (each (fun a => !eq a w) e.aliases) (!eq e.key w) = true
    cases hb : eq e.key w with
    | true => exact absurd (h2.1 hb).symm hn.1
    | false => exact h1 _ hn.2
  rw [eqName, h3] at h
  cases h

/-- An entry with a module and the alias `w` -/
noncomputable def weightAlias (w : Text) (e : Entry) : Bool := moduled e && !each (fun a => !eq a w) e.aliases

theorem weightAlias_sound (w : Text) (e : Entry) (h : weightAlias w e = true) : endsWith (key% "bias") e.key = false ∧ floating e.dtype = true ∧ w ∈ e.aliases := by
  rw [weightAlias, Bool.and_eq_true, moduled_eq] at h
  have h1 : endsWith (key% "bias") e.key = false ∧ floating e.dtype = true := by simpa using h.1
  refine ⟨h1.1, h1.2, ?_⟩
  obtain ⟨a, ha, rfl⟩ := eqName_sound w ⟨w ++ [0], e.shape, e.dtype, e.aliases, e.optional⟩ (by
    unfold eqName eachName
    have : eq (w ++ [0]) w = false := by
      have h2 := eq_iff (w ++ [0]) w
      cases hb : eq (w ++ [0]) w with
      | true => exact absurd (h2.1 hb) (by simp)
      | false => rfl
    dsimp only
    rw [this]
    exact h.2)
  rcases List.mem_cons.1 ha with ha | ha
  · exact absurd ha (by simp)
  · exact ha

theorem known_alias {p : Text × Table} (hp : p ∈ tables) {l : Lycoris.Config} (hl : l ∈ Lycoris.configsOf p.1) {w : Text}
    (h : ∃ e ∈ p.2.entries, endsWith (key% "bias") e.key = false ∧ floating e.dtype = true ∧ w ∈ e.aliases) : Spec.Known (lora l p.2) (str w) := by
  obtain ⟨e, he, hb, hf, ha⟩ := h
  unfold Spec.Known
  rw [lora_keys hp hl]
  exact ⟨_, List.mem_flatMap.2 ⟨e, he, mem_loraKeys.2 ⟨by rw [hb, hf]; rfl, key% "alpha", by simp [Lycoris.suffixes], rfl⟩⟩, .inr (List.mem_map.2 ⟨w, ha, rfl⟩)⟩

/-! ## C89 -/

open Inputs

/-- Whatever configs are registered: if all keys of an input that are known to any of them are known to `c`, one is known to `c` only, and enough of them are known,
then `c` is chosen. -/
theorem C89_general {E : Env} {param : Option RegCfg} {sd : List Str} (hu : Usable E.registry param sd) {c : RegCfg} (hc : c ∈ E.registry)
    (h1 : ∀ k ∈ sd, ∀ d ∈ E.registry, Spec.Known d.config k → Spec.Known c.config k)
    (h2 : ∃ k ∈ sd, Spec.Known c.config k ∧ ∀ d ∈ E.registry, d ≠ c → ¬ Spec.Known d.config k) (h3 : Enough sd c.config)
    (hp : ∀ p, param = some p → p = c ∨ ¬ Enough sd p.config) : inferred E param sd = .ok (some c) := by
  obtain ⟨r, hr, hch⟩ := inferred_spec hu
  obtain ⟨k, hk, hkc, hko⟩ := h2
  have hlt : ∀ d ∈ E.registry, d ≠ c → count sd d.config < count sd c.config := by
    intro d hd hne
    apply Finset.card_lt_card
    rw [Finset.ssubset_iff_of_subset fun x hx => ?_]
    · exact ⟨k, by simp [hk, hkc], by simp [hk, hko d hd hne]⟩
    · rw [Finset.mem_filter, List.mem_toFinset] at hx ⊢
      exact ⟨hx.1, h1 x hx.1 d hd hx.2⟩
  have hex : Examined E.registry sd c := by
    obtain ⟨pre, post, h⟩ := List.append_of_mem hc
    refine ⟨pre, post, h, fun d hd hs => ?_⟩
    have hnd := hu.nodup
    rw [h, List.nodup_append] at hnd
    have h4 := hlt d (by rw [h]; simp [hd]) (hnd.2.2 d hd c List.mem_cons_self)
    have h5 := count_le sd c.config
    have h6 := hs.1
    omega
  have hex' : ∀ d, Examined E.registry sd d → d ∈ E.registry := by
    rintro d ⟨pre, post, h, _⟩
    rw [h]
    simp
  rw [hr]
  congr 1
  by_cases hpc : param = some c
  · exact hch.unique (.param c hpc hex h3)
  · refine hch.unique (.best c (fun p h => ?_) hex h3 fun d hd hne => hlt d (hex' d hd) hne)
    rcases hp p h with rfl | h'
    · exact absurd h hpc
    · exact fun h => h' h.2

/-- The registry holds the shipped configs, in any order. -/
theorem usable {L : List RegCfg} (hL : L.Perm configs) {param : Option RegCfg} (hp : ∀ p, param = some p → p.hashable = true) {sd : List Str} (hsd : sd.length < 2 ^ 40) :
    Usable L param sd := by
  refine ⟨⟨hsd, fun c hc => ?_⟩, hL.nodup_iff.2 configs_nodup, fun c hc => ?_, hp⟩
  · obtain ⟨p, hp, rfl | ⟨l, hl, rfl⟩⟩ := mem_configs.1 (hL.mem_iff.1 hc)
    · rw [base_keys hp, List.length_map]
      have := (known p hp).size.1
      omega
    · rw [lora_length hp hl]
      have h1 := (known p hp).size.1
      have h2 : (stems p.2.entries).length ≤ p.2.entries.length := List.length_filterMap_le _ _
      omega
  · obtain ⟨p, hp, rfl | ⟨l, hl, rfl⟩⟩ := mem_configs.1 (hL.mem_iff.1 hc) <;> rfl

/-- **C89 (models).**  A model with all required keys of a shipped config, whose other keys are known to this config or to none, and at least a tenth of whose keys are
known: its config is found, for any parameter that does not ask for another one. -/
theorem C89_model {E : Env} (hL : E.registry.Perm configs) {p : Text × Table} (hp : p ∈ tables) {param : Option RegCfg} {sd : List Str} (hsd : sd.length < 2 ^ 40)
    (h1 : check sd (base p.1 p.2) true = .ok ()) (h2 : ∀ k ∈ sd, ∀ d ∈ configs, Spec.Known d.config k → Spec.Known (base p.1 p.2) k) (h3 : Enough sd (base p.1 p.2))
    (hparam : ∀ q, param = some q → q = ⟨base p.1 p.2, true⟩ ∨ q.hashable = true ∧ ¬ Enough sd q.config) :
    inferred E param sd = .ok (some ⟨base p.1 p.2, true⟩) := by
  have hc : (⟨base p.1 p.2, true⟩ : RegCfg) ∈ E.registry := hL.mem_iff.2 (mem_configs.2 ⟨p, hp, .inl rfl⟩)
  refine C89_general (usable hL (fun q hq => ?_) hsd) hc (fun k hk d hd => h2 k hk d (hL.mem_iff.1 hd)) ?_ h3 fun q hq => (hparam q hq).imp_right And.right
  · rcases hparam q hq with rfl | h
    · rfl
    · exact h.1
  · obtain ⟨q, hq, ho, ha, hother⟩ := own_base hp
    refine ⟨q.1, ?_, ⟨q, hq, .inl rfl⟩, fun d hd => hother d (hL.mem_iff.1 hd)⟩
    have := ((C42_check sd (base p.1 p.2) true).2.1 h1)
    by_contra hn
    refine this ⟨rfl, q, hq, ho, ?_⟩
    rintro (h | ⟨a, h, _⟩)
    · exact hn h
    · rw [ha] at h; cases h

/-- **C89 (LoRAs).**  The same for a LoRA with all modules of a shipped config. -/
theorem C89_lora {E : Env} (hL : E.registry.Perm configs) {p : Text × Table} (hp : p ∈ tables) {l : Lycoris.Config} (hl : l ∈ Lycoris.configsOf p.1)
    {param : Option RegCfg} {sd : List Str} (hsd : sd.length < 2 ^ 40)
    (h1 : ∀ k ∈ (lora l p.2).keys.keys, k ∈ sd) (h2 : ∀ k ∈ sd, ∀ d ∈ configs, Spec.Known d.config k → Spec.Known (lora l p.2) k) (h3 : Enough sd (lora l p.2))
    (hparam : ∀ q, param = some q → q = ⟨lora l p.2, true⟩ ∨ q.hashable = true ∧ ¬ Enough sd q.config) :
    inferred E param sd = .ok (some ⟨lora l p.2, true⟩) := by
  have hc : (⟨lora l p.2, true⟩ : RegCfg) ∈ E.registry := hL.mem_iff.2 (mem_configs.2 ⟨p, hp, .inr ⟨l, hl, rfl⟩⟩)
  refine C89_general (usable hL (fun q hq => ?_) hsd) hc (fun k hk d hd => h2 k hk d (hL.mem_iff.1 hd)) ?_ h3 fun q hq => (hparam q hq).imp_right And.right
  · rcases hparam q hq with rfl | h
    · rfl
    · exact h.1
  · obtain ⟨k, hk, hother⟩ := own_lora hp hl
    obtain ⟨q, hq, rfl⟩ := List.mem_map.1 hk
    exact ⟨q.1, h1 _ hk, ⟨q, hq, .inl rfl⟩, fun d hd => hother d (hL.mem_iff.1 hd)⟩

/-- **C89 (own keys).**  In particular a file with exactly the keys of a shipped config. -/
theorem C89_own {E : Env} (hL : E.registry.Perm configs) {c : RegCfg} (hc : c ∈ configs) : inferred E none c.config.keys.keys = .ok (some c) := by
  have hkn : ∀ k ∈ c.config.keys.keys, Spec.Known c.config k := fun k hk => by
    obtain ⟨q, hq, rfl⟩ := List.mem_map.1 hk
    exact ⟨q, hq, .inl rfl⟩
  have hen : Enough c.config.keys.keys c.config := by
    have : count c.config.keys.keys c.config = c.config.keys.keys.toFinset.card := by
      unfold count
      rw [Finset.filter_true_of_mem fun k hk => hkn k (List.mem_toFinset.1 hk)]
    unfold Enough
    omega
  have hlen : c.config.keys.keys.length < 2 ^ 40 := by
    have := ((usable hL (param := none) (fun _ h => by cases h) (sd := []) (by simp)).small.2 c (hL.mem_iff.2 hc))
    rw [show c.config.keys.keys.length = c.config.keys.length from List.length_map _]
    exact this
  obtain ⟨p, hp, rfl | ⟨l, hl, rfl⟩⟩ := mem_configs.1 hc
  · refine C89_model hL hp hlen ?_ (fun k hk _ _ _ => hkn k hk) hen (fun _ h => by cases h)
    rw [(C42_check _ _ _).2]
    rintro ⟨_, q, hq, _, h⟩
    exact h (.inl (List.mem_map.2 ⟨q, hq, rfl⟩))
  · exact C89_lora hL hp hl hlen (fun k hk => hk) (fun k hk _ _ _ => hkn k hk) hen (fun _ h => by cases h)

-- the keys of an SDXL checkpoint, and those of a LoRA for it
example (E : Env) (hL : E.registry.Perm configs) (t : Table) (ht : t = SdxlSgm.table) :
    inferred E none (base (key% "sdxl-sgm") t).keys.keys = .ok (some ⟨base (key% "sdxl-sgm") t, true⟩) ∧
    inferred E none (lora ⟨key% "sdxl-sgm", key% "kohya", key% "lora"⟩ t).keys.keys = .ok (some ⟨lora ⟨key% "sdxl-sgm", key% "kohya", key% "lora"⟩ t, true⟩) := by
  have hx : (key% "sdxl-sgm", t) ∈ tables := by simp [tables, ht]
  have h1 : (⟨base (key% "sdxl-sgm") t, true⟩ : RegCfg) ∈ configs := mem_configs.2 ⟨_, hx, .inl rfl⟩
  have h2 : (⟨lora ⟨key% "sdxl-sgm", key% "kohya", key% "lora"⟩ t, true⟩ : RegCfg) ∈ configs := mem_configs.2 ⟨_, hx, .inr ⟨_, by simp [Lycoris.configsOf], rfl⟩⟩
  exact ⟨C89_own hL h1, C89_own hL h2⟩

/-- What is missing for the claim to hold for every part of a model: a few keys that two configs know are not recognised. -/
theorem C89_shared_false {E : Env} (hL : E.registry.Perm configs) {c d : RegCfg} (hc : c ∈ configs) (hd : d ∈ configs) (hne : c ≠ d) {sd : List Str}
    (hsd : sd.length < 2 ^ 40) (hcard : sd.toFinset.card ≤ 18) (h1 : ∀ k ∈ sd, Spec.Known c.config k ∧ Spec.Known d.config k) :
    inferred E none sd = .ok none := by
  have hu := usable hL (param := none) (fun _ h => by cases h) hsd
  have hlen : ∀ x ∈ configs, 20 < x.config.keys.length := by
    intro x hx
    obtain ⟨p, hp, rfl | ⟨l, hl, rfl⟩⟩ := mem_configs.1 hx
    · rw [base_keys hp, List.length_map]
      exact (known p hp).size.2
    · rw [lora_length hp hl]
      have := (known p hp).modules
      omega
  have hex : ∀ x ∈ configs, Examined E.registry sd x := by
    intro x hx
    obtain ⟨pre, post, h⟩ := List.append_of_mem (hL.mem_iff.2 hx)
    refine ⟨pre, post, h, fun y hy hs => ?_⟩
    have h2 := hlen y (hL.mem_iff.1 (by rw [h]; simp [hy]))
    have h3 := hs.1
    have h4 := hs.2
    omega
  have hfull : ∀ x : RegCfg, (∀ k ∈ sd, Spec.Known x.config k) → count sd x.config = sd.toFinset.card := fun x hx => by
    unfold count
    rw [Finset.filter_true_of_mem fun k hk => hx k (List.mem_toFinset.1 hk)]
  obtain ⟨r, hr, hch⟩ := inferred_spec hu
  rw [hr]
  congr 1
  refine hch.unique (.none (fun _ h => by cases h) fun x _ _ => ?_)
  have hx := count_le sd x.config
  by_cases h : x = c
  · exact ⟨d, hex d hd, fun h' => hne (by rw [← h, h']), by rw [hfull d fun k hk => (h1 k hk).2]; exact hx⟩
  · exact ⟨c, hex c hc, fun h' => h h'.symm, by rw [hfull c fun k hk => (h1 k hk).1]; exact hx⟩

/-- The files of the VAE shared by SD1 and SDXL, and the weights of the SD1 text encoder under their older names, are such parts; the LoRA keys of SD1 have the aliases
of the keys they are for. -/
theorem C89_parts_false {E : Env} (hL : E.registry.Perm configs) :
    inferred E none [str (key% "first_stage_model.decoder.conv_in.weight"), str (key% "first_stage_model.decoder.conv_in.bias")] = .ok none ∧
    inferred E none [str (key% "cond_stage_model.transformer.embeddings.position_embedding.weight"),
      str (key% "cond_stage_model.transformer.embeddings.token_embedding.weight")] = .ok none := by
  have hl : (key% "sd1-ldm", Sd1Ldm.table) ∈ tables := by simp [tables]
  have hx : (key% "sdxl-sgm", SdxlSgm.table) ∈ tables := by simp [tables]
  have hid : ∀ {a b : ModelConfig}, a.identifier ≠ b.identifier → (⟨a, true⟩ : RegCfg) ≠ ⟨b, true⟩ := fun h h' => h (by rw [RegCfg.mk.inj h' |>.1])
  have hname : ∀ {es : List Entry} {src : List (List Entry)} (w : Text), es = src.flatten → somewhere (eqName w) src = true → ∃ e ∈ es, ∃ a ∈ e.key :: e.aliases, str w = str a := by
    intro es src w hs h
    obtain ⟨e, he, a, ha, rfl⟩ := somewhere_mono (eqName_sound w) hs h
    exact ⟨e, he, w, ha, rfl⟩
  constructor
  · refine C89_shared_false hL (mem_configs.2 ⟨_, hl, .inl rfl⟩) (mem_configs.2 ⟨_, hx, .inl rfl⟩) (hid (by decide +kernel)) (by simp) ?_ ?_
    · exact (List.toFinset_card_le _).trans (by simp)
    · simp only [List.forall_mem_cons, List.not_mem_nil, false_imp_iff, implies_true, and_true]
      refine ⟨⟨(known_base hl _).2 (hname _ Sd1Ldm.entries_eq ?_), (known_base hx _).2 (hname _ SdxlSgm.entries_eq ?_)⟩,
        (known_base hl _).2 (hname _ Sd1Ldm.entries_eq ?_), (known_base hx _).2 (hname _ SdxlSgm.entries_eq ?_)⟩ <;> kernel_rfl
  · have hm : (⟨key% "sd1-ldm", key% "kohya", key% "lora"⟩ : Lycoris.Config) ∈ Lycoris.configsOf (key% "sd1-ldm") := by simp [Lycoris.configsOf]
    refine C89_shared_false hL (mem_configs.2 ⟨_, hl, .inl rfl⟩) (mem_configs.2 ⟨_, hl, .inr ⟨_, hm, rfl⟩⟩) (hid (by decide +kernel)) (by simp) ?_ ?_
    · exact (List.toFinset_card_le _).trans (by simp)
    · simp only [List.forall_mem_cons, List.not_mem_nil, false_imp_iff, implies_true, and_true]
      refine ⟨⟨(known_base hl _).2 (hname _ Sd1Ldm.entries_eq ?_), known_alias hl hm (somewhere_mono (weightAlias_sound _) Sd1Ldm.entries_eq ?_)⟩,
        (known_base hl _).2 (hname _ Sd1Ldm.entries_eq ?_), known_alias hl hm (somewhere_mono (weightAlias_sound _) Sd1Ldm.entries_eq ?_)⟩ <;> kernel_rfl

/-! ## C90 -/

/-- **C90.**  In a shipped config, no name stands for two keys: the keys and the aliases are pairwise different. -/
theorem C90_names {p : Text × Table} (hp : p ∈ tables) : ((base p.1 p.2).keys.flatMap fun q => q.1 :: q.2.aliases).Nodup := by
  have hk := known p hp
  rw [base_keys hp, List.flatMap_map]
  have h := List.Nodup.map_on (f := str) (fun a ha b hb h => ?_) hk.names
  · rw [names, List.map_flatMap] at h
    exact h
  · obtain ⟨e, he, ha⟩ := List.mem_flatMap.1 ha
    obtain ⟨e', he', hb⟩ := List.mem_flatMap.1 hb
    exact str_inj (hk.plain e he a ha).ascii (hk.plain e' he' b hb).ascii h

/-- Not so for the LoRA configs of SD1: the keys of a module share their aliases. -/
theorem C90_lora_false : ∃ c ∈ configs, ∃ q ∈ c.config.keys, ∃ q' ∈ c.config.keys, q ≠ q' ∧ ∃ a, a ∈ q.2.aliases ∧ a ∈ q'.2.aliases := by
  have hl : (key% "sd1-ldm", Sd1Ldm.table) ∈ tables := by simp [tables]
  have hm : (⟨key% "sd1-ldm", key% "kohya", key% "lora"⟩ : Lycoris.Config) ∈ Lycoris.configsOf (key% "sd1-ldm") := by simp [Lycoris.configsOf]
  refine ⟨_, mem_configs.2 ⟨_, hl, .inr ⟨_, hm, rfl⟩⟩, ?_⟩
  obtain ⟨e, he, hb, hf, ha⟩ := somewhere_mono (weightAlias_sound (key% "cond_stage_model.transformer.embeddings.position_embedding.weight")) Sd1Ldm.entries_eq (by kernel_rfl)
  rw [lora_keys hl hm]
  have hq : ∀ s ∈ Lycoris.suffixes, _ ∈ Sd1Ldm.table.entries.flatMap (loraKeys (key% "lora")) := fun s hs =>
    List.mem_flatMap.2 ⟨e, he, mem_loraKeys.2 ⟨by rw [hb, hf]; rfl, s, hs, rfl⟩⟩
  refine ⟨_, hq (key% "alpha") (by simp [Lycoris.suffixes]), _, hq (key% "lora_up.weight") (by simp [Lycoris.suffixes]), ?_, _,
    List.mem_map.2 ⟨_, ha, rfl⟩, List.mem_map.2 ⟨_, ha, rfl⟩⟩
  intro h
  have h1 := (Prod.mk.inj h).1
  simp only [str_append, List.append_assoc, List.append_cancel_left_eq] at h1
  revert h1
  decide +kernel

/-! ## C91 -/

/-- **C91.**  Within a shipped config, the keys for which a LoRA can have a module have different modules, whatever the prefix. -/
theorem C91_modules {p : Text × Table} (hp : p ∈ tables) (pre : Text) {e e' : Entry} (he : e ∈ p.2.entries) (he' : e' ∈ p.2.entries) {m : Text}
    (h : Lycoris.moduleName pre e.key (floating e.dtype) = some m) (h' : Lycoris.moduleName pre e'.key (floating e'.dtype) = some m) : e = e' := by
  have hk := (known p hp).stems
  rw [moduleName_stem] at h h'
  split at h
  · cases h
  split at h'
  · cases h'
  rename_i h1 h2
  have h3 : stem e.key = stem e'.key := by
    have := (Option.some.inj h).trans (Option.some.inj h').symm
    simpa using this
  by_contra hne
  unfold stems at hk
  have h4 := List.pairwise_filterMap.1 hk
  have : Std.Symm fun a a' : Entry => ∀ b, (if (endsWith (key% "bias") a.key || !floating a.dtype) = true then none else some (stem a.key)) = some b →
      ∀ b', (if (endsWith (key% "bias") a'.key || !floating a'.dtype) = true then none else some (stem a'.key)) = some b' → b ≠ b' := ⟨fun x y h a ha b hb => (h b hb a ha).symm⟩
  exact h4.forall he he' hne _ (if_neg h1) _ (if_neg h2) h3

example : Lycoris.moduleName (key% "lora") (key% "te.text_model.encoder.layers.0.mlp.fc1.weight") true = some (key% "lora_te_text_model_encoder_layers_0_mlp_fc1") := by
  decide +kernel

/-- … so a LoRA config has three keys for each of these keys, and none is lost. -/
theorem C91_keys {p : Text × Table} (hp : p ∈ tables) {l : Lycoris.Config} (hl : l ∈ Lycoris.configsOf p.1) :
    (lora l p.2).keys.length = 3 * (p.2.entries.filter fun e => !endsWith (key% "bias") e.key && floating e.dtype).length := by
  rw [lora_length hp hl, stems]
  congr 1
  generalize p.2.entries = es
  induction es with
  | nil => rfl
  | cons e es ih =>
    rw [List.filterMap_cons, List.filter_cons]
    cases endsWith (key% "bias") e.key <;> cases floating e.dtype <;> simpa using ih

end Verif.Shipped
