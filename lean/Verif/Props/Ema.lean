import Verif.Data.CertEma

/-! # C87: exchange of the averaged weights -/
namespace Verif.Ema
open Data Fast

/-- The part of the config that is neither weights of the diffusion model nor averages -/
noncomputable def others : List (List Entry) := [Sd1Ldm.clip_l0, Sd1Ldm.clip_l1, Sd1Ldm.vae0, Sd1Ldm.vae1, Sd1Ldm.vae2, Sd1Ldm.scheduler0]

/-- The two averages that belong to no weight -/
noncomputable def counters : List Entry := Sd1Ldm.ema0.take 2

theorem counters_keys : counters.map (·.key) = [key% "model_ema.decay", key% "model_ema.num_updates"] := by kernel_rfl

theorem ema_eq : Sd1Ldm.ema = counters ++ CertEma.source.flatten := by
  have h : counters ++ rest Sd1Ldm.ema0 = Sd1Ldm.ema0 := rfl
  have h2 : CertEma.source.flatten = rest Sd1Ldm.ema0 ++ (Sd1Ldm.ema1 ++ (Sd1Ldm.ema2 ++ (Sd1Ldm.ema3 ++ (Sd1Ldm.ema4 ++ (Sd1Ldm.ema5 ++ Sd1Ldm.ema6))))) := by
    simp [CertEma.source]
  rw [h2, ← List.append_assoc, h]
  simp [Sd1Ldm.ema]

theorem diffuser_eq : Sd1Ldm.diffuser = CertEma.target.flatten := by simp [CertEma.target, Sd1Ldm.diffuser]

theorem identifier_eq : Sd1Ldm.table.identifier = key% "sd1-ldm" := rfl

theorem mem_entries (e : Entry) : e ∈ Sd1Ldm.table.entries ↔ e ∈ others.flatten ∨ e ∈ Sd1Ldm.diffuser ∨ e ∈ Sd1Ldm.ema := by
  simp only [Table.entries, Sd1Ldm.table, others, Sd1Ldm.clip_l, Sd1Ldm.vae, Sd1Ldm.scheduler, List.flatMap_cons, List.flatMap_nil, List.mem_append, List.flatten_cons, List.flatten_nil,
    List.not_mem_nil, or_false]
  tauto

theorem toEma_spec (k : Text) : toEma k = key% "model_ema." ++ (k.drop 6).filter (· ≠ 46) := by rw [toEma, replace_dot]

/-- What the averaged keys begin with -/
noncomputable def starts : List Text := [key% "model_ema.diffusion_model", key% "model_ema.decay", key% "model_ema.num_updates"]

theorem diffuser_start : ∀ e ∈ Sd1Ldm.diffuser, key% "model.diffusion_model" <+: e.key := by
  have h : everywhere (fun e => isPrefix (key% "model.diffusion_model") e.key) CertEma.target = true := by kernel_rfl
  intro e he
  rw [diffuser_eq] at he
  have := everywhere_sound _ _ h e he
  rwa [isPrefix_eq, List.isPrefixOf_iff_prefix] at this

theorem source_start : ∀ e ∈ CertEma.source.flatten, key% "model_ema.diffusion_model" <+: e.key := by
  have h : everywhere (fun e => isPrefix (key% "model_ema.diffusion_model") e.key) CertEma.source = true := by kernel_rfl
  intro e he
  have := everywhere_sound _ _ h e he
  rwa [isPrefix_eq, List.isPrefixOf_iff_prefix] at this

theorem others_start : ∀ e ∈ others.flatten, ¬ key% "model" <+: e.key ∧ ∀ p ∈ starts, ¬ p <+: toEma e.key := by
  have h : everywhere (fun e => !isPrefix (key% "model") e.key && !isPrefix (key% "model_ema.diffusion_model") (Fast.toEma e.key) &&
      !isPrefix (key% "model_ema.decay") (Fast.toEma e.key) && !isPrefix (key% "model_ema.num_updates") (Fast.toEma e.key)) others = true := by kernel_rfl
  intro e he
  have := everywhere_sound _ _ h e he
  simp only [Bool.and_eq_true, Bool.not_eq_true', isPrefix_eq, toEma_eq, ← Bool.not_eq_true, List.isPrefixOf_iff_prefix] at this
  simp only [starts, List.forall_mem_cons, List.not_mem_nil, false_implies, implies_true, and_true]
  tauto

theorem ema_start (e : Entry) (he : e ∈ Sd1Ldm.ema) : ∃ p ∈ starts, p <+: e.key := by
  rw [ema_eq, List.mem_append] at he
  rcases he with he | he
  · have := List.mem_map_of_mem (f := (·.key)) he
    rw [counters_keys] at this
    simp only [List.mem_cons, List.not_mem_nil, or_false] at this
    exact ⟨e.key, by simp only [starts, List.mem_cons, List.not_mem_nil, or_false]; tauto, List.prefix_rfl⟩
  · exact ⟨_, by simp [starts], source_start e he⟩

theorem ema_prefix (e : Entry) (he : e ∈ Sd1Ldm.ema) : key% "model_ema." <+: e.key := by
  obtain ⟨p, hp, h⟩ := ema_start e he
  refine List.IsPrefix.trans ?_ h
  simp only [starts, List.mem_cons, List.not_mem_nil, or_false] at hp
  rcases hp with rfl | rfl | rfl <;> exact List.isPrefixOf_iff_prefix.1 rfl

theorem toEma_prefix (k : Text) : key% "model_ema." <+: toEma k := List.prefix_append _ _

theorem not_both {k : Text} (h1 : key% "model." <+: k) (h2 : key% "model_ema." <+: k) : False := by
  have := List.prefix_of_prefix_length_le h1 h2 (by decide)
  rw [← List.isPrefixOf_iff_prefix] at this
  exact absurd this (by decide)

theorem diffuser_model (e : Entry) (he : e ∈ Sd1Ldm.diffuser) : key% "model." <+: e.key :=
  (List.isPrefixOf_iff_prefix.1 rfl : key% "model." <+: key% "model.diffusion_model").trans (diffuser_start e he)

/-- The average of an average does not exist. -/
theorem toEma_ema (e : Entry) (he : e ∈ Sd1Ldm.ema) (p : Text) (hp : p ∈ starts) : ¬ p <+: toEma e.key := by
  obtain ⟨x, hx⟩ := ema_prefix e he
  intro h
  rw [toEma_spec, ← hx] at h
  have h2 : key% "model_ema.e" <+: key% "model_ema." ++ ((key% "model_ema." ++ x).drop 6).filter (· ≠ 46) := by
    refine List.isPrefixOf_iff_prefix.1 ?_
    simp
  simp only [starts, List.mem_cons, List.not_mem_nil, or_false] at hp
  rcases hp with rfl | rfl | rfl <;>
    exact absurd (List.isPrefixOf_iff_prefix.2 (List.prefix_of_prefix_length_le h2 h (by decide))) (by decide)

/-- Only weights of the diffusion model have an average. -/
theorem toEma_mem {e : Entry} (he : e ∈ Sd1Ldm.table.entries) (h : toEma e.key ∈ Sd1Ldm.table.entries.map (·.key)) : e ∈ Sd1Ldm.diffuser := by
  obtain ⟨a, ha, hk⟩ := List.mem_map.1 h
  have hma : a ∈ Sd1Ldm.ema := by
    have hp := toEma_prefix e.key
    rw [← hk] at hp
    rcases (mem_entries a).1 ha with h1 | h1 | h1
    · exact absurd ((List.isPrefixOf_iff_prefix.1 rfl : key% "model" <+: key% "model_ema.").trans hp) (others_start a h1).1
    · exact (not_both (diffuser_model a h1) hp).elim
    · exact h1
  obtain ⟨p, hp, hpa⟩ := ema_start a hma
  rw [hk] at hpa
  rcases (mem_entries e).1 he with h1 | h1 | h1
  · exact absurd hpa ((others_start e h1).2 p hp)
  · exact h1
  · exact absurd hpa (toEma_ema e h1 p hp)

theorem fn_eq (k : Text) : toEmaFn Sd1Ldm.table.identifier k = toEma k := by rw [toEmaFn, if_pos identifier_eq]

/-- The average of a weight -/
theorem average (e : Entry) (he : e ∈ Sd1Ldm.diffuser) : ∃ a ∈ CertEma.source.flatten, a.key = toEma e.key ∧ a.shape = e.shape := by
  rw [diffuser_eq] at he
  obtain ⟨c, hc⟩ := CertEma.allGood.entry he
  generalize hf : emaConv e.key = f at hc
  unfold emaConv at hf
  rw [toEma_eq] at hf
  cases hc with
  | lost h => cases h
  | read i j s hs hf' hsh hsp =>
    rw [hf', Option.some.injEq, Convert.Conv.read.injEq] at hf
    exact ⟨s, hs.mem, hf.symm, hsh⟩
  | _ => simp_all

theorem toEma_injective {e₁ e₂ : Entry} (h₁ : e₁ ∈ Sd1Ldm.diffuser) (h₂ : e₂ ∈ Sd1Ldm.diffuser) (h : toEma e₁.key = toEma e₂.key) : e₁.key = e₂.key := by
  rw [diffuser_eq] at h₁ h₂
  by_contra hne
  refine CertEma.allFresh.disjoint CertEma.allGood CertEma.nodup h₁ h₂ (by simp [never]) (by simp [never]) hne rfl rfl (a := toEma e₁.key) ?_ ?_
  · simp [Convert.Spec.reads, toEma_eq]
  · simp [Convert.Spec.reads, toEma_eq, h]

theorem exchange_diffuser (e : Entry) (he : e ∈ Sd1Ldm.diffuser) : exchangeKey Sd1Ldm.table e.key = toEma e.key := by
  obtain ⟨a, ha, hk, _⟩ := average e he
  have hm : a ∈ Sd1Ldm.table.entries := (mem_entries a).2 (.inr (.inr (ema_eq ▸ List.mem_append_right _ ha)))
  unfold exchangeKey
  rw [fn_eq, if_pos (hk ▸ List.mem_map_of_mem hm)]

theorem exchange_average (e : Entry) (he : e ∈ Sd1Ldm.diffuser) : exchangeKey Sd1Ldm.table (toEma e.key) = e.key := by
  obtain ⟨a, ha, hk, _⟩ := average e he
  have hma : a ∈ Sd1Ldm.ema := ema_eq ▸ List.mem_append_right _ ha
  have hm : a ∈ Sd1Ldm.table.entries := (mem_entries a).2 (.inr (.inr hma))
  have hne : toEma a.key ∉ Sd1Ldm.table.entries.map (·.key) := fun h =>
    not_both (diffuser_model a (toEma_mem hm h)) (ema_prefix a hma)
  unfold exchangeKey
  simp only [fn_eq]
  rw [← hk, if_neg hne]
  cases hf : (Sd1Ldm.table.entries.map (·.key)).find? fun i => decide (toEma i = a.key) with
  | none =>
    have := List.find?_eq_none.1 hf e.key (List.mem_map_of_mem ((mem_entries e).2 (.inr (.inl he))))
    simp [hk] at this
  | some i =>
    have h1 := List.find?_some hf
    obtain ⟨d, hd, rfl⟩ := List.mem_map.1 (List.mem_of_find?_eq_some hf)
    simp only [decide_eq_true_eq] at h1
    exact toEma_injective (toEma_mem hd (h1 ▸ List.mem_map_of_mem hm)) he (h1.trans hk)

/-- **C87.**  Every weight of the diffusion model is exchanged with an average of the same shape, whose key is that of the weight with `model_ema.` for
`model.` and without the other dots. -/
theorem C87_swap (e : Entry) (he : e ∈ Sd1Ldm.diffuser) :
    ∃ x, e.key = key% "model." ++ x ∧ ∃ a ∈ Sd1Ldm.ema, a.key = key% "model_ema." ++ x.filter (· ≠ 46) ∧ a.shape = e.shape ∧
      exchangeKey Sd1Ldm.table e.key = a.key ∧ exchangeKey Sd1Ldm.table a.key = e.key := by
  obtain ⟨x, hx⟩ := diffuser_model e he
  obtain ⟨a, ha, hk, hs⟩ := average e he
  refine ⟨x, hx.symm, a, ema_eq ▸ List.mem_append_right _ ha, ?_, hs, (exchange_diffuser e he).trans hk.symm, ?_⟩
  · rw [hk, toEma_spec, ← hx]
    rfl
  · rw [hk, exchange_average e he]

/-- **C87.**  Every average is exchanged with a weight, except for the two counters. -/
theorem C87_averages (a : Entry) (ha : a ∈ Sd1Ldm.ema) (h1 : a.key ≠ key% "model_ema.decay") (h2 : a.key ≠ key% "model_ema.num_updates") :
    ∃ e ∈ Sd1Ldm.diffuser, exchangeKey Sd1Ldm.table a.key = e.key ∧ exchangeKey Sd1Ldm.table e.key = a.key := by
  rw [ema_eq, List.mem_append] at ha
  rcases ha with ha | ha
  · have := List.mem_map_of_mem (f := (·.key)) ha
    rw [counters_keys] at this
    simp only [List.mem_cons, List.not_mem_nil, or_false] at this
    exact (this.elim h1 h2).elim
  · obtain ⟨e, he, v, hv, hr⟩ := CertEma.allFresh.used CertEma.allGood CertEma.covers CertEma.below ha (by simp [never])
    cases hv
    rw [Convert.Spec.reads, List.mem_singleton, toEma_eq] at hr
    rw [← diffuser_eq] at he
    refine ⟨e, he, ?_, ?_⟩
    · rw [hr, exchange_average e he]
    · rw [hr, exchange_diffuser e he]

/-- **C87.**  All other keys are left alone, including the two counters. -/
theorem C87_rest (e : Entry) (he : e ∈ Sd1Ldm.table.entries) (h1 : e ∉ Sd1Ldm.diffuser)
    (h2 : e ∈ Sd1Ldm.ema → e.key = key% "model_ema.decay" ∨ e.key = key% "model_ema.num_updates") : exchangeKey Sd1Ldm.table e.key = e.key := by
  have hne : toEma e.key ∉ Sd1Ldm.table.entries.map (·.key) := fun h => h1 (toEma_mem he h)
  unfold exchangeKey
  simp only [fn_eq]
  rw [if_neg hne]
  cases hf : (Sd1Ldm.table.entries.map (·.key)).find? fun i => decide (toEma i = e.key) with
  | none => rfl
  | some i =>
    exfalso
    have h3 := List.find?_some hf
    obtain ⟨d, hd, rfl⟩ := List.mem_map.1 (List.mem_of_find?_eq_some hf)
    simp only [decide_eq_true_eq] at h3
    have hdd := toEma_mem hd (h3 ▸ List.mem_map_of_mem he)
    obtain ⟨a, ha, hk, _⟩ := average d hdd
    have hsa := source_start a ha
    rw [hk, h3] at hsa
    rcases (mem_entries e).1 he with h4 | h4 | h4
    · exact (others_start e h4).1 ((List.isPrefixOf_iff_prefix.1 rfl : key% "model" <+: key% "model_ema.diffusion_model").trans hsa)
    · exact h1 h4
    · rcases h2 h4 with h5 | h5 <;>
      · rw [h5, ← List.isPrefixOf_iff_prefix] at hsa
        exact absurd hsa (by decide)

/-- **C87.**  Exchanging twice changes nothing, whatever the model. -/
theorem C87_twice {T : Type} (model : Text → Option T) (e : Entry) (he : e ∈ Sd1Ldm.table.entries) :
    exchangeEma Sd1Ldm.table (exchangeEma Sd1Ldm.table model) e.key = model e.key := by
  unfold exchangeEma
  by_cases h1 : e ∈ Sd1Ldm.diffuser
  · obtain ⟨x, _, a, _, _, _, h2, h3⟩ := C87_swap e h1
    rw [h2, h3]
  · by_cases h2 : e ∈ Sd1Ldm.ema ∧ e.key ≠ key% "model_ema.decay" ∧ e.key ≠ key% "model_ema.num_updates"
    · obtain ⟨d, _, h3, h4⟩ := C87_averages e h2.1 h2.2.1 h2.2.2
      rw [h3, h4]
    · rw [C87_rest e he h1 (by tauto), C87_rest e he h1 (by tauto)]

/-- **C87.**  With any other config, the model is left alone: for every string, in the config or not. -/
theorem C87_other {T : Type} (t : Table) (h : t.identifier ≠ key% "sd1-ldm") (model : Text → Option T) : exchangeEma t model = model := by
  funext k
  unfold exchangeEma exchangeKey
  simp only [toEmaFn, if_neg h]
  split
  · rfl
  · cases hf : (t.entries.map (·.key)).find? fun i => decide (i = k) with
    | none => rfl
    | some i =>
      have := List.find?_some hf
      simp only [decide_eq_true_eq] at this
      rw [this]

/-- **C87.**  A model without averages, though they are optional, has no weights for the diffusion model afterwards. -/
theorem C87_missing_false {T : Type} (model : Text → Option T) (h : ∀ a ∈ Sd1Ldm.ema, model a.key = none) (e : Entry) (he : e ∈ Sd1Ldm.diffuser) :
    exchangeEma Sd1Ldm.table model e.key = none := by
  obtain ⟨x, _, a, ha, _, _, h2, _⟩ := C87_swap e he
  unfold exchangeEma
  rw [h2, h a ha]

theorem averages_optional : ∀ a ∈ Sd1Ldm.ema, a.optional = true := by
  have h : everywhere (fun e => e.optional) CertEma.source = true := by kernel_rfl
  have h2 : counters.all (fun e => e.optional) = true := by kernel_rfl
  intro a ha
  rw [ema_eq, List.mem_append] at ha
  rcases ha with ha | ha
  · exact List.all_eq_true.1 h2 a ha
  · exact everywhere_sound _ _ h a ha

/-- A weight and its average -/
example : ∃ e ∈ Sd1Ldm.diffuser, e.key = key% "model.diffusion_model.out.2.weight" ∧ exchangeKey Sd1Ldm.table e.key = key% "model_ema.diffusion_modelout2weight" := by
  have h : somewhere (is (key% "model.diffusion_model.out.2.weight") [4, 320, 3, 3]) CertEma.target = true := by kernel_rfl
  obtain ⟨e, he, h2⟩ := somewhere_sound _ _ h
  rw [← diffuser_eq] at he
  have h3 := ((is_iff _ _ _).1 h2).1
  refine ⟨e, he, h3, ?_⟩
  rw [exchange_diffuser e he, h3]
  rfl

/-- Another config -/
example : (⟨key% "sdxl-sgm", []⟩ : Table).identifier ≠ key% "sd1-ldm" := by decide

end Verif.Ema
