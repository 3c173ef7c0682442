import Verif.Model.Registered
import Verif.Props.Conversion
import Verif.Props.Yaml

/-!
# C79: the conversions the library comes with
-/
namespace Verif.Shipped
open Method Conversion Conversion.Spec

/-- The names of the files, without extension -/
def names : List Text :=
  [key% "flux-flux", key% "flux-flux_diffuser_only", key% "sd1-kohya", key% "sd1-ldm", key% "sd1-supermerger_blocks", key% "sd3-comfyui",
   key% "sdxl-diffusers_unet_only", key% "sdxl-kohya", key% "sdxl-sgm", key% "sdxl-supermerger_blocks"]

theorem tables_names : tables.map (·.1) = names := rfl

/-- **C79 (names).**  Every conversion that comes with the library, also those that are not imported, is between configs that are registered:
each goes by the name of its file. -/
theorem C79_named : ∀ n ∈ imported ++ flux, (∃ p ∈ tables, p.1 = n.src) ∧ ∃ p ∈ tables, p.1 = n.tgt := by
  have h : ∀ t : Text, (∃ p ∈ tables, p.1 = t) ↔ t ∈ names := fun t => by rw [← tables_names, List.mem_map]
  simp only [h]
  decide +kernel

/-- The conversions in one step -/
def direct : List (Text × Text) := (imported ++ names.flatMap loraNamed).map fun n => (n.src, n.tgt)

/-- The conversions in two steps: first from a LoRA to its model, then from the layout of the model -/
def twoSteps : List (Text × Text) := imported.flatMap fun n => (Lycoris.configsOf n.src).map fun c => (c.identifier, n.tgt)

theorem str_inj_direct : ∀ x ∈ direct, ∀ y ∈ direct, str x.2 = str y.1 → x.2 = y.1 ∧ (x.1, y.2) ∈ twoSteps := by decide +kernel

theorem two_not : ∀ x ∈ direct, ∀ y ∈ twoSteps, str x.2 ≠ str y.1 := by decide +kernel

theorem two_direct : ∀ y ∈ twoSteps, ∃ x ∈ direct, ∃ z ∈ direct, x.1 = y.1 ∧ x.2 = z.1 ∧ z.2 = y.2 := by decide +kernel

theorem mem_registered {bases : List Text} (hb : bases.Perm names) (c : Converter) : c ∈ registered bases → ∃ x ∈ direct, c.src = str x.1 ∧ c.tgt = str x.2 := by
  intro h
  obtain ⟨n, hn, rfl⟩ := List.mem_map.1 h
  refine ⟨(n.src, n.tgt), List.mem_map.2 ⟨n, ?_, rfl⟩, rfl, rfl⟩
  rcases List.mem_append.1 hn with h | h
  · exact List.mem_append_left _ h
  · obtain ⟨b, hm, h⟩ := List.mem_flatMap.1 h
    exact List.mem_append_right _ (List.mem_flatMap.2 ⟨b, hb.mem_iff.1 hm, h⟩)

theorem of_direct {bases : List Text} (hb : bases.Perm names) {x : Text × Text} (h : x ∈ direct) : ∃ c ∈ registered bases, c.src = str x.1 ∧ c.tgt = str x.2 := by
  obtain ⟨n, hn, rfl⟩ := List.mem_map.1 h
  refine ⟨n.converter, List.mem_map.2 ⟨n, ?_, rfl⟩, rfl, rfl⟩
  rcases List.mem_append.1 hn with h | h
  · exact List.mem_append_left _ h
  · obtain ⟨b, hm, h⟩ := List.mem_flatMap.1 h
    exact List.mem_append_right _ (List.mem_flatMap.2 ⟨b, hb.mem_iff.2 hm, h⟩)

/-- **C79 (what can be converted).**  After import, whatever the order in which the files are found: a chain of conversions leads from one config
to another exactly if they are the same, one is a LoRA config of the other, one of the five imported conversions leads from one to the other, or
such a conversion leads on from the model of a LoRA. -/
theorem C79_reach {bases : List Text} (hb : bases.Perm names) (a b : Str) :
    (∃ q, Chain (registered bases) a q b) ↔ a = b ∨ ∃ x ∈ direct ++ twoSteps, a = str x.1 ∧ b = str x.2 := by
  constructor
  · rintro ⟨q, h⟩
    induction h with
    | nil a => exact .inl rfl
    | @cons b p c hc h ih =>
      obtain ⟨x, hx, h1, h2⟩ := mem_registered hb c hc
      rw [h1]; rw [h2] at ih
      right
      rcases ih with rfl | ⟨y, hy, h3, rfl⟩
      · exact ⟨x, List.mem_append_left _ hx, rfl, rfl⟩
      · rcases List.mem_append.1 hy with hy | hy
        · exact ⟨_, List.mem_append_right _ (str_inj_direct x hx y hy h3).2, rfl, rfl⟩
        · exact absurd h3 (two_not x hx y hy)
  · rintro (rfl | ⟨x, hx, rfl, rfl⟩)
    · exact ⟨[], .nil _⟩
    · rcases List.mem_append.1 hx with hx | hx
      · obtain ⟨c, hc, h1, h2⟩ := of_direct hb hx
        rw [← h1, ← h2]
        exact ⟨_, .cons c hc (.nil _)⟩
      · obtain ⟨y, hy, z, hz, h1, h2, h3⟩ := two_direct x hx
        obtain ⟨c, hc, h4, h5⟩ := of_direct hb hy
        obtain ⟨d, hd, h6, h7⟩ := of_direct hb hz
        have hh : Chain (registered bases) c.tgt [d.name] (str x.2) := by
          rw [h5, h2, ← h6, ← h3, ← h7]
          exact .cons d hd (.nil _)
        rw [← h1, ← h4]
        exact ⟨_, .cons c hc hh⟩

/-- The architecture in an identifier (`sdxl` in `sdxl-sgm`) -/
def architecture (s : Str) : Str := s.takeWhile (· ≠ '-')

theorem direct_architecture : ∀ x ∈ direct ++ twoSteps, architecture (str x.1) = architecture (str x.2) := by decide +kernel

theorem to_original : (∀ t ∈ names, architecture (str t) = "sdxl".toList → str t = "sdxl-sgm".toList ∨ (t, key% "sdxl-sgm") ∈ direct) ∧
    ∀ t ∈ names, architecture (str t) = "sd1".toList → str t = "sd1-ldm".toList ∨ (t, key% "sd1-ldm") ∈ direct := by decide +kernel

/-- **C79 (architectures).**  No chain of conversions leads to another architecture, and every config for SDXL or SD1 that comes with the library can be
converted to the original layout. -/
theorem C79_architecture {bases : List Text} (hb : bases.Perm names) :
    (∀ a b, (∃ q, Chain (registered bases) a q b) → architecture a = architecture b) ∧
    (∀ t ∈ names, architecture (str t) = "sdxl".toList → ∃ q, Chain (registered bases) (str t) q "sdxl-sgm".toList) ∧
    ∀ t ∈ names, architecture (str t) = "sd1".toList → ∃ q, Chain (registered bases) (str t) q "sd1-ldm".toList := by
  refine ⟨fun a b h => ?_, fun t ht h => ?_, fun t ht h => ?_⟩
  · rcases (C79_reach hb a b).1 h with rfl | ⟨x, hx, rfl, rfl⟩
    · rfl
    · exact direct_architecture x hx
  · rw [C79_reach hb]
    exact (to_original.1 t ht h).imp id fun h => ⟨_, List.mem_append_left _ h, rfl, rfl⟩
  · rw [C79_reach hb]
    exact (to_original.2 t ht h).imp id fun h => ⟨_, List.mem_append_left _ h, rfl, rfl⟩

theorem flux_not_direct : ∀ x ∈ direct ++ twoSteps, str x.1 ≠ str (key% "flux-flux") ∧ str x.1 ≠ str (key% "flux-flux_diffuser_only") := by decide +kernel

/-- **C79 (import) is false.**  The conversions between the two Flux configs are not registered: `convert` finds no chain either way, and raises. -/
theorem C79_flux_false {F : Type} (E : Recipe.Env F) {bases : List Text} (hb : bases.Perm names) (v : Recipe.Val F) : ∀ n ∈ flux,
    (¬ ∃ q, Chain (registered bases) (str n.src) q (str n.tgt)) ∧ ∀ r, convert E (registered bases) v (str n.src) (str n.tgt) ≠ some (.ok r) := by
  have h1 : ∀ n ∈ flux, str n.src ≠ str n.tgt ∧ ∀ x ∈ direct ++ twoSteps, str n.src ≠ str x.1 := by decide +kernel
  intro n hn
  have hc : ¬ ∃ q, Chain (registered bases) (str n.src) q (str n.tgt) := by
    rw [C79_reach hb]
    rintro (h | ⟨x, hx, h, -⟩)
    · exact (h1 n hn).1 h
    · exact (h1 n hn).2 x hx h
  refine ⟨hc, fun r h => ?_⟩
  rcases (C20_complete (registered bases) (str n.src) (str n.tgt)).2 with ⟨h2, -⟩ | ⟨-, h2⟩
  · exact hc h2
  · unfold convert conversionRecipe at h
    split at h
    · cases h
    · rcases h2 with h2 | h2 <;> rw [h2] at h <;> cases h

/-- **C79 (identifiers).**  The identifier in a file is the name of the file, but for the two Flux files. -/
theorem C79_identifier_partial : ∀ p ∈ tables, p.1 ≠ key% "flux-flux" → p.1 ≠ key% "flux-flux_diffuser_only" → p.2.identifier = p.1 := by
  intro p hp h1 h2
  unfold tables at hp
  simp only [List.mem_cons, List.not_mem_nil, or_false] at hp
  rcases hp with rfl | rfl | rfl | rfl | rfl | rfl | rfl | rfl | rfl | rfl
  · exact absurd rfl h1
  · exact absurd rfl h2
  all_goals rfl

theorem get_architecture (torch : Str → Option Yaml.Obj) (name : Str) (doc u : Yaml.Obj) (h : Yaml.fromYaml torch doc = .ok u) :
    ((Yaml.Lazy.new name).get torch (.ok doc) .architecture).2 = Yaml.view u .architecture := by
  simp only [Yaml.Lazy.get, Yaml.Lazy.new, Yaml.Lazy.ensure, h, reduceCtorEq, if_false]

/-- **C79 (identifiers) is false.**  The files of the two Flux configs have other identifiers than their names: the config that is registered as
`flux-flux` tells the architecture `flux_dev`, `flux-flux_diffuser_only` tells `flux_dev_unet_only`. -/
theorem C79_identifier_false : (∃ p ∈ tables, p.1 = key% "flux-flux" ∧ p.2.identifier = key% "flux_dev-flux") ∧
    (∃ p ∈ tables, p.1 = key% "flux-flux_diffuser_only" ∧ p.2.identifier = key% "flux_dev_unet_only-flux") ∧
    ∀ (torch : Str → Option Yaml.Obj) (doc : Yaml.Obj) (c : Config.ModelConfig), Yaml.Spec.Says torch doc c → c.identifier = str (key% "flux_dev-flux") →
      ((Yaml.Lazy.new "flux-flux.yaml".toList).get torch (.ok doc) .identifier).2 = .ok (.text "flux-flux".toList) ∧
        ((Yaml.Lazy.new "flux-flux.yaml".toList).get torch (.ok doc) .architecture).2 = .ok (.text "flux_dev".toList) := by
  refine ⟨⟨(_, Data.FluxFlux.table), List.mem_cons_self, rfl, rfl⟩, ⟨(_, Data.FluxFluxDiffuserOnly.table), List.mem_cons_of_mem _ List.mem_cons_self, rfl, rfl⟩, fun torch doc c h hc => ⟨rfl, ?_⟩⟩
  obtain ⟨l, ho, -⟩ := Yaml.fromYaml_says h (by rw [hc]; exact (Yaml.validId_iff _).1 rfl)
  rw [hc] at ho
  exact (get_architecture torch _ doc _ ho).trans rfl

/-! ## Examples -/
namespace Ex

/-- C79_reach: from a LoRA of a diffusers model to the original layout, but not back. -/
example : (∃ q, Chain (registered names) "sdxl-diffusers_unet_only_kohya_lora".toList q "sdxl-sgm".toList) ∧
    ¬ ∃ q, Chain (registered names) "sdxl-sgm".toList q "sdxl-diffusers_unet_only".toList := by
  simp only [C79_reach (List.Perm.refl names)]
  decide +kernel

/-- C79_architecture applies to `sdxl-kohya`. -/
example : ∃ q, Chain (registered names) "sdxl-kohya".toList q "sdxl-sgm".toList :=
  (C79_architecture (List.Perm.refl names)).2.1 (key% "sdxl-kohya") (by decide) (by decide +kernel)

/-- C79_flux_false applies. -/
example (v : Recipe.Val ℤ) (E : Recipe.Env ℤ) (r) : convert E (registered names) v "flux-flux".toList "flux-flux_diffuser_only".toList ≠ some (.ok r) :=
  (C79_flux_false E (List.Perm.refl names) v ⟨key% "convert_flux_to_backbone_only", key% "flux-flux", key% "flux-flux_diffuser_only"⟩ (by decide)).2 r

/-- C79_identifier_partial applies, and C79_identifier_false has a document. -/
example : (∃ p ∈ tables, p.1 = key% "sd1-ldm" ∧ p.2.identifier = key% "sd1-ldm") ∧
    ∃ doc c, Yaml.Spec.Says Yaml.someTorch doc c ∧ c.identifier = str (key% "flux_dev-flux") :=
  ⟨⟨(key% "sd1-ldm", Data.Sd1Ldm.table), by simp [tables], rfl, rfl⟩, .map [("identifier".toList, .str "flux_dev-flux".toList), ("components".toList, .map [])],
    ⟨"flux_dev-flux".toList, []⟩, ⟨_, [], rfl, List.Perm.refl _, by simp, .nil⟩, rfl⟩

end Ex

end Verif.Shipped
