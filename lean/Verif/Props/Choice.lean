import Verif.Props.Inputs

/-!
# C88: the config of an input
-/
namespace Verif.Inputs
open Method Config Infer Infer.Spec

/-- The config of an input with the keys `sd`, given to a parameter with the config `param`: that of the parameter, if the input has enough of its
keys, otherwise the one that knows more keys of the input than any other, if there is one. -/
inductive Chosen (L : List RegCfg) (param : Option RegCfg) (sd : List Str) : Option RegCfg → Prop
  | param (p : RegCfg) (h : param = some p) (h1 : Examined L sd p) (h2 : Enough sd p.config) : Chosen L param sd (some p)
  | best (c : RegCfg) (h : ∀ p, param = some p → ¬ (Examined L sd p ∧ Enough sd p.config)) (h1 : Examined L sd c) (h2 : Enough sd c.config)
      (h3 : ∀ d, Examined L sd d → d ≠ c → count sd d.config < count sd c.config) : Chosen L param sd (some c)
  | none (h : ∀ p, param = some p → ¬ (Examined L sd p ∧ Enough sd p.config))
      (h1 : ∀ c, Examined L sd c → Enough sd c.config → ∃ d, Examined L sd d ∧ d ≠ c ∧ count sd c.config ≤ count sd d.config) : Chosen L param sd none

theorem Chosen.unique {L : List RegCfg} {param : Option RegCfg} {sd : List Str} {a b : Option RegCfg} (ha : Chosen L param sd a) (hb : Chosen L param sd b) :
    a = b := by
  cases ha with
  | param p h h1 h2 =>
    cases hb with
    | param q h' => rw [h] at h'; exact h'
    | best c h' => exact absurd ⟨h1, h2⟩ (h' p h)
    | none h' => exact absurd ⟨h1, h2⟩ (h' p h)
  | best c h h1 h2 h3 =>
    cases hb with
    | param q h' h1' h2' => exact absurd ⟨h1', h2'⟩ (h q h')
    | best c' h' h1' h2' h3' =>
      by_contra hne
      have hne' : c ≠ c' := fun h => hne (by rw [h])
      have := h3 c' h1' hne'.symm
      have := h3' c h1 hne'
      omega
    | none h' h1' =>
      obtain ⟨d, hd, hne, hle⟩ := h1' c h1 h2
      have := h3 d hd hne
      omega
  | none h h1 =>
    cases hb with
    | param q h' h1' h2' => exact absurd ⟨h1', h2'⟩ (h q h')
    | best c' h' h1' h2' h3' =>
      obtain ⟨d, hd, hne, hle⟩ := h1 c' h1' h2'
      have := h3' d hd hne
      omega
    | none => rfl

theorem scan_sublist {sd : List Str} {L : List RegCfg} {l : List (RegCfg × ℕ)} (h : scan sd L = .ok l) : (l.map (·.1)).Sublist L := by
  induction L generalizing l with
  | nil => simp only [scan, Except.ok.injEq] at h; subst h; exact .slnil
  | cons c cs ih =>
    rw [scan] at h
    have hrest : ∀ l', (if (matched sd c.config).length = sd.dedup.length ∧ geMul (matched sd c.config).length c.config.keys.length nine then .ok []
        else scan sd cs : Except Err (List (RegCfg × ℕ))) = .ok l' → (l'.map (·.1)).Sublist cs := by
      intro l' h'
      split at h'
      · simp only [Except.ok.injEq] at h'
        subst h'
        exact List.nil_sublist _
      · exact ih h'
    split at h
    · split at h
      · split at h
        · rename_i l' h'
          simp only [Except.ok.injEq] at h
          subst h
          exact (hrest _ h').cons₂ c
        · cases h
      · cases h
    · exact (hrest _ h).cons c

theorem infer_nodup {L : List RegCfg} {sd : List Str} (hL : L.Nodup) {gs : List (List RegCfg)} (h : infer L sd = .ok gs) : ∀ g ∈ gs, g.Nodup := by
  unfold infer at h
  cases hs : scan sd L with
  | error e => rw [hs] at h; cases h
  | ok l =>
    rw [hs] at h
    simp only [Except.ok.injEq] at h
    subst h
    intro g hg
    unfold rank at hg
    obtain ⟨g', hg', rfl⟩ := List.mem_map.1 hg
    rw [List.mem_insertionSort] at hg'
    obtain ⟨a, _, rfl⟩ := List.mem_map.1 hg'
    exact hL.sublist ((List.filter_sublist.map _).trans (scan_sublist hs))

/-- What is asked of the registered configs: they are different objects, of realistic size, and hashable. -/
structure Usable (L : List RegCfg) (param : Option RegCfg) (sd : List Str) : Prop where
  small : Small L sd
  nodup : L.Nodup
  hashable : ∀ c ∈ L, c.hashable = true
  param : ∀ p, param = some p → p.hashable = true

theorem inferred_spec {E : Env} {param : Option RegCfg} {sd : List Str} (hu : Usable E.registry param sd) :
    ∃ r, inferred E param sd = .ok r ∧ Chosen E.registry param sd r := by
  have hex : ∀ c, Examined E.registry sd c → c ∈ E.registry := by
    rintro c ⟨pre, post, h, _⟩
    rw [h]
    simp
  obtain ⟨gs, hgs⟩ : ∃ gs, infer E.registry sd = .ok gs := by
    cases h : infer E.registry sd with
    | ok gs => exact ⟨gs, rfl⟩
    | error e =>
      unfold infer at h
      cases hs : scan sd E.registry with
      | ok l => rw [hs] at h; cases h
      | error e =>
        obtain ⟨_, c, h1, _, h3⟩ := (scan_spec hu.small).2 e hs
        rw [hu.hashable c (hex c h1)] at h3
        cases h3
  obtain ⟨counts, hpw, hf, hall⟩ := C41_groups hu.small hgs
  have hin : ∀ c, (∃ g ∈ gs, c ∈ g) ↔ Examined E.registry sd c ∧ Enough sd c.config := by
    intro c
    constructor
    · rintro ⟨g, hg, hc⟩
      obtain ⟨i, hi⟩ := List.getElem?_of_mem hg
      obtain ⟨hlt, rfl⟩ := List.getElem?_eq_some_iff.1 hi
      have := List.Forall₂.get hf (hf.length_eq ▸ hlt) hlt
      have := (this.2 c).1 hc
      exact ⟨this.1, this.2.1⟩
    · rintro ⟨h1, h2⟩
      obtain ⟨i, hi⟩ := List.getElem?_of_mem (hall c h1 h2)
      obtain ⟨hlt, hc⟩ := List.getElem?_eq_some_iff.1 hi
      have := List.Forall₂.get hf hlt (hf.length_eq ▸ hlt)
      exact ⟨_, List.get_mem _ _, (this.2 c).2 ⟨h1, h2, hc.symm⟩⟩
  -- the case in which the config of the parameter does not match
  have rest : (∀ p, param = some p → ¬ (Examined E.registry sd p ∧ Enough sd p.config)) →
      ∃ r, (match gs with | [c] :: _ => .ok (some c) | _ => .ok none : Except Err (Option RegCfg)) = .ok r ∧ Chosen E.registry param sd r := by
    intro hparam
    have hnd := infer_nodup hu.nodup hgs
    cases hf with
    | nil =>
      refine ⟨none, rfl, .none hparam ?_⟩
      intro c h1 h2
      cases hall c h1 h2
    | cons h1 hrest =>
      rename_i n g ns gs'
      have hlt : ∀ d, Examined E.registry sd d → ¬ d ∈ g → ∀ c ∈ g, count sd d.config < count sd c.config := by
        intro d hd hdg c hc
        obtain ⟨hc1, hc2, hc3⟩ := (h1.2 c).1 hc
        by_cases hde : Enough sd d.config
        · rcases List.mem_cons.1 (hall d hd hde) with h | h
          · exact absurd ((h1.2 d).2 ⟨hd, hde, h⟩) hdg
          · have := (List.pairwise_cons.1 hpw).1 _ h
            omega
        · unfold Enough at hde hc2
          omega
      by_cases hg : ∃ c, g = [c]
      · obtain ⟨c, rfl⟩ := hg
        have hc := (h1.2 c).1 (by simp)
        refine ⟨some c, rfl, .best c hparam hc.1 hc.2.1 ?_⟩
        intro d hd hne
        exact hlt d hd (by simpa using hne) c (by simp)
      · refine ⟨none, ?_, .none hparam ?_⟩
        · match g, hg with
          | [], _ => rfl
          | [c], hg => exact absurd ⟨c, rfl⟩ hg
          | _ :: _ :: _, _ => rfl
        · intro c hc1 hc2
          by_cases hcg : c ∈ g
          · have : ∃ d ∈ g, d ≠ c := by
              by_contra hno
              push Not at hno
              refine hg ⟨c, ?_⟩
              have hndg := hnd g (by simp)
              exact List.perm_singleton.1 ((List.perm_ext_iff_of_nodup hndg (by simp)).2 fun d => ⟨fun h => by simpa using hno d h, fun h => by
                obtain rfl := List.mem_singleton.1 h; exact hcg⟩)
            obtain ⟨d, hd, hne⟩ := this
            have h2 := (h1.2 d).1 hd
            have h3 := (h1.2 c).1 hcg
            exact ⟨d, h2.1, hne, by omega⟩
          · obtain ⟨d, hd⟩ := List.exists_mem_of_ne_nil _ h1.1
            have := hlt c hc1 hcg d hd
            exact ⟨d, ((h1.2 d).1 hd).1, fun h => hcg (h ▸ hd), this.le⟩
  unfold inferred
  rw [hgs]
  dsimp only
  cases hp : param with
  | none =>
    rw [hp] at rest
    exact rest (by simp)
  | some p =>
    dsimp only
    rw [if_neg (by simp [hu.param p hp])]
    by_cases hm : ∃ g ∈ gs, p ∈ g
    · rw [if_pos hm]
      obtain ⟨h1, h2⟩ := (hin p).1 hm
      exact ⟨some p, rfl, .param p rfl h1 h2⟩
    · rw [if_neg hm]
      rw [hp] at rest
      refine rest ?_
      intro q hq
      cases hq
      rwa [← hin]

/-- What a node's config is after loading the node, if its keys are `sd` -/
def Assigned (E : Env) (param : Option RegCfg) (sd : List Str) (before after : Option Cfg) (r : Except Err Unit) : Prop :=
  match before with
  | some (.reg c) => after = some (.reg c)
  | some (.struct i) => after = some (.struct i)
  | some .infer => (∃ c, Chosen E.registry param sd (some c) ∧ after = some (.reg c)) ∨ (Chosen E.registry param sd none ∧ after = some .infer ∧ r = .error .runtime)
  | none => (∃ c, Chosen E.registry param sd (some c) ∧ after = some (.reg c)) ∨
      (Chosen E.registry param sd none ∧ (after = some (.struct E.ref) ∨ after = none ∧ ∃ e, r = .error e))

theorem finishLoad_assigned {E : Env} {param : Option RegCfg} {id : ℕ} {md : Dict Str Meta} {sdKeys : List Str} {s : St} (hu : Usable E.registry param md.keys) :
    Assigned E param md.keys (s.config id) ((finishLoad E param id md sdKeys s).1.config id) (finishLoad E param id md sdKeys s).2 := by
  obtain ⟨r, hr, hc⟩ := inferred_spec hu
  have set : ∀ (s : St) (c : Cfg), (s.setConfig id c).config id = some c := fun s c => by simp [St.setConfig, upd]
  unfold finishLoad determine Assigned
  rw [hr]
  cases hcfg : s.config id with
  | some c =>
    cases c with
    | reg c => exact set _ _
    | struct i => exact set _ _
    | infer =>
      cases r with
      | some c => exact .inl ⟨c, hc, set _ _⟩
      | none => exact .inr ⟨hc, hcfg, rfl⟩
  | none =>
    cases r with
    | some c => exact .inl ⟨c, hc, set _ _⟩
    | none =>
      refine .inr ⟨hc, ?_⟩
      simp only [reduceCtorEq, if_false]
      obtain ⟨d, i⟩ := intersect md (s.structs E.ref)
      cases i with
      | error e => exact .inr ⟨hcfg, e, rfl⟩
      | ok _ => exact .inl (set _ _)

theorem finishLoad_files {E : Env} {param : Option RegCfg} {id : ℕ} {md : Dict Str Meta} {sdKeys : List Str} {s : St} :
    (finishLoad E param id md sdKeys s).1.files = s.files ∧ (finishLoad E param id md sdKeys s).1.sd = s.sd := by
  have h : (determine E param md (s.config id) s).1.files = s.files ∧ (determine E param md (s.config id) s).1.sd = s.sd := by
    unfold determine
    split
    · exact ⟨rfl, rfl⟩
    · exact ⟨rfl, rfl⟩
    · split
      · exact ⟨rfl, rfl⟩
      · exact ⟨rfl, rfl⟩
      · split
        · exact ⟨rfl, rfl⟩
        · split <;> exact ⟨rfl, rfl⟩
  unfold finishLoad
  generalize determine E param md (s.config id) s = x at h
  obtain ⟨s', r⟩ := x
  cases r <;> exact h

theorem loadDict_none {E : Env} {id : ℕ} {path : Str} {s s' : St} {e : Err} (h : loadDict E id path s = (s', .error e)) : s'.sd id = none := by
  unfold loadDict at h
  cases hs : s.sd id with
  | some i => rw [hs] at h; cases h
  | none =>
    rw [hs] at h
    dsimp only at h
    split at h
    · cases h
    · split at h
      · split at h
        · cases h; exact hs
        · cases h; exact hs
        · cases h
      · cases h; exact hs

theorem loadDict_keeps {E : Env} {id : ℕ} {path : Str} {s : St} : (loadDict E id path s).1.config = s.config := by
  unfold loadDict
  cases s.sd id with
  | some i => rfl
  | none =>
    dsimp only
    split
    · rfl
    · split
      · split <;> rfl
      · rfl

/-- **C88.**  The config of a model whose file has the keys of `md`: one that was given is kept.  Otherwise it is the config chosen by the specification; if
none is, asking for inference raises, and the model has a structural config if nothing was asked for. -/
theorem C88_model {E : Env} {param : Option RegCfg} {id : ℕ} {path : Str} {s s' : St} {r : Except Err Unit} {h : ℕ} {md : Dict Str TensorMeta}
    (hload : load E param (.model id path) s = (s', r)) (hsd : s'.sd id = some h) (hmd : metadataOf s' h = .ok md) (hnd : md.keys.Nodup)
    (hu : Usable E.registry param md.keys) : Assigned E param md.keys (s.config id) (s'.config id) r := by
  rw [load] at hload
  have hcfg := loadDict_keeps (E := E) (id := id) (path := path) (s := s)
  cases hd : loadDict E id path s with
  | mk s1 r1 =>
    rw [hd] at hload hcfg
    dsimp only at hcfg
    cases r1 with
    | error e =>
      cases hload
      rw [loadDict_none hd] at hsd
      cases hsd
    | ok i =>
      dsimp only at hload
      have hsi : (s1.setSd id (some i)).sd id = some i := by simp [St.setSd, upd]
      cases hm : metadataOf (s1.setSd id (some i)) i with
      | error e =>
        rw [hm] at hload
        cases hload
        rw [hsi] at hsd
        cases hsd
        rw [hm] at hmd
        cases hmd
      | ok md' =>
        rw [hm] at hload
        dsimp only at hload
        have hfl := finishLoad_files (E := E) (param := param) (id := id) (md := Dict.ofList (md'.map fun p => (p.1, Meta.tensor p.2))) (sdKeys := md'.keys)
          (s := s1.setSd id (some i))
        have has := fun hu => finishLoad_assigned (E := E) (param := param) (id := id) (md := Dict.ofList (md'.map fun p => (p.1, Meta.tensor p.2))) (sdKeys := md'.keys)
          (s := s1.setSd id (some i)) hu
        rw [hload] at hfl has
        rw [hfl.2, hsi] at hsd
        cases hsd
        have : metadataOf s' h = metadataOf (s1.setSd id (some h)) h := by unfold metadataOf; rw [hfl.1]
        rw [this, hm] at hmd
        cases hmd
        have hk : (Dict.ofList (md.map fun p => (p.1, Meta.tensor p.2))).keys = md.keys := by
          have h0 : Dict.keys (md.map fun p => (p.1, Meta.tensor p.2)) = md.keys := by simp [Dict.keys]
          rw [Dict.ofList_of_nodup (by rw [h0]; exact hnd), h0]
        rw [hk] at has
        have := has hu
        change Assigned E param md.keys (s1.config id) (s'.config id) r at this
        rwa [hcfg] at this

/-- **C88.**  The same for a state dict given directly. -/
theorem C88_dict {E : Env} {param : Option RegCfg} {id : ℕ} {es : List (Str × Tree)} {s s' : St} {r : Except Err Unit}
    (hraw : ∀ p ∈ es, p.2.isNode = false) (hload : load E param (.dict id es) s = (s', r)) (hu : Usable E.registry param (es.map (·.1))) :
    Assigned E param (es.map (·.1)) (s.config id) (s'.config id) r := by
  rw [load] at hload
  have hE : loadE E param es s = (s, .ok ()) := by
    clear hload hu
    induction es with
    | nil => rfl
    | cons e es ih =>
      obtain ⟨k, t⟩ := e
      have ht := hraw (k, t) (by simp)
      cases t with
      | raw m =>
        rw [loadE, load]
        exact ih fun p hp => hraw p (by simp [hp])
      | _ => cases ht
  have hk : (literalMeta es).keys = es.map (·.1) := by
    unfold literalMeta
    clear hload hu hE
    induction es with
    | nil => rfl
    | cons e es ih =>
      obtain ⟨k, t⟩ := e
      have ht := hraw (k, t) (by simp)
      have ih := ih fun p hp => hraw p (by simp [hp])
      cases t with
      | raw m =>
        simp only [Dict.keys] at ih
        cases m <;> simp [Dict.keys, ih]
      | _ => cases ht
  rw [hE] at hload
  dsimp only at hload
  have := finishLoad_assigned (E := E) (param := param) (id := id) (md := literalMeta es) (sdKeys := es.map (·.1)) (s := s) (hk.symm ▸ hu)
  rwa [hload, hk] at this

/-- The first config is that of `Ex.t`'s files; a parameter with the other one does not change this. -/
example : ((load Ex.E (some Ex.cfgB) (.model 0 "a".toList) Ex.s).1.config 0) = some (.reg Ex.cfgA) := by decide +kernel
example : Usable Ex.E.registry (some Ex.cfgB) ["x".toList] :=
  ⟨⟨by norm_num, by simp only [Ex.E, List.forall_mem_cons]; exact ⟨by decide +kernel, by decide +kernel, by simp⟩⟩, by decide +kernel, by decide +kernel, by
    intro p h; cases h; rfl⟩
/-- Nothing is known about the key, and inference is asked for. -/
example : (load Ex.E none (.dict 0 [("q".toList, Ex.raw)]) { Ex.s with config := fun _ => some .infer }).2 = .error .runtime := by decide +kernel

end Verif.Inputs
