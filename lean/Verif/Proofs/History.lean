import Verif.Proofs.Structural

/-!
# Proofs about merging one recipe after another
-/
namespace Verif.Inputs
open Method Config Infer Spec

/-! ### What a merge leaves alone -/

/-- Nodes outside keep their config, and registered configs stay. -/
structure Frame (I : List ℕ) (s s' : St) : Prop where
  outside : ∀ id, id ∉ I → s'.config id = s.config id
  reg : ∀ id c, s.config id = some (.reg c) → s'.config id = some (.reg c)

theorem Frame.refl (I : List ℕ) (s : St) : Frame I s s := ⟨fun _ _ => rfl, fun _ _ h => h⟩

theorem Frame.of_config {I : List ℕ} {s s' : St} (h : s'.config = s.config) : Frame I s s' := ⟨fun _ _ => by rw [h], fun _ _ hc => by rw [h]; exact hc⟩

theorem Frame.trans {I J K : List ℕ} {s1 s2 s3 : St} (h1 : Frame I s1 s2) (h2 : Frame J s2 s3) (hI : ∀ i ∈ I, i ∈ K) (hJ : ∀ i ∈ J, i ∈ K) :
    Frame K s1 s3 :=
  ⟨fun id h => by rw [h2.outside id fun hj => h (hJ _ hj), h1.outside id fun hj => h (hI _ hj)], fun id c h => h2.reg id c (h1.reg id c h)⟩

theorem determine_config (E : Env) (param : Option RegCfg) (md : Dict Str Meta) (hint : Option Cfg) (s : St) :
    (determine E param md hint s).1.config = s.config := by
  unfold determine
  split
  · rfl
  · rfl
  · split
    · rfl
    · rfl
    · split_ifs
      · rfl
      · split <;> rfl

theorem finishLoad_frame (E : Env) (param : Option RegCfg) (id : ℕ) (md : Dict Str Meta) (ks : List Str) (s : St) :
    Frame [id] s (finishLoad E param id md ks s).1 := by
  have h := determine_config E param md (s.config id) s
  have hreg : ∀ c, s.config id = some (.reg c) → determine E param md (s.config id) s = (s, .ok (.reg c)) := by
    intro c hc; rw [hc]; rfl
  unfold finishLoad
  split
  · rename_i s' e heq; rw [heq] at h; exact Frame.of_config h
  · rename_i s' c heq
    rw [heq] at h
    simp only at h
    refine ⟨?_, ?_⟩
    · intro j hj
      simp only [List.mem_singleton] at hj
      show upd s'.config id (some c) j = _
      unfold upd
      rw [if_neg hj, h]
    · intro j c' hc'
      show upd s'.config id (some c) j = _
      unfold upd
      by_cases hj : j = id
      · subst hj
        rw [hreg c' hc'] at heq
        simp only [Prod.mk.injEq, Except.ok.injEq] at heq
        rw [if_pos rfl, ← heq.2]
      · rw [if_neg hj, h]; exact hc'

mutual
theorem load_frame (E : Env) (param : Option RegCfg) : ∀ (t : Tree) (s : St), Frame (ids t) s (load E param t s).1
  | .raw _, s => by rw [load]; exact Frame.refl _ _
  | .lit, s => by rw [load]; exact Frame.refl _ _
  | .dict id es, s => by
    have h := loadE_frame E param es s
    rw [load]
    split
    · rename_i s' e heq
      rw [heq] at h
      exact h.trans (Frame.refl [] _) (by unfold ids; rw [models, dicts]; intro i hi; simp at hi ⊢; tauto) (by simp)
    · rename_i s' u heq
      rw [heq] at h
      exact h.trans (finishLoad_frame ..) (by unfold ids; rw [models, dicts]; intro i hi; simp at hi ⊢; tauto)
        (by unfold ids; rw [models, dicts]; intro i hi; simp at hi ⊢; tauto)
  | .model id path, s => by
    have hl := (loadDict_config E id path s).1
    rw [load]
    split
    · rename_i s' e heq
      rw [heq] at hl
      exact Frame.of_config hl
    · rename_i s' h heq
      rw [heq] at hl
      have h1 : Frame [] s (s'.setSd id (some h)) := Frame.of_config hl
      split
      · exact h1.trans (Frame.refl [] _) (by simp) (by simp)
      · exact h1.trans (finishLoad_frame ..) (by simp) (by unfold ids; rw [models, dicts]; simp)
  | .merge cs, s => by
    have h := loadC_frame E cs s
    rw [load]
    unfold ids; rw [models, dicts]
    exact h
theorem loadE_frame (E : Env) (param : Option RegCfg) : ∀ (es : List (Str × Tree)) (s : St),
    Frame ((modelsE es).map (·.1) ++ (dictsE es).map (·.1)) s (loadE E param es s).1
  | [], s => by rw [loadE]; exact Frame.refl _ _
  | (k, t) :: es, s => by
    have h := load_frame E param t s
    rw [loadE]
    split
    · rename_i s' e heq
      rw [heq] at h
      exact h.trans (Frame.refl [] _) (by unfold ids; rw [modelsE, dictsE]; intro i hi; simp only [List.map_append, List.mem_append] at hi ⊢; tauto) (by simp)
    · rename_i s' u heq
      rw [heq] at h
      exact h.trans (loadE_frame E param es s') (by unfold ids; rw [modelsE, dictsE]; intro i hi; simp only [List.map_append, List.mem_append] at hi ⊢; tauto)
        (by rw [modelsE, dictsE]; intro i hi; simp only [List.map_append, List.mem_append] at hi ⊢; tauto)
theorem loadC_frame (E : Env) : ∀ (cs : List (Option RegCfg × Tree)) (s : St),
    Frame ((modelsC cs).map (·.1) ++ (dictsC cs).map (·.1)) s (loadC E cs s).1
  | [], s => by rw [loadC]; exact Frame.refl _ _
  | (p, t) :: cs, s => by
    have h := load_frame E p t s
    rw [loadC]
    split
    · rename_i s' e heq
      rw [heq] at h
      exact h.trans (Frame.refl [] _) (by unfold ids; rw [modelsC, dictsC]; intro i hi; simp only [List.map_append, List.mem_append] at hi ⊢; tauto) (by simp)
    · rename_i s' u heq
      rw [heq] at h
      exact h.trans (loadC_frame E cs s') (by unfold ids; rw [modelsC, dictsC]; intro i hi; simp only [List.map_append, List.mem_append] at hi ⊢; tauto)
        (by rw [modelsC, dictsC]; intro i hi; simp only [List.map_append, List.mem_append] at hi ⊢; tauto)
end

theorem closeModel_config (id : ℕ) (s : St) : (closeModel id s).config = s.config := by
  unfold closeModel
  split <;> rfl

mutual
theorem close_config : ∀ (t : Tree) (s : St), (close t s).1.config = s.config
  | .raw _, s => by rw [close]
  | .lit, s => by rw [close]
  | .dict _ es, s => by
    rw [close]
    split_ifs
    · exact closeE_config es s
    · rfl
  | .model id _, s => by rw [close]; exact closeModel_config id s
  | .merge cs, s => by rw [close]; exact closeC_config cs s
theorem closeE_config : ∀ (es : List (Str × Tree)) (s : St), (closeE es s).1.config = s.config
  | [], s => by rw [closeE]
  | (k, t) :: es, s => by
    have h := close_config t s
    rw [closeE]
    split
    · rename_i s' e heq; rw [heq] at h; exact h
    · rename_i s' u heq; rw [heq] at h; rw [closeE_config es s']; exact h
theorem closeC_config : ∀ (cs : List (Option RegCfg × Tree)) (s : St), (closeC cs s).1.config = s.config
  | [], s => by rw [closeC]
  | (p, t) :: cs, s => by
    have h := close_config t s
    rw [closeC]
    split
    · rename_i s' e heq; rw [heq] at h; exact h
    · rename_i s' u heq; rw [heq] at h; rw [closeC_config cs s']; exact h
end

theorem withInputs_sd {α : Type} (E : Env) (t : Tree) (body : St → Except Err α) (s : St) (hp : Plain t) (id : ℕ) (h : s.sd id = none) :
    (withInputs E t body s).1.sd id = none := by
  have hg := load_grows E none t { s with cache := [], structs := upd s.structs E.ref [] }
  have hc := close_closes t (load E none t { s with cache := [], structs := upd s.structs E.ref [] }).1 hp
  have hfin : (withInputs E t body s).1 = (close t (load E none t { s with cache := [], structs := upd s.structs E.ref [] }).1).1 := by
    unfold withInputs
    simp only
    split
    · rename_i heq; rw [heq]
    · rename_i heq; rw [heq]
  rw [hfin]
  by_cases hid : ∀ p ∈ models t, p.1 ≠ id
  · rw [hc.2.frame id hid, hg.frame id hid]; exact h
  · push Not at hid
    obtain ⟨p, hp, rfl⟩ := hid
    exact hc.2.gone p hp

theorem withInputs_frame {α : Type} (E : Env) (t : Tree) (body : St → Except Err α) (s : St) : Frame (ids t) s (withInputs E t body s).1 := by
  have h := load_frame E none t { s with cache := [], structs := upd s.structs E.ref [] }
  have hfin : (withInputs E t body s).1.config = (load E none t { s with cache := [], structs := upd s.structs E.ref [] }).1.config := by
    unfold withInputs
    simp only
    have := close_config t (load E none t { s with cache := [], structs := upd s.structs E.ref [] }).1
    split
    · rename_i heq; rw [heq] at this; exact this
    · rename_i heq; rw [heq] at this; exact this
  exact ⟨fun id hid => by rw [hfin]; exact h.outside id hid, fun id c hc => by rw [hfin]; exact h.reg id c hc⟩

/-! ### Merging in states that look alike -/

/-- For the objects of a recipe, both states look the same, except for the files opened before. -/
structure Alike (I M : List ℕ) (A A' : List File) (ref : ℕ) (s s' : St) : Prop where
  files : ∃ new, s.files = A ++ new ∧ s'.files = A' ++ new
  config : ∀ id ∈ I, s.config id = s'.config id
  own : ∀ id ∈ I, ∀ r, s.config id = some (.struct r) → r = ref
  sd : ∀ id ∈ M, ∃ o : Option ℕ, s.sd id = o.map (A.length + ·) ∧ s'.sd id = o.map (A'.length + ·)
  cache : ∀ k, ∃ o : Option ℕ, s.cache.get? k = o.map (A.length + ·) ∧ s'.cache.get? k = o.map (A'.length + ·)
  structs : s.structs ref = s'.structs ref

theorem determine_alike {I M : List ℕ} {A A' : List File} {E : Env} {s s' : St} (h : Alike I M A A' E.ref s s') (param : Option RegCfg) (md : Dict Str Meta)
    (hint : Option Cfg) (hh : ∀ r, hint = some (.struct r) → r = E.ref) :
    Alike I M A A' E.ref (determine E param md hint s).1 (determine E param md hint s').1 ∧
    (determine E param md hint s).2 = (determine E param md hint s').2 ∧
    ∀ r, (determine E param md hint s).2 = .ok (.struct r) → r = E.ref := by
  unfold determine
  split
  · exact ⟨h, rfl, by simp⟩
  · rename_i r
    exact ⟨h, rfl, fun r' hr => by
      simp only [Except.ok.injEq, Cfg.struct.injEq] at hr
      rw [← hr]; exact hh r rfl⟩
  · split
    · exact ⟨h, rfl, by simp⟩
    · exact ⟨h, rfl, by simp⟩
    · split_ifs
      · exact ⟨h, rfl, by simp⟩
      · rw [h.structs]
        split
        · rename_i d e heq
          exact ⟨⟨h.files, h.config, h.own, h.sd, h.cache, by simp [upd]⟩, rfl, by simp⟩
        · rename_i d u heq
          exact ⟨⟨h.files, h.config, h.own, h.sd, h.cache, by simp [upd]⟩, rfl, fun r hr => by
            simp only [Except.ok.injEq, Cfg.struct.injEq] at hr
            exact hr.symm⟩

theorem finishLoad_alike {I M : List ℕ} {A A' : List File} {E : Env} {s s' : St} (h : Alike I M A A' E.ref s s') (param : Option RegCfg) (id : ℕ) (hid : id ∈ I)
    (md : Dict Str Meta) (ks : List Str) :
    Alike I M A A' E.ref (finishLoad E param id md ks s).1 (finishLoad E param id md ks s').1 ∧
    (finishLoad E param id md ks s).2 = (finishLoad E param id md ks s').2 := by
  obtain ⟨h1, h2, h3⟩ := determine_alike h param md (s.config id) (h.own id hid)
  unfold finishLoad
  rw [← h.config id hid]
  cases hd : determine E param md (s.config id) s with
  | mk s1 r =>
    cases hd' : determine E param md (s.config id) s' with
    | mk s1' r' =>
      rw [hd, hd'] at h1 h2
      rw [hd] at h3
      simp only at h1 h2 h3
      subst h2
      cases r with
      | error e => exact ⟨h1, rfl⟩
      | ok c =>
        refine ⟨⟨h1.files, ?_, ?_, h1.sd, h1.cache, h1.structs⟩, ?_⟩
        · intro j hj
          show upd s1.config id (some c) j = upd s1'.config id (some c) j
          unfold upd
          split_ifs
          · rfl
          · exact h1.config j hj
        · intro j hj r hr
          have hr' : upd s1.config id (some c) j = some (.struct r) := hr
          unfold upd at hr'
          split_ifs at hr' with hji
          · simp only [Option.some.injEq] at hr'
            exact h3 r (by rw [hr'])
          · exact h1.own j hj r hr'
        · have hk : keysOf (s1.setConfig id c) c = keysOf (s1'.setConfig id c) c := by
            unfold keysOf
            cases c with
            | reg c => rfl
            | infer => rfl
            | struct r =>
              have := h3 r rfl
              subst this
              exact congrArg Except.ok h1.structs
          show checkConfig E ks c (s1.setConfig id c) = checkConfig E ks c (s1'.setConfig id c)
          unfold checkConfig
          rw [hk]

/-- Results of opening that correspond -/
def AlikeH (A A' : List File) (r r' : Except Err ℕ) : Prop :=
  (∃ e, r = .error e ∧ r' = .error e) ∨ ∃ o, r = .ok (A.length + o) ∧ r' = .ok (A'.length + o)

theorem loadDict_alike {I M : List ℕ} {A A' : List File} {E : Env} {s s' : St} (h : Alike I M A A' E.ref s s') (id : ℕ) (hid : id ∈ M) (path : Str) :
    Alike I M A A' E.ref (loadDict E id path s).1 (loadDict E id path s').1 ∧ AlikeH A A' (loadDict E id path s).2 (loadDict E id path s').2 := by
  unfold loadDict
  obtain ⟨o, h1, h2⟩ := h.sd id hid
  rw [h1, h2]
  cases o with
  | some o => exact ⟨h, .inr ⟨o, rfl, rfl⟩⟩
  | none =>
    simp only [Option.map_none]
    obtain ⟨o, h1, h2⟩ := h.cache (E.fs.resolve (search E.fs E.dirs path))
    rw [h1, h2]
    cases o with
    | some o => exact ⟨h, .inr ⟨o, rfl, rfl⟩⟩
    | none =>
      simp only [Option.map_none]
      by_cases hf : E.fs.formats (search E.fs E.dirs path) = 1
      · rw [if_pos hf, if_pos hf]
        obtain ⟨new, hn, hn'⟩ := h.files
        cases E.fs.open (search E.fs E.dirs path) with
        | fail e => exact ⟨h, .inl ⟨e, rfl, rfl⟩⟩
        | broken e =>
          refine ⟨⟨⟨new ++ [⟨E.fs.resolve (search E.fs E.dirs path), .error e, true, true⟩], by simp [hn], by simp [hn']⟩, h.config, h.own, h.sd, h.cache, h.structs⟩,
            .inl ⟨e, rfl, rfl⟩⟩
        | ok data =>
          refine ⟨⟨⟨new ++ [⟨E.fs.resolve (search E.fs E.dirs path), data, true, false⟩], by simp [hn], by simp [hn']⟩, h.config, h.own, h.sd, ?_, h.structs⟩,
            .inr ⟨new.length, by simp [hn], by simp [hn']⟩⟩
          intro k
          simp only [Dict.get?_set]
          by_cases hk : E.fs.resolve (search E.fs E.dirs path) = k
          · exact ⟨some new.length, by simp [hk, hn], by simp [hk, hn']⟩
          · simp only [hk, if_false]
            exact h.cache k
      · rw [if_neg hf, if_neg hf]
        exact ⟨h, .inl ⟨_, rfl, rfl⟩⟩

theorem Alike.setSd {I M : List ℕ} {A A' : List File} {ref : ℕ} {s s' : St} (h : Alike I M A A' ref s s') (id o : ℕ) :
    Alike I M A A' ref (s.setSd id (some (A.length + o))) (s'.setSd id (some (A'.length + o))) := by
  refine ⟨h.files, h.config, h.own, ?_, h.cache, h.structs⟩
  intro j hj
  rw [setSd_sd, setSd_sd]
  split_ifs
  · exact ⟨some o, rfl, rfl⟩
  · exact h.sd j hj

theorem metadataOf_alike {I M : List ℕ} {A A' : List File} {ref : ℕ} {s s' : St} (h : Alike I M A A' ref s s') (o : ℕ) :
    metadataOf s (A.length + o) = metadataOf s' (A'.length + o) := by
  obtain ⟨new, hn, hn'⟩ := h.files
  unfold metadataOf
  rw [hn, hn', List.getElem?_append_right (by omega), List.getElem?_append_right (by omega)]
  simp only [Nat.add_sub_cancel_left]

mutual
theorem load_alike {I M : List ℕ} {A A' : List File} {E : Env} (param : Option RegCfg) : ∀ (t : Tree) (s s' : St), (∀ i ∈ ids t, i ∈ I) →
    (∀ p ∈ models t, p.1 ∈ M) → Alike I M A A' E.ref s s' →
    Alike I M A A' E.ref (load E param t s).1 (load E param t s').1 ∧ (load E param t s).2 = (load E param t s').2
  | .raw _, s, s', _, _, h => by rw [load, load]; exact ⟨h, rfl⟩
  | .lit, s, s', _, _, h => by rw [load, load]; exact ⟨h, rfl⟩
  | .dict id es, s, s', hI, hM, h => by
    unfold ids at hI
    rw [models, dicts] at hI
    rw [models] at hM
    obtain ⟨h1, h2⟩ := loadE_alike param es s s' (fun i hi => hI i (by simp only [List.map_append, List.mem_append] at hi ⊢; tauto)) hM h
    rw [load, load]
    cases hl : loadE E param es s with
    | mk s1 r =>
      cases hl' : loadE E param es s' with
      | mk s1' r' =>
        rw [hl, hl'] at h1 h2
        simp only at h1 h2
        subst h2
        cases r with
        | error e => exact ⟨h1, rfl⟩
        | ok u => exact finishLoad_alike h1 param id (hI id (by simp)) _ _
  | .model id path, s, s', hI, hM, h => by
    obtain ⟨h1, h2⟩ := loadDict_alike h id (hM (id, path) (by simp [models])) path
    rw [load, load]
    cases hl : loadDict E id path s with
    | mk s1 r =>
      cases hl' : loadDict E id path s' with
      | mk s1' r' =>
        rw [hl, hl'] at h1 h2
        simp only at h1 h2
        rcases h2 with ⟨e, rfl, rfl⟩ | ⟨o, rfl, rfl⟩
        · exact ⟨h1, rfl⟩
        · have h3 := h1.setSd id o
          simp only [metadataOf_alike h3 o]
          split
          · exact ⟨h3, rfl⟩
          · exact finishLoad_alike h3 param id (hI id (by unfold ids; simp [models])) _ _
  | .merge cs, s, s', hI, hM, h => by
    unfold ids at hI
    rw [models, dicts] at hI
    rw [models] at hM
    rw [load, load]
    exact loadC_alike cs s s' hI hM h
theorem loadE_alike {I M : List ℕ} {A A' : List File} {E : Env} (param : Option RegCfg) : ∀ (es : List (Str × Tree)) (s s' : St),
    (∀ i ∈ (modelsE es).map (·.1) ++ (dictsE es).map (·.1), i ∈ I) → (∀ p ∈ modelsE es, p.1 ∈ M) → Alike I M A A' E.ref s s' →
    Alike I M A A' E.ref (loadE E param es s).1 (loadE E param es s').1 ∧ (loadE E param es s).2 = (loadE E param es s').2
  | [], s, s', _, _, h => by rw [loadE, loadE]; exact ⟨h, rfl⟩
  | (k, t) :: es, s, s', hI, hM, h => by
    rw [modelsE, dictsE] at hI
    rw [modelsE] at hM
    obtain ⟨h1, h2⟩ := load_alike param t s s' (fun i hi => hI i (by unfold ids at hi; simp only [List.map_append, List.mem_append] at hi ⊢; tauto))
      (fun p hp => hM p (by simp [hp])) h
    rw [loadE, loadE]
    cases hl : load E param t s with
    | mk s1 r =>
      cases hl' : load E param t s' with
      | mk s1' r' =>
        rw [hl, hl'] at h1 h2
        simp only at h1 h2
        subst h2
        cases r with
        | error e => exact ⟨h1, rfl⟩
        | ok u =>
          exact loadE_alike param es s1 s1' (fun i hi => hI i (by simp only [List.map_append, List.mem_append] at hi ⊢; tauto))
            (fun p hp => hM p (by simp [hp])) h1
theorem loadC_alike {I M : List ℕ} {A A' : List File} {E : Env} : ∀ (cs : List (Option RegCfg × Tree)) (s s' : St),
    (∀ i ∈ (modelsC cs).map (·.1) ++ (dictsC cs).map (·.1), i ∈ I) → (∀ p ∈ modelsC cs, p.1 ∈ M) → Alike I M A A' E.ref s s' →
    Alike I M A A' E.ref (loadC E cs s).1 (loadC E cs s').1 ∧ (loadC E cs s).2 = (loadC E cs s').2
  | [], s, s', _, _, h => by rw [loadC, loadC]; exact ⟨h, rfl⟩
  | (param, t) :: cs, s, s', hI, hM, h => by
    rw [modelsC, dictsC] at hI
    rw [modelsC] at hM
    obtain ⟨h1, h2⟩ := load_alike param t s s' (fun i hi => hI i (by unfold ids at hi; simp only [List.map_append, List.mem_append] at hi ⊢; tauto))
      (fun p hp => hM p (by simp [hp])) h
    rw [loadC, loadC]
    cases hl : load E param t s with
    | mk s1 r =>
      cases hl' : load E param t s' with
      | mk s1' r' =>
        rw [hl, hl'] at h1 h2
        simp only at h1 h2
        subst h2
        cases r with
        | error e => exact ⟨h1, rfl⟩
        | ok u =>
          exact loadC_alike cs s1 s1' (fun i hi => hI i (by simp only [List.map_append, List.mem_append] at hi ⊢; tauto))
            (fun p hp => hM p (by simp [hp])) h1
end

end Verif.Inputs
