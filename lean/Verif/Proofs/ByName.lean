import Verif.Spec.ByName
import Verif.Props.Choice
import Verif.Props.StreamIn
import Verif.Proofs.Whole
import Verif.Proofs.MemCast

/-!
# Proofs: recipes that name files
-/
namespace Verif.ByName
open Method Recipe Config Eval Infer Inputs Spec
variable {F : Type}

/-! ### The metadata of a file -/

theorem decHeader_tensor {b : Bytes} {h : Header} (hd : decHeader b = some h) : ∀ p ∈ h, p.1 ≠ metadataKey → ∃ e, p.2 = .tensor e := by
  unfold decHeader at hd
  cases hc : asciiChars b with
  | none => simp [hc] at hd
  | some cs =>
    simp only [hc, Bind.bind, Option.bind] at hd
    split at hd
    · rename_i l _
      replace hd : ((Dict.ofList l).mapM fun p => do return (p.1, ← hvalOfJson p.1 p.2)) = some h := by simpa [Bind.bind, Option.bind] using hd
      intro p hp hne
      obtain ⟨q, _, hq⟩ : ∃ q ∈ Dict.ofList l, (do return (q.1, ← hvalOfJson q.1 q.2) : Option (Key × HVal)) = some p := by
        clear hne
        generalize Dict.ofList l = L at hd
        induction L generalizing h with
        | nil => simp at hd; subst hd; simp at hp
        | cons a L ih =>
          rw [List.mapM_cons] at hd
          cases ha : (do return (a.1, ← hvalOfJson a.1 a.2) : Option (Key × HVal)) with
          | none => rw [ha] at hd; cases hd
          | some a' =>
            rw [ha] at hd
            cases ht : (L.mapM fun p => do return (p.1, ← hvalOfJson p.1 p.2) : Option (List (Key × HVal))) with
            | none => rw [ht] at hd; cases hd
            | some t =>
              rw [ht] at hd
              have hd : h = a' :: t := (Option.some.inj hd).symm
              subst hd
              rcases List.mem_cons.1 hp with rfl | hp
              · exact ⟨a, by simp, ha⟩
              · obtain ⟨q, h1, h2⟩ := ih hp ht
                exact ⟨q, by simp [h1], h2⟩
      cases hv : hvalOfJson q.1 q.2 with
      | none => rw [hv] at hq; cases hq
      | some v =>
        rw [hv] at hq
        have hq : (q.1, v) = p := Option.some.inj hq
        subst hq
        unfold hvalOfJson at hv
        split at hv
        · rw [if_neg hne] at hv
          unfold entryOfJson at hv
          simp only [Bind.bind, Option.bind, pure] at hv
          repeat' (first | split at hv | (dsimp only at hv; split at hv))
          all_goals first | exact ⟨_, (Option.some.inj hv).symm⟩ | cases hv
        · cases hv
    · cases hd

theorem metadata_keys {file : Bytes} {bs cap : ℕ} {s : StreamIn.State} (h : StreamIn.open_ file bs cap = .ok s) :
    (metadata s).keys = StreamIn.keys s ∧ (StreamIn.keys s).Nodup := by
  obtain ⟨_, _, hnd, _⟩ := StreamIn.C04_listing file bs cap s h
  refine ⟨?_, hnd⟩
  obtain ⟨_, _, _, _, _, _, hr⟩ := StreamIn.open_fields h
  unfold StreamIn.readHeader at hr
  simp only at hr
  split at hr
  · cases hr
  · split at hr
    · cases hr
    · rename_i h' hdec
      simp only [Except.ok.injEq, Prod.mk.injEq] at hr
      have hall : ∀ p ∈ s.header, p.1 ≠ metadataKey → ∃ e, p.2 = .tensor e := by
        intro p hp
        rw [← hr.2] at hp
        exact decHeader_tensor hdec p ((StreamIn.sortBy_perm _ _).mem_iff.1 hp)
      unfold metadata StreamIn.keys
      generalize s.header = L at hall
      induction L with
      | nil => rfl
      | cons p L ih =>
        have ih := ih fun q hq => hall q (by simp [hq])
        simp only [Dict.keys] at ih ⊢
        rw [List.filterMap_cons, List.map_cons, List.filter_cons]
        by_cases hp : p.1 = metadataKey
        · simp only [hp, if_true, ne_eq, not_true_eq_false, decide_false, Bool.false_eq_true, if_false]
          exact ih
        · obtain ⟨e, he⟩ := hall p (by simp) hp
          simp only [he, hp, if_false, ne_eq, not_false_eq_true, decide_true, if_true, List.map_cons]
          rw [ih]

/-- What is found where a file was opened -/
theorem open_ok {D : Disk} {path : Str} {data : Except Err (Dict Str TensorMeta)} (h : D.open path = .ok data) :
    ∃ s, D.state (D.resolve path) = some s ∧ data = .ok (metadata s) ∧ (metadata s).keys = StreamIn.keys s ∧ (StreamIn.keys s).Nodup := by
  unfold Disk.open at h
  unfold Disk.state
  cases hb : D.bytes (D.resolve path) with
  | none => rw [hb] at h; cases h
  | some file =>
    rw [hb] at h
    dsimp only at h ⊢
    cases ho : StreamIn.open_ file D.bufferSize D.cap with
    | error e => rw [ho] at h; cases h
    | ok s =>
      rw [ho] at h
      cases h
      exact ⟨s, rfl, rfl, metadata_keys ho⟩

/-! ### Inputs and positions -/

mutual
theorem leaves_inputs : ∀ (v : Val F) (pos : List ℕ), (leaves pos v).map (·.2) = inputs v
  | .model p c s, pos => rfl
  | .lit v c s, pos => by
    cases v with
    | dict es => rw [leaves, inputs, List.map_cons, leavesD_inputs es]
    | _ => rw [leaves, inputs] <;> first | rfl | simp
  | .merge m args kwargs, pos => by rw [leaves, inputs, List.map_append, leavesL_inputs args, leavesD_inputs kwargs]
  | .str _, _ | .int _, _ | .float _, _ | .bool _, _ | .none, _ | .tensor _, _ | .dict _, _ => by rw [leaves, inputs] <;> first | rfl | simp
theorem leavesD_inputs : ∀ (es : List (Str × Val F)) (pos : List ℕ) (i : ℕ), (leavesD pos i es).map (·.2) = inputsD es
  | [], _, _ => rfl
  | (k, v) :: es, pos, i => by rw [leavesD, inputsD, List.map_append, leaves_inputs v, leavesD_inputs es]
theorem leavesL_inputs : ∀ (es : List (Val F)) (pos : List ℕ) (i : ℕ), (leavesL pos i es).map (·.2) = inputsL es
  | [], _, _ => rfl
  | v :: es, pos, i => by rw [leavesL, inputsL, List.map_append, leaves_inputs v, leavesL_inputs es]
end

theorem mem_inputs {v u : Val F} {pos q : List ℕ} (h : (q, u) ∈ leaves pos v) : u ∈ inputs v := by
  rw [← leaves_inputs v pos]
  exact List.mem_map.2 ⟨_, h, rfl⟩

theorem mem_inputsL {l : List (Val F)} {v u : Val F} (hv : v ∈ l) (h : u ∈ inputs v) : u ∈ inputsL l := by
  induction l with
  | nil => cases hv
  | cons a l ih =>
    rw [inputsL, List.mem_append]
    rcases List.mem_cons.1 hv with rfl | hv
    · exact .inl h
    · exact .inr (ih hv)

theorem mem_inputsD {l : List (Str × Val F)} {k : Str} {v u : Val F} (hv : (k, v) ∈ l) (h : u ∈ inputs v) : u ∈ inputsD l := by
  induction l with
  | nil => cases hv
  | cons a l ih =>
    obtain ⟨k', a⟩ := a
    rw [inputsD, List.mem_append]
    rcases List.mem_cons.1 hv with h' | hv
    · cases h'; exact .inl h
    · exact .inr (ih hv)

/-! ### Loading -/

theorem determine_config {E : Inputs.Env} {param : Option RegCfg} {md : Dict Str Meta} {hint : Option Cfg} {s : St} :
    (determine E param md hint s).1.config = s.config := by
  unfold determine
  split
  · rfl
  · rfl
  · split
    · rfl
    · rfl
    · split_ifs
      · rfl
      · split <;> rfl

theorem finishLoad_frame {E : Inputs.Env} {param : Option RegCfg} {id : ℕ} {md : Dict Str Meta} {ks : List Str} {s : St} {j : ℕ} (hj : j ≠ id) :
    (finishLoad E param id md ks s).1.config j = s.config j := by
  have h := determine_config (E := E) (param := param) (md := md) (hint := s.config id) (s := s)
  unfold finishLoad
  generalize determine E param md (s.config id) s = x at h
  obtain ⟨s', r⟩ := x
  dsimp only at h
  cases r with
  | error e => dsimp only; rw [h]
  | ok c => dsimp only [St.setConfig, upd]; rw [if_neg hj, h]

/-- The file that is opened, if one is -/
theorem loadDict_files {E : Inputs.Env} {id : ℕ} {path : Str} {s s' : St} {h : ℕ} (hl : loadDict E id path s = (s', .ok h)) :
    s'.files = s.files ∨ ∃ data, E.fs.open (search E.fs E.dirs path) = .ok data ∧ s'.files = s.files ++ [⟨keyOf E path, data, true, false⟩] := by
  unfold loadDict at hl
  cases hs : s.sd id with
  | some i => rw [hs] at hl; cases hl; exact .inl rfl
  | none =>
    rw [hs] at hl
    dsimp only at hl
    split at hl
    · cases hl; exact .inl rfl
    · split_ifs at hl
      · cases ho : E.fs.open (search E.fs E.dirs path) with
        | fail e => rw [ho] at hl; cases hl
        | broken e => rw [ho] at hl; cases hl
        | ok data => rw [ho] at hl; cases hl; exact .inr ⟨data, rfl, rfl⟩
      · cases hl

/-- What is known of the nodes when the inputs are opened -/
structure Ctx (D : Disk) (E : Inputs.Env) (found : Val F → RegCfg) (obj : ℕ → Val F) (ids : List ℕ) : Prop where
  fs : E.fs = D.fs
  usable : ∀ id ∈ ids, given (obj id) = none → Usable E.registry none (tensorNames (D.opened E.dirs) (obj id))
  chosen : ∀ id ∈ ids, given (obj id) = none → Chosen E.registry none (tensorNames (D.opened E.dirs) (obj id)) (some (found (obj id)))

/-- While the inputs are opened: a node has the config found for it, or none if it was given none. -/
structure Inv (D : Disk) (E : Inputs.Env) (found : Val F → RegCfg) (obj : ℕ → Val F) (ids : List ℕ) (all : List (ℕ × Str)) (n : ℕ) (s : St) : Prop where
  keyed : Keyed n s
  right : Right E n all s
  data : ∀ (i : ℕ) f, n ≤ i → s.files[i]? = some f →
    ∃ st, D.state f.key = some st ∧ f.data = .ok (metadata st) ∧ (metadata st).keys = StreamIn.keys st ∧ (StreamIn.keys st).Nodup
  conf : ∀ id ∈ ids, s.config id = some (.reg (found (obj id))) ∨ s.config id = none ∧ given (obj id) = none

theorem assigned_found {E : Inputs.Env} {param : Option RegCfg} {sd : List Str} {before after : Option Cfg} {c : RegCfg}
    (h : Assigned E param sd before after (.ok ())) (hb : before = some (.reg c) ∨ before = none ∧ Chosen E.registry param sd (some c)) :
    after = some (.reg c) := by
  rcases hb with hb | ⟨hb, hc⟩
  · rw [hb] at h; exact h
  · rw [hb] at h
    rcases h with ⟨c', h1, h2⟩ | ⟨h1, _⟩
    · rw [h2, Option.some.inj (h1.unique hc)]
    · cases h1.unique hc

theorem load_model {D : Disk} {E : Inputs.Env} {found : Val F → RegCfg} {obj : ℕ → Val F} {ids : List ℕ} (hc : Ctx D E found obj ids)
    {all : List (ℕ × Str)} (hall : Consistent all) {n : ℕ} {id : ℕ} {p : Str} {c sp : Option Str} (hobj : obj id = .model p c sp) (hid : id ∈ ids)
    (hm : (id, p) ∈ all) {param : Option RegCfg} (hp : given (obj id) = none → param = none) {s s1 : St} (hi : Inv D E found obj ids all n s)
    (hl : load E param (.model id p) s = (s1, .ok ())) :
    Inv D E found obj ids all n s1 ∧ s1.config id = some (.reg (found (obj id))) ∧ ∀ j, j ≠ id → s1.config j = s.config j := by
  have hld := load_loaded E n all hall param (.model id p) s (by intro q hq; rw [models, List.mem_singleton] at hq; subst hq; exact hm) hi.keyed hi.right
  rw [hl] at hld
  obtain ⟨hk, hr, hown⟩ := hld
  rw [models] at hown
  obtain ⟨h, hh⟩ := Option.isSome_iff_exists.1 (hown (id, p) (by simp))
  obtain ⟨hn, f, hf, hkey⟩ := hr (id, p) hm h hh
  have hl' := hl
  -- files and configs of the other nodes
  have hrest : (∀ j, j ≠ id → s1.config j = s.config j) ∧ ∃ s', loadDict E id p s = (s', .ok h) ∧ s1.files = s'.files := by
    rw [load] at hl
    have hcfg := loadDict_keeps (E := E) (id := id) (path := p) (s := s)
    cases hd : loadDict E id p s with
    | mk s' r =>
      rw [hd] at hl hcfg
      dsimp only at hcfg
      cases r with
      | error e => cases hl
      | ok i =>
        dsimp only at hl
        split at hl
        · cases hl
        · rename_i md hmd
          have h1 : ∀ j, j ≠ id → _ := fun j hj => finishLoad_frame (E := E) (param := param) (id := id)
            (md := Dict.ofList (md.map fun p => (p.1, Meta.tensor p.2))) (ks := md.keys) (s := s'.setSd id (some i)) hj
          have h2 := finishLoad_same E param id (Dict.ofList (md.map fun p => (p.1, Meta.tensor p.2))) md.keys (s'.setSd id (some i))
          rw [hl] at h1 h2
          have hi' : s1.sd id = some i := by rw [h2.sd, setSd_sd, if_pos rfl]
          rw [hh] at hi'
          refine ⟨fun j hj => ?_, s', by rw [Option.some.inj hi'], h2.files⟩
          have := h1 j hj
          rw [← hcfg]
          exact this
  obtain ⟨hframe, s', hd, hfiles⟩ := hrest
  have hdata : ∀ (i : ℕ) f, n ≤ i → s1.files[i]? = some f →
      ∃ st, D.state f.key = some st ∧ f.data = .ok (metadata st) ∧ (metadata st).keys = StreamIn.keys st ∧ (StreamIn.keys st).Nodup := by
    intro i f hni hfi
    rw [hfiles] at hfi
    rcases loadDict_files hd with h1 | ⟨data, h1, h2⟩
    · rw [h1] at hfi; exact hi.data i f hni hfi
    · rw [h2] at hfi
      by_cases hlt : i < s.files.length
      · rw [List.getElem?_append_left hlt] at hfi
        exact hi.data i f hni hfi
      · rw [List.getElem?_append_right (by omega)] at hfi
        have hf' : f = ⟨keyOf E p, data, true, false⟩ := by
          cases hz : i - s.files.length with
          | zero => rw [hz] at hfi; simpa using hfi.symm
          | succ k => rw [hz] at hfi; simp at hfi
        subst hf'
        rw [hc.fs] at h1
        have := open_ok h1
        unfold keyOf
        rw [hc.fs]
        exact this
  obtain ⟨st, hst, hfd, hks, hnd⟩ := hdata h f hn hf
  have hmd : metadataOf s1 h = .ok (metadata st) := by
    unfold metadataOf
    rw [hf]
    dsimp only
    rw [if_pos (hk.2.1 h f hn hf).2, hfd]
  have hnames : tensorNames (D.opened E.dirs) (obj id) = StreamIn.keys st := by
    rw [hobj]
    unfold tensorNames Disk.opened
    rw [hkey] at hst
    unfold keyOf at hst
    rw [hc.fs] at hst
    have hst : D.state (D.resolve (search D.fs E.dirs p)) = some st := hst
    dsimp only
    rw [hst]
  have hconf : s1.config id = some (.reg (found (obj id))) := by
    rcases hi.conf id hid with h1 | ⟨h1, h2⟩
    · -- a config that is there is kept
      rw [load, hd] at hl'
      dsimp only at hl'
      split at hl'
      · cases hl'
      · have hcfg := loadDict_keeps (E := E) (id := id) (path := p) (s := s)
        rw [hd] at hcfg
        dsimp only at hcfg
        unfold finishLoad determine at hl'
        have h3 : (s'.setSd id (some h)).config id = some (.reg (found (obj id))) := by
          change s'.config id = _
          rw [hcfg, h1]
        rw [h3] at hl'
        dsimp only at hl'
        rw [← (Prod.mk.inj hl').1]
        simp [St.setConfig, upd]
    · have hpn := hp h2
      subst hpn
      have hu := hc.usable id hid h2
      have hch := hc.chosen id hid h2
      rw [hnames, ← hks] at hu hch
      exact assigned_found (C88_model hl' hh hmd (by rw [hks]; exact hnd) hu) (.inr ⟨h1, hch⟩)
  refine ⟨⟨hk, hr, hdata, fun j hj => ?_⟩, hconf, hframe⟩
  by_cases hji : j = id
  · subst hji; exact .inl hconf
  · rw [hframe j hji]; exact hi.conf j hj

theorem load_dict {D : Disk} {E : Inputs.Env} {found : Val F → RegCfg} {obj : ℕ → Val F} {ids : List ℕ} (hc : Ctx D E found obj ids)
    {all : List (ℕ × Str)} {n : ℕ} {id : ℕ} {es : List (Str × Val F)} {c : Option Str} {sp : Str} (hobj : obj id = .lit (.dict es) c sp)
    (hid : id ∈ ids) {ts : List (Str × Tree)} (hts : ts.map (·.1) = es.map (·.1)) (hraw : ∀ t ∈ ts, t.2.isNode = false)
    {param : Option RegCfg} (hp : given (obj id) = none → param = none) {s s1 : St} (hi : Inv D E found obj ids all n s)
    (hl : load E param (.dict id ts) s = (s1, .ok ())) :
    Inv D E found obj ids all n s1 ∧ s1.config id = some (.reg (found (obj id))) ∧ ∀ j, j ≠ id → s1.config j = s.config j := by
  have hE : loadE E param ts s = (s, .ok ()) := by
    clear hl hts
    induction ts with
    | nil => rfl
    | cons e es ih =>
      obtain ⟨k, t⟩ := e
      have ht := hraw (k, t) (by simp)
      cases t with
      | raw m =>
        rw [loadE, load]
        exact ih fun p hp => hraw p (by simp [hp])
      | _ => cases ht
  have hl' := hl
  rw [load, hE] at hl
  dsimp only at hl
  have hs := finishLoad_same E param id (literalMeta ts) (ts.map (·.1)) s
  have hframe : ∀ j, j ≠ id → s1.config j = s.config j := by
    intro j hj
    have := finishLoad_frame (E := E) (param := param) (id := id) (md := literalMeta ts) (ks := ts.map (·.1)) (s := s) hj
    rwa [hl] at this
  rw [hl] at hs
  have hconf : s1.config id = some (.reg (found (obj id))) := by
    rcases hi.conf id hid with h1 | ⟨h1, h2⟩
    · unfold finishLoad determine at hl
      rw [h1] at hl
      dsimp only at hl
      rw [← (Prod.mk.inj hl).1]
      simp [St.setConfig, upd]
    · have hpn := hp h2
      subst hpn
      have hu := hc.usable id hid h2
      have hch := hc.chosen id hid h2
      have hnames : tensorNames (D.opened E.dirs) (obj id) = ts.map (·.1) := by rw [hobj, hts]; rfl
      rw [hnames] at hu hch
      exact assigned_found (C88_dict hraw hl' hu) (.inr ⟨h1, hch⟩)
  refine ⟨⟨hi.keyed.same hs, hi.right.same hs, by rw [hs.files]; exact hi.data, fun j hj => ?_⟩, hconf, hframe⟩
  by_cases hji : j = id
  · subst hji; exact .inl hconf
  · rw [hframe j hji]; exact hi.conf j hj

theorem treeD_keys (S : Site F) (num : Layout) (pos : List ℕ) (i : ℕ) (es : List (Str × Val F)) :
    (treeD S num pos i es).map (·.1) = es.map (·.1) := by
  induction es generalizing i with
  | nil => rw [treeD]; rfl
  | cons e es ih =>
    obtain ⟨k, v⟩ := e
    rw [treeD, List.map_cons, List.map_cons, ih]

theorem treeD_raw (S : Site F) (num : Layout) (pos : List ℕ) (i : ℕ) (es : List (Str × Val F)) (h : ∀ p ∈ es, p.2.isNode = false) :
    ∀ t ∈ treeD S num pos i es, t.2.isNode = false := by
  induction es generalizing i with
  | nil => rw [treeD]; simp
  | cons e es ih =>
    obtain ⟨k, v⟩ := e
    rw [treeD]
    intro t ht
    rcases List.mem_cons.1 ht with rfl | ht
    · have := h (k, v) (by simp)
      cases v with
      | lit v c s => cases this
      | model p c s => cases this
      | merge m a k => cases this
      | tensor i => rw [tree]; rfl
      | _ => rw [tree] <;> first | rfl | simp
    · exact ih (i + 1) (fun p hp => h p (by simp [hp])) t ht

theorem leavesD_raw (pos : List ℕ) (i : ℕ) (es : List (Str × Val F)) (h : ∀ p ∈ es, p.2.isNode = false) : leavesD pos i es = [] := by
  induction es generalizing i with
  | nil => rw [leavesD]
  | cons e es ih =>
    obtain ⟨k, v⟩ := e
    rw [leavesD, ih (i + 1) fun p hp => h p (by simp [hp])]
    have := h (k, v) (by simp)
    cases v with
    | lit v c s => cases this
    | model p c s => cases this
    | merge m a k => cases this
    | _ => rw [leaves] <;> first | rfl | simp

theorem loadC_append (E : Inputs.Env) (a b : List (Option RegCfg × Tree)) (s : St) :
    loadC E (a ++ b) s = match loadC E a s with | (s, .error e) => (s, .error e) | (s, .ok _) => loadC E b s := by
  induction a generalizing s with
  | nil => rw [loadC]; rfl
  | cons x a ih =>
    obtain ⟨param, t⟩ := x
    rw [List.cons_append, loadC, loadC]
    cases h : load E param t s with
    | mk s' r =>
      cases r with
      | error e => rfl
      | ok u => dsimp only; exact ih s'

/-- The object of an input, and its place among all -/
def Placed (obj : ℕ → Val F) (ids : List ℕ) (all : List (ℕ × Str)) (num : Layout) (x : List ℕ × Val F) : Prop :=
  obj (num x.1) = x.2 ∧ num x.1 ∈ ids ∧ ∀ p c sp, x.2 = .model p c sp → (num x.1, p) ∈ all

/-- The node has its config. -/
def Final (found : Val F → RegCfg) (obj : ℕ → Val F) (s : St) (id : ℕ) : Prop := s.config id = some (.reg (found (obj id)))

/-- What loading does -/
def Done (D : Disk) (E : Inputs.Env) (found : Val F → RegCfg) (obj : ℕ → Val F) (ids : List ℕ) (all : List (ℕ × Str)) (n : ℕ) (num : Layout)
    (ls : List (List ℕ × Val F)) (s s1 : St) : Prop :=
  Inv D E found obj ids all n s1 ∧ (∀ id ∈ ids, Final found obj s id → Final found obj s1 id) ∧ ∀ x ∈ ls, Final found obj s1 (num x.1)

theorem Done.append {D : Disk} {E : Inputs.Env} {found : Val F → RegCfg} {obj : ℕ → Val F} {ids : List ℕ} {all : List (ℕ × Str)} {n : ℕ} {num : Layout}
    {a b : List (List ℕ × Val F)} {s s1 s2 : St} (ha : ∀ x ∈ a, num x.1 ∈ ids) (h1 : Done D E found obj ids all n num a s s1)
    (h2 : Done D E found obj ids all n num b s1 s2) : Done D E found obj ids all n num (a ++ b) s s2 := by
  refine ⟨h2.1, fun id hid h => h2.2.1 id hid (h1.2.1 id hid h), fun x hx => ?_⟩
  rcases List.mem_append.1 hx with hx | hx
  · exact h2.2.1 _ (ha x hx) (h1.2.2 x hx)
  · exact h2.2.2 x hx

theorem Spec.Plain.arg {m : Str} {args : List (Val F)} {kwargs : List (Str × Val F)} (h : Plain (.merge m args kwargs)) {a : Val F} (ha : a ∈ args) : Plain a := by
  intro es c s hm
  exact h es c s (by rw [inputs, List.mem_append]; exact .inl (mem_inputsL ha hm))

theorem Spec.Plain.kwarg {m : Str} {args : List (Val F)} {kwargs : List (Str × Val F)} (h : Plain (.merge m args kwargs)) {k : Str} {a : Val F}
    (ha : (k, a) ∈ kwargs) : Plain a := by
  intro es c s hm
  exact h es c s (by rw [inputs, List.mem_append]; exact .inr (mem_inputsD ha hm))

section
variable {D : Disk} {E : Inputs.Env} {found : Val F → RegCfg} {obj : ℕ → Val F} {ids : List ℕ} (hc : Ctx D E found obj ids)
  {all : List (ℕ × Str)} (hall : Consistent all) {n : ℕ} (S : Site F) (num : Layout)
include hc hall

mutual
theorem load_tree : ∀ (v : Val F) (pos : List ℕ) (param : Option RegCfg) (s s1 : St), Plain v → Unhinted S v →
    (∀ x ∈ leaves pos v, Placed obj ids all num x) → (Bare v → param = none) → Inv D E found obj ids all n s →
    load E param (tree S num pos v) s = (s1, .ok ()) → Done D E found obj ids all n num (leaves pos v) s s1
  | .model p c sp, pos, param, s, s1, _, _, hpl, hb, hi, hl => by
    rw [leaves] at hpl ⊢
    rw [tree] at hl
    obtain ⟨h1, h2, h3⟩ := hpl _ (List.mem_singleton.2 rfl)
    dsimp only at h1 h2 h3
    obtain ⟨g1, g2, g3⟩ := load_model hc hall h1 h2 (h3 _ _ _ rfl) (fun hg => hb (by rw [h1] at hg; exact hg)) hi hl
    refine ⟨g1, fun id _ h => ?_, fun x hx => ?_⟩
    · by_cases hid : id = num pos
      · subst hid; exact g2
      · unfold Final; rw [g3 id hid]; exact h
    · rw [List.mem_singleton] at hx; subst hx; exact g2
  | .lit (.dict es) c sp, pos, param, s, s1, hpn, _, hpl, hb, hi, hl => by
    have hraw := hpn es c sp (by rw [inputs]; simp)
    rw [leaves, leavesD_raw _ _ _ hraw] at hpl ⊢
    rw [tree] at hl
    obtain ⟨h1, h2, _⟩ := hpl _ (List.mem_singleton.2 rfl)
    dsimp only at h1 h2
    obtain ⟨g1, g2, g3⟩ := load_dict hc h1 h2 (treeD_keys S num pos 0 es) (treeD_raw S num pos 0 es hraw)
      (fun hg => hb (by rw [h1] at hg; exact hg)) hi hl
    refine ⟨g1, fun id _ h => ?_, fun x hx => ?_⟩
    · by_cases hid : id = num pos
      · subst hid; exact g2
      · unfold Final; rw [g3 id hid]; exact h
    · rw [List.mem_singleton] at hx; subst hx; exact g2
  | .merge m args kwargs, pos, param, s, s1, hpn, hun, hpl, _, hi, hl => by
    rw [leaves] at hpl ⊢
    rw [tree, load, loadC_append] at hl
    rw [Unhinted] at hun
    cases h : loadC E (treeL S num pos m args.length 0 args) s with
    | mk s' r =>
      rw [h] at hl
      cases r with
      | error e => cases hl
      | ok u =>
        dsimp only at hl
        have ha := load_treeL args pos m args.length 0 s s' (fun a ha => hpn.arg ha) hun.2.2.1
          (fun i a hia hba => by rw [Nat.zero_add]; exact hun.1 i a hia hba) (fun x hx => hpl x (by simp [hx])) hi h
        have hk := load_treeK kwargs pos m args.length args.length s' s1 (fun k a ha => hpn.kwarg ha) hun.2.2.2
          hun.2.1 (fun x hx => hpl x (by simp [hx])) ha.1 hl
        exact ha.append (fun x hx => (hpl x (by simp [hx])).2.1) hk
  | .lit (.str _) _ _, pos, param, s, s1, _, _, _, _, hi, hl
  | .lit (.int _) _ _, pos, param, s, s1, _, _, _, _, hi, hl
  | .lit (.float _) _ _, pos, param, s, s1, _, _, _, _, hi, hl
  | .lit (.bool _) _ _, pos, param, s, s1, _, _, _, _, hi, hl
  | .lit .none _ _, pos, param, s, s1, _, _, _, _, hi, hl
  | .lit (.tensor _) _ _, pos, param, s, s1, _, _, _, _, hi, hl
  | .lit (.lit _ _ _) _ _, pos, param, s, s1, _, _, _, _, hi, hl
  | .lit (.model _ _ _) _ _, pos, param, s, s1, _, _, _, _, hi, hl
  | .lit (.merge _ _ _) _ _, pos, param, s, s1, _, _, _, _, hi, hl
  | .str _, pos, param, s, s1, _, _, _, _, hi, hl
  | .int _, pos, param, s, s1, _, _, _, _, hi, hl
  | .float _, pos, param, s, s1, _, _, _, _, hi, hl
  | .bool _, pos, param, s, s1, _, _, _, _, hi, hl
  | .none, pos, param, s, s1, _, _, _, _, hi, hl
  | .tensor _, pos, param, s, s1, _, _, _, _, hi, hl
  | .dict _, pos, param, s, s1, _, _, _, _, hi, hl => by
    have hl : (s, Except.ok ()) = (s1, (Except.ok () : Except Err Unit)) := by
      rw [tree] at hl
      · rw [load] at hl; exact hl
      all_goals simp
    cases hl
    refine ⟨hi, fun _ _ h => h, fun x hx => ?_⟩
    rw [leaves] at hx
    · cases hx
    all_goals simp
theorem load_treeL : ∀ (l : List (Val F)) (pos : List ℕ) (m : Str) (k i : ℕ) (s s1 : St), (∀ a ∈ l, Plain a) → UnhintedL S l →
    (∀ (j : ℕ) a, l[j]? = some a → Bare a → S.hint m k (.pos (i + j)) = none) → (∀ x ∈ leavesL pos i l, Placed obj ids all num x) →
    Inv D E found obj ids all n s → loadC E (treeL S num pos m k i l) s = (s1, .ok ()) → Done D E found obj ids all n num (leavesL pos i l) s s1
  | [], pos, m, k, i, s, s1, _, _, _, _, hi, hl => by
    rw [treeL, loadC] at hl
    cases hl
    exact ⟨hi, fun _ _ h => h, fun x hx => by rw [leavesL] at hx; cases hx⟩
  | v :: l, pos, m, k, i, s, s1, hpn, hun, hh, hpl, hi, hl => by
    rw [treeL, loadC] at hl
    rw [UnhintedL] at hun
    rw [leavesL] at hpl ⊢
    cases h : load E (S.hint m k (.pos i)) (tree S num (pos ++ [i]) v) s with
    | mk s' r =>
      rw [h] at hl
      cases r with
      | error e => cases hl
      | ok u =>
        dsimp only at hl
        have ha := load_tree v (pos ++ [i]) _ s s' (hpn v (by simp)) hun.1 (fun x hx => hpl x (by simp [hx]))
          (fun hb => hh 0 v rfl hb) hi h
        have hk := load_treeL l pos m k (i + 1) s' s1 (fun a ha => hpn a (by simp [ha])) hun.2
          (fun j a hj hb => by rw [show i + 1 + j = i + (j + 1) by omega]; exact hh (j + 1) a (by simpa using hj) hb)
          (fun x hx => hpl x (by simp [hx])) ha.1 hl
        exact ha.append (fun x hx => (hpl x (by simp [hx])).2.1) hk
theorem load_treeK : ∀ (l : List (Str × Val F)) (pos : List ℕ) (m : Str) (k i : ℕ) (s s1 : St), (∀ q a, (q, a) ∈ l → Plain a) → UnhintedK S l →
    (∀ q a, (q, a) ∈ l → Bare a → S.hint m k (.name q) = none) → (∀ x ∈ leavesD pos i l, Placed obj ids all num x) →
    Inv D E found obj ids all n s → loadC E (treeK S num pos m k i l) s = (s1, .ok ()) → Done D E found obj ids all n num (leavesD pos i l) s s1
  | [], pos, m, k, i, s, s1, _, _, _, _, hi, hl => by
    rw [treeK, loadC] at hl
    cases hl
    exact ⟨hi, fun _ _ h => h, fun x hx => by rw [leavesD] at hx; cases hx⟩
  | (q, v) :: l, pos, m, k, i, s, s1, hpn, hun, hh, hpl, hi, hl => by
    rw [treeK, loadC] at hl
    rw [UnhintedK] at hun
    rw [leavesD] at hpl ⊢
    cases h : load E (S.hint m k (.name q)) (tree S num (pos ++ [i]) v) s with
    | mk s' r =>
      rw [h] at hl
      cases r with
      | error e => cases hl
      | ok u =>
        dsimp only at hl
        have ha := load_tree v (pos ++ [i]) _ s s' (hpn q v (by simp)) hun.1 (fun x hx => hpl x (by simp [hx]))
          (fun hb => hh q v (by simp) hb) hi h
        have hk := load_treeK l pos m k (i + 1) s' s1 (fun q a ha => hpn q a (by simp [ha])) hun.2
          (fun q a ha hb => hh q a (by simp [ha]) hb) (fun x hx => hpl x (by simp [hx])) ha.1 hl
        exact ha.append (fun x hx => (hpl x (by simp [hx])).2.1) hk
end
end

/-! ### The recipe that is merged -/

/-- A config that was given is the one found. -/
def Agrees (found : Val F → RegCfg) (u : Val F) : Prop := ∀ c, given u = some c → (found u).config.identifier = c

section
variable {found : Val F → RegCfg} (num : Layout) (s : St)

theorem fillD_raw (pos : List ℕ) (i : ℕ) (es : List (Str × Val F)) (h : ∀ p ∈ es, p.2.isNode = false) : fillD num s pos i es = es := by
  induction es generalizing i with
  | nil => rw [fillD]
  | cons e es ih =>
    obtain ⟨k, v⟩ := e
    rw [fillD, ih (i + 1) fun p hp => h p (by simp [hp])]
    have := h (k, v) (by simp)
    cases v with
    | lit v c s => cases this
    | model p c s => cases this
    | merge m a k => cases this
    | _ => rw [fill] <;> simp

mutual
theorem fill_assign : ∀ (v : Val F) (pos : List ℕ), Plain v → (∀ x ∈ leaves pos v, Agrees found x.2 ∧ s.config (num x.1) = some (.reg (found x.2))) →
    fill num s pos v = assign found v
  | .model p c sp, pos, _, h => by
    obtain ⟨h1, h2⟩ := h (pos, .model p c sp) (by rw [leaves]; simp)
    rw [fill, assign, h2]
    cases c with
    | none => rfl
    | some c => exact congrArg (fun x => Val.model p (some x) sp) (h1 c rfl)
  | .lit (.dict es) c sp, pos, hpn, h => by
    have hraw := hpn es c sp (by rw [inputs]; simp)
    obtain ⟨h1, h2⟩ := h (pos, .lit (.dict es) c sp) (by rw [leaves]; simp)
    rw [fill, assign, h2, fillD_raw _ _ _ _ _ hraw]
    cases c with
    | none => rfl
    | some c => exact congrArg (fun x => Val.lit (.dict es) (some x) sp) (h1 c rfl)
  | .merge m args kwargs, pos, hpn, h => by
    rw [leaves] at h
    rw [fill, assign, fillL_assign args pos 0 (fun a ha => hpn.arg ha) (fun x hx => h x (by simp [hx])),
      fillD_assign kwargs pos args.length (fun k a ha => hpn.kwarg ha) (fun x hx => h x (by simp [hx]))]
  | .lit (.str _) _ _, pos, _, _ | .lit (.int _) _ _, pos, _, _ | .lit (.float _) _ _, pos, _, _ | .lit (.bool _) _ _, pos, _, _
  | .lit .none _ _, pos, _, _ | .lit (.tensor _) _ _, pos, _, _ | .lit (.lit _ _ _) _ _, pos, _, _ | .lit (.model _ _ _) _ _, pos, _, _
  | .lit (.merge _ _ _) _ _, pos, _, _ | .str _, pos, _, _ | .int _, pos, _, _ | .float _, pos, _, _ | .bool _, pos, _, _ | .none, pos, _, _
  | .tensor _, pos, _, _ | .dict _, pos, _, _ => by
    rw [fill, assign] <;> simp
theorem fillL_assign : ∀ (l : List (Val F)) (pos : List ℕ) (i : ℕ), (∀ a ∈ l, Plain a) →
    (∀ x ∈ leavesL pos i l, Agrees found x.2 ∧ s.config (num x.1) = some (.reg (found x.2))) → fillL num s pos i l = assignL found l
  | [], _, _, _, _ => by rw [fillL, assignL]
  | v :: l, pos, i, hpn, h => by
    rw [leavesL] at h
    rw [fillL, assignL, fill_assign v (pos ++ [i]) (hpn v (by simp)) (fun x hx => h x (by simp [hx])),
      fillL_assign l pos (i + 1) (fun a ha => hpn a (by simp [ha])) (fun x hx => h x (by simp [hx]))]
theorem fillD_assign : ∀ (l : List (Str × Val F)) (pos : List ℕ) (i : ℕ), (∀ k a, (k, a) ∈ l → Plain a) →
    (∀ x ∈ leavesD pos i l, Agrees found x.2 ∧ s.config (num x.1) = some (.reg (found x.2))) → fillD num s pos i l = assignK found l
  | [], _, _, _, _ => by rw [fillD, assignK]
  | (k, v) :: l, pos, i, hpn, h => by
    rw [leavesD] at h
    rw [fillD, assignK, fill_assign v (pos ++ [i]) (hpn k v (by simp)) (fun x hx => h x (by simp [hx])),
      fillD_assign l pos (i + 1) (fun k a ha => hpn k a (by simp [ha])) (fun x hx => h x (by simp [hx]))]
end
end

/-! ### Preparing the recipe -/

theorem isNode_assign (found : Val F → RegCfg) (v : Val F) : (assign found v).isNode = v.isNode := by
  cases v with
  | lit v c s => cases v <;> (rw [assign] <;> first | rfl | simp)
  | model p c s => rw [assign]; rfl
  | merge m a k => rw [assign]; rfl
  | _ => rw [assign] <;> simp

section
variable (E : Recipe.Env F) (found : Val F → RegCfg)

mutual
theorem space_assign : ∀ v : Val F, (assign found v).space E = v.space E
  | .model p c s => by rw [assign, Val.space, Val.space]
  | .merge m args kwargs => by rw [assign, Val.space, Val.space, spaceL_assign args, spaceK_assign kwargs]
  | .lit v c s => by cases v <;> (rw [assign] <;> first | rfl | simp [Val.space])
  | .str _ | .int _ | .float _ | .bool _ | .none | .tensor _ | .dict _ => by rw [assign] <;> simp
theorem spaceL_assign : ∀ l : List (Val F), spaceL E (assignL found l) = spaceL E l
  | [] => by rw [assignL]
  | v :: l => by rw [assignL, spaceL, spaceL, space_assign v, spaceL_assign l]
theorem spaceK_assign : ∀ l : List (Str × Val F), spaceK E (assignK found l) = spaceK E l
  | [] => by rw [assignK]
  | (k, v) :: l => by rw [assignK, spaceK, spaceK, space_assign v, spaceK_assign l]
end

theorem assign_opt (o : Option Str) : assign found (.lit (optVal o) none paramSpace) = .lit (optVal o) none paramSpace := by
  cases o <;> (unfold optVal; rw [assign]; simp)

theorem assign_castNode (a : Val F) (d t : Option Str) : assign found (castNode a d t) = castNode (assign found a) d t := by
  unfold castNode
  rw [assign, assignL, assignL, assignL, assignL, assignK, assign_opt, assign_opt]

variable {E found}

theorem toNode_of_space (hE : E.resolve nCast = .ok castSig) {a : Val F} (ha : a.isNode = true) {d t : Option Str} {sp : Option Str}
    (h : (castNode a d t).space E = .ok sp) : toNode E a d t = .ok (castNode a d t) := by
  change createRecipe E nCast [a] [("device".toList, optVal d), ("dtype".toList, optVal t)] = _
  refine Serialize.createRecipe_ok.2 ⟨castSig, _, _, _, sp, hE, bind_cast _ _ _, ?_, rfl, h, rfl⟩
  unfold valuesToNodes valuesToNodes valuesToNodes valuesToNodes
  rw [Serialize.valueToNode_node ha, valueToNode_opt, valueToNode_opt]
  rfl

theorem toNode_space (hE : E.resolve nCast = .ok castSig) {a r : Val F} (ha : a.isNode = true) {d t : Option Str} (h : toNode E a d t = .ok r) :
    r = castNode a d t ∧ ∃ sp, r.space E = .ok sp := by
  refine ⟨Mem.toNode_sig hE ha h, ?_⟩
  have h' : createRecipe E nCast [a] [("device".toList, optVal d), ("dtype".toList, optVal t)] = .ok r := h
  obtain ⟨_, _, _, _, sp, _, _, _, _, h5, rfl⟩ := Serialize.createRecipe_ok.1 h'
  exact ⟨sp, h5⟩

theorem toNode_assign (hE : E.resolve nCast = .ok castSig) {a r : Val F} (ha : a.isNode = true) {d t : Option Str} (h : toNode E a d t = .ok r) :
    toNode E (assign found a) d t = .ok (assign found r) := by
  obtain ⟨rfl, sp, hsp⟩ := toNode_space hE ha h
  rw [assign_castNode]
  refine toNode_of_space (sp := sp) hE (by rw [isNode_assign]; exact ha) ?_
  rw [← assign_castNode, space_assign]
  exact hsp

theorem isScalar_node {v : Val F} (h : v.isNode = true) : isScalar v = false := by
  cases v <;> first | rfl | cases h

section
variable (hE : E.resolve nCast = .ok castSig) (d t : Option Str)
include hE

mutual
theorem castInputs_assign : ∀ (v r : Val F), Plain v → castInputs E d t v = .ok r → castInputs E d t (assign found v) = .ok (assign found r)
  | .model p c s, r, _, h => by
    rw [castInputs] at h
    have := toNode_assign (found := found) hE rfl h
    rw [assign] at this ⊢
    rw [castInputs]
    exact this
  | .lit (.dict []) c s, r, _, h => by rw [castInputs] at h; cases h
  | .lit (.dict ((k, v) :: es)) c s, r, hpn, h => by
    have hraw := hpn ((k, v) :: es) c s (by rw [inputs]; simp)
    have hv := hraw (k, v) (by simp)
    rw [castInputs] at h
    rw [assign, castInputs]
    by_cases hs : isScalar v = true
    · rw [if_pos hs] at h ⊢
      have := toNode_assign (found := found) hE rfl h
      rwa [assign] at this
    · rw [if_neg hs] at h ⊢
      dsimp only at hv
      rw [hv] at h ⊢
      simp only [Bool.false_eq_true, if_false] at h ⊢
      cases h
      rw [assign]
  | .merge m args kwargs, r, hpn, h => by
    rw [castInputs] at h
    rw [assign, castInputs]
    cases ha : castInputsL E d t args with
    | error e => rw [ha] at h; cases h
    | ok as =>
      rw [ha] at h
      cases hk : castInputsK E d t kwargs with
      | error e => rw [hk] at h; cases h
      | ok ks =>
        rw [hk] at h
        dsimp only at h
        rw [castInputsL_assign args as (fun a ha => hpn.arg ha) ha, castInputsK_assign kwargs ks (fun k a ha => hpn.kwarg ha) hk]
        dsimp only
        have hm : assign found (.merge m as ks) = .merge m (assignL found as) (assignK found ks) := by rw [assign]
        rw [← hm, space_assign]
        cases hsp : (Val.merge m as ks).space E with
        | error e => rw [hsp] at h; cases h
        | ok sp => rw [hsp] at h; cases h; rfl
  | .lit (.str _) c s, r, _, h | .lit .none c s, r, _, h | .lit (.lit _ _ _) c s, r, _, h | .lit (.model _ _ _) c s, r, _, h
  | .lit (.merge _ _ _) c s, r, _, h => by
    rw [castInputs] at h
    · simp only [isScalar, Bool.false_eq_true, if_false] at h
      cases h
      rw [assign]
      · rw [castInputs]
        · simp only [isScalar, Bool.false_eq_true, if_false]
        all_goals simp
      · simp
    all_goals simp
  | .lit (.int _) c s, r, _, h | .lit (.float _) c s, r, _, h | .lit (.bool _) c s, r, _, h | .lit (.tensor _) c s, r, _, h => by
    rw [castInputs] at h
    · simp only [isScalar, if_true] at h
      have := toNode_assign (found := found) hE rfl h
      rw [assign] at this ⊢
      · rw [castInputs]
        · simp only [isScalar, if_true]; exact this
        all_goals simp
      all_goals simp
    all_goals simp
  | .str _, r, _, h | .int _, r, _, h | .float _, r, _, h | .bool _, r, _, h | .none, r, _, h | .tensor _, r, _, h | .dict _, r, _, h => by
    rw [castInputs] at h
    · cases h
    all_goals simp
theorem castInputsL_assign : ∀ (l l' : List (Val F)), (∀ a ∈ l, Plain a) → castInputsL E d t l = .ok l' →
    castInputsL E d t (assignL found l) = .ok (assignL found l')
  | [], l', _, h => by rw [castInputsL] at h; cases h; rw [assignL, castInputsL]
  | v :: l, l', hpn, h => by
    rw [castInputsL] at h
    cases hv : castInputs E d t v with
    | error e => rw [hv] at h; cases h
    | ok v' =>
      rw [hv] at h
      cases hl : castInputsL E d t l with
      | error e => rw [hl] at h; cases h
      | ok l'' =>
        rw [hl] at h
        cases h
        rw [assignL, castInputsL, castInputs_assign v v' (hpn v (by simp)) hv, castInputsL_assign l l'' (fun a ha => hpn a (by simp [ha])) hl, assignL]
theorem castInputsK_assign : ∀ (l l' : List (Str × Val F)), (∀ k a, (k, a) ∈ l → Plain a) → castInputsK E d t l = .ok l' →
    castInputsK E d t (assignK found l) = .ok (assignK found l')
  | [], l', _, h => by rw [castInputsK] at h; cases h; rw [assignK, castInputsK]
  | (k, v) :: l, l', hpn, h => by
    rw [castInputsK] at h
    cases hv : castInputs E d t v with
    | error e => rw [hv] at h; cases h
    | ok v' =>
      rw [hv] at h
      cases hl : castInputsK E d t l with
      | error e => rw [hl] at h; cases h
      | ok l'' =>
        rw [hl] at h
        cases h
        rw [assignK, castInputsK, castInputs_assign v v' (hpn k v (by simp)) hv, castInputsK_assign l l'' (fun k a ha => hpn k a (by simp [ha])) hl,
          assignK]
end

omit hE in
theorem inputs_castNode (a : Val F) : inputs (castNode a d t) = inputs a := by
  unfold castNode
  rw [inputs, inputsL, inputsL, inputsL, inputsL, inputsD]
  have h : ∀ o : Option Str, inputs (Val.lit (optVal o) none paramSpace : Val F) = [] := fun o => by cases o <;> (unfold optVal; rw [inputs]; simp)
  rw [h, h]
  simp

mutual
theorem castInputs_inputs : ∀ (v r : Val F), Plain v → castInputs E d t v = .ok r → inputs r = inputs v
  | .model p c s, r, _, h => by
    rw [castInputs] at h
    rw [(toNode_space hE rfl h).1, inputs_castNode]
  | .lit (.dict []) c s, r, _, h => by rw [castInputs] at h; cases h
  | .lit (.dict ((k, v) :: es)) c s, r, hpn, h => by
    have hv := hpn ((k, v) :: es) c s (by rw [inputs]; simp) (k, v) (by simp)
    rw [castInputs] at h
    by_cases hs : isScalar v = true
    · rw [if_pos hs] at h
      rw [(toNode_space hE rfl h).1, inputs_castNode]
    · rw [if_neg hs] at h
      dsimp only at hv
      rw [hv] at h
      simp only [Bool.false_eq_true, if_false] at h
      cases h
      rfl
  | .merge m args kwargs, r, hpn, h => by
    rw [castInputs] at h
    cases ha : castInputsL E d t args with
    | error e => rw [ha] at h; cases h
    | ok as =>
      rw [ha] at h
      cases hk : castInputsK E d t kwargs with
      | error e => rw [hk] at h; cases h
      | ok ks =>
        rw [hk] at h
        dsimp only at h
        cases hsp : (Val.merge m as ks).space E with
        | error e => rw [hsp] at h; cases h
        | ok sp =>
          rw [hsp] at h; cases h
          rw [inputs, inputs, castInputsL_inputs args as (fun a ha => hpn.arg ha) ha, castInputsK_inputs kwargs ks (fun k a ha => hpn.kwarg ha) hk]
  | .lit (.str _) c s, r, _, h | .lit .none c s, r, _, h | .lit (.lit _ _ _) c s, r, _, h | .lit (.model _ _ _) c s, r, _, h
  | .lit (.merge _ _ _) c s, r, _, h => by
    rw [castInputs] at h
    · simp only [isScalar, Bool.false_eq_true, if_false] at h
      cases h
      rfl
    all_goals simp
  | .lit (.int _) c s, r, _, h | .lit (.float _) c s, r, _, h | .lit (.bool _) c s, r, _, h | .lit (.tensor _) c s, r, _, h => by
    rw [castInputs] at h
    · simp only [isScalar, if_true] at h
      rw [(toNode_space hE rfl h).1, inputs_castNode]
    all_goals simp
  | .str _, r, _, h | .int _, r, _, h | .float _, r, _, h | .bool _, r, _, h | .none, r, _, h | .tensor _, r, _, h | .dict _, r, _, h => by
    rw [castInputs] at h
    · cases h
    all_goals simp
theorem castInputsL_inputs : ∀ (l l' : List (Val F)), (∀ a ∈ l, Plain a) → castInputsL E d t l = .ok l' → inputsL l' = inputsL l
  | [], l', _, h => by rw [castInputsL] at h; cases h; rfl
  | v :: l, l', hpn, h => by
    rw [castInputsL] at h
    cases hv : castInputs E d t v with
    | error e => rw [hv] at h; cases h
    | ok v' =>
      rw [hv] at h
      cases hl : castInputsL E d t l with
      | error e => rw [hl] at h; cases h
      | ok l'' =>
        rw [hl] at h
        cases h
        rw [inputsL, inputsL, castInputs_inputs v v' (hpn v (by simp)) hv, castInputsL_inputs l l'' (fun a ha => hpn a (by simp [ha])) hl]
theorem castInputsK_inputs : ∀ (l l' : List (Str × Val F)), (∀ k a, (k, a) ∈ l → Plain a) → castInputsK E d t l = .ok l' → inputsD l' = inputsD l
  | [], l', _, h => by rw [castInputsK] at h; cases h; rfl
  | (k, v) :: l, l', hpn, h => by
    rw [castInputsK] at h
    cases hv : castInputs E d t v with
    | error e => rw [hv] at h; cases h
    | ok v' =>
      rw [hv] at h
      cases hl : castInputsK E d t l with
      | error e => rw [hl] at h; cases h
      | ok l'' =>
        rw [hl] at h
        cases h
        rw [inputsD, inputsD, castInputs_inputs v v' (hpn k v (by simp)) hv, castInputsK_inputs l l'' (fun k a ha => hpn k a (by simp [ha])) hl]
end
end
end

section
variable {E : Recipe.Env F} {found : Val F → RegCfg}
open Whole

theorem orNode_space (hF : E.resolve nFallback = .ok fallbackSig) {a b r : Val F} (ha : a.isNode = true) (h : orNode E a b = .ok r) :
    ∃ b' sp, valueToNode E b = .ok b' ∧ b'.isNode = true ∧ r = .merge nFallback [a, b'] [] ∧ r.space E = .ok sp := by
  unfold orNode at h
  cases hb : valueToNode E b with
  | error e => rw [hb] at h; cases h
  | ok b' =>
    rw [hb] at h
    have h : createRecipe E nFallback [a, b'] [] = .ok r := h
    have hn := valueToNode_isNode hb
    obtain ⟨b'', h1, h2⟩ := create_two hF bind_fallback ha h
    rw [Serialize.valueToNode_node hn] at h1
    cases h1
    obtain ⟨_, _, _, _, sp, _, _, _, _, h5, h6⟩ := Serialize.createRecipe_ok.1 h
    exact ⟨b', sp, rfl, hn, h2, by rw [h6]; exact h5⟩

theorem orNode_of_space (hF : E.resolve nFallback = .ok fallbackSig) {a b : Val F} (ha : a.isNode = true) (hb : b.isNode = true) {sp : Option Str}
    (h : (Val.merge nFallback [a, b] []).space E = .ok sp) : orNode E a b = .ok (.merge nFallback [a, b] []) := by
  unfold orNode
  rw [Serialize.valueToNode_node hb]
  change createRecipe E nFallback [a, b] [] = _
  refine Serialize.createRecipe_ok.2 ⟨fallbackSig, _, _, _, sp, hF, bind_fallback _ _, ?_, rfl, h, rfl⟩
  unfold valuesToNodes valuesToNodes valuesToNodes
  rw [Serialize.valueToNode_node ha, Serialize.valueToNode_node hb]
  rfl

/-- The steps of `prepare` -/
theorem prepare_steps {o : Options F} {recipe original merged : Val F} (h : prepare E o recipe = .ok (original, merged)) :
    valueToNode E recipe = .ok original ∧ ∃ r1 r2, withFallback E o original = .ok r1 ∧ withInputs E o r1 = .ok r2 ∧ withOutput E o r2 = .ok merged := by
  unfold prepare at h
  cases h0 : valueToNode E recipe with
  | error e => rw [h0] at h; cases h
  | ok r =>
    rw [h0] at h
    have h : (withFallback E o r).bind _ = _ := h
    cases h1 : withFallback E o r with
    | error e => rw [h1] at h; cases h
    | ok r1 =>
      rw [h1] at h
      have h : (withInputs E o r1).bind _ = _ := h
      cases h2 : withInputs E o r1 with
      | error e => rw [h2] at h; cases h
      | ok r2 =>
        rw [h2] at h
        have h : (withOutput E o r2).bind _ = _ := h
        cases h3 : withOutput E o r2 with
        | error e => rw [h3] at h; cases h
        | ok r3 =>
          rw [h3] at h
          obtain ⟨rfl, rfl⟩ := Prod.mk.inj (Except.ok.inj h)
          exact ⟨rfl, r1, r2, h1, h2, h3⟩

theorem castInputs_isNode (hE : E.resolve nCast = .ok castSig) {d t : Option Str} {v r : Val F} (hp : Plain v) (h : castInputs E d t v = .ok r) :
    r.isNode = true := by
  cases v with
  | model p c s => rw [castInputs] at h; rw [(toNode_space hE rfl h).1]; rfl
  | merge m args kwargs =>
    rw [castInputs] at h
    split at h
    · cases h
    · cases h
    · split at h
      · cases h
      · cases h; rfl
  | lit v c s =>
    cases v with
    | dict es =>
      cases es with
      | nil => rw [castInputs] at h; cases h
      | cons e es =>
        obtain ⟨k, v⟩ := e
        have hv := hp ((k, v) :: es) c s (by rw [inputs]; simp) (k, v) (by simp)
        dsimp only at hv
        rw [castInputs] at h
        split_ifs at h with hs hs'
        · rw [(toNode_space hE rfl h).1]; rfl
        · rw [hv] at hs'; cases hs'
        · cases h; rfl
    | _ =>
      rw [castInputs] at h
      · split_ifs at h
        · first | (rw [(toNode_space hE rfl h).1]; rfl) | (cases h; rfl)
        all_goals first | (rw [(toNode_space hE rfl h).1]; rfl) | (cases h; rfl)
      all_goals simp
  | _ =>
    rw [castInputs] at h
    · cases h
    all_goals simp

theorem together_plain {r : Val F} {fb : Option (Val F)} (h : ∀ es c s, Val.lit (.dict es) c s ∈ together r fb → ∀ p ∈ es, p.2.isNode = false) :
    Plain r ∧ ∀ b, fb = some b → Plain b := by
  refine ⟨fun es c s hm => h es c s (by unfold together; simp [hm]), ?_⟩
  rintro b rfl es c s hm
  exact h es c s (by unfold together; simp [hm])

/-- Giving the inputs the configs found for them before the call. -/
theorem prepare_assign (hE : E.resolve nCast = .ok castSig) (hF : E.resolve nFallback = .ok fallbackSig) {o : Options F} {recipe original merged : Val F}
    (h : prepare E o recipe = .ok (original, merged)) {fb : Option (Val F)} (hfb : Whole.Spec.IsFallback E o fb)
    (hpn : ∀ es c s, Val.lit (.dict es) c s ∈ together original fb → ∀ p ∈ es, p.2.isNode = false) :
    prepare E { o with fallback := fb.map (assign found) } (assign found original) = .ok (assign found original, assign found merged) ∧
      inputs merged = together original fb := by
  obtain ⟨h0, r1, r2, h1, h2, h3⟩ := prepare_steps h
  have hn := valueToNode_isNode h0
  obtain ⟨hp1, hp2⟩ := together_plain hpn
  -- the fallback model
  have f1 : withFallback E { o with fallback := fb.map (assign found) } (assign found original) = .ok (assign found r1) ∧
      inputs r1 = together original fb ∧ r1.isNode = true := by
    unfold withFallback at h1 ⊢
    unfold Whole.Spec.IsFallback at hfb
    cases hb : o.fallback with
    | none =>
      rw [hb] at h1 hfb
      subst hfb
      cases h1
      exact ⟨rfl, by unfold together; simp, hn⟩
    | some b =>
      rw [hb] at h1 hfb
      obtain ⟨b', hb', rfl⟩ := hfb
      obtain ⟨b'', sp, g1, g2, rfl, g4⟩ := orNode_space hF hn h1
      rw [hb'] at g1
      cases g1
      have ha : assign found (.merge nFallback [original, b'] []) = .merge nFallback [assign found original, assign found b'] [] := by
        rw [assign, assignL, assignL, assignL, assignK]
      refine ⟨?_, by unfold together; simp [inputs, inputsL, inputsD], rfl⟩
      rw [ha]
      exact orNode_of_space hF (by rw [isNode_assign]; exact hn) (by rw [isNode_assign]; exact g2) (by rw [← ha, space_assign]; exact g4)
  obtain ⟨f1, i1, n1⟩ := f1
  have hpr : Plain r1 := by
    intro es c s hm
    rw [i1] at hm
    exact hpn es c s hm
  have f2 : withInputs E { o with fallback := fb.map (assign found) } (assign found r1) = .ok (assign found r2) ∧ inputs r2 = inputs r1 ∧ r2.isNode = true := by
    unfold Whole.withInputs at h2 ⊢
    have hco : Options.castsInputs { o with fallback := fb.map (assign found) } = o.castsInputs := rfl
    rw [hco]
    split_ifs at h2 ⊢
    · exact ⟨castInputs_assign hE _ _ _ _ hpr h2, castInputs_inputs hE _ _ _ _ hpr h2, castInputs_isNode hE hpr h2⟩
    · cases h2; exact ⟨rfl, rfl, n1⟩
  obtain ⟨f2, i2, n2⟩ := f2
  have f3 : withOutput E { o with fallback := fb.map (assign found) } (assign found r2) = .ok (assign found merged) ∧ inputs merged = inputs r2 := by
    unfold withOutput at h3 ⊢
    have hco : Options.castsOutput { o with fallback := fb.map (assign found) } = o.castsOutput := rfl
    rw [hco]
    split_ifs at h3 ⊢
    · exact ⟨toNode_assign hE n2 h3, by rw [(toNode_space hE n2 h3).1, inputs_castNode]⟩
    · cases h3; exact ⟨rfl, rfl⟩
  obtain ⟨f3, i3⟩ := f3
  refine ⟨?_, by rw [i3, i2, i1]⟩
  unfold prepare
  rw [Serialize.valueToNode_node (by rw [isNode_assign]; exact hn)]
  simp only [Bind.bind, Except.bind]
  rw [f1]
  dsimp only
  rw [f2]
  dsimp only
  rw [f3]

/-! ### Parameters -/

theorem hint_cast {S : Site F} (hS : S.env.resolve nCast = .ok castSig) : S.hint nCast 3 (.pos 0) = none := by
  unfold Site.hint
  rw [hS]
  rfl

theorem not_bare_opt (o : Option Str) : ¬ Bare (Val.lit (optVal o) none paramSpace : Val F) := by
  cases o <;> exact fun h => h

theorem unhinted_castNode {S : Site F} (hS : S.env.resolve nCast = .ok castSig) {a : Val F} (ha : Unhinted S a) (d t : Option Str) :
    Unhinted S (castNode a d t) := by
  have ho : ∀ o : Option Str, Unhinted S (Val.lit (optVal o) none paramSpace : Val F) := fun o => by rw [Unhinted] <;> simp
  unfold castNode
  rw [Unhinted, UnhintedL, UnhintedL, UnhintedL, UnhintedL, UnhintedK]
  refine ⟨?_, by simp, ⟨ha, ho d, ho t, trivial⟩, trivial⟩
  intro i b hb hbare
  match i with
  | 0 => exact hint_cast hS
  | 1 => cases hb; exact absurd hbare (not_bare_opt d)
  | 2 => cases hb; exact absurd hbare (not_bare_opt t)
  | i + 3 => simp at hb

section
variable {S : Site F} (hE : S.env.resolve nCast = .ok castSig) (d t : Option Str)
include hE

mutual
/-- Every input is an argument of `cast`, which declares no config. -/
theorem castInputs_unhinted : ∀ (v r : Val F), Numeric v → castInputs S.env d t v = .ok r → Unhinted S r ∧ ¬ Bare r
  | .model p c s, r, _, h => by
    rw [castInputs] at h
    rw [(toNode_space hE rfl h).1]
    exact ⟨unhinted_castNode hE (by rw [Unhinted] <;> simp) _ _, fun h => h⟩
  | .lit (.dict []) c s, r, _, h => by rw [castInputs] at h; cases h
  | .lit (.dict ((k, v) :: es)) c s, r, hpn, h => by
    have hv := hpn ((k, v) :: es) c s (by rw [inputs]; simp) (k, v) (by simp)
    dsimp only at hv
    rw [castInputs, if_pos hv] at h
    rw [(toNode_space hE rfl h).1]
    exact ⟨unhinted_castNode hE (by rw [Unhinted] <;> simp) _ _, fun h => h⟩
  | .merge m args kwargs, r, hpn, h => by
    rw [castInputs] at h
    cases ha : castInputsL S.env d t args with
    | error e => rw [ha] at h; cases h
    | ok as =>
      rw [ha] at h
      cases hk : castInputsK S.env d t kwargs with
      | error e => rw [hk] at h; cases h
      | ok ks =>
        rw [hk] at h
        dsimp only at h
        cases hsp : (Val.merge m as ks).space S.env with
        | error e => rw [hsp] at h; cases h
        | ok sp =>
          rw [hsp] at h; cases h
          obtain ⟨a1, a2⟩ := castInputsL_unhinted args as (fun a ha es c s hm => hpn es c s (by rw [inputs, List.mem_append]; exact .inl (mem_inputsL ha hm))) ha
          obtain ⟨k1, k2⟩ := castInputsK_unhinted kwargs ks
            (fun k a ha es c s hm => hpn es c s (by rw [inputs, List.mem_append]; exact .inr (mem_inputsD ha hm))) hk
          refine ⟨?_, fun h => h⟩
          rw [Unhinted]
          exact ⟨fun i a hi hb => absurd hb (a2 a (List.mem_of_getElem? hi)), fun k a hka hb => absurd hb (k2 k a hka), a1, k1⟩
  | .lit (.str _) c s, r, _, h | .lit .none c s, r, _, h | .lit (.lit _ _ _) c s, r, _, h | .lit (.model _ _ _) c s, r, _, h
  | .lit (.merge _ _ _) c s, r, _, h => by
    rw [castInputs] at h
    · simp only [isScalar, Bool.false_eq_true, if_false] at h
      cases h
      exact ⟨by rw [Unhinted] <;> simp, fun h => h⟩
    all_goals simp
  | .lit (.int _) c s, r, _, h | .lit (.float _) c s, r, _, h | .lit (.bool _) c s, r, _, h | .lit (.tensor _) c s, r, _, h => by
    rw [castInputs] at h
    · simp only [isScalar, if_true] at h
      rw [(toNode_space hE rfl h).1]
      exact ⟨unhinted_castNode hE (by rw [Unhinted] <;> simp) _ _, fun h => h⟩
    all_goals simp
  | .str _, r, _, h | .int _, r, _, h | .float _, r, _, h | .bool _, r, _, h | .none, r, _, h | .tensor _, r, _, h | .dict _, r, _, h => by
    rw [castInputs] at h
    · cases h
    all_goals simp
theorem castInputsL_unhinted : ∀ (l l' : List (Val F)), (∀ a ∈ l, Numeric a) → castInputsL S.env d t l = .ok l' → UnhintedL S l' ∧ ∀ a ∈ l', ¬ Bare a
  | [], l', _, h => by rw [castInputsL] at h; cases h; exact ⟨by rw [UnhintedL]; trivial, by simp⟩
  | v :: l, l', hpn, h => by
    rw [castInputsL] at h
    cases hv : castInputs S.env d t v with
    | error e => rw [hv] at h; cases h
    | ok v' =>
      rw [hv] at h
      cases hl : castInputsL S.env d t l with
      | error e => rw [hl] at h; cases h
      | ok l'' =>
        rw [hl] at h
        cases h
        obtain ⟨a1, a2⟩ := castInputs_unhinted v v' (hpn v (by simp)) hv
        obtain ⟨b1, b2⟩ := castInputsL_unhinted l l'' (fun a ha => hpn a (by simp [ha])) hl
        refine ⟨by rw [UnhintedL]; exact ⟨a1, b1⟩, ?_⟩
        intro a ha
        rcases List.mem_cons.1 ha with rfl | ha
        · exact a2
        · exact b2 a ha
theorem castInputsK_unhinted : ∀ (l l' : List (Str × Val F)), (∀ k a, (k, a) ∈ l → Numeric a) → castInputsK S.env d t l = .ok l' →
    UnhintedK S l' ∧ ∀ k a, (k, a) ∈ l' → ¬ Bare a
  | [], l', _, h => by rw [castInputsK] at h; cases h; exact ⟨by rw [UnhintedK]; trivial, by simp⟩
  | (k, v) :: l, l', hpn, h => by
    rw [castInputsK] at h
    cases hv : castInputs S.env d t v with
    | error e => rw [hv] at h; cases h
    | ok v' =>
      rw [hv] at h
      cases hl : castInputsK S.env d t l with
      | error e => rw [hl] at h; cases h
      | ok l'' =>
        rw [hl] at h
        cases h
        obtain ⟨a1, a2⟩ := castInputs_unhinted v v' (hpn k v (by simp)) hv
        obtain ⟨b1, b2⟩ := castInputsK_unhinted l l'' (fun k a ha => hpn k a (by simp [ha])) hl
        refine ⟨by rw [UnhintedK]; exact ⟨a1, b1⟩, ?_⟩
        intro q a ha
        rcases List.mem_cons.1 ha with h | ha
        · cases h; exact a2
        · exact b2 q a ha
end
end

end

end Verif.ByName
