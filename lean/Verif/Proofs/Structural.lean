import Verif.Proofs.Inputs
import Verif.Props.Infer

/-!
# Proofs about structural configs
-/
namespace Verif.Inputs
open Method Config Infer Spec

theorem infer_unknown {L : List RegCfg} {sd : List Str} (hsmall : Small L sd) (h : ∀ c ∈ L, ¬ Infer.Spec.Enough sd c.config) :
    Infer.infer L sd = .ok [] := by
  have hscan : ∀ L : List RegCfg, Small L sd → (∀ c ∈ L, ¬ Infer.Spec.Enough sd c.config) → scan sd L = .ok [] := by
    intro L
    induction L with
    | nil => intro _ _; rfl
    | cons c cs ih =>
      intro h1 h2
      rw [scan_cons h1, if_neg (h2 c (by simp))]
      exact ih (small_tail h1) fun d hd => h2 d (by simp [hd])
  unfold Infer.infer
  rw [hscan L hsmall h]
  rfl

theorem inferred_unknown {E : Env} {ks : List Str} (hsmall : Small E.registry ks)
    (h : ∀ c ∈ E.registry, ¬ Infer.Spec.Enough ks c.config) (param : Option RegCfg) : inferred E param ks = .ok none := by
  unfold inferred
  rw [infer_unknown hsmall h]
  cases param <;> simp

/-- The metadata of a state dict in memory -/
theorem literalMeta_eq {es : List (Str × Tree)} (h : StateDict es) :
    (literalMeta es).keys = es.map (·.1) ∧
    (∀ k shape dtype, Has es k shape dtype ↔ (literalMeta es).get? k = some (.key ⟨some shape, dtype, [], true⟩)) ∧
    ∀ k m, (literalMeta es).get? k = some m → ∃ shape dtype, m = .key ⟨some shape, dtype, [], true⟩ := by
  obtain ⟨hn, ht⟩ := h
  have hmap : ∀ es : List (Str × Tree), (∀ p ∈ es, ∃ shape dtype, p.2 = Tree.raw (some ⟨some shape, dtype⟩)) →
      (literalMeta es).keys = es.map (·.1) ∧
      ∀ k m, (k, m) ∈ literalMeta es ↔ ∃ shape dtype, Has es k shape dtype ∧ m = .key ⟨some shape, dtype, [], true⟩ := by
    intro es
    induction es with
    | nil => intro _; exact ⟨rfl, by simp [literalMeta, Has]⟩
    | cons p es ih =>
      intro h
      obtain ⟨k, t⟩ := p
      obtain ⟨shape, dtype, hp⟩ := h _ (List.mem_cons_self ..)
      simp only at hp
      subst hp
      obtain ⟨h1, h2⟩ := ih fun q hq => h q (by simp [hq])
      have hcons : literalMeta ((k, Tree.raw (some ⟨some shape, dtype⟩)) :: es) = (k, .key ⟨some shape, dtype, [], true⟩) :: literalMeta es := rfl
      rw [hcons]
      refine ⟨?_, ?_⟩
      · show k :: Dict.keys (literalMeta es) = _
        rw [h1]; rfl
      · intro k' m
        rw [List.mem_cons, h2]
        unfold Has
        simp only [List.mem_cons, Prod.mk.injEq, Tree.raw.injEq, Option.some.injEq, TensorMeta.mk.injEq]
        constructor
        · rintro (⟨rfl, rfl⟩ | ⟨s', d', h3, rfl⟩)
          · exact ⟨shape, dtype, .inl ⟨rfl, rfl, rfl⟩, rfl⟩
          · exact ⟨s', d', .inr h3, rfl⟩
        · rintro ⟨s', d', ⟨rfl, rfl, rfl⟩ | h3, rfl⟩
          · exact .inl ⟨rfl, rfl⟩
          · exact .inr ⟨s', d', h3, rfl⟩
  obtain ⟨h1, h2⟩ := hmap es ht
  have hn' : (literalMeta es).keys.Nodup := by rw [h1]; exact hn
  refine ⟨h1, ?_, ?_⟩
  · intro k shape dtype
    rw [Dict.get?_eq_some_iff hn', h2]
    constructor
    · intro h; exact ⟨shape, dtype, h, rfl⟩
    · rintro ⟨s', d', h, h'⟩
      simp only [Meta.key.injEq, KeyMeta.mk.injEq, Option.some.injEq, and_true] at h'
      rw [h'.1, h'.2]; exact h
  · intro k m hm
    obtain ⟨s', d', _, h⟩ := (h2 k m).1 (Dict.mem_of_get? hm)
    exact ⟨s', d', h⟩

/-- Entries as they come from tensors in memory -/
def Tensors (d : Dict Str Meta) : Prop := d.keys.Nodup ∧ ∀ k m, d.get? k = some m → ∃ shape dtype, m = .key ⟨some shape, dtype, [], true⟩

/-- The number of elements, of an entry with a shape -/
def size : Meta → ℕ
  | .key m => (m.shape.getD []).prod
  | .tensor m => (m.shape.getD []).prod

theorem bigger_tensors {m m' : Meta} (h : ∃ shape dtype, m = .key ⟨some shape, dtype, [], true⟩) (h' : ∃ shape dtype, m' = .key ⟨some shape, dtype, [], true⟩) :
    bigger m m' = .ok (decide (size m' < size m)) := by
  obtain ⟨a, b, rfl⟩ := h
  obtain ⟨a', b', rfl⟩ := h'
  rfl

/-- The larger of the entries, the old one if they have the same size -/
def pick (m m' : Meta) : Meta := if size m' < size m then m else m'

/-- The loop takes the intersection of the two. -/
theorem intersectLoop_spec {md : Dict Str Meta} (hmd : Tensors md) : ∀ (ks : List Str) (d : Dict Str Meta), Tensors d → ks.Nodup → (∀ k ∈ ks, k ∈ d.keys) →
    ∃ d', intersectLoop md ks d = (d', .ok ()) ∧ Tensors d' ∧
      ∀ k, d'.get? k = if k ∈ ks then (match md.get? k, d.get? k with | some m, some m' => some (pick m m') | _, _ => none) else d.get? k
  | [], d, hd, _, _ => ⟨d, rfl, hd, by simp⟩
  | k :: ks, d, hd, hnd, hks => by
    obtain ⟨hk, hnd'⟩ := List.nodup_cons.1 hnd
    rw [intersectLoop]
    cases hm : md.get? k with
    | none =>
      have hd' : Tensors (d.erase k) := by
        refine ⟨?_, ?_⟩
        · exact List.Nodup.sublist (List.Sublist.map _ (List.filter_sublist ..)) hd.1
        · intro j m hj
          rw [Dict.get?_erase] at hj
          split_ifs at hj
          exact hd.2 j m hj
      obtain ⟨d', h1, h2, h3⟩ := intersectLoop_spec hmd ks (d.erase k) hd' hnd' (by
        intro j hj
        rw [← Dict.get?_isSome_iff, Dict.get?_erase, if_neg (by rintro rfl; exact hk hj), Dict.get?_isSome_iff]
        exact hks j (by simp [hj]))
      refine ⟨d', h1, h2, fun j => ?_⟩
      rw [h3, Dict.get?_erase]
      by_cases hjk : k = j
      · subst hjk
        simp [hk, hm]
      · simp [hjk, Ne.symm hjk, List.mem_cons]
    | some m =>
      obtain ⟨m', hm'⟩ := Option.isSome_iff_exists.1 ((Dict.get?_isSome_iff d k).2 (hks k (by simp)))
      simp only [hm', bigger_tensors (hmd.2 k m hm) (hd.2 k m' hm')]
      by_cases hlt : size m' < size m
      · simp only [hlt, decide_true]
        have hd' : Tensors (d.set k m) := by
          refine ⟨Dict.nodup_set hd.1 _ _, ?_⟩
          intro j x hj
          rw [Dict.get?_set] at hj
          split_ifs at hj with hkj
          · subst hkj; cases hj; exact hmd.2 _ _ hm
          · exact hd.2 j x hj
        obtain ⟨d', h1, h2, h3⟩ := intersectLoop_spec hmd ks (d.set k m) hd' hnd' (by
          intro j hj
          rw [Dict.mem_keys_set]
          exact .inr (hks j (by simp [hj])))
        refine ⟨d', h1, h2, fun j => ?_⟩
        rw [h3]
        by_cases hjk : k = j
        · subst hjk
          simp [hk, hm, hm', pick, hlt]
        · rw [Dict.get?_set_ne _ _ hjk]
          simp [Ne.symm hjk, List.mem_cons]
      · simp only [hlt, decide_false]
        obtain ⟨d', h1, h2, h3⟩ := intersectLoop_spec hmd ks d hd hnd' (fun j hj => hks j (by simp [hj]))
        refine ⟨d', h1, h2, fun j => ?_⟩
        rw [h3]
        by_cases hjk : k = j
        · subst hjk
          simp [hk, hm, hm', pick, hlt]
        · simp [Ne.symm hjk, List.mem_cons]

theorem intersect_spec {md d : Dict Str Meta} (hmd : Tensors md) (hd : Tensors d) (hne : d ≠ []) :
    ∃ d', intersect md d = (d', .ok ()) ∧ Tensors d' ∧
      ∀ k, d'.get? k = match md.get? k, d.get? k with | some m, some m' => some (pick m m') | _, _ => none := by
  unfold intersect
  rw [if_neg hne]
  obtain ⟨d', h1, h2, h3⟩ := intersectLoop_spec hmd d.keys d hd hd.1 (fun _ h => h)
  refine ⟨d', h1, h2, fun k => ?_⟩
  rw [h3]
  split_ifs with hk
  · rfl
  · rw [← Dict.get?_isSome_iff, Option.not_isSome_iff_eq_none] at hk
    rw [hk]
    cases md.get? k <;> rfl

/-! ### The structural config after some of the inputs -/

abbrev Input := ℕ × List (Str × Tree)

/-- `d` is the intersection of the inputs `pre`, with the largest entries. -/
structure Inter (pre : List Input) (d : Dict Str Meta) : Prop where
  tensors : Tensors d
  nil : pre = [] → d = []
  keys : pre ≠ [] → ∀ k, k ∈ d.keys ↔ Common pre k
  largest : ∀ k m, d.get? k = some m → (∃ x ∈ pre, ∃ shape dtype, Has x.2 k shape dtype ∧ m = .key ⟨some shape, dtype, [], true⟩) ∧
    ∀ x ∈ pre, ∀ shape dtype, Has x.2 k shape dtype → shape.prod ≤ size m

theorem tensors_literal {es : List (Str × Tree)} (h : StateDict es) : Tensors (literalMeta es) := by
  obtain ⟨h1, _, h3⟩ := literalMeta_eq h
  exact ⟨by rw [h1]; exact h.1, h3⟩

theorem ne_nil_of_mem_keys {κ ν : Type} {d : Dict κ ν} {k : κ} (h : k ∈ d.keys) : d ≠ [] := by
  rintro rfl; simp [Dict.keys] at h

/-- One more input -/
theorem Inter.step {pre : List Input} {d : Dict Str Meta} (h : Inter pre d) {x : Input} (hx : StateDict x.2)
    (hne : pre ≠ [] → ∃ k, Common pre k) : ∃ d', intersect (literalMeta x.2) d = (d', .ok ()) ∧ Inter (pre ++ [x]) d' := by
  obtain ⟨e1, e2, e3⟩ := literalMeta_eq hx
  have ht := tensors_literal hx
  by_cases hpre : pre = []
  · subst hpre
    have hd := h.nil rfl
    subst hd
    refine ⟨literalMeta x.2, ?_, ht, by simp, ?_, ?_⟩
    · unfold intersect
      rw [if_pos rfl]
      have : Dict.update [] (literalMeta x.2) = literalMeta x.2 := Dict.ofList_of_nodup ht.1
      rw [this]
    · intro _ k
      rw [e1]
      simp [Common]
    · intro k m hm
      obtain ⟨shape, dtype, rfl⟩ := e3 k m hm
      refine ⟨⟨x, by simp, shape, dtype, (e2 _ _ _).2 hm, rfl⟩, ?_⟩
      intro y hy s' d' hy'
      simp only [List.nil_append, List.mem_singleton] at hy
      subst hy
      rw [e2, hm] at hy'
      simp only [Option.some.injEq, Meta.key.injEq, KeyMeta.mk.injEq, and_true] at hy'
      simp [size, hy'.1]
  · obtain ⟨k0, hk0⟩ := hne hpre
    have hdne : d ≠ [] := ne_nil_of_mem_keys ((h.keys hpre k0).2 hk0)
    obtain ⟨d', h1, h2, h3⟩ := intersect_spec ht h.tensors hdne
    refine ⟨d', h1, h2, by simp, ?_, ?_⟩
    · intro _ k
      have hc : Common (pre ++ [x]) k ↔ Common pre k ∧ k ∈ x.2.map (·.1) := by
        unfold Common
        simp only [List.mem_append, List.mem_singleton]
        constructor
        · intro h; exact ⟨fun d hd => h d (.inl hd), h x (.inr rfl)⟩
        · rintro ⟨h1, h2⟩ d (hd | rfl)
          · exact h1 d hd
          · exact h2
      rw [hc, ← h.keys hpre k, ← e1, ← Dict.get?_isSome_iff, ← Dict.get?_isSome_iff, ← Dict.get?_isSome_iff, h3]
      cases (literalMeta x.2).get? k <;> cases d.get? k <;> simp
    · intro k m hm
      rw [h3] at hm
      cases ha : (literalMeta x.2).get? k with
      | none => rw [ha] at hm; simp at hm
      | some a =>
        cases hb : d.get? k with
        | none => rw [ha, hb] at hm; simp at hm
        | some b =>
          rw [ha, hb] at hm
          simp only [Option.some.injEq] at hm
          obtain ⟨⟨y, hy, s1, d1, hy', hb'⟩, hmax⟩ := h.largest k b hb
          obtain ⟨s2, d2, ha'⟩ := e3 k a ha
          have hxa : Has x.2 k s2 d2 := by rw [e2, ha, ha']
          have hxonly : ∀ s' d', Has x.2 k s' d' → s'.prod = size a := by
            intro s' d' h'
            rw [e2, ha] at h'
            rw [Option.some.inj h']; rfl
          by_cases hlt : size b < size a
          · have hm' : m = a := by rw [← hm, pick, if_pos hlt]
            subst hm'
            refine ⟨⟨x, by simp, s2, d2, hxa, ha'⟩, ?_⟩
            intro z hz s' d' hz'
            rcases List.mem_append.1 hz with hz | hz
            · exact le_trans (hmax z hz s' d' hz') (le_of_lt hlt)
            · simp only [List.mem_singleton] at hz
              subst hz
              exact le_of_eq (hxonly _ _ hz')
          · have hm' : m = b := by rw [← hm, pick, if_neg hlt]
            subst hm'
            refine ⟨⟨y, by simp [hy], s1, d1, hy', hb'⟩, ?_⟩
            intro z hz s' d' hz'
            rcases List.mem_append.1 hz with hz | hz
            · exact hmax z hz s' d' hz'
            · simp only [List.mem_singleton] at hz
              subst hz
              rw [hxonly _ _ hz']; omega

/-- An input that was there before -/
theorem Inter.again {pre : List Input} {d : Dict Str Meta} (h : Inter pre d) {x : Input} (hx : x ∈ pre) : Inter (pre ++ [x]) d := by
  have hmem : ∀ y, y ∈ pre ++ [x] ↔ y ∈ pre := by
    intro y
    simp only [List.mem_append, List.mem_singleton, or_iff_left_iff_imp]
    rintro rfl; exact hx
  refine ⟨h.tensors, by simp, ?_, ?_⟩
  · intro _ k
    rw [h.keys (List.ne_nil_of_mem hx)]
    unfold Common
    simp only [hmem]
  · intro k m hm
    simp only [hmem]
    exact h.largest k m hm

/-! ### Loading -/

/-- The dicts without config, in the order of the visit -/
def unknowns (cfg : ℕ → Option Cfg) (ds : List Input) : List Input := ds.filter fun d => cfg d.1 = none

/-- State after the inputs `pre` -/
structure Seen (ref : ℕ) (cfg : ℕ → Option Cfg) (pre : List Input) (s : St) : Prop where
  inter : Inter pre (s.structs ref)
  config : ∀ id, s.config id = if id ∈ pre.map (·.1) then some (.struct ref) else cfg id

/-- What is assumed of the whole recipe: models and some dicts have a registered config, the other dicts are state dicts of unknown
architecture. -/
structure Setting (E : Env) (cfg : ℕ → Option Cfg) (ms : List (ℕ × Str)) (ds : List Input) : Prop where
  models : ∀ p ∈ ms, ∃ c, cfg p.1 = some (.reg c)
  dicts : ∀ d ∈ ds, (∃ c, cfg d.1 = some (.reg c)) ∨ (cfg d.1 = none ∧ StateDict d.2 ∧ Small E.registry (d.2.map (·.1)) ∧ Unknown E.registry d.2)
  same : ∀ d ∈ ds, ∀ e ∈ ds, d.1 = e.1 → d.2 = e.2
  common : ∀ pre post, unknowns cfg ds = pre ++ post → pre ≠ [] → post ≠ [] → ∃ k, Common pre k

theorem Seen.reg {E : Env} {cfg : ℕ → Option Cfg} {pre : List Input} {s : St} {ms : List (ℕ × Str)} {ds : List Input} (hs : Seen E.ref cfg pre s)
    (hpre : ∀ x ∈ pre, cfg x.1 = none) {id : ℕ} {c : RegCfg} (hc : cfg id = some (.reg c)) (param : Option RegCfg) (md : Dict Str Meta) (ks : List Str)
    {s' : St} {r : Except Err Unit} (h : finishLoad E param id md ks s = (s', r)) : Seen E.ref cfg pre s' := by
  have hid : id ∉ pre.map (·.1) := by
    intro hm
    obtain ⟨x, hx, rfl⟩ := List.mem_map.1 hm
    rw [hpre x hx] at hc; cases hc
  have hcfg : s.config id = some (.reg c) := by rw [hs.config, if_neg hid, hc]
  have hcfg' : upd s.config id (some (.reg c)) = s.config := by
    funext j
    unfold upd
    split_ifs with hj
    · rw [hj, hcfg]
    · rfl
  unfold finishLoad determine at h
  rw [hcfg] at h
  simp only [Prod.mk.injEq] at h
  rw [← h.1]
  refine ⟨hs.inter, ?_⟩
  intro j
  show upd s.config id (some (.reg c)) j = _
  rw [hcfg']
  exact hs.config j

theorem loadDict_config (E : Env) (id : ℕ) (path : Str) (s : St) :
    (loadDict E id path s).1.config = s.config ∧ (loadDict E id path s).1.structs = s.structs := by
  unfold loadDict
  cases s.sd id with
  | some h => exact ⟨rfl, rfl⟩
  | none =>
    simp only
    cases s.cache.get? (E.fs.resolve (search E.fs E.dirs path)) with
    | some h => exact ⟨rfl, rfl⟩
    | none =>
      simp only
      split_ifs
      · cases E.fs.open (search E.fs E.dirs path) <;> exact ⟨rfl, rfl⟩
      · exact ⟨rfl, rfl⟩

mutual
theorem load_seen {E : Env} {cfg : ℕ → Option Cfg} {ms : List (ℕ × Str)} {ds : List Input} (S : Setting E cfg ms ds) (param : Option RegCfg) :
    ∀ (t : Tree) (s s' : St) (u : Unit) (before after : List Input), ds = before ++ dicts t ++ after → (∀ p ∈ models t, p ∈ ms) →
      Seen E.ref cfg (unknowns cfg before) s → load E param t s = (s', .ok u) → Seen E.ref cfg (unknowns cfg (before ++ dicts t)) s'
  | .raw _, s, s', u, before, after, _, _, hs, h => by
    rw [load] at h; rw [dicts, List.append_nil]; cases h; exact hs
  | .lit, s, s', u, before, after, _, _, hs, h => by
    rw [load] at h; rw [dicts, List.append_nil]; cases h; exact hs
  | .dict id es, s, s', u, before, after, hds, hms, hs, h => by
    rw [dicts] at hds ⊢
    rw [models] at hms
    rw [load] at h
    split at h
    · cases h
    · rename_i s1 u1 heq
      have h1 := loadE_seen S param es s s1 u1 before ((id, es) :: after) (by rw [hds]; simp) hms hs heq
      have hpre : ∀ x ∈ unknowns cfg (before ++ dictsE es), cfg x.1 = none := by
        intro x hx
        unfold unknowns at hx
        simpa using (List.mem_filter.1 hx).2
      have hmem : (id, es) ∈ ds := by rw [hds]; simp
      have hsplit : unknowns cfg (before ++ (dictsE es ++ [(id, es)])) = unknowns cfg (before ++ dictsE es) ++ unknowns cfg [(id, es)] := by
        unfold unknowns; simp
      rw [hsplit]
      rcases S.dicts _ hmem with ⟨c, hc⟩ | ⟨hc, hst, hsm, hun⟩
      · have : unknowns cfg [(id, es)] = [] := by unfold unknowns; simp [hc]
        rw [this, List.append_nil]
        exact h1.reg (ms := ms) (ds := ds) hpre hc param _ _ h
      · have hun1 : unknowns cfg [(id, es)] = [(id, es)] := by unfold unknowns; simp [hc]
        rw [hun1]
        simp only at hc hst hsm hun
        have hcfg := h1.config id
        by_cases hid : id ∈ (unknowns cfg (before ++ dictsE es)).map (·.1)
        · -- seen before
          rw [if_pos hid] at hcfg
          obtain ⟨x, hx, hxid⟩ := List.mem_map.1 hid
          have hxd : x ∈ ds := by
            have := (List.mem_filter.1 hx).1
            rw [hds]
            simp only [List.mem_append] at this ⊢
            tauto
          have hxe : x = (id, es) := by
            have := S.same x hxd _ hmem hxid
            obtain ⟨x1, x2⟩ := x
            simp only at hxid this
            rw [hxid, this]
          have hcfg' : upd s1.config id (some (.struct E.ref)) = s1.config := by
            funext j
            unfold upd
            split_ifs with hj
            · rw [hj, hcfg]
            · rfl
          unfold finishLoad determine at h
          rw [hcfg] at h
          simp only [Prod.mk.injEq] at h
          rw [← h.1]
          refine ⟨h1.inter.again (hxe ▸ hx), ?_⟩
          intro j
          show upd s1.config id (some (.struct E.ref)) j = _
          rw [hcfg', h1.config j]
          have : j ∈ (unknowns cfg (before ++ dictsE es) ++ [(id, es)]).map (·.1) ↔ j ∈ (unknowns cfg (before ++ dictsE es)).map (·.1) := by
            simp only [List.map_append, List.map_cons, List.map_nil, List.mem_append, List.mem_singleton, or_iff_left_iff_imp]
            rintro rfl; exact hid
          simp only [this]
        · rw [if_neg hid, hc] at hcfg
          have hcommon : unknowns cfg (before ++ dictsE es) ≠ [] → ∃ k, Common (unknowns cfg (before ++ dictsE es)) k := by
            intro hne
            refine S.common _ ([(id, es)] ++ unknowns cfg after) ?_ hne (by simp)
            rw [hds, ← hun1]
            unfold unknowns
            simp
          obtain ⟨d', hi, hint⟩ := h1.inter.step (x := (id, es)) hst hcommon
          have hks : (literalMeta es).keys = es.map (·.1) := (literalMeta_eq hst).1
          have hdet : determine E param (literalMeta es) none s1 = ({ s1 with structs := upd s1.structs E.ref d' }, .ok (.struct E.ref)) := by
            unfold determine
            rw [hks, inferred_unknown hsm hun]
            simp only [reduceCtorEq, if_false]
            simp only at hi
            rw [hi]
          unfold finishLoad at h
          rw [hcfg, hdet] at h
          simp only [Prod.mk.injEq] at h
          rw [← h.1]
          refine ⟨?_, ?_⟩
          · show Inter _ (upd s1.structs E.ref d' E.ref)
            unfold upd
            rw [if_pos rfl]
            exact hint
          · intro j
            show upd s1.config id (some (.struct E.ref)) j = _
            unfold upd
            rw [h1.config j]
            by_cases hj : j = id
            · subst hj; simp
            · simp only [hj, if_false, List.map_append, List.map_cons, List.map_nil, List.mem_append, List.mem_singleton, or_false]
  | .model id path, s, s', u, before, after, hds, hms, hs, h => by
    rw [dicts, List.append_nil]
    rw [models] at hms
    obtain ⟨c, hc⟩ := S.models (id, path) (hms _ (by simp))
    obtain ⟨hl1, hl2⟩ := loadDict_config E id path s
    have hpre : ∀ x ∈ unknowns cfg before, cfg x.1 = none := by
      intro x hx
      unfold unknowns at hx
      simpa using (List.mem_filter.1 hx).2
    rw [load] at h
    split at h
    · cases h
    · rename_i s1 hh heq
      rw [heq] at hl1 hl2
      simp only at hl1 hl2
      split at h
      · cases h
      · refine Seen.reg (ms := ms) (ds := ds) ?_ hpre hc param _ _ h
        refine ⟨?_, ?_⟩
        · show Inter _ (s1.structs E.ref)
          rw [hl2]; exact hs.inter
        · intro j
          show s1.config j = _
          rw [hl1]; exact hs.config j
  | .merge cs, s, s', u, before, after, hds, hms, hs, h => by
    rw [dicts] at hds ⊢
    rw [models] at hms
    rw [load] at h
    exact loadC_seen S cs s s' u before after hds hms hs h
theorem loadE_seen {E : Env} {cfg : ℕ → Option Cfg} {ms : List (ℕ × Str)} {ds : List Input} (S : Setting E cfg ms ds) (param : Option RegCfg) :
    ∀ (es : List (Str × Tree)) (s s' : St) (u : Unit) (before after : List Input), ds = before ++ dictsE es ++ after → (∀ p ∈ modelsE es, p ∈ ms) →
      Seen E.ref cfg (unknowns cfg before) s → loadE E param es s = (s', .ok u) → Seen E.ref cfg (unknowns cfg (before ++ dictsE es)) s'
  | [], s, s', u, before, after, _, _, hs, h => by
    rw [loadE] at h; rw [dictsE, List.append_nil]; cases h; exact hs
  | (k, t) :: es, s, s', u, before, after, hds, hms, hs, h => by
    rw [dictsE] at hds ⊢
    rw [modelsE] at hms
    rw [loadE] at h
    split at h
    · cases h
    · rename_i s1 u1 heq
      have h1 := load_seen S param t s s1 u1 before (dictsE es ++ after) (by rw [hds]; simp) (fun p hp => hms p (by simp [hp])) hs heq
      have h2 := loadE_seen S param es s1 s' u (before ++ dicts t) after (by rw [hds]; simp) (fun p hp => hms p (by simp [hp])) h1 h
      rw [← List.append_assoc]; exact h2
theorem loadC_seen {E : Env} {cfg : ℕ → Option Cfg} {ms : List (ℕ × Str)} {ds : List Input} (S : Setting E cfg ms ds) :
    ∀ (cs : List (Option RegCfg × Tree)) (s s' : St) (u : Unit) (before after : List Input), ds = before ++ dictsC cs ++ after → (∀ p ∈ modelsC cs, p ∈ ms) →
      Seen E.ref cfg (unknowns cfg before) s → loadC E cs s = (s', .ok u) → Seen E.ref cfg (unknowns cfg (before ++ dictsC cs)) s'
  | [], s, s', u, before, after, _, _, hs, h => by
    rw [loadC] at h; rw [dictsC, List.append_nil]; cases h; exact hs
  | (param, t) :: cs, s, s', u, before, after, hds, hms, hs, h => by
    rw [dictsC] at hds ⊢
    rw [modelsC] at hms
    rw [loadC] at h
    split at h
    · cases h
    · rename_i s1 u1 heq
      have h1 := load_seen S param t s s1 u1 before (dictsC cs ++ after) (by rw [hds]; simp) (fun p hp => hms p (by simp [hp])) hs heq
      have h2 := loadC_seen S cs s1 s' u (before ++ dicts t) after (by rw [hds]; simp) (fun p hp => hms p (by simp [hp])) h1 h
      rw [← List.append_assoc]; exact h2
end

end Verif.Inputs
