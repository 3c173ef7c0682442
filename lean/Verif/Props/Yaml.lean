import Verif.Proofs.Yaml

/-!
# C100–C102: configs from YAML
-/
namespace Verif.Yaml
open Method Config Registry Registry.Spec Spec

/-! ## C101: reading -/

/-- **C101 (content).**  A document that says a config with a valid identifier is accepted, and the result shows this config: the same
identifier and its parts, the same components with the same keys in the same order, and the same views. -/
theorem C101_reads {torch : Str → Option Obj} {doc : Obj} {c : ModelConfig} (h : Says torch doc c) (hv : Valid c.identifier) :
    ∃ o, fromYaml torch doc = .ok o ∧ view o .identifier = .ok (.text c.identifier) ∧
      (∀ a b, c.identifier = a ++ '-' :: b → Part a → Part b → view o .architecture = .ok (.text a) ∧ view o .implementation = .ok (.text b)) ∧
      (∃ l, view o .components = .ok (.components l) ∧
        Agree (fun x (ks : Component) => ∃ keys, x = .component keys ∧ Agree Shown keys ks) l c.components) ∧
      (∃ l, view o .keys = .ok (.keys l) ∧ Agree Shown l c.keys) ∧
      (∃ l, view o .metadata = .ok (.metadata l) ∧ Agree (fun x (m : TensorMeta) => x = (shapeObj m.shape, dtypeObj m.dtype)) l c.metadata) ∧
      ∃ l, view o .aliases = .ok (.aliases l) ∧ Agree (fun x (m : List Str) => x = .list (m.map .str) ∨ (x = .tuple [] ∧ m = [])) l c.aliases := by
  obtain ⟨l, h1, h2⟩ := fromYaml_says h hv
  refine ⟨_, h1, rfl, fun a b e ha hb => ?_, ⟨l, rfl, h2⟩, ?_, ?_, ?_⟩
  · obtain ⟨h3, h4⟩ := (C44_identifier c.identifier).2 a b e ha hb
    exact ⟨by show (architecture c.identifier).map _ = _; rw [h3]; rfl, by show (implementation c.identifier).map _ = _; rw [h4]; rfl⟩
  · obtain ⟨L, h3, h4⟩ := pairs_built (R := Shown) (f := .ok) (g := fun m => m) (fun o m hs => ⟨o, rfl, hs⟩) h2
    refine ⟨Dict.ofList L, by show (pairs .ok l).map _ = _; rw [h3]; rfl, ?_⟩
    simp only [Prod.mk.eta, List.map_id'] at h4
    exact agree_ofList h4
  · obtain ⟨L, h3, h4⟩ := pairs_built (R := fun x (m : TensorMeta) => x = (shapeObj m.shape, dtypeObj m.dtype)) (f := metadataOf) (g := KeyMeta.metadata)
      (fun o m hs => by obtain ⟨al, rfl, -⟩ := hs; exact ⟨_, rfl, rfl⟩) h2
    exact ⟨Dict.ofList L, by show (pairs metadataOf l).map _ = _; rw [h3]; rfl, agree_ofList h4⟩
  · obtain ⟨L, h3, h4⟩ := pairs_built (R := fun x (m : List Str) => x = .list (m.map .str) ∨ (x = .tuple [] ∧ m = [])) (f := aliasesOf) (g := KeyMeta.aliases)
      (fun o m hs => by obtain ⟨al, rfl, h⟩ := hs; exact ⟨_, rfl, h⟩) h2
    exact ⟨Dict.ofList L, by show (pairs aliasesOf l).map _ = _; rw [h3]; rfl, agree_ofList h4⟩

/-- **C101 (order).**  If no key is in two components, the keys are those of the document in its order. -/
theorem C101_order {torch : Str → Option Obj} {doc : Obj} {c : ModelConfig} (h : Says torch doc c) (hv : Valid c.identifier)
    (hd : (c.components.flatMap fun p => p.2.map (·.1)).Nodup) :
    ∃ o l, fromYaml torch doc = .ok o ∧ view o .keys = .ok (.keys l) ∧ Agree Shown l (c.components.flatMap fun p => p.2) := by
  obtain ⟨o, h1, -, -, -, ⟨l, h2, h3⟩, -⟩ := C101_reads h hv
  refine ⟨o, l, h1, h2, ?_⟩
  have : c.keys = c.components.flatMap fun p => p.2 := by
    refine Dict.ofList_of_nodup ?_
    show ((c.components.flatMap fun p => p.2).map (·.1)).Nodup
    rw [List.map_flatMap]; exact hd
  rwa [this] at h3

/-- **C101 (keys in two components).**  Such a key has the entry of the last of them. -/
theorem C101_twice {torch : Str → Option Obj} {doc : Obj} {c : ModelConfig} (h : Says torch doc c) (hv : Valid c.identifier)
    {pre post : Dict Str Component} {n : Str} {ks : Component} (hc : c.components = pre ++ (n, ks) :: post) {k : Str} {m : KeyMeta} (hk : (k, m) ∈ ks)
    (hl : ∀ p ∈ post, k ∉ p.2.map (·.1)) :
    ∃ o l x, fromYaml torch doc = .ok o ∧ view o .keys = .ok (.keys l) ∧ Dict.get? l k = some x ∧ Shown x m := by
  obtain ⟨o, h1, -, -, -, ⟨l, h2, h3⟩, -⟩ := C101_reads h hv
  have hn := says_nodup h (p := (n, ks)) (by rw [hc]; simp)
  have hg : c.keys.get? k = some m := by
    show Dict.get? (Dict.ofList (c.components.flatMap fun p => p.2)) k = _
    rw [hc, List.flatMap_append, List.flatMap_cons, ← List.append_assoc]
    unfold Dict.ofList
    rw [Dict.update_append, get?_update_other, Dict.update_append, Dict.get?_update _ hn, Dict.get?_of_mem (d := ks) hn hk]
    · rfl
    · intro hm
      obtain ⟨q, hq, rfl⟩ := List.mem_map.1 hm
      obtain ⟨p, hp, hq⟩ := List.mem_flatMap.1 hq
      exact hl p hp (List.mem_map.2 ⟨_, hq, rfl⟩)
  obtain ⟨x, h4, h5⟩ := agree_get h3 hg
  exact ⟨o, l, x, h1, h2, h4, h5⟩

/-! Which documents are accepted -/

theorem size_ok (l : List Obj) : (∃ r, size l = .ok r) ↔ ∀ x ∈ l, ∃ n, x = .int n := by
  induction l with
  | nil => simp [size]
  | cons o l ih =>
    constructor
    · rintro ⟨r, h⟩
      cases o with
      | int n =>
        have h : (size l).map (n :: ·) = .ok r := h
        cases hs : size l with
        | error e => rw [hs] at h; cases h
        | ok r' =>
          intro x hx
          rcases List.mem_cons.1 hx with rfl | hx
          · exact ⟨n, rfl⟩
          · exact ih.1 ⟨r', hs⟩ x hx
      | _ => cases h
    · intro h
      obtain ⟨n, rfl⟩ := h o List.mem_cons_self
      obtain ⟨r, hr⟩ := ih.2 fun x hx => h x (List.mem_cons_of_mem _ hx)
      exact ⟨n :: r, by show (size l).map _ = _; rw [hr]; rfl⟩

theorem size_error {l : List Obj} {e : Err} (h : size l = .error e) : e = .type := by
  induction l with
  | nil => cases h
  | cons o l ih =>
    cases o with
    | int n =>
      have h : (size l).map (n :: ·) = .error e := h
      cases hs : size l with
      | error e' => rw [hs] at h; cases h; exact ih hs
      | ok r => rw [hs] at h; cases h
    | _ => cases h; rfl

theorem shapeOf_ok (s : Obj) : (∃ r, shapeOf s = .ok r) ↔ ∀ l, s = .list l → ∀ x ∈ l, ∃ n, x = .int n := by
  cases s with
  | list l =>
    constructor
    · rintro ⟨r, h⟩ l' e
      cases e
      refine (size_ok l).1 ?_
      have h : (size l).map .size = .ok r := h
      cases hs : size l with
      | error e => rw [hs] at h; cases h
      | ok r' => exact ⟨r', rfl⟩
    · intro h
      obtain ⟨r, hr⟩ := (size_ok l).2 (h l rfl)
      exact ⟨.size r, by show (size l).map _ = _; rw [hr]; rfl⟩
  | _ => exact ⟨fun _ l e => (by cases e), fun _ => ⟨_, rfl⟩⟩

theorem dtypeOf_str (torch : Str → Option Obj) (s : Str) : dtypeOf torch (.str s) = match torch s with | some o => .ok o | none => .error .attribute := rfl

theorem dtypeOf_ok (torch : Str → Option Obj) (d : Obj) : (∃ r, dtypeOf torch d = .ok r) ↔ ∀ n, d = .str n → (torch n).isSome = true := by
  cases d with
  | str s =>
    rw [dtypeOf_str]
    constructor
    · rintro ⟨r, h⟩ n e
      cases e
      cases ht : torch s with
      | none => rw [ht] at h; cases h
      | some o => rfl
    · intro h
      have := h s rfl
      cases ht : torch s with
      | none => rw [ht] at this; cases this
      | some o => exact ⟨o, rfl⟩
  | _ => exact ⟨fun _ l e => (by cases e), fun _ => ⟨_, rfl⟩⟩

theorem newEntry_ok (torch : Str → Option Obj) (fields : List (Str × Obj)) : (∃ r, newEntry torch fields = .ok r) ↔ EntryOk torch fields := by
  have hk : (Dict.keys fields).all (· ∈ entryFields) = true ↔ ∀ p ∈ fields, p.1 ∈ ["shape".toList, "dtype".toList, "aliases".toList, "optional".toList] := by
    rw [List.all_eq_true]
    constructor
    · exact fun h p hp => of_decide_eq_true (h p.1 (List.mem_map.2 ⟨p, hp, rfl⟩))
    · intro h k hk
      obtain ⟨p, hp, rfl⟩ := List.mem_map.1 hk
      exact decide_eq_true (h p hp)
  unfold newEntry EntryOk
  by_cases h1 : (Dict.keys fields).all (· ∈ entryFields) = true
  · rw [if_pos h1]
    refine Iff.trans ?_ (and_iff_right (hk.1 h1)).symm
    cases hs : Dict.get? fields "shape".toList with
    | none => exact ⟨fun ⟨r, h⟩ => (by cases h), fun ⟨⟨s, h, _⟩, _⟩ => (by cases h)⟩
    | some s =>
      cases hd : Dict.get? fields "dtype".toList with
      | none => exact ⟨fun ⟨r, h⟩ => (by cases h), fun ⟨_, s, h, _⟩ => (by cases h)⟩
      | some d =>
        have e1 := shapeOf_ok s
        have e2 := dtypeOf_ok torch d
        simp only [Option.some.injEq, exists_eq_left']
        rw [← e1, ← e2]
        cases shapeOf s with
        | error e => exact ⟨fun ⟨r, h⟩ => (by cases h), fun ⟨⟨s, h⟩, _⟩ => (by cases h)⟩
        | ok s' =>
          cases dtypeOf torch d with
          | error e => exact ⟨fun ⟨r, h⟩ => (by cases h), fun ⟨_, s, h⟩ => (by cases h)⟩
          | ok d' => exact ⟨fun _ => ⟨⟨_, rfl⟩, _, rfl⟩, fun _ => ⟨_, rfl⟩⟩
  · rw [if_neg h1]
    exact ⟨fun ⟨r, h⟩ => (by cases h), fun h => absurd (hk.2 h.1) h1⟩

theorem map_ok {α β : Type} (x : Except Err α) (f : α → β) : (∃ r, x.map f = .ok r) ↔ ∃ r, x = .ok r := by
  cases x with
  | error e => exact ⟨fun ⟨r, h⟩ => (by cases h), fun ⟨r, h⟩ => (by cases h)⟩
  | ok a => exact ⟨fun _ => ⟨a, rfl⟩, fun _ => ⟨f a, rfl⟩⟩

theorem newKeys_map (torch : Str → Option Obj) (k : Str) (v : List (Str × Obj)) (m : List (Str × Obj)) : newKeys torch ((k, .map v) :: m) =
    match newEntry torch v with
    | .error e => .error e
    | .ok o => (newKeys torch m).map ((k, o) :: ·) := rfl

theorem newComponents_map (torch : Str → Option Obj) (k : Str) (v : List (Str × Obj)) (m : List (Str × Obj)) : newComponents torch ((k, .map v) :: m) =
    match newKeys torch v with
    | .error e => .error e
    | .ok keys => (newComponents torch m).map ((k, .component keys) :: ·) := rfl

theorem newKeys_ok (torch : Str → Option Obj) (l : List (Str × Obj)) :
    (∃ r, newKeys torch l = .ok r) ↔ ∀ q ∈ l, ∀ fs, q.2 = .map fs → EntryOk torch fs := by
  induction l with
  | nil => exact ⟨fun _ q h => (by cases h), fun _ => ⟨_, rfl⟩⟩
  | cons p l ih =>
    obtain ⟨k, o⟩ := p
    rw [List.forall_mem_cons, ← ih]
    cases o with
    | map v =>
      have e := newEntry_ok torch v
      have : (∀ fs, Obj.map v = .map fs → EntryOk torch fs) ↔ EntryOk torch v := ⟨fun h => h v rfl, fun h fs e => (by cases e; exact h)⟩
      simp only [this, ← e]
      rw [newKeys_map]
      cases newEntry torch v with
      | error e => exact ⟨fun ⟨r, h⟩ => (by cases h), fun ⟨⟨s, h⟩, _⟩ => (by cases h)⟩
      | ok o => simp only [map_ok]; exact ⟨fun h => ⟨⟨_, rfl⟩, h⟩, fun h => h.2⟩
    | _ =>
      refine (map_ok _ _).trans ⟨fun h => ⟨fun fs e => (by cases e), h⟩, fun h => h.2⟩

theorem newComponents_ok (torch : Str → Option Obj) (l : List (Str × Obj)) :
    (∃ r, newComponents torch l = .ok r) ↔ ∀ p ∈ l, ∀ keys, p.2 = .map keys → ∀ q ∈ keys, ∀ fs, q.2 = .map fs → EntryOk torch fs := by
  induction l with
  | nil => exact ⟨fun _ q h => (by cases h), fun _ => ⟨_, rfl⟩⟩
  | cons p l ih =>
    obtain ⟨k, o⟩ := p
    rw [List.forall_mem_cons, ← ih]
    cases o with
    | map v =>
      have e := newKeys_ok torch v
      have : (∀ keys, Obj.map v = .map keys → ∀ q ∈ keys, ∀ fs, q.2 = .map fs → EntryOk torch fs) ↔ ∀ q ∈ v, ∀ fs, q.2 = .map fs → EntryOk torch fs :=
        ⟨fun h => h v rfl, fun h fs e => (by cases e; exact h)⟩
      simp only [this, ← e]
      rw [newComponents_map]
      cases newKeys torch v with
      | error e => exact ⟨fun ⟨r, h⟩ => (by cases h), fun ⟨⟨s, h⟩, _⟩ => (by cases h)⟩
      | ok o => simp only [map_ok]; exact ⟨fun h => ⟨⟨_, rfl⟩, h⟩, fun h => h.2⟩
    | _ =>
      refine (map_ok _ _).trans ⟨fun h => ⟨fun fs e => (by cases e), h⟩, fun h => h.2⟩

theorem newConfig_ok (torch : Str → Option Obj) (x y : Obj) :
    (∃ r, newConfig torch x y = .ok r) ↔ ∃ s comps, x = .str s ∧ Valid s ∧ y = .map comps ∧
      ∀ p ∈ comps, ∀ keys, p.2 = .map keys → ∀ q ∈ keys, ∀ fs, q.2 = .map fs → EntryOk torch fs := by
  cases x with
  | str s =>
    unfold newConfig
    by_cases hv : validId s = true
    · simp only [if_pos hv]
      cases y with
      | map m =>
        simp only [map_ok, newComponents_ok]
        exact ⟨fun h => ⟨s, m, rfl, (validId_iff s).1 hv, rfl, h⟩, fun ⟨s', m', e, _, e', h⟩ => (by cases e; cases e'; exact h)⟩
      | _ => exact ⟨fun ⟨r, h⟩ => (by cases h), fun ⟨s', m', e, _, e', h⟩ => (by cases e')⟩
    · simp only [if_neg hv]
      exact ⟨fun ⟨r, h⟩ => (by cases h), fun ⟨s', m', e, h, _⟩ => (by cases e; exact absurd ((validId_iff s).2 h) hv)⟩
  | _ => exact ⟨fun ⟨r, h⟩ => (by cases h), fun ⟨s', m', e, _⟩ => (by cases e)⟩

theorem get?_rename {serial name : Str} (kw : Dict Str Obj) (k : Str) :
    (rename serial name kw).get? k = if name = k then (kw.get? serial).or (kw.get? name) else if serial = k then none else kw.get? k := by
  unfold rename
  cases h : kw.get? serial with
  | some v =>
    simp only
    rw [Dict.get?_set, Dict.get?_erase]; rfl
  | none =>
    by_cases h1 : name = k
    · rw [if_pos h1, h1]; rfl
    · rw [if_neg h1]
      by_cases h2 : serial = k
      · rw [if_pos h2, ← h2]; exact h
      · rw [if_neg h2]

/-- The keyword arguments after the renaming -/
def renamed (kw : Dict Str Obj) : Dict Str Obj := rename "components".toList "_components".toList (rename "identifier".toList "_identifier".toList kw)

theorem renamed_identifier (kw : Dict Str Obj) : (renamed kw).get? "_identifier".toList = field kw "identifier".toList := by
  unfold renamed
  rw [get?_rename, if_neg (by decide), if_neg (by decide), get?_rename, if_pos rfl]; rfl

theorem renamed_components (kw : Dict Str Obj) : (renamed kw).get? "_components".toList = field kw "components".toList := by
  unfold renamed
  rw [get?_rename, if_pos rfl, get?_rename, get?_rename, if_neg (by decide), if_neg (by decide), if_neg (by decide), if_neg (by decide)]; rfl

theorem renamed_known (kw : Dict Str Obj) : (renamed kw).keys.all (· ∈ ["_identifier".toList, "_components".toList]) = true ↔
    ∀ p ∈ kw, p.1 ∈ ["identifier".toList, "_identifier".toList, "components".toList, "_components".toList] := by
  have key : ∀ k, k ≠ "_components".toList → k ≠ "components".toList → k ≠ "_identifier".toList → k ≠ "identifier".toList → (renamed kw).get? k = kw.get? k := by
    intro k h1 h2 h3 h4
    unfold renamed
    rw [get?_rename, if_neg h1.symm, if_neg h2.symm, get?_rename, if_neg h3.symm, if_neg h4.symm]
  rw [List.all_eq_true]
  constructor
  · intro h p hp
    by_contra hn
    simp only [List.mem_cons, List.not_mem_nil, or_false, not_or] at hn
    obtain ⟨h1, h2, h3, h4⟩ := hn
    have hm : p.1 ∈ (renamed kw).keys := by
      rw [← Dict.get?_isSome_iff, key p.1 h4 h3 h2 h1, Dict.get?_isSome_iff]
      exact List.mem_map.2 ⟨p, hp, rfl⟩
    have := of_decide_eq_true (h _ hm)
    simp only [List.mem_cons, List.not_mem_nil, or_false] at this
    exact this.elim h2 h4
  · intro h k hk
    refine decide_eq_true ?_
    simp only [List.mem_cons, List.not_mem_nil, or_false]
    by_contra hn
    rw [not_or] at hn
    rw [← Dict.get?_isSome_iff] at hk
    by_cases h2 : k = "components".toList
    · subst h2
      unfold renamed at hk
      rw [get?_rename, if_neg (by decide), if_pos rfl] at hk; cases hk
    by_cases h4 : k = "identifier".toList
    · subst h4
      unfold renamed at hk
      rw [get?_rename, if_neg (by decide), if_neg (by decide), get?_rename, if_neg (by decide), if_pos rfl] at hk; cases hk
    rw [key k hn.2 h2 hn.1 h4, Dict.get?_isSome_iff] at hk
    obtain ⟨p, hp, rfl⟩ := List.mem_map.1 hk
    have := h p hp
    simp only [List.mem_cons, List.not_mem_nil, or_false] at this
    rcases this with h | h | h | h
    · exact h4 h
    · exact hn.1 h
    · exact h2 h
    · exact hn.2 h

theorem field_some (fields : List (Str × Obj)) (name : Str) : (∃ o, field fields name = some o) ↔ ∃ p ∈ fields, p.1 = name ∨ p.1 = '_' :: name := by
  unfold field
  constructor
  · rintro ⟨o, h⟩
    rcases h1 : Dict.get? fields name with _ | v
    · rw [h1] at h
      exact ⟨_, Dict.mem_of_get? h, .inr rfl⟩
    · exact ⟨_, Dict.mem_of_get? h1, .inl rfl⟩
  · rintro ⟨p, hp, h⟩
    have hm : p.1 ∈ Dict.keys fields := List.mem_map.2 ⟨p, hp, rfl⟩
    rw [← Dict.get?_isSome_iff] at hm
    obtain ⟨v, hv⟩ := Option.isSome_iff_exists.1 hm
    rcases h with h | h
    · rw [h] at hv; rw [hv]; exact ⟨v, rfl⟩
    · rw [h] at hv; rw [hv]
      cases Dict.get? fields name with
      | none => exact ⟨v, rfl⟩
      | some w => exact ⟨w, rfl⟩

/-- The call, once its arguments are found -/
theorem newConfigKw_eq (torch : Str → Option Obj) (kw : Dict Str Obj) :
    (FieldsOk kw → ∃ x y, field kw "identifier".toList = some x ∧ field kw "components".toList = some y ∧ newConfigKw torch kw = newConfig torch x y) ∧
    (¬ FieldsOk kw → newConfigKw torch kw = .error .type) := by
  have hd : newConfigKw torch kw = if (renamed kw).keys.all (· ∈ ["_identifier".toList, "_components".toList]) = true then
      (match (renamed kw).get? "_identifier".toList, (renamed kw).get? "_components".toList with
        | some identifier, some components => newConfig torch identifier components
        | _, _ => .error .type) else .error .type := rfl
  rw [renamed_identifier, renamed_components] at hd
  have f1 := field_some kw "identifier".toList
  have f2 := field_some kw "components".toList
  constructor
  · rintro ⟨h1, h2, h3⟩
    obtain ⟨x, hx⟩ := f1.2 h2
    obtain ⟨y, hy⟩ := f2.2 h3
    rw [if_pos ((renamed_known kw).2 h1), hx, hy] at hd
    exact ⟨x, y, hx, hy, hd⟩
  · intro h
    by_cases h1 : (renamed kw).keys.all (· ∈ ["_identifier".toList, "_components".toList]) = true
    · rw [if_pos h1] at hd
      rw [hd]
      cases hx : field kw "identifier".toList with
      | none => rfl
      | some x =>
        cases hy : field kw "components".toList with
        | none => rfl
        | some y => exact absurd ⟨(renamed_known kw).1 h1, f1.1 ⟨x, hx⟩, f2.1 ⟨y, hy⟩⟩ h
    · rw [if_neg h1] at hd; exact hd

/-- **C101 (accepted documents).**  A document is accepted exactly if it has the two fields and no others, its identifier is valid, its
components are a mapping, and every key that is described has its shape and dtype, no other fields than the known ones, numbers in its shape, and
a dtype that torch knows. -/
theorem C101_accepts (torch : Str → Option Obj) (doc : Obj) : (∃ o, fromYaml torch doc = .ok o) ↔ Acceptable torch (load doc) := by
  unfold fromYaml Acceptable
  cases load doc with
  | map kw =>
    simp only
    by_cases hf : FieldsOk kw
    · obtain ⟨x, y, hx, hy, h⟩ := (newConfigKw_eq torch kw).1 hf
      rw [h, newConfig_ok]
      constructor
      · rintro ⟨s, comps, rfl, hv, rfl, hc⟩
        exact ⟨kw, s, comps, rfl, hf, hx, hv, hy, hc⟩
      · rintro ⟨kw', s, comps, e, -, hx', hv, hy', hc⟩
        cases e
        rw [hx] at hx'; rw [hy] at hy'
        cases hx'; cases hy'
        exact ⟨s, comps, rfl, hv, rfl, hc⟩
    · rw [(newConfigKw_eq torch kw).2 hf]
      exact ⟨fun ⟨r, h⟩ => (by cases h), fun ⟨kw', _, _, e, h, _⟩ => (by cases e; exact absurd h hf)⟩
  | _ => exact ⟨fun ⟨r, h⟩ => (by cases h), fun ⟨kw', _, _, e, h, _⟩ => (by cases e)⟩

/-- The errors of the entries -/
def Plain (e : Err) : Prop := e = .type ∨ e = .attribute

theorem map_error {α β : Type} {x : Except Err α} {f : α → β} {e : Err} (h : x.map f = .error e) : x = .error e := by
  cases x with
  | error e' => cases h; rfl
  | ok a => cases h

theorem shapeOf_error {s : Obj} {e : Err} (h : shapeOf s = .error e) : Plain e := by
  cases s with
  | list l => exact .inl (size_error (map_error h))
  | _ => cases h

theorem dtypeOf_error {torch : Str → Option Obj} {d : Obj} {e : Err} (h : dtypeOf torch d = .error e) : Plain e := by
  cases d with
  | str n =>
    rw [dtypeOf_str] at h
    cases ht : torch n with
    | none => rw [ht] at h; cases h; exact .inr rfl
    | some o => rw [ht] at h; cases h
  | _ => cases h

theorem newEntry_error {torch : Str → Option Obj} {v : Dict Str Obj} {e : Err} (h : newEntry torch v = .error e) : Plain e := by
  unfold newEntry at h
  split at h
  · split at h
    · split at h
      · rename_i he; cases h; exact shapeOf_error he
      · split at h
        · rename_i he; cases h; exact dtypeOf_error he
        · cases h
    · cases h; exact .inl rfl
  · cases h; exact .inl rfl

theorem newKeys_error {torch : Str → Option Obj} {l : List (Str × Obj)} {e : Err} (h : newKeys torch l = .error e) : Plain e := by
  induction l with
  | nil => cases h
  | cons p l ih =>
    obtain ⟨k, o⟩ := p
    cases o with
    | map v =>
      rw [newKeys_map] at h
      cases hs : newEntry torch v with
      | error e' => rw [hs] at h; cases h; exact newEntry_error hs
      | ok o => rw [hs] at h; exact ih (map_error h)
    | _ => exact ih (map_error h)

theorem newComponents_error {torch : Str → Option Obj} {l : List (Str × Obj)} {e : Err} (h : newComponents torch l = .error e) : Plain e := by
  induction l with
  | nil => cases h
  | cons p l ih =>
    obtain ⟨k, o⟩ := p
    cases o with
    | map v =>
      rw [newComponents_map] at h
      cases hs : newKeys torch v with
      | error e' => rw [hs] at h; cases h; exact newKeys_error hs
      | ok o => rw [hs] at h; exact ih (map_error h)
    | _ => exact ih (map_error h)

theorem newConfig_error {torch : Str → Option Obj} {x y : Obj} {e : Err} (h : newConfig torch x y = .error e) :
    (e = .value ∧ ∃ s, x = .str s ∧ ¬ Valid s) ∨ (Plain e ∧ ∀ s, x = .str s → Valid s) := by
  cases x with
  | str s =>
    have h : (if validId s then (match y with | .map m => (newComponents torch m).map fun m => Obj.config (.str s) (.map m) | _ => .error .attribute)
      else .error .value) = .error e := h
    by_cases hv : validId s = true
    · rw [if_pos hv] at h
      refine .inr ⟨?_, fun s' es => by cases es; exact (validId_iff s).1 hv⟩
      cases y with
      | map m => exact newComponents_error (map_error h)
      | _ => cases h; exact .inr rfl
    · rw [if_neg hv] at h
      cases h
      exact .inl ⟨rfl, s, rfl, fun h => hv ((validId_iff s).2 h)⟩
  | _ => cases h; exact .inr ⟨.inl rfl, fun s es => by cases es⟩

/-- **C101 (errors).**  A rejected document gives a ValueError exactly if its fields are right and its identifier is a string that is not valid;
otherwise it gives a TypeError or an AttributeError. -/
theorem C101_errors {torch : Str → Option Obj} {doc : Obj} {e : Err} (h : fromYaml torch doc = .error e) :
    (e = .value ∨ e = .type ∨ e = .attribute) ∧
    (e = .value ↔ ∃ fields s, load doc = .map fields ∧ FieldsOk fields ∧ field fields "identifier".toList = some (.str s) ∧ ¬ Valid s) := by
  unfold fromYaml at h
  cases hl : load doc with
  | map kw =>
    rw [hl] at h
    simp only at h
    by_cases hf : FieldsOk kw
    · obtain ⟨x, y, hx, hy, h'⟩ := (newConfigKw_eq torch kw).1 hf
      rw [h'] at h
      rcases newConfig_error h with ⟨rfl, s, rfl, hv⟩ | ⟨hp, hv⟩
      · exact ⟨.inl rfl, fun _ => ⟨kw, s, rfl, hf, hx, hv⟩, fun _ => rfl⟩
      · refine ⟨.inr hp, fun e1 => ?_, fun ⟨kw', s, e', _, hs, hn⟩ => ?_⟩
        · rcases hp with rfl | rfl <;> cases e1
        · cases e'; rw [hx] at hs; cases hs; exact absurd (hv s rfl) hn
    · rw [(newConfigKw_eq torch kw).2 hf] at h
      cases h
      exact ⟨.inr (.inl rfl), fun e => (by cases e), fun ⟨kw', _, e, h, _⟩ => (by cases e; exact absurd h hf)⟩
  | _ =>
    rw [hl] at h
    cases h
    exact ⟨.inr (.inl rfl), fun e => (by cases e), fun ⟨kw', _, e, h, _⟩ => (by cases e)⟩

/-- **C101 (duplicates).**  Of two lines with the same name in a mapping the last counts, silently. -/
theorem C101_duplicates (pre post : List (Str × Obj)) (k : Str) (o : Obj) (h : k ∉ post.map (·.1)) :
    ∃ m, load (.map (pre ++ (k, o) :: post)) = .map m ∧ Dict.get? m k = some (load o) ∧ ∀ k', k' ∈ m.map (·.1) ↔ k' ∈ (pre ++ (k, o) :: post).map (·.1) := by
  refine ⟨_, load_map _, ?_, fun k' => ?_⟩
  · rw [List.map_append, List.map_cons]
    unfold Dict.ofList
    rw [Dict.update_append, Dict.update_cons, get?_update_other, Dict.get?_set_self]
    rw [List.map_map]; exact h
  · refine (Dict.mem_keys_ofList _ k').trans ?_
    rw [List.map_map]; rfl

/-- A part of torch for examples -/
def someTorch (s : Str) : Option Obj :=
  if s = "float32".toList ∨ s = "float".toList then some (.dtype "float32".toList)
  else if s = "int64".toList then some (.dtype "int64".toList)
  else if s = "nn".toList then some (.other 0) else none

/-- A key with no description -/
def undescribed : Obj := .map [("identifier".toList, .str "a-b".toList), ("components".toList, .map [("c".toList, .map [("k".toList, .null)])])]

/-- **C101 (usable) is false.**  An accepted document need not give a usable config: a key without description passes, and is found only when the
metadata is asked for. -/
theorem C101_usable_false : ∃ (doc o : Obj), load doc = doc ∧ fromYaml someTorch doc = .ok o ∧
    (∃ l, view o .keys = .ok (.keys l)) ∧ view o .metadata = .error .attribute ∧ view o .aliases = .error .attribute :=
  ⟨undescribed, .config (.str "a-b".toList) (.map [("c".toList, .component [("k".toList, .null)])]), rfl, rfl, ⟨_, rfl⟩, rfl, rfl⟩

/-- A single alias, written without brackets -/
def bareAlias : Obj := .map [("identifier".toList, .str "a-b".toList), ("components".toList, .map [("c".toList, .map [("k".toList,
  .map [("shape".toList, .list []), ("dtype".toList, .str "nn".toList), ("aliases".toList, .str "old".toList)])])])]

/-- **C101 (usable) is false.**  A string passes for the list of aliases, and any name that torch has passes for a dtype. -/
theorem C101_types_false : ∃ (doc o : Obj) (l : Dict Str (Obj × Obj)) (l' : Dict Str Obj), load doc = doc ∧ fromYaml someTorch doc = .ok o ∧
    view o .metadata = .ok (.metadata l) ∧ Dict.get? l "k".toList = some (.size [], .other 0) ∧
    view o .aliases = .ok (.aliases l') ∧ Dict.get? l' "k".toList = some (.str "old".toList) :=
  ⟨bareAlias, .config (.str "a-b".toList) (.map [("c".toList, .component [("k".toList, .keyMeta (.size []) (.other 0) (.str "old".toList) (.bool false))])]),
    [("k".toList, .size [], .other 0)], [("k".toList, .str "old".toList)], rfl, rfl, rfl, rfl, rfl, rfl⟩

/-! ## C100: writing -/

mutual
theorem serialize_error : ∀ {o : Obj} {e : Err}, serialize o = .error e → e = .value
  | .component _, e, h => by cases h; rfl
  | .config i c, e, h => by
    unfold serialize at h
    split at h
    · cases h
    · cases h; rename_i h; exact serialize_error h
    · cases h; rename_i h; exact serialize_error h
  | .keyMeta s d a o, e, h => by
    unfold serialize at h
    split at h
    · rename_i h'; cases h; exact serialize_error h'
    · split at h
      · rename_i h'; cases h; exact serialize_error h'
      · have ha : excluded aliasesExclude a = true := by simp [excluded, aliasesExclude]
        have ho : excluded optionalExclude o = true := by simp [excluded, optionalExclude]
        simp only [ha, ho, if_true] at h
        cases h
  | .null, e, h => by cases h
  | .bool _, e, h => by cases h
  | .int _, e, h => by cases h
  | .float _, e, h => by cases h
  | .str _, e, h => by cases h
  | .dtype _, e, h => by cases h
  | .size _, e, h => by cases h
  | .map m, e, h => by unfold serialize at h; exact serializePairs_error (map_error h)
  | .list l, e, h => by unfold serialize at h; exact serializeList_error (map_error h)
  | .tuple l, e, h => by unfold serialize at h; exact serializeList_error (map_error h)
  | .other _, e, h => by cases h; rfl
theorem serializeList_error : ∀ {l : List Obj} {e : Err}, serializeList l = .error e → e = .value
  | [], e, h => by cases h
  | o :: l, e, h => by
    unfold serializeList at h
    split at h
    · rename_i h'; cases h; exact serialize_error h'
    · exact serializeList_error (map_error h)
theorem serializePairs_error : ∀ {l : List (Str × Obj)} {e : Err}, serializePairs l = .error e → e = .value
  | [], e, h => by cases h
  | (k, o) :: l, e, h => by
    unfold serializePairs at h
    split at h
    · rename_i h'; cases h; exact serialize_error h'
    · exact serializePairs_error (map_error h)
end

theorem serializePairs_component {m : List (Str × Obj)} (h : ∃ p ∈ m, ∃ keys, p.2 = .component keys) : serializePairs m = .error .value := by
  induction m with
  | nil => obtain ⟨p, hp, -⟩ := h; cases hp
  | cons p m ih =>
    obtain ⟨k, o⟩ := p
    unfold serializePairs
    cases hs : serialize o with
    | error e => rw [serialize_error hs]
    | ok o' =>
      simp only
      obtain ⟨q, hq, keys, e⟩ := h
      rcases List.mem_cons.1 hq with rfl | hq
      · simp only at e; subst e; cases hs
      · rw [ih ⟨q, hq, keys, e⟩]; rfl

/-- **C100 is false.**  No config with a component can be written: `to_yaml` raises a ValueError. -/
theorem C100_components_false {i : Obj} {m : List (Str × Obj)} (h : ∃ p ∈ m, ∃ keys, p.2 = .component keys) : toYaml (.config i (.map m)) = .error .value := by
  have h1 : serialize (.map m) = .error .value := by
    conv_lhs => unfold serialize
    rw [serializePairs_component h]; rfl
  show serialize (.config i (.map m)) = _
  conv_lhs => unfold serialize
  rw [h1]
  cases hs : serialize i with
  | error e => rw [serialize_error hs]
  | ok i' => rfl

/-- **C100 is false.**  In particular nothing that was read from a document with a component can be written again. -/
theorem C100_read_false {torch : Str → Option Obj} {doc : Obj} {c : ModelConfig} (h : Says torch doc c) (hv : Valid c.identifier) (hc : c.components ≠ []) :
    ∃ o, fromYaml torch doc = .ok o ∧ toYaml o = .error .value := by
  obtain ⟨l, h1, h2⟩ := fromYaml_says h hv
  refine ⟨_, h1, C100_components_false ?_⟩
  unfold Built at h2
  generalize c.components = cs at hc h2
  cases h2 with
  | nil => exact absurd rfl hc
  | cons hp _ =>
    obtain ⟨-, keys, e, -⟩ := hp
    exact ⟨_, List.mem_cons_self, keys, e⟩

/-- **C100 is false.**  The script that writes a config for a file fails for every file and every identifier. -/
theorem C100_script_false (torch : Str → Option Obj) (id : Str) (header : List (Str × List ℤ × Str)) : createModelConfig torch id header = .error .value := by
  unfold createModelConfig
  by_cases hv : validId id = true
  · have : newConfig torch (.str id) (.map [("diffuser".toList, .component (header.map fun p => (p.1, .keyMeta (.size p.2.1) (.dtype p.2.2) (.tuple []) (.bool false))))]) =
        .ok (.config (.str id) (.map [("diffuser".toList, .component (header.map fun p => (p.1, .keyMeta (.size p.2.1) (.dtype p.2.2) (.tuple []) (.bool false))))])) := by
      show (if validId id = true then _ else _) = _
      rw [if_pos hv]; rfl
    rw [this]
    exact C100_components_false ⟨_, List.mem_cons_self, _, rfl⟩
  · have : ∀ y, newConfig torch (.str id) y = .error .value := fun y => by
      show (if validId id = true then _ else _) = _
      rw [if_neg hv]
    rw [this]

/-- **C100 (no components).**  A config without components reads back. -/
theorem C100_empty_partial (torch : Str → Option Obj) {s : Str} (hv : Valid s) :
    ∃ data, toYaml (.config (.str s) (.map [])) = .ok data ∧ fromYaml torch data = .ok (.config (.str s) (.map [])) := by
  refine ⟨.map [("identifier".toList, .str s), ("components".toList, .map [])], rfl, ?_⟩
  show (if validId s = true then _ else _) = _
  rw [if_pos ((validId_iff s).2 hv)]; rfl

/-- What is written of a key -/
theorem serialize_entry {s d s' d' : Obj} (hs : serialize s = .ok s') (hd : serialize d = .ok d') (al opt : Obj) :
    serialize (.keyMeta s d al opt) = .ok (.map [("shape".toList, s'), ("dtype".toList, d')]) := by
  have ha : excluded aliasesExclude al = true := by simp [excluded, aliasesExclude]
  have ho : excluded optionalExclude opt = true := by simp [excluded, optionalExclude]
  conv_lhs => unfold serialize
  simp only [hs, hd, ha, ho, if_true]; rfl

/-- **C100 is false.**  Of a single key, shape and dtype are written, but neither its aliases nor that it is optional: the text says a key
without aliases that is mandatory. -/
theorem C100_entry_false {torch : Str → Option Obj} {o : Obj} {m : KeyMeta} (h : Shown o m) (hd : ∀ n, m.dtype = some n → torch n = some (.dtype n)) :
    ∃ fields, serialize o = .ok (.map fields) ∧ EntrySays torch fields { m with aliases := [], optional := false } := by
  obtain ⟨al, rfl, -⟩ := h
  have h1 : serialize (shapeObj m.shape) = .ok (shapeDoc m.shape) := by
    cases m.shape with
    | none => rfl
    | some l => show Except.ok (Obj.list ((l.map fun n => (n : ℤ)).map .int)) = _; rw [List.map_map]; rfl
  have h2 : ∃ d, serialize (dtypeObj m.dtype) = .ok d ∧ DtypeSays torch d m.dtype := by
    cases hm : m.dtype with
    | none => exact ⟨.null, rfl, .inl ⟨rfl, rfl⟩⟩
    | some n => exact ⟨.str n, rfl, .inr ⟨n, n, rfl, hd n hm, rfl⟩⟩
  obtain ⟨d, h2, h3⟩ := h2
  refine ⟨_, serialize_entry h1 h2 _ _, ?_, ?_, ?_, ?_, ?_, ?_⟩
  · simp only [List.map_cons, List.map_nil]; decide
  · simp
  · exact List.mem_cons_self
  · exact ⟨d, by simp, h3⟩
  · refine .inr ⟨?_, rfl⟩; simp only [List.map_cons, List.map_nil]; decide
  · refine .inr ⟨?_, rfl⟩; simp only [List.map_cons, List.map_nil]; decide

/-! ## C102: reading at first use -/

theorem get_identifier (torch : Str → Option Obj) (c : Lazy) (u : Use) (h : u.attr = .identifier) : c.get torch u.file u.attr = (c, .ok (.text (stem c.name))) := by
  unfold Lazy.get; rw [if_pos h]

theorem get_known (torch : Str → Option Obj) (c : Lazy) (u : Use) (h : u.attr ≠ .identifier) {o : Obj} (ho : c.underlying = some o) :
    c.get torch u.file u.attr = (c, view o u.attr) := by
  unfold Lazy.get; rw [if_neg h]
  have : c.ensure torch u.file = (c, .ok o) := by unfold Lazy.ensure; rw [ho]
  rw [this]

theorem get_error (torch : Str → Option Obj) (c : Lazy) (u : Use) (h : u.attr ≠ .identifier) (ho : c.underlying = none) {e : Err} (hc : content torch u = .error e) :
    c.get torch u.file u.attr = ({ c with reads := c.reads + 1 }, .error e) := by
  unfold Lazy.get; rw [if_neg h]
  have : c.ensure torch u.file = ({ c with reads := c.reads + 1 }, .error e) := by
    unfold Lazy.ensure; rw [ho]
    unfold content at hc
    cases hf : u.file with
    | error e' => rw [hf] at hc; cases hc; rfl
    | ok doc =>
      rw [hf] at hc
      simp only at hc ⊢
      rw [hc]
  rw [this]

theorem get_ok (torch : Str → Option Obj) (c : Lazy) (u : Use) (h : u.attr ≠ .identifier) (ho : c.underlying = none) {o : Obj} (hc : content torch u = .ok o) :
    c.get torch u.file u.attr = ({ c with underlying := some o, reads := c.reads + 1 }, view o u.attr) := by
  unfold Lazy.get; rw [if_neg h]
  have : c.ensure torch u.file = ({ c with underlying := some o, reads := c.reads + 1 }, .ok o) := by
    unfold Lazy.ensure; rw [ho]
    unfold content at hc
    cases hf : u.file with
    | error e' => rw [hf] at hc; cases hc
    | ok doc =>
      rw [hf] at hc
      simp only at hc ⊢
      rw [hc]
  rw [this]

theorem needs_iff (u : Use) : u.needs = true ↔ u.attr ≠ .identifier := by unfold Use.needs; simp

/-- The state after some uses -/
theorem after_state (torch : Str → Option Obj) (us : List Use) : ∀ (c : Lazy),
    (after torch c us).name = c.name ∧ (after torch c us).underlying = c.underlying.or (firstRead torch us) := by
  induction us with
  | nil => intro c; exact ⟨rfl, Option.or_none.symm⟩
  | cons u us ih =>
    intro c
    show (after torch (c.get torch u.file u.attr).1 us).name = _ ∧ (after torch (c.get torch u.file u.attr).1 us).underlying = _
    obtain ⟨h1, h2⟩ := ih (c.get torch u.file u.attr).1
    rw [h1, h2]
    conv in firstRead torch (u :: us) => unfold firstRead
    by_cases hn : u.attr = .identifier
    · rw [get_identifier torch c u hn, if_neg (by rw [needs_iff]; exact fun h => h hn)]
      exact ⟨rfl, rfl⟩
    · rw [if_pos ((needs_iff u).2 hn)]
      cases hu : c.underlying with
      | some o => rw [get_known torch c u hn hu]; exact ⟨rfl, by rw [hu]; rfl⟩
      | none =>
        cases hc : content torch u with
        | error e => rw [get_error torch c u hn hu hc]; exact ⟨rfl, by simp only [hu]⟩
        | ok o => rw [get_ok torch c u hn hu hc]; exact ⟨rfl, rfl⟩

theorem answers_append (torch : Str → Option Obj) (us vs : List Use) : ∀ (c : Lazy), answers torch c (us ++ vs) = answers torch c us ++ answers torch (after torch c us) vs := by
  induction us with
  | nil => exact fun c => rfl
  | cons u us ih =>
    intro c
    show _ :: answers torch _ (us ++ vs) = _ :: (answers torch _ us ++ _)
    rw [ih]; rfl

theorem answers_length (torch : Str → Option Obj) (us : List Use) : ∀ (c : Lazy), (answers torch c us).length = us.length := by
  induction us with
  | nil => exact fun c => rfl
  | cons u us ih => exact fun c => by show (answers torch _ us).length + 1 = us.length + 1; rw [ih]

/-- **C102 (answers).**  The identifier is the name of the file.  Every other answer comes from what the file held when it was first read
successfully; until then, each use reads the file, and fails with the error of what it holds at that moment. -/
theorem C102_answers (torch : Str → Option Obj) (name : Str) (us vs : List Use) (u : Use) :
    (answers torch (Lazy.new name) (us ++ u :: vs))[us.length]? = some (expected torch name us u) := by
  rw [answers_append, List.getElem?_append_right (by rw [answers_length]), answers_length, Nat.sub_self]
  show some ((after torch (Lazy.new name) us).get torch u.file u.attr).2 = _
  obtain ⟨h1, h2⟩ := after_state torch us (Lazy.new name)
  generalize after torch (Lazy.new name) us = c at h1 h2
  unfold expected
  by_cases hn : u.attr = .identifier
  · rw [get_identifier torch c u hn, if_pos hn, h1]; rfl
  · rw [if_neg hn]
    have h2 : c.underlying = firstRead torch us := h2
    cases hf : firstRead torch us with
    | some o => rw [get_known torch c u hn (h2.trans hf)]
    | none =>
      cases hc : content torch u with
      | error e => rw [get_error torch c u hn (h2.trans hf) hc]; rfl
      | ok o => rw [get_ok torch c u hn (h2.trans hf) hc]; rfl

theorem reads_count (torch : Str → Option Obj) (us : List Use) : ∀ (c : Lazy),
    (c.underlying = none → (after torch c us).reads = c.reads + (upToFirst torch us).countP Use.needs) ∧
    (c.underlying.isSome = true → (after torch c us).reads = c.reads) := by
  induction us with
  | nil => exact fun c => ⟨fun _ => rfl, fun _ => rfl⟩
  | cons u us ih =>
    intro c
    have e : after torch c (u :: us) = after torch (c.get torch u.file u.attr).1 us := rfl
    rw [e]
    unfold upToFirst
    constructor
    · intro hu
      by_cases hn : u.attr = .identifier
      · have hf : u.needs = false := by unfold Use.needs; simp [hn]
        rw [get_identifier torch c u hn, (ih c).1 hu, hf, Bool.false_and, if_neg (by decide), List.countP_cons, hf]; rfl
      · have hf : u.needs = true := (needs_iff u).2 hn
        cases hc : content torch u with
        | error er =>
          rw [get_error torch c u hn hu hc, hf]
          have := (ih { c with reads := c.reads + 1 }).1 hu
          simp only [Except.toOption, Option.isSome_none, Bool.and_false, if_neg Bool.false_ne_true, List.countP_cons, hf, if_true] at this ⊢
          rw [this]; omega
        | ok o =>
          rw [get_ok torch c u hn hu hc, hf]
          have := (ih { c with underlying := some o, reads := c.reads + 1 }).2 rfl
          simp only [Except.toOption, Option.isSome_some, Bool.and_true, if_true, List.countP_cons, hf, List.countP_nil] at this ⊢
          rw [this]
    · intro hu
      obtain ⟨o, ho⟩ := Option.isSome_iff_exists.1 hu
      by_cases hn : u.attr = .identifier
      · rw [get_identifier torch c u hn, (ih c).2 hu]
      · rw [get_known torch c u hn ho, (ih c).2 hu]

/-- **C102 (reads).**  The file is read by each use that needs it up to the first that succeeds, and never afterwards. -/
theorem C102_reads (torch : Str → Option Obj) (name : Str) (us : List Use) :
    (after torch (Lazy.new name) us).reads = (upToFirst torch us).countP Use.needs := by
  rw [(reads_count torch us (Lazy.new name)).1 rfl]; exact Nat.zero_add _

/-- **C102 (once).**  A file that can be read whenever it is needed is read at most once, and not at all as long as only the identifier is asked
for. -/
theorem C102_once (torch : Str → Option Obj) (name : Str) (us : List Use) (h : ∀ u ∈ us, u.needs = true → ∃ o, content torch u = .ok o) :
    (after torch (Lazy.new name) us).reads = if us.any Use.needs then 1 else 0 := by
  rw [C102_reads]
  induction us with
  | nil => rfl
  | cons u us ih =>
    unfold upToFirst
    cases hn : u.needs with
    | true =>
      obtain ⟨o, ho⟩ := h u List.mem_cons_self hn
      rw [ho]
      simp [Except.toOption, hn]
    | false =>
      rw [Bool.false_and, if_neg (by decide), List.countP_cons, hn, ih fun v hv => h v (List.mem_cons_of_mem _ hv), List.any_cons, hn]
      rfl

/-- **C102 (names).**  The identifier is the name of the file up to its last dot, if something stands before and after it, else the whole name;
so that of the config in `<name>.yaml` is `<name>`. -/
theorem C102_stem : (∀ {s e : Str}, s ≠ [] → e ≠ [] → '.' ∉ e → stem (s ++ '.' :: e) = s) ∧
    (∀ {name : Str}, (∀ s e : Str, s ≠ [] → e ≠ [] → '.' ∉ e → name ≠ s ++ '.' :: e) → stem name = name) ∧
    ∀ {s : Str}, s ≠ [] → stem (s ++ ".yaml".toList) = s := by
  have h1 : ∀ {s e : Str}, s ≠ [] → e ≠ [] → '.' ∉ e → stem (s ++ '.' :: e) = s := by
    intro s e hs he hd
    unfold stem
    have h : (s ++ '.' :: e).reverse = e.reverse ++ '.' :: s.reverse := by simp
    have h1 : (e.reverse ++ '.' :: s.reverse).takeWhile (· ≠ '.') = e.reverse := by
      rw [List.takeWhile_append_of_pos (by
        intro a ha
        simp only [decide_not, Bool.not_eq_eq_eq_not, Bool.not_true, decide_eq_false_iff_not]
        rintro rfl
        exact hd (List.mem_reverse.1 ha))]
      simp
    have h2 : (e.reverse ++ '.' :: s.reverse).drop (e.reverse.length + 1) = s.reverse := by
      rw [← List.drop_drop, List.drop_left]; rfl
    simp only [h, h1, h2]
    simp [hs, he]
  refine ⟨h1, ?_, fun {s} hs => h1 (e := "yaml".toList) hs (by decide) (by decide)⟩
  intro name h
  unfold stem
  simp only
  split
  · rfl
  · next hn =>
    exfalso
    simp only [Bool.or_eq_true, List.isEmpty_iff, not_or] at hn
    have e1 : name.reverse = name.reverse.takeWhile (· ≠ '.') ++ name.reverse.dropWhile (· ≠ '.') := (List.takeWhile_append_dropWhile).symm
    generalize hp : name.reverse.takeWhile (· ≠ '.') = p at e1 hn
    rcases hq : name.reverse.dropWhile (· ≠ '.') with _ | ⟨c, q⟩
    · rw [hq, List.append_nil] at e1
      apply hn.2
      rw [e1]; simp
    · have hc : c = '.' := by
        have := List.head?_dropWhile_not (fun x : Char => decide (x ≠ '.')) name.reverse
        rw [hq] at this
        simpa using this
      subst hc
      rw [hq] at e1
      have hq' : name.reverse.drop (p.length + 1) = q := by
        rw [e1, ← List.drop_drop, List.drop_left]; rfl
      refine h q.reverse p.reverse ?_ ?_ ?_ ?_
      · rw [hq'] at hn; simpa using hn.2
      · simpa using hn.1
      · intro hm
        have := List.mem_reverse.1 hm
        rw [← hp] at this
        simpa using List.all_eq_true.1 List.all_takeWhile _ this
      · rw [← List.reverse_reverse name, e1]; simp

/-- **C102 (identifier) is false.**  The identifier in the file plays no part: a config read from `a-b.yaml` that says `c-d` calls itself `a-b`
but has the architecture `c`. -/
theorem C102_identifier_false : ∃ (name : Str) (doc : Obj) (c : Lazy), fromYaml someTorch doc = .ok (.config (.str "c-d".toList) (.map [])) ∧ c = Lazy.new name ∧
    (c.get someTorch (.ok doc) .identifier).2 = .ok (.text "a-b".toList) ∧ (c.get someTorch (.ok doc) .architecture).2 = .ok (.text "c".toList) :=
  ⟨"a-b.yaml".toList, .map [("identifier".toList, .str "c-d".toList), ("components".toList, .map [])], _, rfl, rfl, rfl, rfl⟩

/-! ## Examples -/
namespace Ex

/-- A document with two components: one with an alias, the other with an optional key of unknown shape, whose dtype has another name -/
def lines : List (Str × Obj) :=
  [("clip".toList, .map [("t.w".toList, .map [("shape".toList, .list [.int 3, .int 2]), ("dtype".toList, .str "float".toList), ("aliases".toList, .list [.str "old.w".toList])]),
      ("t.ids".toList, .map [("optional".toList, .bool true), ("dtype".toList, .null), ("shape".toList, .null)])]),
    ("unet".toList, .map [("u.w".toList, .map [("shape".toList, .list []), ("dtype".toList, .str "int64".toList)])])]

def doc : Obj := .map [("components".toList, .map lines), ("identifier".toList, .str "sd1-own".toList)]

def cfg : ModelConfig :=
  ⟨"sd1-own".toList, [("clip".toList, [("t.w".toList, ⟨some [3, 2], some "float32".toList, ["old.w".toList], false⟩), ("t.ids".toList, ⟨none, none, [], true⟩)]),
    ("unet".toList, [("u.w".toList, ⟨some [], some "int64".toList, [], false⟩)])]⟩

theorem docSays : Says someTorch doc cfg := by
  refine ⟨_, lines, rfl, List.Perm.swap _ _ _, by decide, ?_⟩
  refine .cons ⟨rfl, _, rfl, by decide, ?_⟩ (.cons ⟨rfl, _, rfl, by decide, ?_⟩ .nil)
  · refine .cons ⟨rfl, _, rfl, ?_⟩ (.cons ⟨rfl, _, rfl, ?_⟩ .nil)
    · refine ⟨by decide, by simp, by simp [shapeDoc], ⟨.str "float".toList, by simp, .inr ⟨_, "float32".toList, rfl, rfl, rfl⟩⟩, .inl (by simp), .inr ⟨by decide, rfl⟩⟩
    · refine ⟨by decide, by simp, by simp [shapeDoc], ⟨.null, by simp, .inl ⟨rfl, rfl⟩⟩, .inr ⟨by decide, rfl⟩, .inl (by simp)⟩
  · refine .cons ⟨rfl, _, rfl, ?_⟩ .nil
    exact ⟨by decide, by simp, by simp [shapeDoc], ⟨.str "int64".toList, by simp, .inr ⟨_, "int64".toList, rfl, rfl, rfl⟩⟩, .inr ⟨by decide, rfl⟩, .inr ⟨by decide, rfl⟩⟩

theorem valid : Valid cfg.identifier := (validId_iff _).1 rfl

/-- C101_reads, C101_order and C100_read_false apply. -/
example : (∃ o l, fromYaml someTorch doc = .ok o ∧ view o .keys = .ok (.keys l) ∧ Agree Shown l (cfg.components.flatMap fun p => p.2)) ∧
    ∃ o, fromYaml someTorch doc = .ok o ∧ toYaml o = .error .value :=
  ⟨C101_order docSays valid (by decide), C100_read_false docSays valid (by decide)⟩

/-- C101_accepts: accepted, and not. -/
example : Acceptable someTorch (load doc) ∧ ¬ Acceptable someTorch (load (.map [("identifier".toList, .str "SD1".toList), ("components".toList, .map [])])) :=
  ⟨(C101_accepts someTorch doc).1 ⟨_, rfl⟩, fun h => by
    obtain ⟨o, ho⟩ := (C101_accepts someTorch _).2 h
    exact absurd ho (by
      have : fromYaml someTorch (.map [("identifier".toList, .str "SD1".toList), ("components".toList, .map [])]) = .error .value := rfl
      rw [this]; exact fun h => by cases h)⟩

/-- C101_errors: an unknown field, a dtype that torch does not have. -/
example : fromYaml someTorch (.map [("identifier".toList, .str "a-b".toList), ("components".toList, .map []), ("version".toList, .int 1)]) = .error .type ∧
    fromYaml someTorch (.map [("identifier".toList, .str "a-b".toList), ("components".toList, .map [("c".toList, .map [("k".toList,
      .map [("shape".toList, .list []), ("dtype".toList, .str "float33".toList)])])])]) = .error .attribute := ⟨rfl, rfl⟩

/-- C101_duplicates: the second identifier counts. -/
example : fromYaml someTorch (.map [("identifier".toList, .str "a-b".toList), ("components".toList, .map []), ("identifier".toList, .str "c-d".toList)]) =
    .ok (.config (.str "c-d".toList) (.map [])) := rfl

/-- C101_twice: a key in two components. -/
example : ∃ o l x, fromYaml someTorch (.map [("identifier".toList, .str "a-b".toList), ("components".toList, .map [("c".toList, .map [("k".toList,
      .map [("shape".toList, .null), ("dtype".toList, .null)])]), ("d".toList, .map [("k".toList, .map [("shape".toList, .list []), ("dtype".toList, .null)])])])]) = .ok o ∧
    view o .keys = .ok (.keys l) ∧ Dict.get? l "k".toList = some x ∧ Shown x ⟨some [], none, [], false⟩ := by
  refine C101_twice (c := ⟨"a-b".toList, [("c".toList, [("k".toList, ⟨none, none, [], false⟩)]), ("d".toList, [("k".toList, ⟨some [], none, [], false⟩)])]⟩)
    (pre := [("c".toList, [("k".toList, ⟨none, none, [], false⟩)])]) (post := []) (n := "d".toList) (ks := [("k".toList, ⟨some [], none, [], false⟩)])
    ⟨_, _, rfl, List.Perm.refl _, by decide, ?_⟩ ((validId_iff _).1 rfl) rfl List.mem_cons_self (fun p hp => by cases hp)
  refine .cons ⟨rfl, _, rfl, by decide, .cons ⟨rfl, _, rfl, ?_⟩ .nil⟩ (.cons ⟨rfl, _, rfl, by decide, .cons ⟨rfl, _, rfl, ?_⟩ .nil⟩ .nil) <;>
  exact ⟨by decide, by simp, by simp [shapeDoc], ⟨.null, by simp, .inl ⟨rfl, rfl⟩⟩, .inr ⟨by decide, rfl⟩, .inr ⟨by decide, rfl⟩⟩

/-- C100_entry_false: an optional key with an alias. -/
example : ∃ fields, serialize (.keyMeta (.size [3]) (.dtype "int64".toList) (.list [.str "old".toList]) (.bool true)) = .ok (.map fields) ∧
    EntrySays someTorch fields ⟨some [3], some "int64".toList, [], false⟩ :=
  C100_entry_false (m := ⟨some [3], some "int64".toList, ["old".toList], true⟩) ⟨_, rfl, .inl rfl⟩ (fun n hn => by cases hn; rfl)

/-- C102: the file is missing, then invalid, then good, then changed. -/
def uses : List Use :=
  [⟨.ok doc, .identifier⟩, ⟨.error .os, .keys⟩, ⟨.ok .null, .architecture⟩, ⟨.ok doc, .architecture⟩, ⟨.ok .null, .implementation⟩]

example : (answers someTorch (Lazy.new "sd1-own.yaml".toList) uses).map (fun r => r.toOption.map fun | .text s => s | _ => []) =
      [some "sd1-own".toList, none, none, some "sd1".toList, some "own".toList] ∧
    (after someTorch (Lazy.new "sd1-own.yaml".toList) uses).reads = 3 ∧
    (answers someTorch (Lazy.new "sd1-own.yaml".toList) (uses.take 1 ++ ⟨.error .os, .keys⟩ :: uses.drop 2))[1]? = some (.error .os) :=
  ⟨rfl, by rw [C102_reads]; rfl, C102_answers someTorch "sd1-own.yaml".toList (uses.take 1) (uses.drop 2) ⟨.error .os, .keys⟩⟩

end Ex

end Verif.Yaml
