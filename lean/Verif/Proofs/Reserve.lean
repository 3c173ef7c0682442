import Verif.Proofs.StreamOutFile
import Mathlib.Data.List.Nodup
import Mathlib.Data.List.Perm.Subperm
import Mathlib.Algebra.BigOperators.Group.List.Basic
import Mathlib.Algebra.Order.BigOperators.Group.List

/-!
# The reserved header space suffices
-/
namespace Verif.StreamOut
open Spec Json

/-! ## Lengths of encodings -/

theorem joinSep_length (l : List (List Char)) :
    (joinSep ',' l).length = (l.map List.length).sum + (l.length - 1) := by
  induction l with
  | nil => rfl
  | cons x l ih =>
    cases l with
    | nil => simp [joinSep]
    | cons y l =>
      simp only [joinSep, List.length_append, List.length_cons, ih, List.map_cons, List.sum_cons]
      omega

/-- Length of one field of an object. -/
def fieldLen (p : List Char × Json) : ℕ := (encStr p.1).length + 1 + p.2.enc.length

theorem encFields_lengths (l : List (List Char × Json)) : (encFields l).map List.length = l.map fieldLen := by
  induction l with
  | nil => rfl
  | cons p l ih =>
    obtain ⟨k, j⟩ := p
    simp only [encFields, List.map_cons, ih, fieldLen, List.length_append, List.length_cons]
    congr 1; omega

theorem encFields_length (l : List (List Char × Json)) : (encFields l).length = l.length := by
  have := congrArg List.length (encFields_lengths l)
  simpa using this

theorem enc_obj_length (l : List (List Char × Json)) :
    (Json.obj l).enc.length = 2 + (l.map fieldLen).sum + (l.length - 1) := by
  simp only [enc, List.length_cons, List.length_append, joinSep_length, encFields_lengths, encFields_length,
    List.length_nil]
  omega

theorem encStr_length_const : (encStr "dtype".toList).length = 7 ∧ (encStr "shape".toList).length = 7 ∧
    (encStr "data_offsets".toList).length = 14 := by decide

theorem toJson_length (e : Entry) : e.toJson.enc.length =
    38 + (encStr e.dtype.name).length + (Json.arr (e.shape.map .num)).enc.length +
      (digits e.start).length + (digits e.stop).length := by
  obtain ⟨h1, h2, h3⟩ := encStr_length_const
  unfold Entry.toJson
  rw [enc_obj_length]
  simp only [List.map_cons, List.map_nil, List.sum_cons, List.sum_nil, fieldLen, h1, h2, h3, List.length_cons,
    List.length_nil]
  have e1 : (Json.str e.dtype.name).enc = encStr e.dtype.name := by simp [enc]
  have e2 : (Json.arr [.num e.start, .num e.stop]).enc.length =
    3 + (digits e.start).length + (digits e.stop).length := by
    simp [enc, encList, joinSep]; omega
  rw [e1, e2]; omega

theorem toJsonDummy_length (e : Entry) : e.toJsonDummy.enc.length = e.toJson.enc.length := by
  unfold Entry.toJson Entry.toJsonDummy
  rw [enc_obj_length, enc_obj_length]
  simp only [List.map_cons, List.map_nil, List.sum_cons, List.sum_nil, List.length_cons, List.length_nil]
  omega

/-! ## Descending order dominates prefix sums -/

theorem sum_le_take (W : List ℕ) (hW : W.Pairwise (· ≥ ·)) (M : List ℕ) (n : ℕ) (hM : M.Subperm W)
    (hn : M.length ≤ n) : M.sum ≤ (W.take n).sum := by
  induction W generalizing M n with
  | nil =>
    have : M = [] := List.length_eq_zero_iff.1 (by have := hM.length_le; simpa using this)
    simp [this]
  | cons w W ih =>
    rw [List.pairwise_cons] at hW
    cases M with
    | nil => simp
    | cons m M =>
      cases n with
      | zero => simp at hn
      | succ n =>
        simp only [List.take_succ_cons, List.sum_cons]
        by_cases hw : w ∈ m :: M
        · have hp := List.perm_cons_erase hw
          have hsub : ((m :: M).erase w).Subperm W := by
            have h1 : (w :: (m :: M).erase w).Subperm (w :: W) := hp.symm.subperm.trans hM
            exact List.subperm_cons _ |>.1 h1
          have hlen : ((m :: M).erase w).length ≤ n := by
            rw [List.length_erase_of_mem hw]; simp at hn ⊢; omega
          have := ih hW.2 _ n hsub hlen
          have hs := hp.sum_eq
          simp only [List.sum_cons] at hs
          omega
        · have hsub : (m :: M).Subperm W := by
            have := hM.erase w
            rw [List.erase_of_not_mem hw] at this
            simpa using this
          have hm : m ∈ W := hsub.subset (by simp)
          have hsub' : M.Subperm W := (List.sublist_cons_self m M).subperm.trans hsub
          have := ih hW.2 M n hsub' (by simp at hn; omega)
          have := hW.1 m hm
          omega

theorem subperm_map {α β : Type} (f : α → β) {a b : List α} (h : a.Subperm b) : (a.map f).Subperm (b.map f) := by
  obtain ⟨l, h1, h2⟩ := h
  exact ⟨l.map f, h1.map f, h2.map f⟩

/-! ## Layouts -/

abbrev Decl := Key × (DType × List ℕ)

/-- The part of a field's length that does not depend on offsets. -/
def baseLen (p : Decl) : ℕ :=
  (encStr p.1).length + 39 + (encStr p.2.1.name).length + (Json.arr (p.2.2.map .num)).enc.length

/-- The part that does. -/
def offLen (off : ℕ) : List ℕ → ℕ
  | [] => 0
  | n :: l => (digits off).length + (digits (off + n)).length + offLen (off + n) l

theorem layout_fieldLen (off : ℕ) (l : List Decl) :
    ((layout off l).map fun p => fieldLen (p.1, p.2.toJson)).sum =
      (l.map baseLen).sum + offLen off (l.map fun p => byteSize p.2) := by
  induction l generalizing off with
  | nil => rfl
  | cons p l ih =>
    obtain ⟨k, m⟩ := p
    simp only [layout, List.map_cons, List.sum_cons, ih, offLen]
    simp only [fieldLen, toJson_length, baseLen]
    omega

theorem layout_length (off : ℕ) (l : List Decl) : (layout off l).length = l.length := by
  induction l generalizing off with
  | nil => rfl
  | cons p l ih => obtain ⟨k, m⟩ := p; simp [layout, ih]

theorem layout_keys (off : ℕ) (l : List Decl) : (layout off l).map (·.1) = l.map (·.1) := by
  induction l generalizing off with
  | nil => rfl
  | cons p l ih => obtain ⟨k, m⟩ := p; simp [layout, ih]

theorem offLen_mono (L W : List ℕ) (a b : ℕ) (hlen : L.length ≤ W.length)
    (h : ∀ i ≤ L.length, a + (L.take i).sum ≤ b + (W.take i).sum) : offLen a L ≤ offLen b W := by
  induction L generalizing W a b with
  | nil => simp [offLen]
  | cons x L ih =>
    cases W with
    | nil => simp at hlen
    | cons w W =>
      simp only [offLen]
      have h0 := h 0 (by simp)
      have h1 := h 1 (by simp)
      simp only [List.take_zero, List.sum_nil, Nat.add_zero, List.take_succ_cons, List.sum_cons] at h0 h1
      have hrec := ih W (a + x) (b + w) (by simpa using hlen) (by
        intro i hi
        have := h (i + 1) (by simpa using hi)
        simp only [List.take_succ_cons, List.sum_cons] at this
        omega)
      have d0 := digits_length_mono h0
      have d1 := digits_length_mono h1
      omega

/-! ## Sorting -/

theorem insertDesc_perm {α : Type} (f : α → ℕ) (x : α) (l : List α) : (insertDesc f x l).Perm (x :: l) := by
  induction l with
  | nil => exact List.Perm.refl _
  | cons y l ih =>
    unfold insertDesc
    split
    · exact List.Perm.refl _
    · exact (ih.cons y).trans (List.Perm.swap x y l)

theorem sortDesc_perm {α : Type} (f : α → ℕ) (l : List α) : (sortDesc f l).Perm l := by
  induction l with
  | nil => exact List.Perm.refl _
  | cons x l ih => exact (insertDesc_perm f x _).trans (ih.cons x)

theorem insertDesc_sorted {α : Type} (f : α → ℕ) (x : α) (l : List α) (h : l.Pairwise fun a b => f a ≥ f b) :
    (insertDesc f x l).Pairwise fun a b => f a ≥ f b := by
  induction l with
  | nil => simp [insertDesc]
  | cons y l ih =>
    have h' := List.pairwise_cons.1 h
    unfold insertDesc
    split
    · rename_i hle
      rw [List.pairwise_cons]
      refine ⟨?_, h⟩
      intro z hz
      rcases List.mem_cons.1 hz with rfl | hz
      · exact hle
      · exact le_trans (h'.1 z hz) hle
    · rename_i hle
      rw [List.pairwise_cons]
      refine ⟨?_, ih h'.2⟩
      intro z hz
      rcases List.mem_cons.1 ((insertDesc_perm f x l).mem_iff.1 hz) with rfl | hz
      · omega
      · exact h'.1 z hz

theorem sortDesc_sorted {α : Type} (f : α → ℕ) (l : List α) : (sortDesc f l).Pairwise fun a b => f a ≥ f b := by
  induction l with
  | nil => simp [sortDesc]
  | cons x l ih => exact insertDesc_sorted f x _ ih

/-! ## Declared tensors -/

theorem mem_trim {declared : Dict Key Meta} {k : Key} {dt : DType} {sh : List ℕ} :
    (k, (dt, sh)) ∈ trim declared ↔ (k, (⟨some sh, some dt⟩ : Meta)) ∈ declared := by
  unfold trim
  rw [List.mem_filterMap]
  constructor
  · rintro ⟨⟨k', ⟨s, d⟩⟩, hm, h⟩
    cases s <;> cases d <;> simp at h
    obtain ⟨rfl, rfl, rfl⟩ := h
    exact hm
  · intro h
    exact ⟨_, h, rfl⟩

theorem trim_keys_sublist (declared : Dict Key Meta) : ((trim declared).map (·.1)).Sublist declared.keys := by
  unfold trim Dict.keys
  induction declared with
  | nil => simp
  | cons p d ih =>
    obtain ⟨k, ⟨s, dt⟩⟩ := p
    cases s <;> cases dt <;> simp <;>
      first
      | exact (ih.trans (List.sublist_cons_self _ _))
      | exact ih

theorem reservedSize_eq (declared : Dict Key Meta) (recipe : Option (List Char)) (hnd : declared.keys.Nodup)
    (hmk : metadataKey ∉ declared.keys) :
    reservedSize declared recipe = 2 + ((initHeader recipe).map fun p => fieldLen (p.1, p.2.toJson)).sum +
      ((trim declared).map baseLen).sum +
      offLen 0 ((sortDesc (fun p => byteSize p.2) (trim declared)).map fun p => byteSize p.2) +
      (trim declared).length := by
  unfold reservedSize
  simp only
  set worst := sortDesc (fun p => byteSize p.2) (trim declared) with hworst
  have hp : worst.Perm (trim declared) := sortDesc_perm _ _
  set ini : Dict Key Json := (initHeader recipe).map fun p => (p.1, p.2.toJson) with hini
  have hfold : (layout 0 worst).foldl (fun d p => d.set p.1 p.2.toJsonDummy) ini =
      ini.update ((layout 0 worst).map fun p => (p.1, p.2.toJsonDummy)) := by
    simp only [Dict.update, List.foldl_map]
  have hk : Dict.keys ((layout 0 worst).map fun p => (p.1, p.2.toJsonDummy)) = worst.map (·.1) := by
    simp only [Dict.keys, List.map_map, Function.comp_def, layout_keys]
  have hwn : (worst.map (·.1)).Nodup :=
    (hp.map _).nodup_iff.2 (hnd.sublist (trim_keys_sublist declared))
  have hdis : ∀ k ∈ Dict.keys ((layout 0 worst).map fun p => (p.1, p.2.toJsonDummy)), k ∉ ini.keys := by
    intro k h1 h2
    rw [hk] at h1
    have : k ∈ declared.keys := (trim_keys_sublist declared).subset ((hp.map _).subset h1)
    simp [hini, initHeader, Dict.keys] at h2
    subst h2
    exact hmk this
  rw [hfold, Dict.update_of_disjoint _ (by rw [hk]; exact hwn) hdis, asciiBytes_length, enc_obj_length]
  have hl : (layout 0 worst).length = (trim declared).length := by rw [layout_length]; exact hp.length_eq
  have hlay := layout_fieldLen 0 worst
  have hdum : (((layout 0 worst).map fun p => (p.1, p.2.toJsonDummy)).map fieldLen) =
      (layout 0 worst).map fun p => fieldLen (p.1, p.2.toJson) := by
    rw [List.map_map]
    apply List.map_congr_left
    intro p _
    simp [fieldLen, toJsonDummy_length]
  have hb := (hp.map baseLen).sum_eq
  simp only [List.map_append, List.sum_append, List.length_append, hdum, hlay, List.length_map, hl, hb, hini,
    List.map_map, Function.comp_def]
  have : (initHeader recipe).length = 1 := rfl
  rw [this]
  simp only [Decl] at *
  omega

theorem entriesFrom_eq_layout (off : ℕ) (l : Log) (h : ∀ p ∈ l, Tensor.WF p.2) :
    entriesFrom off l = layout off (l.map fun p => (p.1, (p.2.dtype, p.2.shape))) := by
  induction l generalizing off with
  | nil => rfl
  | cons p l ih =>
    obtain ⟨k, t⟩ := p
    have hw : t.bytes.length = numel t.shape * t.dtype.size := by
      rw [Safetensors.size_eq]; exact h (k, t) (by simp)
    have := ih (off + t.bytes.length) (fun p hp => h p (by simp [hp]))
    simp only [entriesFrom, List.map_cons, layout, this, byteSize]
    rw [hw]

/-- When distinct tensors are stored, the final header is the metadata followed by their entries, in some order. -/
theorem header_perm {recipe : Option (List Char)} {H : Header} {Lg : Log} (hnd : H.keys.Nodup)
    (hmem : ∀ k v, (k, v) ∈ H → (k, v) ∈ initHeader recipe ∨ ∃ e, v = .tensor e ∧ (k, e) ∈ entriesFrom 0 Lg)
    (hcov : ∀ k ∈ Lg.map (·.1), k ∈ H.keys) (hkeep : ∀ k, k ∉ Lg.map (·.1) → H.get? k = (initHeader recipe).get? k)
    (hk : (Lg.map (·.1)).Nodup) (hmk : metadataKey ∉ Lg.map (·.1)) :
    H.Perm (initHeader recipe ++ (entriesFrom 0 Lg).map fun p => (p.1, HVal.tensor p.2)) := by
  have hkeysE : ((entriesFrom 0 Lg).map fun p => (p.1, HVal.tensor p.2)).map (·.1) = Lg.map (·.1) := by
    rw [List.map_map]; simp only [Function.comp_def]; exact entriesFrom_keys 0 Lg
  have hndR : (Dict.keys (initHeader recipe ++ (entriesFrom 0 Lg).map fun p => (p.1, HVal.tensor p.2))).Nodup := by
    unfold Dict.keys
    rw [List.map_append, hkeysE, List.nodup_append]
    refine ⟨by simp [initHeader], hk, ?_⟩
    intro a ha b hb hab
    simp [initHeader] at ha
    subst ha; subst hab
    exact hmk hb
  have hn1 : H.Nodup := List.Nodup.of_map Prod.fst hnd
  have hn2 : (initHeader recipe ++ (entriesFrom 0 Lg).map fun p => (p.1, HVal.tensor p.2)).Nodup :=
    List.Nodup.of_map Prod.fst hndR
  rw [List.perm_ext_iff_of_nodup hn1 hn2]
  rintro ⟨k, v⟩
  constructor
  · intro h
    rcases hmem k v h with h1 | ⟨e, rfl, h2⟩
    · exact List.mem_append_left _ h1
    · exact List.mem_append_right _ (List.mem_map.2 ⟨(k, e), h2, rfl⟩)
  · intro h
    rcases List.mem_append.1 h with h1 | h1
    · have hkm : k = metadataKey := by simp [initHeader] at h1; exact h1.1
      subst hkm
      have := hkeep _ hmk
      exact Dict.mem_of_get? (this.trans (Dict.get?_of_mem (by simp [initHeader, Dict.keys]) h1))
    · obtain ⟨⟨k', e⟩, h2, h3⟩ := List.mem_map.1 h1
      simp only [Prod.mk.injEq] at h3
      obtain ⟨rfl, rfl⟩ := h3
      have hkL : k' ∈ Lg.map (·.1) := by
        rw [← entriesFrom_keys 0 Lg]; exact List.mem_map.2 ⟨_, h2, rfl⟩
      have hin := hcov k' hkL
      cases hg : H.get? k' with
      | none => exact absurd hin ((Dict.get?_eq_none_iff _ _).1 hg)
      | some v =>
        have hm := Dict.mem_of_get? hg
        rcases hmem k' v hm with h4 | ⟨e', rfl, h4⟩
        · have : k' = metadataKey := by simp [initHeader] at h4; exact h4.1
          subst this; exact absurd hkL hmk
        · have hu : e' = e := by
            have n1 : (Dict.keys (entriesFrom 0 Lg)).Nodup := by
              unfold Dict.keys; rw [entriesFrom_keys]; exact hk
            have := (Dict.get?_of_mem n1 h2).symm.trans (Dict.get?_of_mem n1 h4)
            simp at this; exact this.symm
          rw [← hu]; exact hm

/-- **Key lemma for C07.** -/
theorem header_fits {declared : Dict Key Meta} {recipe : Option (List Char)} {H : Header} {Lg : Log}
    (hperm : H.Perm (initHeader recipe ++ (entriesFrom 0 Lg).map fun p => (p.1, HVal.tensor p.2)))
    (hnd : declared.keys.Nodup) (hmk : metadataKey ∉ declared.keys)
    (hk : (Lg.map (·.1)).Nodup) (hwf : ∀ p ∈ Lg, Tensor.WF p.2)
    (hdecl : ∀ p ∈ Lg, declared.get? p.1 = some ⟨some p.2.shape, some p.2.dtype⟩) :
    (encHeader H).length ≤ reservedSize declared recipe := by
  rw [reservedSize_eq declared recipe hnd hmk]
  unfold encHeader
  rw [asciiBytes_length, enc_obj_length]
  set L : List Decl := Lg.map fun p => (p.1, (p.2.dtype, p.2.shape)) with hL
  have hLn : L.Nodup := by
    apply List.Nodup.of_map (·.1)
    rw [hL, List.map_map]; exact hk
  have hsub : L.Subperm (trim declared) := by
    apply List.subperm_of_subset hLn
    rintro ⟨k, dt, sh⟩ hm
    rw [hL, List.mem_map] at hm
    obtain ⟨p, hp, he⟩ := hm
    simp only [Prod.mk.injEq] at he
    obtain ⟨rfl, rfl, rfl⟩ := he
    rw [mem_trim]
    exact Dict.mem_of_get? (hdecl p hp)
  have hp2 := hperm.map (fun p => fieldLen (p.1, p.2.toJson))
  have hs := hp2.sum_eq
  have hlen := hperm.length_eq
  rw [entriesFrom_eq_layout 0 Lg hwf] at hs hlen
  simp only [List.map_append, List.sum_append, List.map_map, Function.comp_def] at hs
  have hj : ∀ e : Entry, (HVal.tensor e).toJson = e.toJson := fun _ => rfl
  simp only [hj] at hs
  have hlay := layout_fieldLen 0 L
  rw [hlay] at hs
  rw [List.map_map]
  simp only [Function.comp_def, List.length_map]
  rw [hs]
  have hb : (L.map baseLen).sum ≤ ((trim declared).map baseLen).sum := by
    obtain ⟨l, h1, h2⟩ := subperm_map baseLen hsub
    rw [← h1.sum_eq]
    exact h2.sum_le_sum (by simp)
  have ho : offLen 0 (L.map fun p => byteSize p.2) ≤
      offLen 0 ((sortDesc (fun p => byteSize p.2) (trim declared)).map fun p => byteSize p.2) := by
    set W := sortDesc (fun p : Decl => byteSize p.2) (trim declared) with hW
    have hWp : W.Perm (trim declared) := sortDesc_perm _ _
    have hsW : (L.map fun p => byteSize p.2).Subperm (W.map fun p => byteSize p.2) :=
      subperm_map _ (hsub.trans hWp.symm.subperm)
    have hsorted : (W.map fun p => byteSize p.2).Pairwise (· ≥ ·) := by
      rw [List.pairwise_map]; exact sortDesc_sorted _ _
    apply offLen_mono _ _ _ _ hsW.length_le
    intro i _
    have := sum_le_take _ hsorted ((L.map fun p => byteSize p.2).take i) i
      ((List.take_sublist _ _).subperm.trans hsW) (by simp)
    omega
  have hll : L.length ≤ (trim declared).length := hsub.length_le
  have hi : (initHeader recipe).length = 1 := rfl
  simp only [List.length_append, List.length_map, layout_length, hi, ← hL] at hlen
  omega

end Verif.StreamOut
