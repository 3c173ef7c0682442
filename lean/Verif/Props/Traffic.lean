import Verif.Proofs.Traffic
import Verif.Props.StreamIn
import Verif.Props.Held

/-!
# C121 How much is read from a file
-/
namespace Verif.StreamIn
open Spec

/-- Counting transfers changes nothing about the reader. -/
theorem C121_same (s : State) (k : Key) : (getItemT s k).1 = (getItem s k).1 := getItemT_state s k

/-- Tensors asked for in the order in which they lie in the file: in all at most twice the data is transferred, and the number of transfers is at
most one more than twice the data in buffers. -/
theorem C121_ascending {file : Bytes} {bs cap : ℕ} {s0 : State} (hopen : open_ file bs cap = .ok s0)
    (hvalid : ValidHeader file s0.headerSize s0.header) {ks : List Key} (hks : Ascending s0.header ks) :
    total (transfers s0 ks) ≤ 2 * dataSize file s0.headerSize ∧ ((transfers s0 ks).length - 1) * bs ≤ 2 * dataSize file s0.headerSize := by
  obtain ⟨h1, h2, h3, h4, h5, h6⟩ := open_same hopen
  by_cases hle : 8 + s0.headerSize ≤ file.length
  · obtain ⟨a, b⟩ := ascending_cost (L := file.length) (by rw [h4]) ks s0 (8 + s0.headerSize) h1 (inOrder_of hks) (by
      intro k _ p l hp
      obtain ⟨e, e1, e2, e3, e4, _⟩ := place_some hp
      have := (hvalid k e e1).inside
      unfold last at this
      rw [h2]
      exact ⟨by omega, by omega, .inl (by omega)⟩) hle
    rw [h2, h3, List.length_nil] at a b
    rw [h5] at b
    unfold dataSize
    refine ⟨by omega, ?_⟩
    rw [Nat.sub_mul, Nat.one_mul]
    omega
  · have hz : transfers s0 ks = [] := by
      refine ascending_cost.quiet (s0 := s0) ks s0 h1 ?_
      intro k _ p l hp
      obtain ⟨e, e1, e2, e3, e4, _⟩ := place_some hp
      have := (hvalid k e e1).inside
      unfold last at this
      omega
    rw [hz]
    simp [total]

/-- So for all tensors of a file in the order in which it lists them. -/
theorem C121_items {file : Bytes} {bs cap : ℕ} {s0 : State} (hopen : open_ file bs cap = .ok s0)
    (hvalid : ValidHeader file s0.headerSize s0.header) (hdis : Disjoint s0.header) :
    total (transfers s0 (keys s0)) ≤ 2 * dataSize file s0.headerSize ∧ ((transfers s0 (keys s0)).length - 1) * bs ≤ 2 * dataSize file s0.headerSize := by
  obtain ⟨h, _, hn, _, hp, hh, _⟩ := C04_listing file bs cap s0 hopen
  refine C121_ascending hopen hvalid ?_
  refine List.Pairwise.imp ?_ (hn.and hp)
  rintro k k' ⟨hne, hle⟩
  refine .inr fun e e' h1 h2 h3 h4 => ?_
  have := hle e e' (by rw [← hh]; exact h1) (by rw [← hh]; exact h2)
  rcases hdis k k' e e' hne h1 h2 with h | h
  · exact h
  · omega

/-- Tensors asked for in the opposite order: every one costs a transfer of a whole buffer, or of the rest of the file. -/
theorem C121_reverse {file : Bytes} {bs cap : ℕ} {s0 : State} (hopen : open_ file bs cap = .ok s0) {es : List (Key × Entry)}
    (hes : ∀ q ∈ es, s0.header.get? q.1 = some (.tensor q.2) ∧ q.1 ≠ metadataKey ∧ q.2.start < q.2.stop)
    (hdesc : es.Pairwise fun q q' => q'.2.stop ≤ q.2.start) :
    transfers s0 (es.map (·.1)) = es.map fun q =>
      ⟨first s0.headerSize q.2, min (min (max bs (q.2.stop - q.2.start)) cap) (file.length - first s0.headerSize q.2)⟩ := by
  obtain ⟨h1, h2, h3, h4, h5, h6⟩ := open_same hopen
  have hpl : ∀ q ∈ es, place s0 q.1 = some (first s0.headerSize q.2, q.2.stop - q.2.start) := by
    intro q hq
    obtain ⟨a, b, c⟩ := hes q hq
    unfold place
    rw [a]
    dsimp only
    rw [if_neg (by push Not; exact ⟨b, c⟩)]
    rfl
  have hnd : (es.map (·.1)).Nodup := by
    rw [List.Nodup, List.pairwise_map]
    refine List.Pairwise.imp_of_mem ?_ hdesc
    intro q q' hq hq' h e
    have a := (hes q hq).1
    rw [e, (hes q' hq').1] at a
    have := (hes q hq).2.2
    have e' : q'.2 = q.2 := by injection a with a; injection a
    rw [e'] at h
    omega
  rw [descending_cost (es.map (·.1)) s0 h1 hnd, h4, h5, h6, List.filterMap_map]
  · rw [← List.filterMap_eq_map]
    refine List.filterMap_congr fun q hq => ?_
    simp only [Function.comp_apply, hpl q hq, Option.map_some]
  · rw [List.pairwise_map]
    refine List.Pairwise.imp_of_mem ?_ hdesc
    intro q q' hq hq' h p l p' l' a b
    rw [hpl q hq] at a
    rw [hpl q' hq'] at b
    have := (hes q' hq').2.2
    cases a
    cases b
    unfold first
    omega
  · intro k hk p l hp
    obtain ⟨e, e1, e2, e3, e4, _⟩ := place_some hp
    rw [h2, h3, List.length_nil]
    omega

/-- A merge without threads of keys that the file has in this order reads from it at most twice its data, however often the model occurs in the
recipe. -/
theorem C121_merge {F T : Type} (P : Program.PWorld F T) (read : Method.Str → Method.Str → Except Err T) {k : ℕ} {r : Recipe.Val F}
    (hs : Held.Spec.Simple P k r) {ks : List Method.Str}
    (hk : ∀ key ∈ ks, (∀ q ∈ Held.Spec.paths r, ∃ t, read q key = .ok t) ∧ ∃ x, Eval.eval (Program.Spec.world P read) r key = .ok x)
    {path : Method.Str} {file : Bytes} {bs cap : ℕ} {s0 : State} (hopen : open_ file bs cap = .ok s0)
    (hvalid : ValidHeader file s0.headerSize s0.header) (hks : Ascending s0.header ks) :
    total (transfers s0 (asked P read r ks path)) ≤ 2 * dataSize file s0.headerSize ∧
    ((transfers s0 (asked P read r ks path)).length - 1) * bs ≤ 2 * dataSize file s0.headerSize := by
  refine C121_ascending hopen hvalid ?_
  have e : asked P read r ks path = ks.flatMap fun key => List.replicate ((Held.Spec.paths r).count path) key := by
    unfold asked
    rw [List.filter_flatMap, List.map_flatMap]
    refine List.flatMap_congr fun key hkey => ?_
    obtain ⟨h1, x, hx⟩ := hk key hkey
    have hp := ((Held.C120_loads P read hs h1 hx).filter fun q => decide (q.1 = path)).map (·.2)
    rw [List.filter_map, List.map_map] at hp
    have e2 : ((Held.Spec.paths r).filter ((fun q : Method.Str × Method.Str => decide (q.1 = path)) ∘ fun p => (p, key))) =
        List.replicate ((Held.Spec.paths r).count path) path := by
      rw [← List.filter_eq]
      rfl
    rw [e2, List.map_replicate] at hp
    exact List.perm_replicate.1 hp
  rw [e]
  unfold Ascending
  rw [List.pairwise_flatMap]
  refine ⟨fun key _ => List.pairwise_replicate.2 (.inr (.inl rfl)), ?_⟩
  refine List.Pairwise.imp ?_ hks
  intro a b h x hx y hy
  rw [List.eq_of_mem_replicate hx, List.eq_of_mem_replicate hy]
  exact h

/-! ### A file of four tensors of one byte -/

namespace TrafficEx

def headerText : List Char :=
  "{\"a\":{\"dtype\":\"U8\",\"shape\":[1],\"data_offsets\":[0,1]},\"b\":{\"dtype\":\"U8\",\"shape\":[1],\"data_offsets\":[1,2]},\"c\":{\"dtype\":\"U8\",\"shape\":[1],\"data_offsets\":[2,3]},\"d\":{\"dtype\":\"U8\",\"shape\":[1],\"data_offsets\":[3,4]}}".toList

def file : Bytes := le64 headerText.length ++ asciiBytes headerText ++ [1, 2, 3, 4]

def entry (n : ℕ) : Entry := ⟨.u8, [1], n, n + 1⟩

def header : Header := [(['a'], .tensor (entry 0)), (['b'], .tensor (entry 1)), (['c'], .tensor (entry 2)), (['d'], .tensor (entry 3))]

def st (bs cap : ℕ) : State :=
  { file := file, defaultBufferSize := bs, cap := cap, headerSize := 209, header := header, heap := [[]], buf := 0, bufStart := 217 }

theorem opens (bs cap : ℕ) : open_ file bs cap = .ok (st bs cap) := by
  have : readHeader file = .ok (209, header) := by decide +kernel
  simp [open_, this, st, bind, Except.bind, pure, Except.pure]

theorem get_cases {k : Key} {e : Entry} (h : Dict.get? header k = some (.tensor e)) :
    (k, e) ∈ [(['a'], entry 0), (['b'], entry 1), (['c'], entry 2), (['d'], entry 3)] := by
  unfold header at h
  simp only [Dict.get?] at h
  split_ifs at h with h1 h2 h3 h4
  all_goals
    first
    | cases h
    | skip
  all_goals simp_all

theorem valid (bs cap : ℕ) : ValidHeader file 209 (st bs cap).header := by
  intro k e h
  have := get_cases h
  have hl : file.length = 221 := by decide +kernel
  simp only [List.mem_cons, Prod.mk.injEq, List.not_mem_nil, or_false] at this
  rcases this with ⟨_, rfl⟩ | ⟨_, rfl⟩ | ⟨_, rfl⟩ | ⟨_, rfl⟩ <;> exact ⟨by decide, by rw [hl]; decide, by decide⟩

theorem disjoint : Disjoint header := by
  intro k k' e e' hne h h'
  have a := get_cases h
  have b := get_cases h'
  simp only [List.mem_cons, Prod.mk.injEq, List.not_mem_nil, or_false] at a b
  rcases a with ⟨rfl, rfl⟩ | ⟨rfl, rfl⟩ | ⟨rfl, rfl⟩ | ⟨rfl, rfl⟩ <;> rcases b with ⟨rfl, rfl⟩ | ⟨rfl, rfl⟩ | ⟨rfl, rfl⟩ | ⟨rfl, rfl⟩ <;>
    simp_all [entry]

/-- In another order more is transferred, although each tensor is asked for once and the whole file fits into the buffer. -/
theorem C121_order_false : ¬ ∀ (file : Bytes) (bs cap : ℕ) (s0 : State), open_ file bs cap = .ok s0 → ValidHeader file s0.headerSize s0.header →
    Disjoint s0.header → dataSize file s0.headerSize ≤ bs → bs ≤ cap → ∀ ks : List Key, ks.Perm (keys s0) →
    total (transfers s0 ks) ≤ 2 * dataSize file s0.headerSize := by
  intro h
  have := h file 4 4 _ (opens 4 4) (valid 4 4) disjoint (by decide +kernel) le_rfl [['d'], ['c'], ['b'], ['a']]
    (by rw [show keys (st 4 4) = [['a'], ['b'], ['c'], ['d']] from by decide +kernel]; decide)
  revert this
  decide +kernel

/-! ### The hypotheses can be met -/

example : total (transfers (st 2 2) (keys (st 2 2))) ≤ 8 ∧ ((transfers (st 2 2) (keys (st 2 2))).length - 1) * 2 ≤ 8 := by
  have h := C121_items (opens 2 2) (valid 2 2) disjoint
  have e : dataSize file (st 2 2).headerSize = 4 := by decide +kernel
  rw [e] at h
  exact h

example : transfers (st 4 4) [['d'], ['c'], ['b'], ['a']] = [⟨220, 1⟩, ⟨219, 2⟩, ⟨218, 3⟩, ⟨217, 4⟩] := by
  have h := C121_reverse (opens 4 4) (es := [(['d'], entry 3), (['c'], entry 2), (['b'], entry 1), (['a'], entry 0)])
    (by
      intro q hq
      simp only [List.mem_cons, List.not_mem_nil, or_false] at hq
      rcases hq with rfl | rfl | rfl | rfl <;> exact ⟨by decide, by decide, by decide⟩)
    (by simp [entry])
  have hl : file.length = 221 := by decide +kernel
  rw [hl] at h
  exact h

open Held.Ex in
/-- The model twice in the recipe -/
example : total (transfers (st 2 2) (asked P read (mix (model ['f']) (model ['f'])) [['a'], ['c'], ['d']] ['f'])) ≤ 8 := by
  have e : dataSize file (st 2 2).headerSize = 4 := by decide +kernel
  have h := (C121_merge P read (mix_simple (model_simple ['f']) (model_simple ['f'])) (ks := [['a'], ['c'], ['d']]) (path := ['f']) (by
    intro key hkey
    refine ⟨fun q _ => ⟨_, rfl⟩, .tensor 2, ?_⟩
    simp only [List.mem_cons, List.not_mem_nil, or_false] at hkey
    rcases hkey with rfl | rfl | rfl <;> decide +kernel) (opens 2 2) (valid 2 2) (by
    have hh : (st 2 2).header = header := rfl
    rw [hh]
    simp only [Ascending, List.pairwise_cons, List.mem_cons, List.not_mem_nil, or_false, forall_eq_or_imp, forall_eq, List.Pairwise.nil, and_true,
      IsEmpty.forall_iff, implies_true]
    refine ⟨⟨.inr ?_, .inr ?_⟩, .inr ?_⟩ <;> intro e e' h1 h2 _ _ <;> have h1 := get_cases h1 <;> have h2 := get_cases h2 <;>
      simp_all [entry])).1
  rw [e] at h
  exact h

end TrafficEx

end Verif.StreamIn
