import Verif.Props.Arith

/-!
# C52, C71: TIES
-/
namespace Verif.Arith
open Spec Region
set_option linter.unusedSectionVars false

variable {K : Type} [Field K] [LinearOrder K] [IsStrictOrderedRing K]

/-! ## Trimming -/

theorem kthValue_spec {xs : List K} {c : ℕ} (h1 : 1 ≤ c) (h2 : c ≤ xs.length) : ∃ v, kthValue xs c = some v ∧ v ∈ xs ∧
    (xs.countP fun x => decide (x < v)) < c ∧ c ≤ xs.countP fun x => decide (x ≤ v) := by
  obtain ⟨s, hs⟩ : ∃ s, s = xs.insertionSort (· ≤ ·) := ⟨_, rfl⟩
  have hp : s.Perm xs := hs ▸ List.perm_insertionSort _ _
  have hsort : s.Pairwise (· ≤ ·) := hs ▸ List.pairwise_insertionSort _ _
  have hlen : s.length = xs.length := hp.length_eq
  have hi : c - 1 < s.length := by omega
  refine ⟨s[c - 1], ?_, hp.mem_iff.mp (List.getElem_mem hi), ?_, ?_⟩
  · unfold kthValue
    rw [if_neg (by omega), ← hs, List.getElem?_eq_getElem hi]
  · rw [← hp.countP_eq]
    obtain ⟨v, hv⟩ : ∃ v, v = s[c - 1] := ⟨_, rfl⟩
    rw [← hv]
    have e : (s.countP fun x => decide (x < v)) =
        ((s.take (c - 1)).countP fun x => decide (x < v)) + (s.drop (c - 1)).countP fun x => decide (x < v) := by
      conv_lhs => rw [← List.take_append_drop (c - 1) s, List.countP_append]
    have hd : ((s.drop (c - 1)).countP fun x => decide (x < v)) = 0 := by
      rw [List.countP_eq_zero]
      intro x hx
      obtain ⟨k, hk, rfl⟩ := List.getElem_of_mem hx
      rw [List.length_drop] at hk
      simp only [List.getElem_drop, decide_eq_true_eq, not_lt, hv]
      rcases Nat.eq_zero_or_pos k with rfl | hk0
      · simp
      · exact List.pairwise_iff_getElem.mp hsort _ _ _ (by omega) (by omega)
    have ht := List.countP_le_length (p := fun x => decide (x < v)) (l := s.take (c - 1))
    rw [List.length_take] at ht
    omega
  · have : c ≤ (s.take c).countP fun x => decide (x ≤ s[c - 1]) := by
      have e : ((s.take c).countP fun x => decide (x ≤ s[c - 1])) = (s.take c).length := by
        rw [List.countP_eq_length]
        intro x hx
        obtain ⟨k, hk, rfl⟩ := List.getElem_of_mem hx
        rw [List.length_take] at hk
        simp only [List.getElem_take, decide_eq_true_eq]
        rcases Nat.lt_or_ge k (c - 1) with h | h
        · exact List.pairwise_iff_getElem.mp hsort _ _ _ _ h
        · have : k = c - 1 := by omega
          subst this; exact le_rfl
      rw [e, List.length_take]
      omega
    refine this.trans ?_
    rw [← hp.countP_eq]
    exact List.Sublist.countP_le (List.take_sublist c s)

theorem kthValue_none {xs : List K} {c : ℕ} (h : xs.length < c) : kthValue xs c = none := by
  unfold kthValue
  rw [if_neg (by omega), List.getElem?_eq_none]
  rw [List.length_insertionSort]
  omega

theorem countP_ofFn {m : ℕ} {α : Type} (f : Fin m → α) (q : α → Bool) :
    (List.ofFn f).countP q = (List.finRange m).countP fun i => q (f i) := by
  rw [List.ofFn_eq_map, List.countP_map]
  rfl

theorem topCount_pos (k : ℚ) (m : ℕ) : 1 ≤ topCount k m := by unfold topCount; omega

theorem filterTopK_spec {m : ℕ} {k : ℚ} (h : topCount k m ≤ m) (a : Fin m → K) :
    ∃ t, filterTopK a k = some t ∧ Trimmed a t (topCount k m) := by
  obtain ⟨v, h1, h2, h3, h4⟩ := kthValue_spec (xs := List.ofFn fun i => |a i|) (topCount_pos k m) (by simpa using h)
  obtain ⟨j, hj⟩ := List.mem_ofFn.mp h2
  subst hj
  refine ⟨_, by unfold filterTopK; rw [h1]; rfl, j, fun i => ?_, ?_, ?_⟩
  · dsimp only
    split_ifs <;> first | ring | (exfalso; tauto)
  · rw [countP_ofFn] at h3; exact h3
  · rw [countP_ofFn] at h4; exact h4

theorem filterTopK_none {m : ℕ} {k : ℚ} (h : m < topCount k m) (a : Fin m → K) : filterTopK a k = none := by
  unfold filterTopK
  rw [kthValue_none (by simpa using h)]
  rfl

theorem mapM_some {α β : Type} (g : α → β) (f : α → Option β) (h : ∀ a, f a = some (g a)) :
    ∀ l : List α, l.mapM f = some (l.map g)
  | [] => by simp
  | a :: l => by
    rw [List.mapM_cons, h a, mapM_some g f h l]
    rfl

theorem mapM_none {α β : Type} (f : α → Option β) (h : ∀ a, f a = none) {l : List α} (hl : l ≠ []) : l.mapM f = none := by
  obtain ⟨a, l, rfl⟩ := List.exists_cons_of_ne_nil hl
  rw [List.mapM_cons, h a]
  rfl

/-- The trimming function, where it is defined. -/
theorem trim_fun {m : ℕ} {k : ℚ} (h : topCount k m ≤ m) : ∃ g : (Fin m → K) → (Fin m → K),
    (∀ a, filterTopK a k = some (g a)) ∧ ∀ a, Trimmed a (g a) (topCount k m) := by
  choose g h1 h2 using fun a : Fin m → K => filterTopK_spec h a
  exact ⟨g, h1, h2⟩

/-! ## Election -/

theorem sgn_pos_iff {x : K} : sgn x = 1 ↔ 0 < x := by
  unfold sgn
  split_ifs with h1 h2
  · simp [h1]
  · simp only [h1, iff_false]; norm_num
  · simp only [h1, iff_false]; norm_num

theorem sgn_neg_iff {x : K} : sgn x = -1 ↔ x < 0 := by
  unfold sgn
  split_ifs with h1 h2
  · simp only [not_lt.mpr h1.le, iff_false]; norm_num
  · simp [h2]
  · simp only [h2, iff_false]; norm_num

theorem sgn_zero_iff {x : K} : sgn x = 0 ↔ x = 0 := by
  unfold sgn
  split_ifs with h1 h2
  · simp [h1.ne']
  · simp [h2.ne]
  · simp only [true_iff]; exact le_antisymm (not_lt.mp h1) (not_lt.mp h2)

theorem sum_sgn (ds : List K) : (ds.map sgn).sum =
    (ds.countP (fun d => decide (0 < d)) : K) - (ds.countP (fun d => decide (d < 0)) : K) := by
  induction ds with
  | nil => simp
  | cons d ds ih =>
    rw [List.map_cons, List.sum_cons, ih, List.countP_cons, List.countP_cons]
    unfold sgn
    rcases lt_trichotomy d 0 with h | h | h
    · simp [h, not_lt.mpr h.le]; ring
    · subst h; simp
    · simp [h, not_lt.mpr h.le]; ring

/-- The sign the specification of the flag elects. -/
def elects (voteSgn : Bool) (ds : List K) : Int := if voteSgn then byMass ds else byCount ds

theorem electedSign_eq (v : Bool) (ds : List K) : electedSign v ds = (elects v ds : K) := by
  cases v
  · simp only [electedSign, elects, sum_sgn, byCount, sgn, Bool.false_eq_true, if_false, sub_pos, sub_neg, Nat.cast_lt]
    split_ifs <;> simp
  · simp only [electedSign, elects, byMass, sgn, if_true]
    split_ifs <;> simp

theorem sum_filter_mul (ds : List K) (q : K → Prop) [DecidablePred q] :
    (ds.map fun d => d * (if q d then 1 else 0)).sum = (ds.filter fun d => decide (q d)).sum := by
  induction ds with
  | nil => simp
  | cons d ds ih =>
    rw [List.map_cons, List.sum_cons, ih, List.filter_cons]
    by_cases h : q d <;> simp [h]

theorem sum_indicator (ds : List K) (q : K → Prop) [DecidablePred q] :
    (ds.map fun d => if q d then (1 : K) else 0).sum = ((ds.filter fun d => decide (q d)).length : K) := by
  induction ds with
  | nil => simp
  | cons d ds ih =>
    rw [List.map_cons, List.sum_cons, ih, List.filter_cons]
    by_cases h : q d <;> simp [h]; ring

theorem nanDiv_mean (big : K) (xs : List K) : nanDiv big xs.sum xs.length = mean xs := by
  unfold nanDiv mean
  by_cases h : xs = []
  · subst h; simp
  · have : (xs.length : K) ≠ 0 := by exact_mod_cast (List.length_pos_iff.mpr h).ne'
    rw [if_neg this, if_neg h]

theorem elects_cases (v : Bool) (ds : List K) : elects v ds = 1 ∨ elects v ds = -1 ∨ elects v ds = 0 := by
  unfold elects byMass byCount
  split_ifs <;> simp

theorem ties_entry (big : K) (v : Bool) (ds : List K) :
    nanDiv big (filteredDelta v ds).1.sum (filteredDelta v ds).2 = tiesValue ds (elects v ds) := by
  unfold filteredDelta
  dsimp only
  rw [sum_filter_mul ds fun d => sgn d = electedSign v ds, sum_indicator ds fun d => sgn d = electedSign v ds, nanDiv_mean,
    electedSign_eq]
  unfold tiesValue
  rcases elects_cases v ds with h | h | h
  · rw [h, if_pos rfl]
    simp only [Int.cast_one, sgn_pos_iff]
  · rw [h, if_neg (by decide), if_pos rfl]
    simp only [Int.cast_neg, Int.cast_one, sgn_neg_iff]
  · rw [h, if_neg (by decide), if_neg (by decide)]
    simp only [Int.cast_zero, sgn_zero_iff]
    unfold mean
    split_ifs
    · rfl
    · rw [List.sum_eq_zero, zero_div]
      intro x hx
      simpa using (List.mem_filter.mp hx).2

theorem tiesSum_eq {m : ℕ} {big : K} {models : List (Fin m → K)} {k : ℚ} {v : Bool} (hne : models ≠ [])
    {g : (Fin m → K) → (Fin m → K)} (hg : ∀ a, filterTopK a k = some (g a)) :
    tiesSum big models k v = some fun i =>
      tiesValue (models.map fun a => g a i) (elects v (models.map fun a => g a i)) := by
  unfold tiesSum trimAll
  rw [if_neg hne, mapM_some g _ hg]
  simp only [Option.map_some, List.map_map]
  congr 1
  funext i
  exact ties_entry big v _

/-! ## Properties -/

theorem topCount_le {k : ℚ} {m : ℕ} (hk : 0 ≤ k) (hm : 1 ≤ m) : topCount k m ≤ m := by
  have : pyTrunc ((1 - k) * m) ≤ m := by
    unfold pyTrunc
    have hm' : (0 : ℚ) ≤ m := Nat.cast_nonneg m
    split_ifs with h
    · have h1 := Int.floor_le ((1 - k) * (m : ℚ))
      have h2 : (⌊(1 - k) * (m : ℚ)⌋ : ℚ) ≤ ((m : Int) : ℚ) := by push_cast; nlinarith
      exact_mod_cast h2
    · have : 0 ≤ ⌊-((1 - k) * (m : ℚ))⌋ := Int.floor_nonneg.mpr (by linarith [not_le.mp h])
      omega
  unfold topCount
  omega

/-- The number of entries that may be set to zero is at most `(1 - k)` times their number. -/
theorem topCount_bound {k : ℚ} {m n : ℕ} (hk : k ≤ 1) (h : n < topCount k m) : (n : ℚ) ≤ (1 - k) * m := by
  have h0 : 0 ≤ (1 - k) * (m : ℚ) := mul_nonneg (by linarith) (Nat.cast_nonneg m)
  unfold topCount pyTrunc at h
  rw [if_pos h0] at h
  have h1 := Int.floor_le ((1 - k) * (m : ℚ))
  rcases Nat.eq_zero_or_pos n with rfl | hn
  · simpa using h0
  · have : (n : Int) ≤ ⌊(1 - k) * (m : ℚ)⌋ := by omega
    have : ((n : Int) : ℚ) ≤ (⌊(1 - k) * (m : ℚ)⌋ : ℚ) := by exact_mod_cast this
    push_cast at this
    linarith

/-- **C52.**  `ties_sum` trims every delta to its largest entries — at most the share `1 - k` of the entries is
set to zero — elects a sign for every entry, and gives the average of the trimmed deltas that have this sign.
With `vote_sgn` the sign is elected by mass, without it by counting. -/
theorem C52_ties {m : ℕ} (big : K) (models : List (Fin m → K)) (k : ℚ) (voteSgn : Bool) (hne : models ≠ [])
    (hm : 1 ≤ m) (hk0 : 0 ≤ k) (hk1 : k ≤ 1) : ∃ (trim : (Fin m → K) → (Fin m → K)) (c : ℕ) (z : Fin m → K),
    (∀ a, Trimmed a (trim a) c) ∧ (∀ n < c, (n : ℚ) ≤ (1 - k) * m) ∧ tiesSum big models k voteSgn = some z ∧
    ∀ i, z i = tiesValue (models.map fun a => trim a i)
      (if voteSgn then byMass (models.map fun a => trim a i) else byCount (models.map fun a => trim a i)) := by
  obtain ⟨g, h1, h2⟩ := trim_fun (K := K) (topCount_le hk0 hm)
  exact ⟨g, _, _, h2, fun n hn => topCount_bound hk1 hn, tiesSum_eq hne h1, fun i => rfl⟩

/-- **C52.**  The result does not depend on the order of the models. -/
theorem C52_order {m : ℕ} (big : K) (models models' : List (Fin m → K)) (k : ℚ) (voteSgn : Bool) (h : models.Perm models') :
    tiesSum big models k voteSgn = tiesSum big models' k voteSgn := by
  by_cases hne : models = []
  · subst hne; rw [h.nil_eq]
  have hne' : models' ≠ [] := fun e => hne (by subst e; exact h.eq_nil)
  by_cases hc : topCount k m ≤ m
  · obtain ⟨g, h1, -⟩ := trim_fun (K := K) hc
    rw [tiesSum_eq hne h1, tiesSum_eq hne' h1]
    congr 1
    funext i
    have hp : (models.map fun a => g a i).Perm (models'.map fun a => g a i) := h.map _
    have e1 : elects voteSgn (models.map fun a => g a i) = elects voteSgn (models'.map fun a => g a i) := by
      unfold elects byMass byCount
      rw [hp.sum_eq, hp.countP_eq, hp.countP_eq]
    have em : ∀ xs ys : List K, xs.Perm ys → mean xs = mean ys := by
      intro xs ys hxy
      unfold mean
      rw [hxy.sum_eq, hxy.length_eq]
      have : xs = [] ↔ ys = [] := by
        constructor
        · rintro rfl; exact hxy.nil_eq.symm
        · rintro rfl; exact hxy.eq_nil
      simp only [this]
    rw [e1]
    unfold tiesValue
    rw [em _ _ (hp.filter _), em _ _ (hp.filter _)]
  · have e : ∀ ms : List (Fin m → K), ms ≠ [] → tiesSum big ms k voteSgn = none := by
      intro ms hms
      unfold tiesSum trimAll
      rw [if_neg hms, mapM_none _ (filterTopK_none (not_le.mp hc)) hms]
      rfl
    rw [e _ hne, e _ hne']

/-- **C52.**  With one model and `k = 1` the result is that model. -/
theorem C52_single {m : ℕ} (big : K) (a : Fin m → K) (voteSgn : Bool) (hm : 1 ≤ m) : tiesSum big [a] 1 voteSgn = some a := by
  have hc : topCount 1 m = 1 := by simp [topCount, pyTrunc]
  obtain ⟨g, h1, h2⟩ := trim_fun (K := K) (k := 1) (m := m) (by omega)
  rw [tiesSum_eq (by simp) h1]
  congr 1
  funext i
  have hga : g a i = a i := by
    obtain ⟨j, h3, h4, -⟩ := h2 a
    rw [hc] at h4
    have h4 : ((List.finRange m).countP fun i => decide (|a i| < |a j|)) = 0 := by omega
    rw [List.countP_eq_zero] at h4
    have := h4 i (List.mem_finRange i)
    rw [h3 i, if_pos (not_lt.mp (by simpa using this))]
  simp only [List.map_cons, List.map_nil, hga]
  unfold tiesValue elects byMass byCount mean
  rcases lt_trichotomy (a i) 0 with h | h | h
  · cases voteSgn <;> simp [h, not_lt.mpr h.le]
  · cases voteSgn <;> simp [h]
  · cases voteSgn <;> simp [h, not_lt.mpr h.le]

/-- **C52.**  A nonzero entry of the result has the elected sign. -/
theorem C52_sign (ds : List K) (sign : Int) (h : tiesValue ds sign ≠ 0) :
    (sign = 1 ∧ 0 < tiesValue ds sign) ∨ (sign = -1 ∧ tiesValue ds sign < 0) := by
  have pos : ∀ xs : List K, xs ≠ [] → 0 < (xs.length : K) := fun xs hx => by exact_mod_cast List.length_pos_iff.mpr hx
  unfold tiesValue at *
  split_ifs at h ⊢ with h1 h2
  · left
    refine ⟨h1, ?_⟩
    unfold mean at *
    split_ifs at h ⊢ with h3
    · exact absurd rfl h
    · exact div_pos (List.sum_pos _ (fun x hx => by simpa using (List.mem_filter.mp hx).2) h3) (pos _ h3)
  · right
    refine ⟨h2, ?_⟩
    unfold mean at *
    split_ifs at h ⊢ with h3
    · exact absurd rfl h
    · refine div_neg_of_neg_of_pos ?_ (pos _ h3)
      have := List.sum_pos ((ds.filter fun d => decide (d < 0)).map fun x => -x) (fun x hx => by
        obtain ⟨y, hy, rfl⟩ := List.mem_map.mp hx
        have := (List.mem_filter.mp hy).2
        simpa using this) (by simpa using h3)
      have e : ∀ xs : List K, (xs.map fun x => -x).sum = -xs.sum := by
        intro xs
        induction xs with
        | nil => simp
        | cons x xs ih => rw [List.map_cons, List.sum_cons, List.sum_cons, ih]; ring
      rw [e] at this
      linarith
  · exact absurd rfl h

/-- Three deltas with one entry each. -/
def Ex.three : List (Fin 1 → ℚ) := [fun _ => 3, fun _ => -1, fun _ => -1]

theorem Ex.three_ties (v : Bool) : tiesSum 0 Ex.three 1 v = some fun _ => if v then 3 else -1 := by
  have hc : topCount 1 1 = 1 := by simp [topCount, pyTrunc]
  obtain ⟨g, h1, h2⟩ := trim_fun (K := ℚ) (k := 1) (m := 1) (by omega)
  have hg : ∀ a i, g a i = a i := by
    intro a i
    obtain ⟨j, h3, -⟩ := h2 a
    rw [h3 i, Subsingleton.elim i j, if_pos le_rfl]
  rw [tiesSum_eq (by simp [Ex.three]) h1]
  congr 1
  funext i
  simp only [hg, Ex.three, List.map_cons, List.map_nil]
  cases v <;> norm_num [elects, byCount, byMass, tiesValue, mean]
  exact List.cons_ne_nil _ _

example : tiesSum 0 Ex.three 1 true = some fun _ => 3 := Ex.three_ties true

/-- **C71 is false of the code**: the documentation elects the sign of the sum of the deltas unless `vote_sgn` is
set; for the deltas 3, -1 and -1 the default gives -1. -/
theorem C71_vote_false : ∃ z, tiesSum 0 Ex.three 1 false = some z ∧ z 0 ≠ tiesValue [3, -1, -1] (byMass ([3, -1, -1] : List ℚ)) := by
  refine ⟨_, Ex.three_ties false, ?_⟩
  norm_num [tiesValue, byMass, mean]

/-- **C71** (what holds instead).  The documented default is obtained by setting `vote_sgn`, and the documented
special mode by leaving it off. -/
theorem C71_swapped_partial {m : ℕ} (big : K) (models : List (Fin m → K)) (k : ℚ) (hne : models ≠ []) (hm : 1 ≤ m)
    (hk0 : 0 ≤ k) : ∃ (trim : (Fin m → K) → (Fin m → K)) (c : ℕ), (∀ a, Trimmed a (trim a) c) ∧
    tiesSum big models k true = some (fun i => tiesValue (models.map fun a => trim a i) (byMass (models.map fun a => trim a i))) ∧
    tiesSum big models k false = some (fun i => tiesValue (models.map fun a => trim a i) (byCount (models.map fun a => trim a i))) := by
  obtain ⟨g, h1, h2⟩ := trim_fun (K := K) (topCount_le hk0 hm)
  exact ⟨g, _, h2, tiesSum_eq hne h1, tiesSum_eq hne h1⟩

end Verif.Arith
