import Verif.Model.Cosine
import Verif.Props.Geometry

/-!
# C80, C81: methods that use the cosine similarity
-/
set_option linter.unusedSectionVars false

namespace Verif.Geometry.Cosine
open Finset

variable {ρ κ : Type} [Fintype ρ] [Fintype κ]

/-! ## Specification -/

/-- The length of a vector -/
noncomputable def Spec.len (x : ρ → ℝ) : ℝ := Real.sqrt (∑ r, x r ^ 2)

/-- The cosine of the angle between two vectors -/
noncomputable def Spec.cos (x y : ρ → ℝ) : ℝ := (∑ r, x r * y r) / (Spec.len x * Spec.len y)

/-- `x` is a weighted average of `a` and `b`. -/
def Spec.Between (x a b : ℝ) : Prop := min a b ≤ x ∧ x ≤ max a b

/-! ## Lemmas -/

theorem len_eq (x : ρ → ℝ) : Spec.len x = norm x := by
  unfold Spec.len norm dot
  congr 1
  exact sum_congr rfl fun r _ => by ring

theorem dot_le (x y : ρ → ℝ) : |dot x y| ≤ norm x * norm y := by
  have h := sum_mul_sq_le_sq_mul_sq univ x y
  have h1 : (dot x y) ^ 2 ≤ (norm x * norm y) ^ 2 := by
    rw [mul_pow, pow_two (norm x), pow_two (norm y), norm_sq, norm_sq]
    unfold dot
    calc _ ≤ _ := h
      _ = _ := by congr 1 <;> exact sum_congr rfl fun r _ => by ring
  exact abs_le_of_sq_le_sq h1 (mul_nonneg (norm_nonneg x) (norm_nonneg y))

theorem cosine_abs_le (eps : ℝ) (he : 0 < eps) (x y : ρ → ℝ) : |cosine eps x y| ≤ 1 := by
  have hx : 0 < max (norm x) eps := lt_max_of_lt_right he
  have hy : 0 < max (norm y) eps := lt_max_of_lt_right he
  unfold cosine
  rw [abs_div, abs_of_pos (mul_pos hx hy), div_le_one (mul_pos hx hy)]
  exact (dot_le x y).trans (mul_le_mul (le_max_left _ _) (le_max_left _ _) (norm_nonneg y) hx.le)

theorem cosine_eq (eps : ℝ) (x y : ρ → ℝ) (hx : eps ≤ norm x) (hy : eps ≤ norm y) : cosine eps x y = Spec.cos x y := by
  unfold cosine Spec.cos
  rw [max_eq_left hx, max_eq_left hy, len_eq, len_eq]
  rfl

theorem norm_smul' (c : ℝ) (hc : 0 ≤ c) (x : ρ → ℝ) : norm (fun r => c * x r) = c * norm x := by
  unfold norm dot
  rw [show (∑ r, c * x r * (c * x r)) = c ^ 2 * ∑ r, x r * x r by rw [mul_sum]; exact sum_congr rfl fun r _ => by ring,
    Real.sqrt_mul (sq_nonneg c), Real.sqrt_sq hc]

theorem normalize_eq (x : ρ → ℝ) (h : 1 / 10 ^ 12 ≤ norm x) : normalize x = fun r => (norm x)⁻¹ * x r := by
  funext r
  unfold normalize
  rw [max_eq_left h, div_eq_inv_mul]

theorem norm_normalize (x : ρ → ℝ) (h : 1 / 10 ^ 12 ≤ norm x) : norm (normalize x) = 1 := by
  have hp : 0 < norm x := lt_of_lt_of_le (by positivity) h
  rw [normalize_eq x h, norm_smul' _ (inv_nonneg.2 hp.le), inv_mul_cancel₀ hp.ne']

theorem cosine_normalize (x y : ρ → ℝ) (hx : 1 / 10 ^ 12 ≤ norm x) (hy : 1 / 10 ^ 12 ≤ norm y) :
    cosine eps8 (normalize x) (normalize y) = Spec.cos x y := by
  have h8 : eps8 ≤ 1 := by unfold eps8; norm_num
  have hpx : 0 < norm x := lt_of_lt_of_le (by positivity) hx
  have hpy : 0 < norm y := lt_of_lt_of_le (by positivity) hy
  unfold cosine Spec.cos
  rw [norm_normalize x hx, norm_normalize y hy, max_eq_left h8, len_eq, len_eq, normalize_eq x hx, normalize_eq y hy]
  unfold dot
  rw [one_mul, div_one, show (∑ i, (norm x)⁻¹ * x i * ((norm y)⁻¹ * y i)) = ((norm x)⁻¹ * (norm y)⁻¹) * ∑ i, x i * y i by
    rw [mul_sum]; exact sum_congr rfl fun r _ => by ring]
  field_simp

theorem generic_between (a b alpha s : ℝ) : Spec.Between (generic a b alpha s) a b := by
  unfold generic wsum
  set w := min (max (s - alpha) 0) 1 with hw
  have h0 : 0 ≤ w := le_min (le_max_right _ _) zero_le_one
  have h1 : w ≤ 1 := min_le_right _ _
  constructor
  · have e1 := min_le_left a b
    have e2 := min_le_right a b
    nlinarith
  · have e1 := le_max_left a b
    have e2 := le_max_right a b
    nlinarith

theorem generic_one (a b alpha s : ℝ) (h : s ≤ alpha) : generic a b alpha s = b := by
  unfold generic wsum
  rw [max_eq_right (by linarith), min_eq_left zero_le_one]
  ring

theorem generic_value (a b alpha s : ℝ) : generic a b alpha s = min (max (s - alpha) 0) 1 * a + (1 - min (max (s - alpha) 0) 1) * b := by
  unfold generic wsum
  ring

/-! ## C80 -/

/-- **C80.**  `add_cosine_a` gives a weighted average of `a` and `b` at every entry. -/
theorem C80_between_a (a b alpha : ρ → κ → ℝ) (r : ρ) (j : κ) : Spec.Between (addCosineA a b alpha r j) (a r j) (b r j) := generic_between _ _ _ _

/-- **C80.**  So does `add_cosine_b`, which returns numbers unless one of the tensors is zero. -/
theorem C80_between_b (a b alpha : ρ → κ → ℝ) :
    ((∃ r j, a r j ≠ 0) ∧ (∃ r j, b r j ≠ 0) ↔ (addCosineB a b alpha).isSome) ∧
    ∀ x, addCosineB a b alpha = some x → ∀ r j, Spec.Between (x r j) (a r j) (b r j) := by
  have hz : ∀ a : ρ → κ → ℝ, norm (flat a) = 0 ↔ ¬ ∃ r j, a r j ≠ 0 := by
    intro a
    rw [norm_eq_zero]
    push Not
    exact ⟨fun h r j => h (r, j), fun h p => h p.1 p.2⟩
  constructor
  · unfold addCosineB
    by_cases h : norm (flat a) * norm (flat b) = 0
    · rw [if_pos h]
      rcases mul_eq_zero.1 h with h | h
      · exact ⟨fun hh => absurd hh.1 ((hz a).1 h), fun hh => by cases hh⟩
      · exact ⟨fun hh => absurd hh.2 ((hz b).1 h), fun hh => by cases hh⟩
    · rw [if_neg h]
      refine ⟨fun _ => rfl, fun _ => ?_⟩
      rw [mul_eq_zero, not_or, hz, hz, not_not, not_not] at h
      exact h
  · intro x hx r j
    unfold addCosineB at hx
    split at hx
    · cases hx
    · obtain rfl := Option.some.inj hx
      exact generic_between _ _ _ _

/-- **C80.**  The weight of `a` in a column is the cosine of the two columns less `alpha`, between zero and one, unless a column is all but
zero. -/
theorem C80_weight_a (a b alpha : ρ → κ → ℝ) (r : ρ) (j : κ) (ha : 1 / 10 ^ 12 ≤ Spec.len (fun r => a r j)) (hb : 1 / 10 ^ 12 ≤ Spec.len (fun r => b r j)) :
    ∃ w, w = min (max (Spec.cos (fun r => a r j) (fun r => b r j) - alpha r j) 0) 1 ∧ addCosineA a b alpha r j = w * a r j + (1 - w) * b r j := by
  refine ⟨_, rfl, ?_⟩
  rw [len_eq] at ha hb
  unfold addCosineA
  rw [generic_value, show cosine eps8 (normalize (col a j)) (normalize (col b j)) = _ from cosine_normalize _ _ ha hb]
  rfl

/-- **C80.**  In `add_cosine_b` the similarity is the average of that of the column and that of the whole tensors. -/
theorem C80_weight_b (a b alpha : ρ → κ → ℝ) (x : ρ → κ → ℝ) (hx : addCosineB a b alpha = some x) (r : ρ) (j : κ)
    (ha : 1 / 10 ^ 8 ≤ Spec.len (fun r => a r j)) (hb : 1 / 10 ^ 8 ≤ Spec.len (fun r => b r j)) :
    ∃ w, w = min (max ((Spec.cos (fun r => a r j) (fun r => b r j) + Spec.cos (fun p : ρ × κ => a p.1 p.2) (fun p => b p.1 p.2)) / 2 - alpha r j) 0) 1 ∧
      x r j = w * a r j + (1 - w) * b r j := by
  refine ⟨_, rfl, ?_⟩
  rw [len_eq] at ha hb
  unfold addCosineB at hx
  split at hx
  · cases hx
  · obtain rfl := Option.some.inj hx
    show generic _ _ _ _ = _
    rw [generic_value, cosine_eq eps8 (col a j) (col b j) ha hb]
    unfold Spec.cos
    simp only [len_eq]
    rfl

/-- **C80.**  With `alpha` one or more, one being the default, the result is `b`. -/
theorem C80_default (a b alpha : ρ → κ → ℝ) (h : ∀ r j, 1 ≤ alpha r j) :
    addCosineA a b alpha = b ∧ ∀ x, addCosineB a b alpha = some x → x = b := by
  have he : 0 < eps8 := by unfold eps8; positivity
  constructor
  · funext r j
    exact generic_one _ _ _ _ ((le_of_abs_le (cosine_abs_le eps8 he _ _)).trans (h r j))
  · intro x hx
    unfold addCosineB at hx
    split at hx
    · cases hx
    · next hne =>
      obtain rfl := Option.some.inj hx
      funext r j
      refine generic_one _ _ _ _ (le_trans ?_ (h r j))
      have h1 := le_of_abs_le (cosine_abs_le eps8 he (col a j) (col b j))
      have h2 : dot (flat a) (flat b) / (norm (flat a) * norm (flat b)) ≤ 1 := by
        have hp : 0 < norm (flat a) * norm (flat b) := lt_of_le_of_ne (mul_nonneg (norm_nonneg _) (norm_nonneg _)) (Ne.symm hne)
        rw [div_le_one hp]
        exact (le_abs_self _).trans (dot_le _ _)
      linarith

/-- Orthogonal columns: the result is `b` for every `alpha ≥ 0`; parallel ones give `a` for `alpha = 0`. -/
example : addCosineA (ρ := Fin 2) (κ := Fin 1) (fun r _ => if r = 0 then 2 else 0) (fun r _ => if r = 0 then 3 else 0) (fun _ _ => 0) 0 0 = 2 := by
  have hl : ∀ c : ℝ, 0 ≤ c → Spec.len (fun r : Fin 2 => if r = 0 then c else 0) = c := by
    intro c hc
    unfold Spec.len
    simp [Real.sqrt_sq hc]
  obtain ⟨w, hw, h⟩ := C80_weight_a (ρ := Fin 2) (κ := Fin 1) (fun r _ => if r = 0 then 2 else 0) (fun r _ => if r = 0 then 3 else 0) (fun _ _ => 0) 0 0
    (by rw [hl 2 (by norm_num)]; norm_num) (by rw [hl 3 (by norm_num)]; norm_num)
  rw [h, hw]
  unfold Spec.cos
  rw [hl 2 (by norm_num), hl 3 (by norm_num)]
  simp

/-! ## C81 -/

theorem neighbours_length (eps : ℝ) (l : List (κ → ℝ)) : (neighbours eps l).length = l.length - 1 := by
  induction l with
  | nil => rfl
  | cons x l ih =>
    cases l with
    | nil => rfl
    | cons y l =>
      show (neighbours eps (y :: l)).length + 1 = _
      rw [ih]
      rfl

theorem neighbours_get (eps : ℝ) (l : List (κ → ℝ)) (k : ℕ) (h : k < (neighbours eps l).length) (h0 : k < l.length) (h1 : k + 1 < l.length) :
    (neighbours eps l)[k] = cosine eps l[k] l[k + 1] := by
  induction l generalizing k with
  | nil => simp at h1
  | cons x l ih =>
    cases l with
    | nil => simp at h1
    | cons y l =>
      cases k with
      | zero => rfl
      | succ k => exact ih k _ _ (by simpa using h1)

theorem neighbours_sum (eps : ℝ) (l : List (κ → ℝ)) (n : ℕ) (hl : l.length = n + 1) (f : ℕ → ℝ)
    (hf : ∀ k, ∀ h : k + 1 < l.length, cosine eps (l[k]'(by omega)) l[k + 1] = f k) : (neighbours eps l).sum = ∑ k ∈ range n, f k := by
  have hlen := neighbours_length eps l
  have : neighbours eps l = (List.range n).map f := by
    refine List.ext_getElem ?_ fun k h1 h2 => ?_
    · rw [hlen, List.length_map, List.length_range, hl]
      rfl
    · rw [neighbours_get eps l k h1 (by omega) (by omega), List.getElem_map, List.getElem_range]
      exact hf k (by omega)
  rw [this]
  clear this hlen hf hl
  induction n with
  | zero => rfl
  | succ n ih => rw [List.range_succ, List.map_append, List.sum_append, ih, sum_range_succ, List.map_singleton, List.sum_singleton]

theorem cosine_self (eps : ℝ) (he : 0 < eps) (x : κ → ℝ) (h : eps ≤ norm x) : cosine eps x x = 1 := by
  have hp : 0 < norm x := he.trans_le h
  unfold cosine
  rw [max_eq_left h, ← norm_sq, div_self (mul_pos hp hp).ne']

/-- **C81.**  If neighbours in the list do not point in opposite directions, every row of the result is the average, shrunk by a factor between
zero and one. -/
theorem C81_shrink (big eps : ℝ) (he : 0 < eps) (deltas : List (ρ → κ → ℝ)) (hn : 2 ≤ deltas.length) :
    ∃ x, modelStock big eps deltas = some x ∧ ∀ r,
      (∀ k, ∀ h : k + 1 < deltas.length, 0 ≤ ∑ i, (deltas[k]'(by omega)) r i * deltas[k + 1] r i) →
      ∃ t, 0 ≤ t ∧ t ≤ 1 ∧ ∀ i, x r i = t * ((deltas.map fun d => d r i).sum / deltas.length) := by
  unfold modelStock
  rw [if_neg (by omega)]
  refine ⟨_, rfl, ?_⟩
  intro r hr
  have hc : 0 ≤ meanCos eps (deltas.map fun d => d r) := by
    unfold meanCos
    refine div_nonneg (List.sum_nonneg ?_) (Nat.cast_nonneg _)
    intro c hc
    obtain ⟨k, hk, rfl⟩ := List.mem_iff_getElem.1 hc
    have hlen := neighbours_length eps (deltas.map fun d => d r)
    rw [List.length_map] at hlen
    rw [neighbours_get _ _ _ hk (by rw [List.length_map]; omega) (by rw [List.length_map]; omega)]
    unfold cosine
    refine div_nonneg ?_ (mul_nonneg ((norm_nonneg _).trans (le_max_left _ _)) ((norm_nonneg _).trans (le_max_left _ _)))
    simpa [dot] using hr k (by omega)
  have hn' : (2 : ℝ) ≤ deltas.length := by exact_mod_cast hn
  have hd : 0 < 1 + ((deltas.length : ℝ) - 1) * meanCos eps (deltas.map fun d => d r) := by nlinarith
  refine ⟨deltas.length * meanCos eps (deltas.map fun d => d r) / (1 + ((deltas.length : ℝ) - 1) * meanCos eps (deltas.map fun d => d r)), ?_, ?_, ?_⟩
  · exact div_nonneg (mul_nonneg (Nat.cast_nonneg _) hc) hd.le
  · rw [div_le_one hd]
    have hc1 : meanCos eps (deltas.map fun d => d r) ≤ 1 := by
      unfold meanCos
      have hlen := neighbours_length eps (deltas.map fun d => d r)
      rw [List.length_map] at hlen
      have hpos : (0 : ℝ) < (neighbours eps (deltas.map fun d => d r)).length := by
        rw [hlen]
        exact_mod_cast (by omega : 0 < deltas.length - 1)
      rw [div_le_one hpos]
      have := List.sum_le_card_nsmul (neighbours eps (deltas.map fun d => d r)) 1 (by
        intro c hc
        obtain ⟨k, hk, rfl⟩ := List.mem_iff_getElem.1 hc
        rw [neighbours_get _ _ _ hk (by rw [List.length_map]; omega) (by rw [List.length_map]; omega)]
        exact le_of_abs_le (cosine_abs_le eps he _ _))
      simpa using this
    nlinarith
  · intro i
    unfold stockTimes
    rw [if_neg hd.ne']

/-- **C81.**  The factor, for rows that are not all but zero: `n c / (1 + (n - 1) c)`, where `c` is the average cosine of neighbours. -/
theorem C81_factor (big eps : ℝ) (deltas : List (ρ → κ → ℝ)) (n : ℕ) (hn : deltas.length = n + 2) (r : ρ)
    (hr : ∀ d ∈ deltas, eps ≤ Spec.len (d r)) (row : ℕ → κ → ℝ) (hrow : ∀ k (h : k < deltas.length), deltas[k] r = row k)
    (c : ℝ) (hc : c = (∑ k ∈ range (n + 1), Spec.cos (row k) (row (k + 1))) / (n + 1)) (hd : 1 + (n + 1) * c ≠ 0) :
    ∃ x, modelStock big eps deltas = some x ∧ ∀ i, x r i = (n + 2) * c / (1 + (n + 1) * c) * ((deltas.map fun d => d r i).sum / (n + 2)) := by
  unfold modelStock
  rw [if_neg (by omega)]
  refine ⟨_, rfl, ?_⟩
  intro i
  have hm : meanCos eps (deltas.map fun d => d r) = c := by
    unfold meanCos
    rw [neighbours_length, List.length_map, hn, neighbours_sum eps _ (n + 1) (by rw [List.length_map, hn]) (fun k => Spec.cos (row k) (row (k + 1))), hc]
    · push_cast
      rfl
    · intro k h
      rw [List.length_map] at h
      rw [List.getElem_map, List.getElem_map, cosine_eq, hrow, hrow]
      · rw [← len_eq]
        exact hr _ (List.getElem_mem _)
      · rw [← len_eq]
        exact hr _ (List.getElem_mem _)
  unfold stockTimes
  rw [hm, hn]
  have e : ((n + 2 : ℕ) : ℝ) - 1 = n + 1 := by push_cast; ring
  rw [e, if_neg hd]
  push_cast
  rfl

/-- **C81.**  Models that agree in a row are left alone there. -/
theorem C81_same (big eps : ℝ) (he : 0 < eps) (deltas : List (ρ → κ → ℝ)) (hn : 2 ≤ deltas.length) (r : ρ) (v : κ → ℝ)
    (hv : ∀ d ∈ deltas, d r = v) (hl : eps ≤ Spec.len v) : ∃ x, modelStock big eps deltas = some x ∧ x r = v := by
  obtain ⟨n, hn'⟩ : ∃ n, deltas.length = n + 2 := ⟨deltas.length - 2, by omega⟩
  have hp : 0 < Spec.len v := he.trans_le hl
  have hcos : Spec.cos v v = 1 := by
    rw [← cosine_eq eps v v (by rw [← len_eq]; exact hl) (by rw [← len_eq]; exact hl), cosine_self eps he v (by rw [← len_eq]; exact hl)]
  obtain ⟨x, hx, h⟩ := C81_factor big eps deltas n hn' r (fun d hd => by rw [hv d hd]; exact hl) (fun _ => v)
    (fun k hk => hv _ (List.getElem_mem hk)) 1 (by
      rw [hcos]
      simp
      rw [div_self (by positivity)]) (by positivity)
  refine ⟨x, hx, ?_⟩
  funext i
  have hs : (deltas.map fun d => d r i).sum = (n + 2) * v i := by
    rw [List.map_congr_left fun d hd => by rw [hv d hd], List.map_const', List.sum_replicate, hn']
    simp
  rw [h i, hs]
  have h1 : (n : ℝ) + 2 ≠ 0 := by positivity
  have h2 : (1 : ℝ) + (n + 1) * 1 = n + 2 := by ring
  rw [h2, mul_one, div_self h1, one_mul, mul_div_cancel_left₀ _ h1]

/-- Two equal models -/
example : ∃ x, modelStock (ρ := Unit) 0 (1 / 10) [fun _ (j : Fin 2) => if j = 0 then (1 : ℝ) else 0, fun _ j => if j = 0 then 1 else 0] = some x ∧
    x () = fun j => if j = 0 then 1 else 0 :=
  C81_same 0 (1 / 10) (by norm_num) _ (by simp) () _ (by simp) (by
    have : Spec.len (fun j : Fin 2 => if j = 0 then (1 : ℝ) else 0) = 1 := by unfold Spec.len; simp
    rw [this]
    norm_num)

/-- Two models at an angle of 45 degrees: neighbours do not point in opposite directions. -/
example : ∃ x, modelStock (ρ := Unit) 0 (1 / 10) [fun _ (j : Fin 2) => if j = 0 then (1 : ℝ) else 0, fun _ _ => 1] = some x ∧
    ∃ t, 0 ≤ t ∧ t ≤ 1 ∧ x () 1 = t * (1 / 2) := by
  obtain ⟨x, hx, h⟩ := C81_shrink (ρ := Unit) 0 (1 / 10) (by norm_num) [fun _ (j : Fin 2) => if j = 0 then (1 : ℝ) else 0, fun _ _ => 1] (by simp)
  obtain ⟨t, h0, h1, ht⟩ := h () (fun k hk => by
    obtain rfl : k = 0 := by simp at hk; omega
    simp)
  exact ⟨x, hx, t, h0, h1, by rw [ht 1]; simp⟩

/-- **C81** (partial: two models).  The order of two models does not matter. -/
theorem C81_order_partial (big eps : ℝ) (a b : ρ → κ → ℝ) : modelStock big eps [a, b] = modelStock big eps [b, a] := by
  have hc : ∀ r, cosine eps (a r) (b r) = cosine eps (b r) (a r) := by
    intro r
    unfold cosine dot
    rw [mul_comm (max _ _)]
    congr 1
    exact sum_congr rfl fun i _ => mul_comm _ _
  unfold modelStock
  rw [if_neg (by simp), if_neg (by simp)]
  congr 1
  funext r i
  simp only [List.map_cons, List.map_nil, meanCos, neighbours, hc, List.sum_cons, List.sum_nil, List.length_cons, List.length_nil]
  rw [show a r i + (b r i + 0) = b r i + (a r i + 0) by ring]

theorem len_unit (i : Fin 2) : Spec.len (fun j : Fin 2 => if j = i then (1 : ℝ) else 0) = 1 := by
  unfold Spec.len
  simp

theorem cos_unit (i j : Fin 2) : Spec.cos (fun k : Fin 2 => if k = i then (1 : ℝ) else 0) (fun k => if k = j then 1 else 0) = if i = j then 1 else 0 := by
  unfold Spec.cos
  rw [len_unit, len_unit]
  simp [eq_comm]

/-- **C81** is false for three models: only neighbours are compared, so that the order matters. -/
theorem C81_order_false (big eps : ℝ) (he : eps ≤ 1) :
    ∃ a b c : Unit → Fin 2 → ℝ, modelStock big eps [a, b, c] ≠ modelStock big eps [a, c, b] := by
  let e : Fin 2 → Unit → Fin 2 → ℝ := fun i _ j => if j = i then 1 else 0
  have hlen : ∀ i u, eps ≤ Spec.len (e i u) := fun i u => by rw [show Spec.len (e i u) = 1 from len_unit i]; exact he
  have hmem : ∀ p q s : Fin 2, ∀ d ∈ [e p, e q, e s], eps ≤ Spec.len (d ()) := by
    intro p q s d hd
    simp only [List.mem_cons, List.not_mem_nil, or_false] at hd
    rcases hd with rfl | rfl | rfl
    · exact hlen p ()
    · exact hlen q ()
    · exact hlen s ()
  have hrow : ∀ p q s : Fin 2, ∀ k (h : k < [e p, e q, e s].length), [e p, e q, e s][k] () = e (if k = 0 then p else if k = 1 then q else s) () := by
    intro p q s k h
    have : k < 3 := h
    match k, this with
    | 0, _ => rfl
    | 1, _ => rfl
    | 2, _ => rfl
  obtain ⟨x, hx, h1⟩ := C81_factor big eps [e 0, e 0, e 1] 1 rfl () (hmem 0 0 1) (fun k => e (if k = 0 then 0 else if k = 1 then 0 else 1) ()) (hrow 0 0 1) (1 / 2)
    (by simp only [sum_range_succ, sum_range_zero, e, cos_unit]; norm_num) (by norm_num)
  obtain ⟨y, hy, h2⟩ := C81_factor big eps [e 0, e 1, e 0] 1 rfl () (hmem 0 1 0) (fun k => e (if k = 0 then 0 else if k = 1 then 1 else 0) ()) (hrow 0 1 0) 0
    (by simp only [sum_range_succ, sum_range_zero, e, cos_unit]; norm_num) (by norm_num)
  refine ⟨e 0, e 0, e 1, ?_⟩
  rw [hx, hy]
  intro h
  have h3 := congrFun (congrFun (Option.some.inj h) ()) 0
  rw [h1 0, h2 0] at h3
  simp [e] at h3
  norm_num at h3

/-- **C81** is false for a single model: the method raises. -/
theorem C81_single_false (big eps : ℝ) (d : ρ → κ → ℝ) : modelStock big eps [d] = none := rfl

end Verif.Geometry.Cosine
