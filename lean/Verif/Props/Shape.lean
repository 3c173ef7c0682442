import Verif.Proofs.Shape

/-!
# C110: shapes of merged tensors
-/
namespace Verif.Shape
open Spec

/-! ## Methods of two and three tensors -/

theorem weightedSumImpl_same (s : Sh) {x : Sh} (h : Fits x s) : weightedSumImpl s s x = some s := by
  simp [weightedSumImpl, h.left, op_self]

theorem addCosineGeneric_same (s : Sh) {x y : Sh} (hx : Fits x s) (hy : Fits y s) : addCosineGeneric s s x y = some s := by
  obtain ⟨u, hu, hf⟩ := hy.op hx
  simp [addCosineGeneric, hu, weightedSumImpl_same s hf]

theorem slerp_same (s : Sh) {x : Sh} (h : Fits x s) (nan : Bool) : slerp s s x nan = some s := by
  cases nan <;> simp [slerp, weightedSumImpl, opIn, h.left, h.right, op_self, op_nil]

theorem tensorSum_same (s : Sh) (w : Bool) (i j : ℕ) (v : Bool) : tensorSum s s w i j v = some s := by
  cases s with
  | nil => simp [tensorSum]
  | cons n s => cases v <;> simp [tensorSum, opIn, op_self]

theorem filterShape_id (s : Sh) : filterShape s = s := by
  unfold filterShape
  conv_rhs => rw [← List.map_id s]
  exact List.map_congr_left fun n _ => by simp only [id]; omega

theorem rfftn_some (s : Sh) (h : s ≠ []) (h0 : 0 ∉ s) : rfftn s = some (s.dropLast ++ [s.getLast h / 2 + 1]) := by
  simp [rfftn, List.getLast?_eq_some_getLast h, h0]

theorem crossover_none (s : Sh) (h : s ≠ []) (inside : Bool) :
    crossover s s none false inside = if inside ∧ 0 ∉ s then some s else none := by
  have hl : ¬ s.length = 0 := by simpa using h
  by_cases h0 : 0 ∈ s
  · have : rfftn s = none := by simp [rfftn, List.getLast?_eq_some_getLast h, h0]
    simp [crossover, hl, this, h0]
  · cases inside with
    | false => simp [crossover, h, rfftn_some s h h0, h0]
    | true =>
      have hd : 0 ∉ s.dropLast ++ [s.getLast h / 2 + 1] := by
        simp only [List.mem_append, List.mem_singleton, not_or]
        exact ⟨fun hm => h0 (List.mem_of_mem_dropLast hm), by omega⟩
      have hlen : (s.dropLast ++ [s.getLast h / 2 + 1]).length = s.length := by
        have : 0 < s.length := List.length_pos_of_ne_nil h
        simp; omega
      simp only [crossover, rfftn_some s h h0, h0, filterShape_id]
      simp [h, op_self, irfftn, hlen, h0, hd]

/-- What every method of two tensors returns for tensors of one shape: that shape, unless it raises.  It raises for regions that end beyond the
number of entries, for crossovers outside of their range and crossovers of tensors without entries. -/
def Two.Raises (m : Two) (s : Sh) : Prop :=
  match m with
  | .topKTensorSum i j => (s.prod : ℤ) < i ∨ (s.prod : ℤ) < j
  | .crossover e close inside => e = none ∧ s ≠ [] ∧ close = false ∧ (inside = false ∨ 0 ∈ s)
  | _ => False

theorem topK_same (s : Sh) (i j : ℤ) : topKTensorSum s s i j = if (s.prod : ℤ) < i ∨ (s.prod : ℤ) < j then none else some s := by
  have key : ∀ k : ℤ, kthAbsValue s.prod k = if (s.prod : ℤ) < k then none else some [] := by
    intro k
    unfold kthAbsValue kthvalue
    split_ifs <;> first | rfl | omega
  unfold topKTensorSum
  simp only [key]
  by_cases hi : (s.prod : ℤ) < i
  · simp [-Nat.cast_list_prod, hi]
  by_cases hj : (s.prod : ℤ) < j
  · simp [-Nat.cast_list_prod, hj, hi]
  simp [-Nat.cast_list_prod, hi, hj, nil_op, op_nil, op_self, flatten, reshape]

theorem two_same (m : Two) (s : Sh) {x : Sh} (h : Fits x s) :
    (m.Raises s → m.run s s x = none) ∧ (¬ m.Raises s → m.run s s x = some s) := by
  cases m with
  | weightedSum z o => cases z <;> cases o <;> simp [Two.Raises, Two.run, weightedSum, weightedSumImpl_same s h]
  | slerp n => simp [Two.Raises, Two.run, slerp_same s h]
  | addDifference => simp [Two.Raises, Two.run, addDifference, op3, op_self, h.right]
  | subtract => simp [Two.Raises, Two.run, subtract, op_self]
  | perpendicular n => cases n <;> simp [Two.Raises, Two.run, perpendicular, op_self, op_nil]
  | geometricSum => simp [Two.Raises, Two.run, geometricSum, op_self, h.right]
  | addCosineA => simp [Two.Raises, Two.run, addCosineA, cosine0, op_self, addCosineGeneric_same s h (fits_tail s)]
  | addCosineB => simp [Two.Raises, Two.run, addCosineB, cosine0, op_self, op_nil, addCosineGeneric_same s h (fits_tail s)]
  | tensorSum w i j v => simp [Two.Raises, Two.run, tensorSum_same]
  | topKTensorSum i j =>
    simp only [Two.Raises, Two.run, topK_same]
    exact ⟨fun h => if_pos h, fun h => if_neg h⟩
  | selectMaxDelta => simp [Two.Raises, Two.run, selectMaxDelta, op3, op_nil, h.left, op_self]
  | crossover e close inside =>
    match e with
    | some 0 => simp [Two.Raises, Two.run, crossover]
    | some 1 => simp [Two.Raises, Two.run, crossover]
    | some 2 => simp [Two.Raises, Two.run, crossover, weightedSumImpl_same s (Fits.nil s)]
    | none =>
      by_cases hs : s = []
      · subst hs; simp [Two.Raises, Two.run, crossover, weightedSumImpl_same _ (Fits.nil _)]
      · cases close with
        | true => simp [Two.Raises, Two.run, crossover, weightedSumImpl_same _ (Fits.nil _)]
        | false =>
          simp only [Two.run, crossover_none s hs]
          cases inside <;> by_cases h0 : 0 ∈ s <;> simp [Two.Raises, hs, h0]
  | fallback f => simp [Two.Raises, Two.run]

theorem three_same (m : Three) (s : Sh) {x : Sh} (h : Fits x s) : m.run s s s x = some s := by
  cases m <;> simp [Three.run, trainDifferenceMask, addOppositeMask, addStrictOppositeMask, op_self, h.left]

/-- **C110.**  `multiply_quotient` works only with an `alpha` that is a tensor of the shape of the others. -/
theorem C110_multiply (s x : Sh) (h : Fits x s) : multiplyQuotient s s s x = if x = s then some s else none := by
  by_cases hx : x = s
  · subst hx; simp [multiplyQuotient, op_self, opIn, op3]
  · have : ¬ s = x := fun e => hx e.symm
    simp [multiplyQuotient, op_self, opIn, h.left, hx, this]

/-! ## Methods of any number of tensors -/

theorem nAverage_same (n : ℕ) (s : Sh) : nAverage (List.replicate (n + 1) s) = some s := by
  simp [nAverage, stack_replicate, reduce0]

theorem foldlM_same (s : Sh) : ∀ n, (List.replicate n s).foldlM op s = some s
  | 0 => rfl
  | n + 1 => by
    rw [List.replicate_succ, List.foldlM_cons, op_self]
    exact foldlM_same s n

theorem narrow_same (s : Sh) : ∀ n, narrow s (List.replicate n s) s = some s
  | 0 => rfl
  | n + 1 => by
    rw [List.replicate_succ]
    simp [narrow, op_self, op3, narrow_same s n]

theorem clamp_same (n : ℕ) (s : Sh) (stiff : Bool) : clamp s (List.replicate n s) stiff = if n = 0 then none else some s := by
  cases n with
  | zero => simp [clamp, foldOp]
  | succ n =>
    have h : foldOp (List.replicate (n + 1) s) = some s := by
      rw [List.replicate_succ]; exact foldlM_same s n
    cases stiff <;> simp [clamp, h, op_self, stack_replicate, reduce0, unbind, narrow_same]

theorem ties_same (n : ℕ) (s : Sh) (drop : ℕ → ℤ) :
    tiesSumDeltas (List.replicate (n + 1) s) drop = if (s.prod : ℤ) < max (drop s.prod) 1 then none else some ((n + 1) :: s, s) := by
  by_cases h : (s.prod : ℤ) < max (drop s.prod) 1
  · have hf : filterTopK s drop = none := by
      have : kthvalue s.prod (max (drop s.prod) 1) = none := if_neg fun hc => by omega
      simp [filterTopK, this]
    rw [if_pos h]
    simp [tiesSumDeltas, List.replicate_succ, hf]
  · have hf : filterTopK s drop = some s := by
      have : kthvalue s.prod (max (drop s.prod) 1) = some [] := if_pos ⟨by omega, by omega⟩
      simp [filterTopK, this, op_nil, op_self]
    rw [if_neg h]
    simp [tiesSumDeltas, mapM_replicate (fun x => filterTopK x drop) _ _ hf, stack_replicate, reduce0, fits_cons, op_self]

theorem neighbours_same (s : Sh) : ∀ n, neighbours (List.replicate (n + 1) s) = some (List.replicate n s.dropLast)
  | 0 => rfl
  | n + 1 => by
    have ih := neighbours_same s n
    rw [List.replicate_succ, List.replicate_succ]
    rw [List.replicate_succ] at ih
    simp [neighbours, cosineLast, op_self, ih, List.replicate_succ]

theorem modelStockT_same (n : ℕ) (s : Sh) :
    modelStockT (List.replicate (n + 1) s) = if n = 0 then none else some (s.dropLast ++ [1]) := by
  cases n with
  | zero => simp [modelStockT, neighbours, stack]
  | succ n => simp [modelStockT, neighbours_same, stack_replicate, reduce0, op_self]

theorem weightedAverage_same (n : ℕ) (s : Sh) : weightedAverage (List.replicate (n + 1) s) = some s := by
  unfold weightedAverage
  rw [mapM_replicate (fun x => op x []) s s (op_nil s)]
  simp [ stack_replicate, reduce0, op_nil]

theorem weiszfeld_same (n : ℕ) (s : Sh) : ∀ k, weiszfeld (List.replicate (n + 1) s) k s = some s
  | 0 => rfl
  | k + 1 => by
    simp [weiszfeld, mapM_replicate (fun x => op x s) s s (op_self s), weightedAverage_same, weiszfeld_same n s k]

theorem geometricMedian_same (n : ℕ) (s : Sh) (k : ℕ) : geometricMedian (List.replicate (n + 1) s) k = some s := by
  have h : List.replicate (n + 1) s ≠ [] := by simp
  simp only [geometricMedian, h, if_false]
  simp [mapM_replicate (fun x => op x s) s s (op_self s), weightedAverage_same, weiszfeld_same]

theorem column_op (s : Sh) : op (s.dropLast ++ [1]) s = some (if s = [] then [1] else s) := by
  by_cases h : s = []
  · subst h; rfl
  · rw [if_neg h]; exact (fits_column s h).left

theorem op_column (s : Sh) : op s (s.dropLast ++ [1]) = some (if s = [] then [1] else s) := by rw [op_comm, column_op]

/-- When a method of any number of tensors raises: without bounds to clamp to, if more entries are to be dropped than there are, and if there is
no pair of neighbours whose similarity could be taken -/
def Many.Raises (m : Many) (s : Sh) (n : ℕ) : Prop :=
  match m with
  | .clamp _ => n = 0
  | .tiesSum d => (s.prod : ℤ) < max (d s.prod) 1
  | .tiesSumExtended d stock median _ => (s.prod : ℤ) < max (d s.prod) 1 ∨ (stock = false ∧ median = true ∧ n = 0)
  | .tiesSumWithDropout d stock median _ => (s.prod : ℤ) < max (d s.prod) 1 ∨ (stock = false ∧ median = true ∧ n = 0)
  | .modelStock => n = 0
  | _ => False

theorem extended_same (n : ℕ) (s : Sh) (d : ℕ → ℤ) (stock median : Bool) (k : ℕ) :
    tiesSumExtended (List.replicate (n + 1) s) d stock median k =
      if (s.prod : ℤ) < max (d s.prod) 1 ∨ (stock = false ∧ median = true ∧ n = 0) then none
      else some (if stock = false ∧ median = true ∧ s = [] then [1] else s) := by
  unfold tiesSumExtended
  rw [ties_same]
  by_cases h : (s.prod : ℤ) < max (d s.prod) 1
  · rw [if_pos h, if_pos (.inl h)]; rfl
  rw [if_neg h]
  cases median with
  | false => simp [-Nat.cast_list_prod, h, unbind, geometricMedian_same]
  | true =>
    cases stock with
    | true => simp [-Nat.cast_list_prod, h, reduce0, op_nil, op_self]
    | false =>
      by_cases hn : n = 0
      · subst hn
        have : modelStockT [s] = none := modelStockT_same 0 s
        simp [-Nat.cast_list_prod, unbind, this]
      · by_cases hs : s = []
        · subst hs
          rw [if_neg (by simp only [not_or]; exact ⟨h, fun hc => hn hc.2.2⟩)]
          simp [-Nat.cast_list_prod, unbind, modelStockT_same, hn, reduce0, op_nil, nil_op]
        · simp [-Nat.cast_list_prod, h, unbind, modelStockT_same, hn, reduce0, op_column, hs, op_self]

theorem many_same (m : Many) (s : Sh) (n : ℕ) :
    (m.Raises s n → m.run s (List.replicate n s) = none) ∧
    (¬ m.Raises s n → LastCosine m → s = [] → m.run s (List.replicate n s) = some [1]) ∧
    (¬ m.Raises s n → (LastCosine m → s ≠ []) → m.run s (List.replicate n s) = some s) := by
  have hr : s :: List.replicate n s = List.replicate (n + 1) s := rfl
  cases m with
  | nAverage => simp [Many.Raises, Many.run, hr, nAverage_same, LastCosine]
  | clamp stiff =>
    simp only [Many.Raises, Many.run, clamp_same]
    exact ⟨fun h => if_pos h, fun _ h => by simp [LastCosine] at h, fun h _ => if_neg h⟩
  | tiesSum d =>
    simp only [Many.Raises, Many.run, hr, Shape.tiesSum, ties_same]
    refine ⟨fun h => by rw [if_pos h]; rfl, fun _ h => by simp [LastCosine] at h, fun h _ => ?_⟩
    rw [if_neg h]
    simp [reduce0, op_self]
  | tiesSumExtended d stock median k =>
    simp only [Many.Raises, Many.run, hr, extended_same]
    refine ⟨fun h => if_pos h, fun h hl hs => ?_, fun h hl => ?_⟩
    · rw [if_neg h]
      simp [LastCosine] at hl
      rw [if_pos ⟨hl.1, hl.2, hs⟩]
    · rw [if_neg h, if_neg]
      rintro ⟨rfl, rfl, hs⟩
      exact hl (.inr ⟨d, k, .inl rfl⟩) hs
  | tiesSumWithDropout d stock median k =>
    have h0 : s :: List.replicate n s ≠ [] := by simp
    simp only [Many.Raises, Many.run, tiesSumWithDropout, h0, if_false]
    simp only [hr, mapM_replicate (fun d => op d d) s s (op_self s)]
    simp only [bind, Option.bind, extended_same]
    refine ⟨fun h => by rw [if_pos h], fun h hl hs => ?_, fun h hl => ?_⟩
    · rw [if_neg h]
      simp [LastCosine] at hl
      rw [if_pos ⟨hl.1, hl.2, hs⟩]
      exact op_nil _
    · rw [if_neg h, if_neg]
      · exact op_nil _
      rintro ⟨rfl, rfl, hs⟩
      exact hl (.inr ⟨d, k, .inr rfl⟩) hs
  | dropout =>
    refine ⟨fun h => h.elim, fun _ h => by simp [LastCosine] at h, fun _ _ => ?_⟩
    have hm : (List.replicate n s).mapM (fun d => if d = s then some d else none) = some (List.replicate n s) :=
      mapM_replicate (fun d => if d = s then some d else none) s s (if_pos rfl) _
    simp only [Many.run, hr, Shape.dropout, stack_replicate, List.length_replicate]
    simp [unbind, hm, reduce0, op_self, List.replicate_succ]
  | modelStock =>
    simp only [Many.Raises, Many.run, hr, Shape.modelStock, nAverage_same, modelStockT_same]
    refine ⟨fun h => by simp [h], fun h _ hs => ?_, fun h hs => ?_⟩
    · rw [if_neg h]; subst hs; rfl
    · rw [if_neg h]
      have := hs (.inl rfl)
      simp [column_op, this]
  | geometricMedian k => simp [Many.Raises, Many.run, hr, geometricMedian_same, LastCosine]

/-! ## Methods of one tensor -/

theorem svd_same (m n q : ℕ) (hq : q ≤ min m n) : svdLowrank m n q = if m < n ∨ n > q then some ([m, q], [q], [q, n]) else none := by
  by_cases h : m < n ∨ n > q
  · have h1 : min n q = q := by omega
    have h2 : min m q = q := by omega
    have h3 : q ≤ m := by omega
    simp [svdLowrank, matmul, h, h1, h2, h3, transpose]
  · simp [svdLowrank, h]

/-- When a method of one tensor raises: if it is asked to keep the full rank of a matrix that is not wider than high, and if the component does
not hold the key -/
def One.Raises (m : One) (s : Sh) : Prop :=
  match m, s with
  | .truncateRank ratio, h :: w :: rest => (w :: rest).prod ≤ h ∧ (w :: rest).prod ≤ Rank.targetRank h (w :: rest).prod ratio
  | .component held, _ => held = false
  | _, _ => False

theorem one_same (m : One) (s : Sh) : (m.Raises s → m.run s = none) ∧ (¬ m.Raises s → m.run s = some s) := by
  cases m with
  | copyDistribution => simp [One.Raises, One.run, copyDistribution, op_nil]
  | truncateRank ratio =>
    match s with
    | [] => simp [One.Raises, One.run, truncateRank]
    | [_] => simp [One.Raises, One.run, truncateRank]
    | h :: w :: rest =>
      have hq : Rank.targetRank h (w :: rest).prod ratio ≤ min h (w :: rest).prod := min_le_right _ _
      simp only [One.Raises, One.run, truncateRank, svd_same _ _ _ hq]
      refine ⟨fun hr => ?_, fun hr => ?_⟩
      · rw [if_neg (by omega)]; rfl
      · rw [if_pos (by omega)]
        simp [matmul, diagEmbed, reshape]
  | cast => simp [One.Raises, One.run]
  | component held => cases held <;> simp [One.Raises, One.run]

/-! ## Recipes -/

mutual
theorem shape_proper (s : Sh) : ∀ t : Tree, Proper s t → ∀ u, t.shape s = some u → u = s
  | .tensor, _, u, h => by cases h; rfl
  | .number, hp, _, _ => hp.elim
  | .one m a, hp, u, h => by
    simp only [Tree.shape, Option.bind_eq_bind, Option.bind_eq_some_iff] at h
    obtain ⟨x, hx, h⟩ := h
    rw [shape_proper s a hp x hx] at h
    by_cases hr : m.Raises s
    · rw [(one_same m s).1 hr] at h; cases h
    · rw [(one_same m s).2 hr] at h; cases h; rfl
  | .two m a b alpha, hp, u, h => by
    simp only [Tree.shape, Option.bind_eq_bind, Option.bind_eq_some_iff] at h
    obtain ⟨x, hx, y, hy, z, hz, h⟩ := h
    rw [shape_proper s a hp.1 x hx, shape_proper s b hp.2.1 y hy] at h
    have hf : Fits z s := by
      rcases hp.2.2 with rfl | ha
      · cases hz; exact Fits.nil s
      · rw [shape_proper s alpha ha z hz]; exact Fits.self s
    by_cases hr : m.Raises s
    · rw [(two_same m s hf).1 hr] at h; cases h
    · rw [(two_same m s hf).2 hr] at h; cases h; rfl
  | .three m a b c alpha, hp, u, h => by
    simp only [Tree.shape, Option.bind_eq_bind, Option.bind_eq_some_iff] at h
    obtain ⟨x, hx, y, hy, w, hw, z, hz, h⟩ := h
    rw [shape_proper s a hp.1 x hx, shape_proper s b hp.2.1 y hy, shape_proper s c hp.2.2.1 w hw] at h
    have hf : Fits z s := by
      rcases hp.2.2.2 with rfl | ha
      · cases hz; exact Fits.nil s
      · rw [shape_proper s alpha ha z hz]; exact Fits.self s
    rw [three_same m s hf] at h; cases h; rfl
  | .many m a rest, hp, u, h => by
    simp only [Tree.shape, Option.bind_eq_bind, Option.bind_eq_some_iff] at h
    obtain ⟨x, hx, xs, hxs, h⟩ := h
    rw [shape_proper s a hp.1 x hx, shapes_proper s rest hp.2.1 xs hxs] at h
    by_cases hr : m.Raises s rest.length
    · rw [(many_same m s _).1 hr] at h; cases h
    · rw [(many_same m s _).2.2 hr hp.2.2] at h; cases h; rfl
theorem shapes_proper (s : Sh) : ∀ ts : List Tree, ProperL s ts → ∀ us, Tree.shapes s ts = some us → us = List.replicate ts.length s
  | [], _, us, h => by cases h; rfl
  | t :: ts, hp, us, h => by
    simp only [Tree.shapes, Option.bind_eq_bind, Option.bind_eq_some_iff, Option.pure_def, Option.some.injEq] at h
    obtain ⟨x, hx, xs, hxs, rfl⟩ := h
    rw [shape_proper s t hp.1 x hx, shapes_proper s ts hp.2 xs hxs]
    rfl
end

/-- **C110.**  If a tensor has one shape in all models, then the value of a recipe under its name has that shape, whatever merge methods the recipe
is made of and whatever branches they take, if it has a value.  (All merge methods of tensors are covered but `select_max_white_delta`,
`multiply_quotient` and `rotate`.) -/
theorem C110_recipe (s : Sh) (t : Tree) (h : Proper s t) (u : Sh) (hu : t.shape s = some u) : u = s := shape_proper s t h u hu

/-- **C110.**  When the methods return: exactly if none of the reasons given above applies. -/
theorem C110_two (m : Two) (s x : Sh) (h : Fits x s) : m.run s s x = some s ↔ ¬ m.Raises s := by
  constructor
  · intro e hr
    rw [(two_same m s h).1 hr] at e; cases e
  · exact (two_same m s h).2

theorem C110_one (m : One) (s : Sh) : m.run s = some s ↔ ¬ m.Raises s := by
  constructor
  · intro e hr
    rw [(one_same m s).1 hr] at e; cases e
  · exact (one_same m s).2

theorem C110_many (m : Many) (s : Sh) (n : ℕ) : m.run s (List.replicate n s) = some s ↔ ¬ m.Raises s n ∧ (LastCosine m → s ≠ []) := by
  constructor
  · intro e
    refine ⟨fun hr => ?_, fun hl hs => ?_⟩
    · rw [(many_same m s n).1 hr] at e; cases e
    · by_cases hr : m.Raises s n
      · rw [(many_same m s n).1 hr] at e; cases e
      · rw [(many_same m s n).2.1 hr hl hs, hs] at e; cases e
  · exact fun h => (many_same m s n).2.2 h.1 h.2

/-- **C110 is false** of scalars, such as the `logit_scale` of SDXL checkpoints: `model_stock`, and `ties_sum_extended` and
`ties_sum_with_dropout` with `apply_median`, turn them into vectors with one entry. -/
theorem C110_scalar_false (m : Many) (n : ℕ) (hl : LastCosine m) (hr : ¬ m.Raises [] n) : m.run [] (List.replicate n []) = some [1] :=
  (many_same m [] n).2.1 hr hl rfl

/-! ## `select_max_white_delta` -/

theorem whiten_same (s : Sh) : whiten s s = if s.prod = 1 then none else some ([s.prod], [s.prod]) := by
  unfold whiten flatten
  generalize s.prod = n
  by_cases h : n = 1
  · simp [stack, transpose, cov, h, eigh]
  · simp [stack, transpose, cov, h, eigh, diagEmbed, matmul, unbind, List.replicate]

theorem white_iff (s x u : Sh) (hx : Fits x [s.prod]) :
    selectMaxWhiteDelta s s x = some u ↔ s.prod ≠ 1 ∧ op [s.prod] s = some u := by
  have key : ∀ v, op [s.prod] s = some v → op v s = some v := by
    intro v hv
    rw [op_iff] at hv ⊢
    refine ⟨by have := hv.1; omega, fun i => ?_⟩
    have := hv.2 i
    split_ifs at * <;> omega
  by_cases h1 : s.prod = 1
  · simp [selectMaxWhiteDelta, op_nil, whiten_same, h1]
  · simp only [selectMaxWhiteDelta, op_nil, whiten_same, h1, if_false, Option.bind_eq_bind, Option.bind_some, hx.left, op_self, op3, ne_eq,
      not_false_eq_true, true_and]
    constructor
    · intro h
      obtain ⟨v, hv, h⟩ := Option.bind_eq_some_iff.1 h
      rw [key v hv] at h; cases h; exact hv
    · intro hv
      exact Option.bind_eq_some_iff.2 ⟨u, hv, key u hv⟩

/-- **C110 is false** of `select_max_white_delta`.  It takes the covariance of the entries instead of that of the two tensors.  For tensors of
one shape, and a weight that is a number or a vector of all entries, it keeps the shape only if all dimensions but the last are 1 and there
are two entries or more; -/
theorem C110_white_false (s x : Sh) (hx : Fits x [s.prod]) (h0 : 0 ∉ s) :
    selectMaxWhiteDelta s s x = some s ↔ ∃ k n, s = List.replicate k 1 ++ [n] ∧ 2 ≤ n := by
  rw [white_iff s x s hx, ← fits_iff]
  constructor
  · rintro ⟨h1, hl, hf⟩
    have hs : s ≠ [] := by rintro rfl; simp at hl
    obtain ⟨t, n, rfl⟩ : ∃ t n, s = t ++ [n] := ⟨s.dropLast, s.getLast hs, (List.dropLast_append_getLast hs).symm⟩
    have hn : n ≠ 0 := fun h => h0 (by simp [h])
    have h2 := hf 0
    simp only [side, List.reverse_append, List.reverse_singleton, List.singleton_append, List.getD_cons_zero, List.prod_append,
      List.prod_singleton] at h2 h1
    have ht : t.prod = 1 := by
      rcases h2 with h2 | h2
      · exact Nat.eq_of_mul_eq_mul_right (Nat.pos_of_ne_zero hn) (by simpa using h2)
      · exact absurd h2 h1
    refine ⟨t.length, n, ?_, ?_⟩
    · rw [List.eq_replicate_of_mem fun b hb => Nat.eq_one_of_dvd_one (ht ▸ List.dvd_prod hb)]
      simp
    · rw [ht] at h1; omega
  · rintro ⟨k, n, rfl, hn⟩
    have hp : (List.replicate k 1 ++ [n]).prod = n := by simp
    rw [hp]
    refine ⟨by omega, by simp, fun i => ?_⟩
    cases i with
    | zero => left; simp [side]
    | succ i => right; simp [side]

/-- matrices with several rows and columns make it raise; -/
theorem C110_white_matrix_false (m n : ℕ) (hm : 2 ≤ m) (hn : 2 ≤ n) (x : Sh) (hx : Fits x [m * n]) : selectMaxWhiteDelta [m, n] [m, n] x = none := by
  have hp : ([m, n] : Sh).prod = m * n := by simp
  rw [Option.eq_none_iff_forall_ne_some]
  intro u hu
  obtain ⟨-, h⟩ := (white_iff [m, n] x u (by rw [hp]; exact hx)).1 hu
  rw [hp, op_iff] at h
  have h0 := (h.2 0).1
  simp only [side, List.reverse_cons, List.reverse_nil, List.nil_append, List.singleton_append, List.getD_cons_zero] at h0
  have : n < m * n := by nlinarith
  have : 1 < m * n := by omega
  omega

/-- a column of `m` entries becomes a square of `m` by `m`. -/
theorem C110_white_column_false (m : ℕ) (hm : 2 ≤ m) (x : Sh) (hx : Fits x [m]) : selectMaxWhiteDelta [m, 1] [m, 1] x = some [m, m] := by
  have hp : ([m, 1] : Sh).prod = m := by simp
  rw [white_iff [m, 1] x _ (by rw [hp]; exact hx), hp, op_iff]
  refine ⟨by omega, by simp, fun i => ?_⟩
  match i with
  | 0 => simp [side]
  | 1 => simp [side]
  | i + 2 => simp [side]

/-! ## Tensors of different shapes -/

/-- **C110.**  Shapes that differ are not refused as such: `subtract`, for one, returns whenever the shapes can be combined, also if the result
has the shape of neither. -/
theorem C110_different (a b u : Sh) : subtract a b = some u ↔ Joint a b u := op_iff a b u

/-! ## Examples -/

namespace Ex

/-- The weight of a convolution in SD1 -/
def conv : Sh := [320, 4, 3, 3]

/-- `add_difference(a, ties_sum(a - c, b - c), alpha=train_difference_mask(a, b, c))` -/
def recipe : Tree := .two .addDifference .tensor
  (.many (.tiesSum fun n => n / 2) (.two .subtract .tensor .tensor .number) [.two .subtract .tensor .tensor .number])
  (.three .trainDifferenceMask .tensor .tensor .tensor .number)

example : Proper conv recipe := by
  simp [recipe, Proper, ProperL, LastCosine]

example : recipe.shape conv = some conv := by decide +kernel

/-- A weight that is a tensor of its own: one number for every output channel -/
example : Fits [320, 1, 1, 1] conv := (fits_iff _ _).2 (by decide +kernel)

example : (Two.weightedSum false false).run conv conv [320, 1, 1, 1] = some conv :=
  (C110_two _ _ _ ((fits_iff _ _).2 (by decide +kernel))).2 (by simp [Two.Raises])

example : Many.modelStock.run [] [[]] = some [1] := C110_scalar_false .modelStock 1 (.inl rfl) (by simp [Many.Raises])

example : selectMaxWhiteDelta [640, 320] [640, 320] [] = none := C110_white_matrix_false _ _ (by omega) (by omega) _ (Fits.nil _)

example : selectMaxWhiteDelta [1, 1, 320] [1, 1, 320] [] = some [1, 1, 320] :=
  (C110_white_false [1, 1, 320] [] (Fits.nil _) (by simp)).2 ⟨2, 320, rfl, by omega⟩

example : (One.truncateRank 1).run [320, 4, 3, 3] = none := (one_same _ _).1 (by
  have : Rank.targetRank 320 36 1 = 36 := by decide +kernel
  simp [One.Raises, this])

example : (One.truncateRank (1 / 2)).run [320, 4, 3, 3] = some [320, 4, 3, 3] := (C110_one _ _).2 (by
  have : Rank.targetRank 320 36 (1 / 2) = 18 := by decide +kernel
  simp only [One.Raises]
  norm_num [this])

example : subtract [3, 1] [4] = some [3, 4] := by decide +kernel

example : multiplyQuotient conv conv conv [] = none := by
  rw [C110_multiply _ _ (Fits.nil _)]; rfl

end Ex

end Verif.Shape
