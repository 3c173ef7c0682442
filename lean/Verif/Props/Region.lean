import Verif.Model.Region
import Verif.Spec.Region
import Mathlib.Tactic.Linarith
import Mathlib.Tactic.FieldSimp
import Mathlib.Tactic.NormNum
import Mathlib.Tactic.Ring
import Mathlib.Tactic.Positivity

/-!
# C47, C48, C68: the region of `tensor_sum`
-/
namespace Verif.Region
open Spec

/-! ## Proofs -/

theorem pyRound_near (x : ℚ) : x - 1 / 2 ≤ pyRound x ∧ (pyRound x : ℚ) ≤ x + 1 / 2 := by
  have h1 := Int.floor_le x
  have h2 := Int.lt_floor_add_one x
  unfold pyRound
  split_ifs <;> push_cast <;> constructor <;> linarith

theorem pyRound_mono {x y : ℚ} (h : x ≤ y) : pyRound x ≤ pyRound y := by
  have hf : ⌊x⌋ ≤ ⌊y⌋ := Int.floor_le_floor h
  rcases hf.eq_or_lt with hf | hf
  · unfold pyRound
    rw [hf]
    split_ifs <;> first | omega | (exfalso; linarith)
  · have h1 : pyRound x ≤ ⌊x⌋ + 1 := by unfold pyRound; split_ifs <;> omega
    have h2 : ⌊y⌋ ≤ pyRound y := by unfold pyRound; split_ifs <;> omega
    omega

theorem pyRound_nat (n : ℕ) : pyRound (n : ℚ) = n := by
  unfold pyRound
  simp

theorem pyRound_zero : pyRound 0 = 0 := by simpa using pyRound_nat 0

theorem le_of_pyRound_le {x : ℚ} {i : Int} (h : pyRound x ≤ i) : x ≤ i + 1 / 2 := by
  have := (pyRound_near x).1
  have h' : (pyRound x : ℚ) ≤ i := by exact_mod_cast h
  linarith

theorem ge_of_lt_pyRound {x : ℚ} {i : Int} (h : i < pyRound x) : (i : ℚ) + 1 / 2 ≤ x := by
  have := (pyRound_near x).2
  have h' : (i : ℚ) + 1 ≤ pyRound x := by exact_mod_cast h
  linarith

theorem pyRound_le_of_lt {x : ℚ} {i : Int} (h : x < i + 1 / 2) : pyRound x ≤ i := by
  have := (pyRound_near x).2
  have h' : (pyRound x : ℚ) < (i + 1 : Int) := by push_cast; linarith
  have := Int.cast_lt.mp h'
  omega

theorem lt_pyRound_of_gt {x : ℚ} {i : Int} (h : (i : ℚ) + 1 / 2 < x) : i < pyRound x := by
  have := (pyRound_near x).1
  have h' : (i : ℚ) < pyRound x := by linarith
  exact_mod_cast h'

theorem fmod1_nonneg {x : ℚ} (h : 0 ≤ x) : 0 ≤ fmod1 x ∧ fmod1 x < 1 ∧ fmod1 x = x + ((-⌊x⌋ : Int) : ℚ) := by
  have h1 := Int.floor_le x
  have h2 := Int.lt_floor_add_one x
  simp only [fmod1, pyTrunc, if_pos h]
  push_cast
  refine ⟨by linarith, by linarith, by ring⟩

theorem wrapOffset_spec (x : ℚ) : 0 ≤ wrapOffset x ∧ wrapOffset x < 1 ∧ ∃ t : Int, wrapOffset x = x + t := by
  unfold wrapOffset
  by_cases hx : x < 0
  · rw [if_pos hx]
    have h2 := Int.lt_floor_add_one (-x)
    have e : 1 + x - (pyTrunc x : ℚ) = x + ((1 + ⌊-x⌋ : Int) : ℚ) := by
      simp only [pyTrunc, if_neg (not_le.mpr hx)]; push_cast; ring
    rw [e]
    have h0 : 0 ≤ x + ((1 + ⌊-x⌋ : Int) : ℚ) := by push_cast; linarith
    obtain ⟨h3, h4, h5⟩ := fmod1_nonneg h0
    refine ⟨h3, h4, (1 + ⌊-x⌋) + (-⌊x + ((1 + ⌊-x⌋ : Int) : ℚ)⌋), ?_⟩
    rw [h5]; push_cast; ring
  · rw [if_neg hx]
    obtain ⟨h3, h4, h5⟩ := fmod1_nonneg (not_lt.mp hx)
    exact ⟨h3, h4, _, h5⟩

theorem clipWidth_eq (w : ℚ) : clipWidth w = min |w| 1 := by
  unfold clipWidth
  split_ifs with h
  · rw [abs_of_neg h]
  · rw [abs_of_nonneg (not_lt.mp h)]

theorem shiftOffset_eq (w o : ℚ) : shiftOffset w o = min o (o + w) := by
  unfold shiftOffset
  split_ifs with h
  · rw [min_eq_right (by linarith)]
  · rw [min_eq_left (by linarith)]

theorem max_eq_shift (w o : ℚ) : max o (o + w) = min o (o + w) + |w| := by
  rcases lt_or_ge w 0 with h | h
  · rw [min_eq_right (by linarith), max_eq_left (by linarith), abs_of_neg h]; ring
  · rw [min_eq_left (by linarith), max_eq_right (by linarith), abs_of_nonneg h]

/-- Row `i` is one of those that come from `b`. -/
def selected (width offset : ℚ) (n i : ℕ) : Prop :=
  match ratioToRegion width offset n with
  | (s, e, false) => s ≤ i ∧ (i : Int) < e
  | (s, e, true) => ¬ (s ≤ i ∧ (i : Int) < e)

theorem region_bounds (width offset : ℚ) (n : ℕ) :
    0 ≤ (ratioToRegion width offset n).1 ∧
    (ratioToRegion width offset n).1 ≤ (ratioToRegion width offset n).2.1 ∧
    (ratioToRegion width offset n).2.1 ≤ n ∧
    |((if (ratioToRegion width offset n).2.2 then n - ((ratioToRegion width offset n).2.1 - (ratioToRegion width offset n).1)
        else (ratioToRegion width offset n).2.1 - (ratioToRegion width offset n).1 : Int) : ℚ) - min |width| 1 * n| ≤ 1 := by
  obtain ⟨ho0, ho1, -⟩ := wrapOffset_spec (shiftOffset width offset)
  have hw : 0 ≤ clipWidth width ∧ clipWidth width ≤ 1 := by
    rw [clipWidth_eq]; exact ⟨le_min (abs_nonneg _) zero_le_one, min_le_right _ _⟩
  rw [← clipWidth_eq]
  unfold ratioToRegion
  generalize wrapOffset (shiftOffset width offset) = o at *
  generalize clipWidth width = w at *
  have hn : (0 : ℚ) ≤ n := Nat.cast_nonneg n
  dsimp only
  split_ifs with h h2
  · simp at h2
  · refine ⟨?_, pyRound_mono (by nlinarith), ?_, ?_⟩
    · rw [← pyRound_zero]; exact pyRound_mono (by positivity)
    · rw [← pyRound_nat n]; exact pyRound_mono (by nlinarith)
    · have a1 := pyRound_near (o * n); have a2 := pyRound_near ((w + o) * n)
      rw [abs_le]; push_cast; constructor <;> linarith
  · refine ⟨?_, pyRound_mono (by nlinarith), ?_, ?_⟩
    · rw [← pyRound_zero]; exact pyRound_mono (mul_nonneg (by linarith) hn)
    · rw [← pyRound_nat n]; exact pyRound_mono (by nlinarith)
    · have a1 := pyRound_near (o * n); have a2 := pyRound_near ((w + o - 1) * n)
      rw [abs_le]; push_cast; constructor <;> linarith
  · simp at *

theorem selected_inside {width offset : ℚ} {n i : ℕ} (hi : i < n) (h : Inside width offset (centre n i)) :
    selected width offset n i := by
  obtain ⟨t, h1, h2⟩ := h
  obtain ⟨ho0, ho1, u, hu⟩ := wrapOffset_spec (shiftOffset width offset)
  rw [max_eq_shift, ← shiftOffset_eq] at h2
  rw [← shiftOffset_eq] at h1
  have hn : (0 : ℚ) < n := by exact_mod_cast (Nat.zero_lt_of_lt hi)
  have hi' : (i : ℚ) + 1 ≤ n := by exact_mod_cast hi
  have hi0 : (0 : ℚ) ≤ i := Nat.cast_nonneg i
  obtain ⟨c, hc⟩ : ∃ c, c = centre n i := ⟨_, rfl⟩
  have hcn : c * n = i + 1 / 2 := by rw [hc]; unfold centre; field_simp
  have hc0 : 0 < c := by rw [hc]; unfold centre; positivity
  have hc1 : c < 1 := by rw [hc]; unfold centre; rw [div_lt_one hn]; linarith
  rw [← hc] at h1 h2
  unfold selected ratioToRegion
  dsimp only
  rw [clipWidth_eq]
  generalize shiftOffset width offset = l at *
  generalize wrapOffset l = o at *
  have h1' : o < c + ((t + u : Int) : ℚ) := by push_cast; linarith
  have h2' : c + ((t + u : Int) : ℚ) < o + |width| := by push_cast; linarith
  generalize t + u = v at *
  rcases le_or_gt 1 |width| with hb | hb
  · rw [min_eq_right hb]
    by_cases h0 : 1 + o ≤ 1
    · have : o = 0 := by linarith
      subst this
      rw [if_pos h0]
      simp only [zero_mul, pyRound_zero, add_zero, one_mul, pyRound_nat]
      omega
    · rw [if_neg h0]
      have : 1 + o - 1 = o := by ring
      rw [this]
      dsimp only; omega
  · rw [min_eq_left hb.le]
    have hv0 : (-1 : ℚ) < (v : ℚ) := by linarith
    have hv0' : 0 ≤ v := by have : (-1 : Int) < v := by exact_mod_cast hv0
                            omega
    by_cases h0 : |width| + o ≤ 1
    · rw [if_pos h0]
      have hv1 : (v : ℚ) < 1 := by linarith
      have hv1' : v < 1 := by exact_mod_cast hv1
      have : v = 0 := by omega
      subst this
      simp only [Int.cast_zero, add_zero] at h1' h2'
      refine ⟨pyRound_le_of_lt ?_, lt_pyRound_of_gt ?_⟩ <;> push_cast <;> nlinarith
    · rw [if_neg h0]
      have hv1 : (v : ℚ) < 2 := by linarith
      have hv1' : v < 2 := by exact_mod_cast hv1
      have : v = 0 ∨ v = 1 := by omega
      dsimp only
      rcases this with rfl | rfl
      · simp only [Int.cast_zero, add_zero] at h1' h2'
        have := pyRound_le_of_lt (x := o * n) (i := i) (by push_cast; nlinarith)
        omega
      · simp only [Int.cast_one] at h1' h2'
        have := lt_pyRound_of_gt (x := (|width| + o - 1) * n) (i := i) (by push_cast; nlinarith)
        omega

theorem touches_of_selected {width offset : ℚ} {n i : ℕ} (hi : i < n) (h : selected width offset n i) :
    Touches width offset (centre n i) := by
  obtain ⟨ho0, ho1, u, hu⟩ := wrapOffset_spec (shiftOffset width offset)
  have hn : (0 : ℚ) < n := by exact_mod_cast (Nat.zero_lt_of_lt hi)
  have hi' : (i : ℚ) + 1 ≤ n := by exact_mod_cast hi
  have hi0 : (0 : ℚ) ≤ i := Nat.cast_nonneg i
  obtain ⟨c, hc⟩ : ∃ c, c = centre n i := ⟨_, rfl⟩
  have hcn : c * n = i + 1 / 2 := by rw [hc]; unfold centre; field_simp
  have hc0 : 0 < c := by rw [hc]; unfold centre; positivity
  have hc1 : c < 1 := by rw [hc]; unfold centre; rw [div_lt_one hn]; linarith
  unfold selected ratioToRegion at h
  dsimp only at h
  rw [clipWidth_eq] at h
  rw [← hc]
  unfold Touches
  rw [max_eq_shift, ← shiftOffset_eq]
  generalize shiftOffset width offset = l at *
  generalize wrapOffset l = o at *
  have hw : min |width| 1 ≤ |width| := min_le_left _ _
  generalize min |width| 1 = w at *
  suffices ∃ v : Int, o ≤ c + v ∧ c + v ≤ o + w by
    obtain ⟨v, h1, h2⟩ := this
    refine ⟨v - u, ?_, ?_⟩ <;> push_cast <;> linarith
  by_cases h0 : w + o ≤ 1
  · rw [if_pos h0] at h
    obtain ⟨h1, h2⟩ := h
    have h1 := le_of_pyRound_le h1
    have h2 := ge_of_lt_pyRound h2
    push_cast at h1 h2
    rw [← hcn] at h1 h2
    have h1 := le_of_mul_le_mul_right h1 hn
    have h2 := le_of_mul_le_mul_right h2 hn
    exact ⟨0, by push_cast; linarith, by push_cast; linarith⟩
  · rw [if_neg h0] at h
    dsimp only at h
    by_cases h3 : pyRound ((w + o - 1) * n) ≤ i
    · have h1 : pyRound (o * n) ≤ i := by omega
      have h1 := le_of_pyRound_le h1
      push_cast at h1
      rw [← hcn] at h1
      have h1 := le_of_mul_le_mul_right h1 hn
      exact ⟨0, by push_cast; linarith, by push_cast; linarith⟩
    · have h2 := ge_of_lt_pyRound (not_le.mp h3)
      push_cast at h2
      rw [← hcn] at h2
      have h2 := le_of_mul_le_mul_right h2 hn
      exact ⟨1, by push_cast; linarith, by push_cast; linarith⟩

theorem copyRows_get {R : Type} {xs ys : List R} {s e : Int} (hl : xs.length = ys.length) (h0 : 0 ≤ s) (h1 : s ≤ e)
    (h2 : e ≤ xs.length) (i : ℕ) :
    (copyRows xs ys s e)[i]? = if s ≤ i ∧ (i : Int) < e then ys[i]? else xs[i]? := by
  obtain ⟨s, rfl⟩ := Int.eq_ofNat_of_zero_le h0
  obtain ⟨e, rfl⟩ := Int.eq_ofNat_of_zero_le (h0.trans h1)
  unfold copyRows
  simp only [Int.toNat_natCast]
  have h1 : s ≤ e := by omega
  have h2 : e ≤ xs.length := by omega
  rw [max_eq_right h1]
  rw [List.append_assoc, List.getElem?_append, List.getElem?_append]
  simp only [List.length_take, List.length_drop, List.getElem?_take, List.getElem?_drop]
  have m1 : min s xs.length = s := by omega
  have m2 : min e ys.length = e := by omega
  rw [m1, m2]
  by_cases a : i < s
  · rw [if_pos a, if_pos a, if_neg (by omega)]
  · rw [if_neg a]
    by_cases b : i < e
    · rw [if_pos (by omega), if_pos (by omega), if_pos (by omega)]
      congr 1; omega
    · rw [if_neg (by omega), if_neg (by omega)]
      congr 1; omega

theorem copyRows_length {R : Type} {xs ys : List R} {s e : Int} (hl : xs.length = ys.length) (h0 : 0 ≤ s) (h1 : s ≤ e)
    (h2 : e ≤ xs.length) : (copyRows xs ys s e).length = xs.length := by
  obtain ⟨s, rfl⟩ := Int.eq_ofNat_of_zero_le h0
  obtain ⟨e, rfl⟩ := Int.eq_ofNat_of_zero_le (h0.trans h1)
  unfold copyRows
  simp only [Int.toNat_natCast, List.length_append, List.length_take, List.length_drop]
  omega

theorem tensorSum_rows {R : Type} {σ : Store R} {a b : ℕ} {xs ys : List R} (width offset : ℚ)
    (ha : σ a = .rows xs) (hb : σ b = .rows ys) (hl : xs.length = ys.length) :
    ∃ r zs, (r = a ∨ r = b) ∧ tensorSum σ a b width offset = some (σ.put r (.rows zs), r) ∧ zs.length = xs.length ∧
      ∀ i, i < xs.length → (selected width offset xs.length i → zs[i]? = ys[i]?) ∧
        (¬ selected width offset xs.length i → zs[i]? = xs[i]?) := by
  obtain ⟨h0, h1, h2, -⟩ := region_bounds width offset xs.length
  unfold tensorSum selected
  rw [ha, hb]
  dsimp only
  rw [if_pos hl]
  generalize ratioToRegion width offset xs.length = reg at *
  obtain ⟨s, e, inv⟩ := reg
  cases inv
  · refine ⟨a, _, .inl rfl, rfl, copyRows_length hl h0 h1 h2, fun i hi => ?_⟩
    rw [copyRows_get hl h0 h1 h2]
    dsimp only
    exact ⟨fun h => if_pos h, fun h => if_neg h⟩
  · refine ⟨b, _, .inr rfl, rfl, (copyRows_length hl.symm h0 h1 (hl ▸ h2)).trans hl.symm, fun i hi => ?_⟩
    rw [copyRows_get hl.symm h0 h1 (hl ▸ h2)]
    dsimp only
    exact ⟨fun h => if_neg h, fun h => if_pos (not_not.mp h)⟩

/-! ## Properties -/

/-- **C47.**  For every width and offset, the range given to `tensor_sum` lies within the rows, and the
number of rows that will come from `b` differs from `min(|width|, 1) · n` by at most one. -/
theorem C47_region (width offset : ℚ) (n : ℕ) : ∃ (s e : Int) (inverted : Bool),
    ratioToRegion width offset n = (s, e, inverted) ∧ 0 ≤ s ∧ s ≤ e ∧ e ≤ n ∧
    |((if inverted then n - (e - s) else e - s : Int) : ℚ) - min |width| 1 * n| ≤ 1 :=
  ⟨_, _, _, rfl, region_bounds width offset n⟩

example : ratioToRegion (1 / 2) (3 / 4) 10 = (2, 8, true) := by decide +kernel
example : ratioToRegion (-1 / 2) 0 10 = (5, 10, false) := by decide +kernel

/-- **C48.**  `tensor_sum` of two tensors of equal shape gives a tensor of that shape.  A row whose centre
lies strictly inside the arc described by width and offset is `b`'s, a row whose centre does not even touch
the arc is `a`'s, and the rows at the two ends are one or the other. -/
theorem C48_rows {R : Type} (σ : Store R) (a b : ℕ) (xs ys : List R) (width offset : ℚ)
    (ha : σ a = .rows xs) (hb : σ b = .rows ys) (hl : xs.length = ys.length) :
    ∃ σ' r zs, tensorSum σ a b width offset = some (σ', r) ∧ σ' r = .rows zs ∧ zs.length = xs.length ∧
      ∀ i, i < xs.length →
        (Inside width offset (centre xs.length i) → zs[i]? = ys[i]?) ∧
        (¬ Touches width offset (centre xs.length i) → zs[i]? = xs[i]?) ∧
        (zs[i]? = xs[i]? ∨ zs[i]? = ys[i]?) := by
  obtain ⟨r, zs, -, h1, h2, h3⟩ := tensorSum_rows width offset ha hb hl
  refine ⟨_, r, zs, h1, by simp [Store.put], h2, fun i hi => ⟨fun h => (h3 i hi).1 (selected_inside hi h),
    fun h => (h3 i hi).2 fun h' => h (touches_of_selected hi h'), ?_⟩⟩
  by_cases h : selected width offset xs.length i
  · exact .inr ((h3 i hi).1 h)
  · exact .inl ((h3 i hi).2 h)

/-- **C48.**  A scalar is `b`'s if the width is above one half, `a`'s otherwise, and no tensor changes. -/
theorem C48_scalar {R : Type} (σ : Store R) (a b : ℕ) (x y : R) (width offset : ℚ)
    (ha : σ a = .scalar x) (hb : σ b = .scalar y) :
    ∃ r, tensorSum σ a b width offset = some (σ, r) ∧ σ r = .scalar (if 1 / 2 < width then y else x) := by
  refine ⟨if 1 / 2 < width then b else a, by unfold tensorSum; rw [ha, hb], ?_⟩
  split_ifs
  · exact hb
  · exact ha

/-- Two tensors of five rows. -/
def Ex.store : Store ℕ := fun i => if i = 0 then .rows [0, 1, 2, 3, 4] else .rows [10, 11, 12, 13, 14]

example : (tensorSum Ex.store 0 1 (2 / 5) (4 / 5)).map (fun p => (p.1 p.2, p.2)) = some (.rows [10, 1, 2, 3, 14], 1) := by
  decide +kernel
example : Inside (2 / 5) (4 / 5) (centre 5 0) := ⟨1, by norm_num [centre], by norm_num [centre]⟩
example : Inside (2 / 5) (4 / 5) (centre 5 4) := ⟨0, by norm_num [centre], by norm_num [centre]⟩

/-- **C68** (part that holds).  A call of `tensor_sum` changes no tensor but the one it returns, which is one
of its two arguments. -/
theorem C68_frame_partial {R : Type} (σ : Store R) (a b : ℕ) (width offset : ℚ) (σ' : Store R) (r : ℕ)
    (h : tensorSum σ a b width offset = some (σ', r)) : (r = a ∨ r = b) ∧ ∀ j, j ≠ r → σ' j = σ j := by
  unfold tensorSum at h
  split at h
  · cases h
    refine ⟨?_, fun _ _ => rfl⟩
    split_ifs <;> simp
  · split_ifs at h
    split at h <;> cases h
    · exact ⟨.inr rfl, fun j hj => if_neg hj⟩
    · exact ⟨.inl rfl, fun j hj => if_neg hj⟩
  · cases h

example : (tensorSum Ex.store 0 1 (2 / 5) (4 / 5)).map (fun p => (p.1 0, p.1 1)) =
    some (Ex.store 0, .rows [10, 1, 2, 3, 14]) := by decide +kernel

/-- **C68 is false of the code**: with its default arguments `tensor_sum` overwrites the first rows of the
tensor passed as `a`.  A tensor of an in-memory state dict is passed to the method as it is, so a recipe that
uses it a second time, and the caller, see other values. -/
theorem C68_false : ∃ σ', tensorSum Ex.store 0 1 (1 / 2) 0 = some (σ', 0) ∧
    Ex.store 0 = .rows [0, 1, 2, 3, 4] ∧ σ' 0 = .rows [10, 11, 2, 3, 4] := by
  refine ⟨Ex.store.put 0 (.rows [10, 11, 2, 3, 4]), ?_, rfl, by decide⟩
  have h : ratioToRegion (1 / 2) 0 ([0, 1, 2, 3, 4] : List ℕ).length = (0, 2, false) := by decide +kernel
  have ha : Ex.store 0 = .rows [0, 1, 2, 3, 4] := rfl
  have hb : Ex.store 1 = .rows [10, 11, 12, 13, 14] := rfl
  unfold tensorSum
  rw [ha, hb]
  dsimp only
  rw [h]
  rfl

end Verif.Region
