import Verif.Proofs.LinearOps
import Mathlib.Algebra.Order.Archimedean.Basic
import Mathlib.Algebra.Order.Floor.Semiring
import Mathlib.Data.List.Forall2
import Mathlib.Data.Rat.Floor

/-!
# The errors of `n_average`
-/
namespace Verif.Linear
open Float Float.Spec Ieee Ieee.Spec Spec Readme

/-! ### Nearest numbers -/

/-- A number in range is near to one that is rounded. -/
theorem dyadic_near {q δ : ℚ} (hδ : 0 < δ) (hq : |q| < limit double) : ∃ r, Has double r ∧ |r - q| ≤ ulp * |q| + tiny + δ := by
  obtain ⟨m, hm⟩ : ∃ m : ℕ, 1 < δ * 2 ^ m := by
    obtain ⟨m, hm⟩ := pow_unbounded_of_one_lt (1 / δ) (by norm_num : (1 : ℚ) < 2)
    exact ⟨m, by rwa [div_lt_iff₀ hδ, mul_comm] at hm⟩
  have hP : (0 : ℚ) < 2 ^ m := by positivity
  obtain ⟨N, hN⟩ : ∃ N : ℕ, N = ⌊|q| * 2 ^ m⌋₊ := ⟨_, rfl⟩
  have n1 : (N : ℚ) ≤ |q| * 2 ^ m := by rw [hN]; exact Nat.floor_le (by positivity)
  have n2 : |q| * 2 ^ m < N + 1 := by rw [hN]; exact Nat.lt_floor_add_one _
  obtain ⟨x, hx⟩ : ∃ x : ℚ, x = N * 2 ^ (-(m : ℤ)) := ⟨_, rfl⟩
  have hx' : x * 2 ^ m = N := by rw [hx, mul_assoc, ← zpow_natCast, ← zpow_add₀ (by norm_num)]; simp
  have x0 : 0 ≤ x := by rw [hx]; positivity
  have x1 : x ≤ |q| := by
    by_contra h
    have := mul_lt_mul_of_pos_right (not_le.1 h) hP
    linarith
  have x2 : |q| - x ≤ δ := by
    by_contra h
    have := mul_lt_mul_of_pos_right (not_le.1 h) hP
    rw [sub_mul] at this
    linarith
  have hv : val (.fin (decide (q < 0)) N (-(m : ℤ))) = some (if q < 0 then -x else x) := by
    simp only [val, ← hx, decide_eq_true_eq]
  have ha : |if q < 0 then -x else x| = x := by split_ifs <;> simp [abs_of_nonneg x0]
  obtain ⟨r, _, r1⟩ := round_val (f := double) (by decide) (by decide) hv (by rw [ha]; exact x1.trans_lt hq)
  refine ⟨r, r1.has, ?_⟩
  have e1 := r1.err64
  rw [ha] at e1
  have e2 : |(if q < 0 then -x else x) - q| ≤ δ := by
    split_ifs with h
    · rw [abs_of_neg h] at x1 x2
      rw [abs_of_nonneg (by linarith)]
      linarith
    · rw [abs_of_nonneg (not_lt.1 h)] at x1 x2
      rw [abs_of_nonpos (by linarith)]
      linarith
  have e3 : |r - q| ≤ |r - (if q < 0 then -x else x)| + |(if q < 0 then -x else x) - q| := by
    have := abs_add_le (r - (if q < 0 then -x else x)) ((if q < 0 then -x else x) - q)
    rwa [sub_add_sub_cancel] at this
  have := mul_le_mul_of_nonneg_left x1 ulp_small.1
  linarith

/-- A nearest number is one rounded to. -/
theorem round_of_nearest {q r : ℚ} (hq : |q| < limit double) (h1 : Has double r) (h2 : ∀ r', Has double r' → |r - q| ≤ |r' - q|) : Round double q r := by
  refine ⟨h1, h2, ?_⟩
  show |r - q| ≤ ulp * |q| + tiny
  refine le_of_forall_pos_le_add fun δ hδ => ?_
  obtain ⟨r', h3, h4⟩ := dyadic_near hδ hq
  exact (h2 r' h3).trans h4

theorem divided_round {x y : FV} {n : ℕ} {q : ℚ} (h : Divided x n y) (hx : val x = some q) (hq : |q / n| < limit double) :
    ∃ r, val y = some r ∧ Round double (q / n) r := by
  obtain ⟨r, h1, h2, h3⟩ := h q hx hq
  exact ⟨r, h1, round_of_nearest hq h2 h3⟩

/-! ### Sums -/

/-- What is summed: `x` approximates `p.1`, of size `p.2`. -/
def Near (n : ℕ) (x : FV) (p : ℚ × ℚ) : Prop := ∃ q, val x = some q ∧ Has double q ∧ Appr n p.2 p.1 q

def vals (l : List (ℚ × ℚ)) : ℚ := (l.map (·.1)).sum
def sizes (l : List (ℚ × ℚ)) : ℚ := (l.map (·.2)).sum

theorem sizes_nonneg {n : ℕ} {xs : List FV} {l : List (ℚ × ℚ)} (h : List.Forall₂ (Near n) xs l) : 0 ≤ sizes l := by
  induction h with
  | nil => simp [sizes]
  | cons h1 _ ih =>
    obtain ⟨_, _, _, ha⟩ := h1
    unfold sizes at ih ⊢
    rw [List.map_cons, List.sum_cons]
    have := ha.nonneg
    linarith

theorem sums_pos {xs : List FV} {a : FV} (h : Sums xs a) : 1 ≤ xs.length := by
  induction h with
  | one x => simp
  | add _ _ i j => rw [List.length_append]; omega
  | zero _ i => exact i
  | perm p _ i => rw [← p.length_eq]; exact i

theorem sums_near {xs : List FV} {a : FV} (h : Sums xs a) : ∀ {n : ℕ} {l : List (ℚ × ℚ)}, List.Forall₂ (Near n) xs l → n + xs.length ≤ 2 ^ 50 →
    sizes l + xs.length * eps < 2 ^ 1000 → Near (n + (xs.length - 1)) a (vals l, sizes l + (xs.length - 1 : ℕ) * eps) := by
  obtain ⟨e1, _, _, _⟩ := eps_small
  induction h with
  | one x =>
    intro n l hl _ _
    obtain ⟨p, l', hp, hl', rfl⟩ := List.forall₂_cons_left_iff.1 hl
    obtain rfl := List.forall₂_nil_left_iff.1 hl'
    simpa [vals, sizes] using hp
  | @add xs ys a b ha hb iha ihb =>
    intro n l hl hn hs
    obtain ⟨l1, l2, h1, h2, rfl⟩ : ∃ l1 l2, List.Forall₂ (Near n) xs l1 ∧ List.Forall₂ (Near n) ys l2 ∧ l = l1 ++ l2 := by
      refine ⟨l.take xs.length, l.drop xs.length, ?_, ?_, (List.take_append_drop _ _).symm⟩
      · have := List.forall₂_take xs.length hl
        rwa [List.take_left] at this
      · have := List.forall₂_drop xs.length hl
        rwa [List.drop_left] at this
    have pa := sums_pos ha
    have pb := sums_pos hb
    rw [List.length_append] at hn hs ⊢
    have ev : vals (l1 ++ l2) = vals l1 + vals l2 := by simp [vals]
    have es : sizes (l1 ++ l2) = sizes l1 + sizes l2 := by simp [sizes]
    rw [es] at hs ⊢
    rw [ev]
    have z1 := sizes_nonneg h1
    have z2 := sizes_nonneg h2
    push_cast at hs
    have m1 : 0 ≤ (xs.length : ℚ) * eps := by positivity
    have m2 : 0 ≤ (ys.length : ℚ) * eps := by positivity
    obtain ⟨q1, a1, a2, a3⟩ := iha h1 (by omega) (by linarith)
    obtain ⟨q2, b1, b2, b3⟩ := ihb h2 (by omega) (by linarith)
    have c1 : ((xs.length - 1 : ℕ) : ℚ) * eps = xs.length * eps - eps := by rw [Nat.cast_sub pa]; push_cast; ring
    have c2 : ((ys.length - 1 : ℕ) : ℚ) * eps = ys.length * eps - eps := by rw [Nat.cast_sub pb]; push_cast; ring
    have c3 : ((xs.length + ys.length - 1 : ℕ) : ℚ) * eps = xs.length * eps + ys.length * eps - eps := by rw [Nat.cast_sub (by omega)]; push_cast; ring
    have A := (a3.mono (m := n + (xs.length + ys.length - 2)) (by omega) le_rfl).add (b3.mono (m := n + (xs.length + ys.length - 2)) (by omega) le_rfl)
    simp only at A
    obtain ⟨r, r1, r2⟩ := fadd_round a1 b1 (A.lt (by omega) (by rw [c1, c2]; linarith))
    refine ⟨r, r1, r2.has, (A.round r2).mono (by omega) ?_⟩
    simp only
    rw [c1, c2, c3]
    linarith
  | zero _ ih =>
    intro n l hl hn hs
    obtain ⟨q, q1, q2, q3⟩ := ih hl hn hs
    have hv : val (add zero _) = some (0 + q) := val_add val_zero q1
    rw [zero_add] at hv
    exact ⟨q, (round_has (by decide) (by decide) hv q2).1, q2, q3⟩
  | @perm xs ys a p h ih =>
    intro n l hl hn hs
    obtain ⟨l', h1, h2⟩ := List.perm_comp_forall₂ p hl
    have ev : vals l' = vals l := (h2.map _).sum_eq
    have es : sizes l' = sizes l := (h2.map _).sum_eq
    have := ih h1 (by rw [p.length_eq]; exact hn) (by rw [es, p.length_eq]; exact hs)
    rwa [ev, es, p.length_eq] at this

/-- `x` is `p.1`, of size `p.2`, a multiple of `2^-g`. -/
def On (g : ℕ) (x : FV) (p : ℚ × ℚ) : Prop := val x = some p.1 ∧ |p.1| ≤ p.2 ∧ ∃ V : ℤ, p.1 = V / 2 ^ g

/-- Sums of multiples of one unit -/
theorem sums_exact {g : ℕ} (hg : g ≤ 1000) {xs : List FV} {a : FV} (h : Sums xs a) : ∀ {l : List (ℚ × ℚ)},
    List.Forall₂ (On g) xs l → sizes l * 2 ^ g < 2 ^ 53 →
    val a = some (vals l) ∧ |vals l| ≤ sizes l ∧ ∃ V : ℤ, vals l = V / 2 ^ g := by
  have hP : (0 : ℚ) < 2 ^ g := by positivity
  induction h with
  | one x =>
    intro l hl _
    obtain ⟨p, l', hp, hl', rfl⟩ := List.forall₂_cons_left_iff.1 hl
    obtain rfl := List.forall₂_nil_left_iff.1 hl'
    simpa [vals, sizes, On] using hp
  | @add xs ys a b ha hb iha ihb =>
    intro l hl hs
    obtain ⟨l1, l2, h1, h2, rfl⟩ : ∃ l1 l2, List.Forall₂ (On g) xs l1 ∧
        List.Forall₂ (On g) ys l2 ∧ l = l1 ++ l2 := by
      refine ⟨l.take xs.length, l.drop xs.length, ?_, ?_, (List.take_append_drop _ _).symm⟩
      · have := List.forall₂_take xs.length hl
        rwa [List.take_left] at this
      · have := List.forall₂_drop xs.length hl
        rwa [List.drop_left] at this
    have ev : vals (l1 ++ l2) = vals l1 + vals l2 := by simp [vals]
    have es : sizes (l1 ++ l2) = sizes l1 + sizes l2 := by simp [sizes]
    have pos : ∀ {xs : List FV} {l : List (ℚ × ℚ)}, List.Forall₂ (On g) xs l →
        0 ≤ sizes l := by
      intro xs l h
      induction h with
      | nil => simp [sizes]
      | cons h _ ih =>
        unfold sizes at ih ⊢
        rw [List.map_cons, List.sum_cons]
        have := (abs_nonneg _).trans h.2.1
        linarith
    rw [es] at hs
    rw [ev, es]
    have z1 := mul_nonneg (pos h1) hP.le
    have z2 := mul_nonneg (pos h2) hP.le
    rw [add_mul] at hs
    obtain ⟨a1, a2, a3⟩ := iha h1 (by linarith)
    obtain ⟨b1, b2, b3⟩ := ihb h2 (by linarith)
    have hle : |vals l1 + vals l2| ≤ sizes l1 + sizes l2 := (abs_add_le _ _).trans (add_le_add a2 b2)
    refine ⟨?_, hle, grid_add a3 b3⟩
    exact (round_has (by decide) (by decide) (val_add a1 b1) (has_of_grid (grid_add a3 b3) hle (by rw [add_mul]; exact hs) hg)).1
  | zero _ ih =>
    intro l hl hs
    obtain ⟨q1, q2, q3⟩ := ih hl hs
    have hv : val (add zero _) = some (0 + vals l) := val_add val_zero q1
    rw [zero_add] at hv
    exact ⟨(round_has (by decide) (by decide) hv (has_of_grid q3 q2 hs hg)).1, q2, q3⟩
  | @perm xs ys a p h ih =>
    intro l hl hs
    obtain ⟨l', h1, h2⟩ := List.perm_comp_forall₂ p hl
    have ev : vals l' = vals l := (h2.map _).sum_eq
    have es : sizes l' = sizes l := (h2.map _).sum_eq
    have := ih h1 (by rw [es]; exact hs)
    rwa [ev, es] at this

/-! ### Means -/

theorem forall2_mem {α β : Type} {R R' : α → β → Prop} {xs : List α} {l : List β} (h : List.Forall₂ R xs l) (hr : ∀ x p, p ∈ l → R x p → R' x p) :
    List.Forall₂ R' xs l := by
  induction h with
  | nil => exact .nil
  | cons h1 _ ih => exact .cons (hr _ _ (by simp) h1) (ih fun x p hp => hr x p (by simp [hp]))

theorem many_eps {k : ℕ} (h : k ≤ 2 ^ 50) : 4 * (k * eps) ≤ eta := by
  obtain ⟨e1, _, _, _⟩ := eps_small
  have h1 : (k : ℚ) ≤ 2 ^ 50 := by exact_mod_cast h
  have h2 := mul_le_mul_of_nonneg_right h1 e1.le
  have h3 : 4 * ((2 : ℚ) ^ 50 * eps) ≤ eta := by
    unfold eps eta
    have e4 : (4 : ℚ) = (2 : ℚ) ^ (2 : ℤ) := by norm_num
    rw [e4, ← zpow_natCast (2 : ℚ) 50, ← zpow_add₀ (by norm_num), ← zpow_add₀ (by norm_num)]
    exact zpow_le_zpow_right₀ (by norm_num) (by norm_num)
  linarith

/-- The reciprocal of a count -/
theorem recip_appr {k : ℕ} {c : ℚ} (h0 : 1 ≤ k) (h : k ≤ 2 ^ 50) (hc : Round double (1 / k) c) : Appr 2 |(1 : ℚ) / k| (1 / k) c := by
  have hk : (0 : ℚ) < k := by exact_mod_cast h0
  have hge : (1 : ℚ) / 2 ^ 50 ≤ |(1 : ℚ) / k| := by
    rw [abs_of_pos (by positivity)]
    exact one_div_le_one_div_of_le hk (by exact_mod_cast h)
  refine ⟨le_rfl, ?_⟩
  have h1 := hc.err64
  have h2 : (1 + ulp) ^ 2 - 1 = 2 * ulp + ulp * ulp := by ring
  rw [h2]
  have h3 : tiny ≤ ulp * |(1 : ℚ) / k| := by
    refine le_trans ?_ (mul_le_mul_of_nonneg_left hge ulp_small.1)
    have : tiny ≤ (2 : ℚ) ^ (-200 : ℤ) := zpow_le_zpow_right₀ (by norm_num) (by norm_num)
    refine this.trans ?_
    unfold ulp
    norm_num
  have := mul_nonneg (mul_nonneg ulp_small.1 ulp_small.1) (abs_nonneg ((1 : ℚ) / k))
  linarith

theorem mean_good {A : Arith} (hA : Mean A) (sh : List ℕ) (i : ℕ) {xs : List FV} {l : List (ℚ × ℚ)} {N g : ℕ} {P : ℕ → Prop} (hne : xs ≠ [])
    (hl : List.Forall₂ (fun x (p : ℚ × ℚ) => ∃ q n h, val x = some q ∧ Has double q ∧ Good n h p.2 p.1 q ∧ n ≤ N ∧ P h) xs l)
    (hn : N + xs.length + 2 ≤ 2 ^ 50) (hs : sizes l + eta < 2 ^ 1000)
    (hg : (∃ j, xs.length = 2 ^ j ∧ ∀ h, P h → h + j ≤ g) ∨ 2 ^ 53 ≤ (sizes l / xs.length + eta) * 2 ^ g) :
    ∃ r, val (A.mean sh i xs) = some r ∧ Has double r ∧ Good (N + xs.length + 2) g (sizes l / xs.length + eta) (vals l / xs.length) r := by
  obtain ⟨e1, e2, e3, e4⟩ := eps_small
  obtain ⟨s, h1, h2⟩ := hA sh i xs hne
  have hk := sums_pos h1
  have hnear : List.Forall₂ (Near N) xs l := forall2_mem hl fun x p _ ⟨q, n, h, r1, r2, r3, r4, _⟩ => ⟨q, r1, r2, r3.appr.mono r4 le_rfl⟩
  have me := many_eps (k := xs.length) (by omega)
  have z := sizes_nonneg hnear
  have hkq : (1 : ℚ) ≤ xs.length := by exact_mod_cast hk
  have heta : 0 < eta := by linarith
  obtain ⟨Q, q1, q2, q3⟩ := sums_near h1 hnear (by omega) (by linarith)
  simp only at q3
  -- the part that is exact
  have exactly : (sizes l / xs.length + eta) * 2 ^ g < 2 ^ 53 → g ≤ 1000 ∧ Q = vals l ∧ Has double (1 / xs.length) ∧ Has double (vals l / xs.length) ∧
      ∃ V : ℤ, vals l / xs.length = V / 2 ^ g := by
    intro hx
    rcases hg with ⟨j, hj, hP⟩ | hg
    swap
    · exact absurd hx (not_lt.2 hg)
    have hg' := grid_bound (s := sizes l / xs.length + eta) (by have := div_nonneg z (by linarith : (0 : ℚ) ≤ xs.length); linarith) hx
    obtain ⟨x0, hx0⟩ := List.exists_mem_of_ne_nil xs hne
    obtain ⟨G, rfl⟩ : ∃ G, g = G + j := by
      cases hl with
      | nil => exact absurd rfl hne
      | cons h _ =>
        obtain ⟨_, _, h, _, _, _, _, hp⟩ := h
        exact ⟨g - j, by have := hP h hp; omega⟩
    have hj2 : ((xs.length : ℕ) : ℚ) = 2 ^ j := by rw [hj]; push_cast; rfl
    have hjp : (0 : ℚ) < 2 ^ j := by positivity
    have hGp : (0 : ℚ) < 2 ^ G := by positivity
    have hS : sizes l * 2 ^ G < 2 ^ 53 := by
      refine lt_of_le_of_lt ?_ hx
      have : sizes l * 2 ^ G = sizes l / xs.length * 2 ^ (G + j) := by rw [hj2, pow_add]; field_simp
      rw [this]
      exact mul_le_mul_of_nonneg_right (by linarith) (by positivity)
    have hmem : ∀ p ∈ l, p.2 ≤ sizes l := by
      have nn : ∀ p ∈ l, 0 ≤ p.2 := by
        intro p hp
        obtain ⟨a, ha⟩ := List.mem_iff_getElem?.1 hp
        have : ∀ {xs : List FV} {l : List (ℚ × ℚ)}, List.Forall₂ (Near N) xs l → ∀ p ∈ l, 0 ≤ p.2 := by
          intro xs l h
          induction h with
          | nil => simp
          | cons h _ ih =>
            intro p hp
            rcases List.mem_cons.1 hp with rfl | hp
            · obtain ⟨_, _, _, h⟩ := h
              exact h.nonneg
            · exact ih p hp
        exact this hnear p hp
      intro p hp
      unfold sizes
      exact List.single_le_sum (by simpa using fun b a h => nn (a, b) h) _ (List.mem_map_of_mem hp)
    have hon : List.Forall₂ (On G) xs l := by
      refine forall2_mem hl fun x p hp ⟨q, n, h, r1, r2, r3, r4, r5⟩ => ?_
      have hle : h ≤ G := by have := hP h r5; omega
      have hsm : p.2 * 2 ^ h < 2 ^ 53 := by
        refine lt_of_le_of_lt ?_ hS
        exact mul_le_mul (hmem p hp) (pow_le_pow_right₀ (by norm_num) hle) (by positivity) z
      exact ⟨by rw [r1, r3.exact hsm], r3.appr.le, grid_le (r3.grid hsm) hle⟩
    obtain ⟨s1, s2, s3⟩ := sums_exact (by omega) h1 hon hS
    have hgrid : ∃ V : ℤ, vals l / xs.length = V / 2 ^ (G + j) := by
      obtain ⟨V, hV⟩ := s3
      exact ⟨V, by rw [hV, hj2, pow_add]; field_simp⟩
    refine ⟨hg', Option.some.inj (q1.symm.trans s1), ?_, ?_, hgrid⟩
    · refine has_of_grid (g := j) (s := 1 / 2 ^ j) ⟨1, by rw [hj2]; norm_num⟩ ?_ ?_ (by omega)
      · rw [hj2, abs_of_pos (by positivity)]
      · rw [one_div_mul_cancel hjp.ne']; norm_num
    · refine has_of_grid hgrid ?_ hx hg'
      rw [abs_div, abs_of_pos (by linarith : (0 : ℚ) < xs.length)]
      have := div_le_div_of_nonneg_right s2 (by linarith : (0 : ℚ) ≤ xs.length)
      linarith
  -- the sizes
  have hsz : (sizes l + ((xs.length - 1 : ℕ) : ℚ) * eps) * |(1 : ℚ) / xs.length| ≤ sizes l / xs.length + eps := by
    rw [abs_of_pos (by positivity), mul_one_div, add_div]
    have : ((xs.length - 1 : ℕ) : ℚ) * eps / xs.length ≤ eps := by
      rw [div_le_iff₀ (by linarith), mul_comm eps]
      refine mul_le_mul_of_nonneg_right ?_ e1.le
      exact_mod_cast Nat.sub_le _ _
    linarith
  have hlt : sizes l / xs.length ≤ sizes l := div_le_self z hkq
  have hbig : sizes l / xs.length + eps < 2 ^ 1000 := by linarith
  have hbig2 : sizes l / xs.length + eta < 2 ^ 1000 := by linarith
  rcases h2 with h2 | ⟨c, h2, h3⟩
  · have A1 := q3.mul (Appr.refl (1 / xs.length))
    rw [mul_one_div, mul_one_div] at A1
    have A2 := A1.mono le_rfl hsz
    obtain ⟨r, r1, r2⟩ := divided_round h2 q1 (A2.lt (by omega) hbig)
    refine ⟨r, r1, r2.has, (A2.round r2).mono (by omega) (by linarith), hbig2, fun hx => (exactly hx).2.2.2.2, fun hx => ?_⟩
    obtain ⟨_, x1, _, x3, _⟩ := exactly hx
    rw [x1] at r2
    exact r2.eq x3
  · obtain ⟨C, c1, c2⟩ := divided_round h2 val_one (by
      have : |(1 : ℚ) / xs.length| ≤ 1 := by
        rw [abs_of_pos (by positivity)]
        exact (div_le_one (by linarith)).2 hkq
      exact (Appr.mono (Appr.refl ((1 : ℚ) / xs.length)) le_rfl this).lt (by norm_num) (one_lt_pow₀ (by norm_num) (by norm_num)))
    have A1 := q3.mul (recip_appr hk (by omega) c2)
    rw [mul_one_div] at A1
    have A2 := A1.mono le_rfl hsz
    obtain ⟨r, r1, r2⟩ := fmul_round q1 c1 (A2.lt (by omega) hbig)
    refine ⟨r, by rw [h3]; exact r1, r2.has, (A2.round r2).mono (by omega) (by linarith), hbig2, fun hx => (exactly hx).2.2.2.2, fun hx => ?_⟩
    obtain ⟨_, x1, x2, x3, _⟩ := exactly hx
    rw [c2.eq x2, x1, mul_one_div] at r2
    exact r2.eq x3

end Verif.Linear
