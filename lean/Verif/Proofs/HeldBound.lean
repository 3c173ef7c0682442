import Verif.Proofs.Held
import Mathlib.Data.List.Perm.Basic

/-!
# How many results are held: bounds
-/
namespace Verif.Held
open Method Recipe Config Eval Program Held.Spec
variable {F T : Type}

/-! ### Sorting -/

theorem insertKid_perm (c : Kid) (l : List Kid) : (insertKid c l).Perm (c :: l) := by
  induction l with
  | nil => exact .refl _
  | cons d l ih =>
    simp only [insertKid]
    split_ifs
    · exact .refl _
    · exact (ih.cons d).trans (.swap c d l)

theorem sortKids_perm (l : List Kid) : (sortKids l).Perm l := by
  unfold sortKids
  have : ∀ (l acc : List Kid), (l.foldl (fun acc c => insertKid c acc) acc).Perm (l ++ acc) := by
    intro l
    induction l with
    | nil => intro acc; exact .refl _
    | cons c l ih =>
      intro acc
      refine (ih _).trans (((insertKid_perm c acc).append_left l).trans ?_)
      exact List.perm_middle
  simpa using this l []

/-- Deeper ones first -/
def Sorted (l : List Kid) : Prop := l.Pairwise fun a b => b.height ≤ a.height

theorem insertKid_sorted {c : Kid} {l : List Kid} (h : Sorted l) : Sorted (insertKid c l) := by
  induction l with
  | nil => simp [insertKid, Sorted]
  | cons d l ih =>
    unfold Sorted at h
    rw [List.pairwise_cons] at h
    simp only [insertKid]
    split_ifs with hd
    · unfold Sorted
      rw [List.pairwise_cons, List.pairwise_cons]
      refine ⟨?_, h.1, h.2⟩
      intro x hx
      rcases List.mem_cons.1 hx with rfl | hx
      · exact hd.le
      · exact (h.1 x hx).trans hd.le
    · unfold Sorted
      rw [List.pairwise_cons]
      refine ⟨?_, ih h.2⟩
      intro x hx
      rcases List.mem_cons.1 ((insertKid_perm c l).subset hx) with rfl | hx
      · omega
      · exact h.1 x hx

theorem sortKids_sorted (l : List Kid) : Sorted (sortKids l) := by
  unfold sortKids
  have : ∀ (l acc : List Kid), Sorted acc → Sorted (l.foldl (fun acc c => insertKid c acc) acc) := by
    intro l
    induction l with
    | nil => intro acc h; exact h
    | cons c l ih => intro acc h; exact ih _ (insertKid_sorted h)
  exact this l [] .nil

def sizes : List Kid → ℕ
  | [] => 0
  | k :: l => k.size + sizes l

theorem count_perm {l l' : List Kid} (h : l.Perm l') : count l = count l' := by
  induction h with
  | nil => rfl
  | cons x _ ih => simp only [count, ih]
  | swap x y l => simp only [count]; omega
  | trans _ _ a b => exact a.trans b

theorem sizes_perm {l l' : List Kid} (h : l.Perm l') : sizes l = sizes l' := by
  induction h with
  | nil => rfl
  | cons x _ ih => simp only [sizes, ih]
  | swap x y l => simp only [sizes]; omega
  | trans _ _ a b => exact a.trans b

/-! ### The arguments of a merge -/

def kidOf (v : Val F) : Kid := ⟨fresh v, height v, bound v, size v⟩

theorem kidsL_eq (l : List (Val F)) : kidsL l = l.map kidOf := by
  induction l with
  | nil => rfl
  | cons v l ih => rw [kidsL, ih]; rfl

theorem kidsK_eq (l : List (Str × Val F)) : kidsK l = (l.map (·.2)).map kidOf := by
  induction l with
  | nil => rfl
  | cons p l ih => obtain ⟨k, v⟩ := p; rw [kidsK, ih]; rfl

theorem kids_eq (args : List (Val F)) (kwargs : List (Str × Val F)) : kidsL args ++ kidsK kwargs = (args ++ kwargs.map (·.2)).map kidOf := by
  rw [kidsL_eq, kidsK_eq, List.map_append]

theorem fresh_eq (v : Val F) : fresh v = isNode v := by cases v <;> rfl

theorem count_kids (l : List (Val F)) : count (l.map kidOf) = (l.filter isNode).length := by
  induction l with
  | nil => rfl
  | cons v l ih =>
    simp only [List.map_cons, count, ih, kidOf, fresh_eq, List.filter_cons]
    cases isNode v <;> simp [weight]; omega

theorem filter_kids (l : List (Val F)) : (l.map kidOf).filter Kid.isFresh = (l.filter isNode).map kidOf := by
  induction l with
  | nil => rfl
  | cons v l ih =>
    have hk : (kidOf v).isFresh = isNode v := fresh_eq v
    simp only [List.map_cons, List.filter_cons, ih, hk]
    cases isNode v <;> simp

theorem sizeL_eq (l : List (Val F)) : sizeL l = sizes (l.map kidOf) := by
  induction l with
  | nil => rfl
  | cons v l ih => simp only [sizeL, ih, List.map_cons, sizes, kidOf]

theorem sizeK_eq (l : List (Str × Val F)) : sizeK l = sizes ((l.map (·.2)).map kidOf) := by
  induction l with
  | nil => rfl
  | cons p l ih => obtain ⟨k, v⟩ := p; simp only [sizeK, ih, List.map_cons, sizes, kidOf]

theorem sizes_append (l l' : List Kid) : sizes (l ++ l') = sizes l + sizes l' := by
  induction l with
  | nil => simp [sizes]
  | cons k l ih => simp only [List.cons_append, sizes, ih]; omega

theorem size_merge (m : Str) (args : List (Val F)) (kwargs : List (Str × Val F)) :
    size (.merge m args kwargs : Val F) = 1 + sizes ((args ++ kwargs.map (·.2)).map kidOf) := by
  rw [size, sizeL_eq, sizeK_eq, List.map_append, sizes_append]; omega

theorem heightL_le {l : List (Val F)} {v : Val F} (h : v ∈ l) : height v ≤ heightL l := by
  induction l with
  | nil => simp at h
  | cons w l ih =>
    simp only [heightL]
    rcases List.mem_cons.1 h with rfl | h
    · exact le_max_left _ _
    · exact (ih h).trans (le_max_right _ _)

theorem heightK_le {l : List (Str × Val F)} {v : Val F} (h : v ∈ l.map (·.2)) : height v ≤ heightK l := by
  induction l with
  | nil => simp at h
  | cons p l ih =>
    obtain ⟨k, w⟩ := p
    simp only [heightK]
    rcases List.mem_cons.1 h with rfl | h
    · exact le_max_left _ _
    · exact (ih h).trans (le_max_right _ _)

theorem height_arg {m : Str} {args : List (Val F)} {kwargs : List (Str × Val F)} {v : Val F} (h : v ∈ args ++ kwargs.map (·.2)) :
    height v + 1 ≤ height (.merge m args kwargs) := by
  simp only [height]
  rcases List.mem_append.1 h with h | h
  · have := heightL_le h; omega
  · have := heightK_le h; omega

theorem heightL_lub {l : List (Val F)} {b : ℕ} (h : ∀ v ∈ l, height v ≤ b) : heightL l ≤ b := by
  induction l with
  | nil => simp [heightL]
  | cons v l ih =>
    simp only [heightL]
    exact max_le (h v (by simp)) (ih fun x hx => h x (by simp [hx]))

theorem heightK_lub {l : List (Str × Val F)} {b : ℕ} (h : ∀ v ∈ l.map (·.2), height v ≤ b) : heightK l ≤ b := by
  induction l with
  | nil => simp [heightK]
  | cons p l ih =>
    obtain ⟨k, v⟩ := p
    simp only [heightK]
    exact max_le (h v (by simp)) (ih fun x hx => h x (by rw [List.map_cons]; exact List.mem_cons_of_mem _ hx))

theorem height_lub {m : Str} {args : List (Val F)} {kwargs : List (Str × Val F)} {b : ℕ} (h : ∀ v ∈ args ++ kwargs.map (·.2), height v ≤ b) :
    height (.merge m args kwargs : Val F) ≤ b + 1 := by
  have h1 := heightL_lub (l := args) (b := b) fun v hv => h v (List.mem_append_left _ hv)
  have h2 := heightK_lub (l := kwargs) (b := b) fun v hv => h v (List.mem_append_right _ hv)
  simp only [height]; omega

theorem bound_merge (m : Str) (args : List (Val F)) (kwargs : List (Str × Val F)) : bound (.merge m args kwargs : Val F) =
    max (stack (sortKids ((args ++ kwargs.map (·.2)).map kidOf))) ((inputs args kwargs).length + 1) := by
  rw [bound, kids_eq, count_perm (sortKids_perm _), count_kids]
  rfl

/-! ### Bounds -/

structure GoodKid (K : ℕ) (k : Kid) : Prop where
  lit : k.isFresh = false → k.bound = 0 ∧ k.height = 0
  pos : k.isFresh = true → 1 ≤ k.height
  le : k.height ≤ k.size
  one : 1 ≤ k.size
  deep : k.bound ≤ K * (k.height - 1) + 2
  root : (k.bound - 2) * (k.bound - 2) ≤ 2 * K * k.size

theorem stack_deep {K H : ℕ} : ∀ {l : List Kid}, (∀ k ∈ l, GoodKid K k) → (∀ k ∈ l, k.height ≤ H) →
    stack l ≤ if count l = 0 then 0 else (count l - 1) + (K * (H - 1) + 2)
  | [], _, _ => by simp [stack, count]
  | k :: l, hg, hh => by
    have ih := stack_deep (l := l) (fun x hx => hg x (by simp [hx])) fun x hx => hh x (by simp [hx])
    have g := hg k (by simp)
    by_cases hf : k.isFresh = true
    swap
    · have hw : weight k.isFresh = 0 := by simp [weight, hf]
      have e1 : stack (k :: l) = stack l := by rw [stack, hw, (g.lit (by simpa using hf)).1, Nat.zero_add, Nat.zero_max]
      have e2 : count (k :: l) = count l := by rw [count, hw, Nat.zero_add]
      rw [e1, e2]
      exact ih
    · have hw : weight k.isFresh = 1 := by simp [weight, hf]
      have e1 : stack (k :: l) = max k.bound (1 + stack l) := by rw [stack, hw]
      have e2 : count (k :: l) = 1 + count l := by rw [count, hw]
      rw [e1, e2]
      have h1 : k.bound ≤ K * (H - 1) + 2 := g.deep.trans (by
        have : K * (k.height - 1) ≤ K * (H - 1) := Nat.mul_le_mul_left _ (by have := hh k (by simp); omega)
        omega)
      rw [if_neg (by omega)]
      by_cases hc : count l = 0
      · rw [if_pos hc] at ih; omega
      · rw [if_neg hc] at ih; omega

theorem root_arith {K q x h s0 sz : ℕ} (hq : q ≤ K) (hx : x ≤ K * h) (hr : x * x ≤ 2 * K * sz) (hs : q * (h + 1) ≤ s0) :
    (q + x) * (q + x) ≤ 2 * K * (s0 + sz) := by
  have h1 : q * q ≤ q * K := Nat.mul_le_mul_left _ hq
  have h2 : q * x ≤ q * (K * h) := Nat.mul_le_mul_left _ hx
  have h3 : K * (q * (h + 1)) ≤ K * s0 := Nat.mul_le_mul_left _ hs
  have h4 : K * (q * (h + 1)) = q * (K * h) + q * K := by ring
  have h5 : (q + x) * (q + x) = q * q + 2 * (q * x) + x * x := by ring
  have h6 : 2 * K * (s0 + sz) = 2 * (K * s0) + 2 * K * sz := by ring
  rw [h5, h6]
  omega

theorem stack_root {K : ℕ} : ∀ {l : List Kid} {q s0 : ℕ}, (∀ k ∈ l, GoodKid K k) → Sorted l → (∀ k ∈ l, q * k.height ≤ s0) → q ≤ s0 →
    q + count l ≤ K + 1 → (q + stack l - 2) * (q + stack l - 2) ≤ 2 * K * (s0 + sizes l)
  | [], q, s0, _, _, _, hqs, hq => by
    simp only [stack, sizes, Nat.add_zero, count] at hq ⊢
    have h1 : (q - 2) * (q - 2) ≤ K * s0 := Nat.mul_le_mul (by omega) (by omega)
    have h2 : 2 * K * s0 = 2 * (K * s0) := by ring
    omega
  | k :: l, q, s0, hg, hs, hh, hqs, hq => by
    have g := hg k (by simp)
    unfold Sorted at hs
    rw [List.pairwise_cons] at hs
    have mono : ∀ {a b : ℕ}, a ≤ b → a * a ≤ b * b := fun h => Nat.mul_le_mul h h
    cases hf : k.isFresh with
    | false =>
      have hb := (g.lit hf).1
      have ih := stack_root (l := l) (q := q) (s0 := s0 + k.size) (fun x hx => hg x (by simp [hx])) hs.2
        (fun x hx => (hh x (by simp [hx])).trans (by omega)) (by omega) (by simp only [count, hf, weight] at hq; simpa using hq)
      simp only [stack, sizes, hf, weight, hb, Bool.false_eq_true, if_false, Nat.zero_add, Nat.zero_max]
      rwa [← Nat.add_assoc]
    | true =>
      have hp := g.pos hf
      simp only [count, hf, weight, if_true] at hq
      have ih := stack_root (l := l) (q := q + 1) (s0 := s0 + k.size) (fun x hx => hg x (by simp [hx])) hs.2
        (fun x hx => by
          have h1 := hh x (by simp [hx])
          have h2 := hs.1 x hx
          have h3 := g.le
          have : (q + 1) * x.height = q * x.height + x.height := by ring
          omega) (by have := g.one; omega) (by omega)
      simp only [stack, sizes, hf, weight, if_true]
      rcases le_total k.bound (1 + stack l) with hm | hm
      · rw [max_eq_right hm, ← Nat.add_assoc, ← Nat.add_assoc]; exact ih
      · rw [max_eq_left hm]
        obtain ⟨h, hk⟩ : ∃ h, k.height = h + 1 := ⟨k.height - 1, by omega⟩
        have hd := g.deep
        have hr := g.root
        have hsz := hh k (by simp)
        rw [hk] at hd hsz
        have h1 := root_arith (K := K) (q := q) (x := k.bound - 2) (h := h) (s0 := s0) (sz := k.size) (by omega)
          (by rw [Nat.add_sub_cancel] at hd; omega) hr hsz
        have h2 : 2 * K * (s0 + k.size) ≤ 2 * K * (s0 + (k.size + sizes l)) := Nat.mul_le_mul_left _ (by omega)
        exact ((mono (by omega)).trans h1).trans h2

theorem size_pos (v : Val F) : 1 ≤ size v := by
  cases v <;> simp only [size] <;> omega

theorem sizes_ge {l : List Kid} {k : Kid} (h : k ∈ l) : k.size ≤ sizes l := by
  induction l with
  | nil => simp at h
  | cons a l ih =>
    simp only [sizes]
    rcases List.mem_cons.1 h with rfl | h
    · omega
    · have := ih h; omega

theorem count_le_sizes {K : ℕ} {l : List Kid} (h : ∀ k ∈ l, GoodKid K k) : count l ≤ sizes l := by
  induction l with
  | nil => exact le_rfl
  | cons a l ih =>
    simp only [count, sizes]
    have h1 := ih fun x hx => h x (by simp [hx])
    have h2 := (h a (by simp)).one
    unfold weight
    split_ifs <;> omega

theorem good_merge {K : ℕ} {m : Str} {args : List (Val F)} {kwargs : List (Str × Val F)} (hk : (inputs args kwargs).length ≤ K + 1)
    (hl : ∀ v ∈ args, GoodKid K (kidOf v)) (hr : ∀ p ∈ kwargs, GoodKid K (kidOf p.2)) : GoodKid K (kidOf (.merge m args kwargs : Val F)) := by
  obtain ⟨all, hall⟩ : ∃ all, all = args ++ kwargs.map (·.2) := ⟨_, rfl⟩
  obtain ⟨l, hl'⟩ : ∃ l, l = sortKids (all.map kidOf) := ⟨_, rfl⟩
  have hg0 : ∀ v ∈ all, GoodKid K (kidOf v) := by
    intro v hv
    rw [hall] at hv
    rcases List.mem_append.1 hv with h | h
    · exact hl v h
    · obtain ⟨p, hp, rfl⟩ := List.mem_map.1 h; exact hr p hp
  have hperm : l.Perm (all.map kidOf) := by rw [hl']; exact sortKids_perm _
  have hmem : ∀ k ∈ l, ∃ v ∈ all, kidOf v = k := fun k hk => List.mem_map.1 (hperm.subset hk)
  have hg : ∀ k ∈ l, GoodKid K k := by
    intro k hk
    obtain ⟨v, hv, rfl⟩ := hmem k hk
    exact hg0 v hv
  have hcount : count l = (inputs args kwargs).length := by rw [count_perm hperm, count_kids, hall]; rfl
  have hsz : size (.merge m args kwargs : Val F) = 1 + sizes l := by rw [size_merge, ← hall, sizes_perm hperm]
  have hb : bound (.merge m args kwargs : Val F) = max (stack l) (count l + 1) := by rw [bound_merge, hcount, hl', hall]
  obtain ⟨H, hH⟩ : ∃ H, height (.merge m args kwargs : Val F) = H + 1 := ⟨max (heightL args) (heightK kwargs), by rw [height]; omega⟩
  have hh : ∀ k ∈ l, k.height ≤ H := by
    intro k hk
    obtain ⟨v, hv, rfl⟩ := hmem k hk
    have := height_arg (m := m) (by rw [← hall]; exact hv)
    show height v ≤ H
    omega
  have hHle : H ≤ sizes l := by
    have hub : height (.merge m args kwargs : Val F) ≤ sizes l + 1 := height_lub fun v hv => by
      rw [← hall] at hv
      exact (hg0 v hv).le.trans (sizes_ge (hperm.symm.subset (List.mem_map_of_mem hv)))
    omega
  refine ⟨fun h => by simp [kidOf, fresh] at h, fun _ => ?_, ?_, ?_, ?_, ?_⟩
  · show 1 ≤ height _; omega
  · show height _ ≤ size _; omega
  · show 1 ≤ size _; omega
  · show bound _ ≤ K * (height _ - 1) + 2
    rw [hb, hH, Nat.add_sub_cancel]
    have h1 := stack_deep hg hh
    by_cases hc : count l = 0
    · rw [if_pos hc] at h1; omega
    · rw [if_neg hc] at h1
      have hH1 : 1 ≤ H := by
        have : ∃ k ∈ l, k.isFresh = true := by
          by_contra hno
          apply hc
          have : ∀ (l : List Kid), (∀ k ∈ l, ¬ k.isFresh = true) → count l = 0 := by
            intro l
            induction l with
            | nil => intro _; rfl
            | cons a l ih =>
              intro h
              have ha : a.isFresh = false := by simpa using h a (by simp)
              simp only [count, ha, ih fun x hx => h x (by simp [hx]), weight]; simp
          exact this l fun k hk hf => hno ⟨k, hk, hf⟩
        obtain ⟨k, hk, hf⟩ := this
        exact ((hg k hk).pos hf).trans (hh k hk)
      obtain ⟨H', rfl⟩ : ∃ H', H = H' + 1 := ⟨H - 1, by omega⟩
      rw [Nat.add_sub_cancel] at h1
      have e : K * (H' + 1) = K * H' + K := by ring
      omega
  · show (bound _ - 2) * (bound _ - 2) ≤ 2 * K * size _
    rw [hb, hsz]
    have h1 := stack_root (q := 0) (s0 := 0) hg (by rw [hl']; exact sortKids_sorted _) (by simp) le_rfl (by omega)
    simp only [Nat.zero_add] at h1
    have h2 : 2 * K * sizes l ≤ 2 * K * (1 + sizes l) := Nat.mul_le_mul_left _ (by omega)
    rcases le_total (stack l) (count l + 1) with hm | hm
    · rw [max_eq_right hm]
      have h3 := count_le_sizes hg
      have h4 : (count l + 1 - 2) * (count l + 1 - 2) ≤ K * sizes l := Nat.mul_le_mul (by omega) (by omega)
      have h5 : 2 * K * sizes l = 2 * (K * sizes l) := by ring
      omega
    · rw [max_eq_left hm]; exact h1.trans h2

theorem good_model (K : ℕ) (p : Str) (c s : Option Str) : GoodKid K (kidOf (.model p c s : Val F)) :=
  ⟨fun h => by simp [kidOf, fresh] at h, fun _ => by simp [kidOf, height], by simp [kidOf, height, size], by simp [kidOf, size],
    by simp [kidOf, bound, height], by simp [kidOf, bound]⟩

theorem good_lit (K : ℕ) {v : Val F} (h : isNode v = false) : GoodKid K (kidOf v) := by
  cases v with
  | model => simp [isNode] at h
  | merge => simp [isNode] at h
  | _ => exact ⟨fun _ => ⟨by simp [kidOf, bound], by simp [kidOf, height]⟩, fun h => by simp [kidOf, fresh] at h, by simp [kidOf, height],
      by simp [kidOf, size], by simp [kidOf, bound], by simp [kidOf, bound]⟩

mutual
theorem good (P : PWorld F T) {K : ℕ} : ∀ (v : Val F), Simple P (K + 1) v → GoodKid K (kidOf v)
  | .lit v c s, h => good_lit K rfl
  | .model p c s, h => good_model K p c s
  | .merge m args kwargs, h => by
    simp only [Simple] at h
    exact good_merge h.2.1 (goodL P args h.2.2.1) (goodK P kwargs h.2.2.2)
  | .str _, h => good_lit K rfl
  | .int _, h => good_lit K rfl
  | .float _, h => good_lit K rfl
  | .bool _, h => good_lit K rfl
  | .none, h => good_lit K rfl
  | .tensor _, h => good_lit K rfl
  | .dict _, h => good_lit K rfl
theorem goodL (P : PWorld F T) {K : ℕ} : ∀ (l : List (Val F)), SimpleL P (K + 1) l → ∀ v ∈ l, GoodKid K (kidOf v)
  | [], h => by simp
  | v :: l, h => by
    simp only [SimpleL] at h
    intro x hx
    rcases List.mem_cons.1 hx with hx | hx
    · rw [hx]; exact good P v h.1
    · exact goodL P l h.2 x hx
theorem goodK (P : PWorld F T) {K : ℕ} : ∀ (l : List (Str × Val F)), SimpleK P (K + 1) l → ∀ p ∈ l, GoodKid K (kidOf p.2)
  | [], h => by simp
  | (k, v) :: l, h => by
    simp only [SimpleK] at h
    intro x hx
    rcases List.mem_cons.1 hx with hx | hx
    · rw [hx]; exact good P v h.1
    · exact goodK P l h.2 x hx
end

/-! ### Chains -/

theorem stack_filter {K : ℕ} {l : List Kid} (h : ∀ k ∈ l, GoodKid K k) : stack l = stack (l.filter Kid.isFresh) := by
  induction l with
  | nil => rfl
  | cons k l ih =>
    have ih' := ih fun x hx => h x (by simp [hx])
    cases hf : k.isFresh with
    | true => simp only [stack, List.filter_cons, hf, if_true, ih']
    | false =>
      have := ((h k (by simp)).lit hf).1
      simp only [stack, List.filter_cons, hf, Bool.false_eq_true, if_false, this, weight, Nat.zero_add, Nat.zero_max, ih']

theorem stack_le {B : ℕ} {l : List Kid} (h : ∀ k ∈ l, k.bound ≤ B) (hB : 1 ≤ B) : stack l ≤ (l.length - 1) + B := by
  induction l with
  | nil => simp [stack]
  | cons k l ih =>
    have ih' := ih fun x hx => h x (by simp [hx])
    have hk := h k (by simp)
    simp only [stack, List.length_cons]
    have hw : weight k.isFresh ≤ 1 := by unfold weight; split_ifs <;> omega
    cases l with
    | nil => simp only [stack, List.length_nil] at ih' ⊢; omega
    | cons d l => simp only [List.length_cons] at ih' ⊢; omega

theorem fresh_inputs (args : List (Val F)) (kwargs : List (Str × Val F)) :
    ((sortKids ((args ++ kwargs.map (·.2)).map kidOf)).filter Kid.isFresh).Perm ((inputs args kwargs).map kidOf) := by
  have := (sortKids_perm ((args ++ kwargs.map (·.2)).map kidOf)).filter Kid.isFresh
  rwa [filter_kids] at this

theorem lit_height {v : Val F} (h : isNode v = false) : height v = 0 := by cases v <;> simp_all [isNode, height]

theorem lit_bound {v : Val F} (h : isNode v = false) : bound v = 0 := by cases v <;> simp_all [isNode, bound]

theorem stack_filter' : ∀ (l : List Kid), (∀ k ∈ l, k.isFresh = false → k.bound = 0) → stack l = stack (l.filter Kid.isFresh) := by
  intro l
  induction l with
  | nil => intro _; rfl
  | cons k l ih =>
    intro h
    have ih' := ih fun x hx => h x (by simp [hx])
    cases hf : k.isFresh with
    | true => simp only [stack, List.filter_cons, hf, if_true, ih']
    | false => simp only [stack, List.filter_cons, hf, Bool.false_eq_true, if_false, h k (by simp) hf, weight, Nat.zero_add, Nat.zero_max, ih']

theorem lits_zero (args : List (Val F)) (kwargs : List (Str × Val F)) :
    ∀ k ∈ sortKids ((args ++ kwargs.map (·.2)).map kidOf), k.isFresh = false → k.bound = 0 := by
  intro k hk hkf
  obtain ⟨v, hv, rfl⟩ := List.mem_map.1 ((sortKids_perm _).subset hk)
  exact lit_bound (by rw [← fresh_eq]; exact hkf)

theorem side_small {v : Val F} (h : Side v) : bound v ≤ 2 ∧ height v ≤ 2 := by
  cases h with
  | model p c s => simp [bound, height]
  | number m args kwargs h =>
    constructor
    · rw [bound_merge, h]
      have hp := fresh_inputs args kwargs
      rw [h] at hp
      rw [stack_filter' _ (lits_zero args kwargs), List.Perm.eq_nil hp]
      simp [stack]
    · have : height (.merge m args kwargs : Val F) ≤ 0 + 1 := by
        apply height_lub
        intro v hv
        by_cases hn : isNode v = true
        · have : v ∈ inputs args kwargs := List.mem_filter.2 ⟨hv, hn⟩
          rw [h] at this
          simp at this
        · rw [lit_height (by simpa using hn)]
      omega
  | cast m args kwargs p c s h =>
    constructor
    · rw [bound_merge, h]
      have hp := fresh_inputs args kwargs
      rw [h] at hp
      have hf : (sortKids ((args ++ kwargs.map (·.2)).map kidOf)).filter Kid.isFresh = [kidOf (.model p c s)] := List.perm_singleton.1 hp
      rw [stack_filter' _ (lits_zero args kwargs), hf]
      simp [stack, kidOf, bound, weight, fresh]
    · apply height_lub
      intro v hv
      by_cases hn : isNode v = true
      · have : v ∈ inputs args kwargs := List.mem_filter.2 ⟨hv, hn⟩
        rw [h] at this
        simp only [List.mem_singleton] at this
        rw [this, height]
      · rw [lit_height (by simpa using hn)]; omega

theorem Spec.SimpleL.mem {P : PWorld F T} {k : ℕ} : ∀ {l : List (Val F)}, SimpleL P k l → ∀ v ∈ l, Simple P k v
  | [], _, v, hv => by simp at hv
  | w :: l, h, v, hv => by
    simp only [SimpleL] at h
    rcases List.mem_cons.1 hv with rfl | hv
    · exact h.1
    · exact Spec.SimpleL.mem h.2 v hv

theorem Spec.SimpleK.mem {P : PWorld F T} {k : ℕ} : ∀ {l : List (Str × Val F)}, SimpleK P k l → ∀ v ∈ l.map (·.2), Simple P k v
  | [], _, v, hv => by simp at hv
  | (_, w) :: l, h, v, hv => by
    simp only [SimpleK] at h
    rcases List.mem_cons.1 hv with rfl | hv
    · exact h.1
    · exact Spec.SimpleK.mem h.2 v hv

theorem chain_bound (P : PWorld F T) {K : ℕ} {v : Val F} (hc : Chain v) : Simple P (K + 1) v → bound v ≤ 2 * (K + 1) := by
  induction hc with
  | side v h => intro _; have := (side_small h).1; omega
  | step m args kwargs before c after h hc hs ih =>
    intro hv
    have hgood := good P _ hv
    simp only [Simple] at hv
    have hmem : ∀ v ∈ inputs args kwargs, Simple P (K + 1) v := by
      intro v hv'
      rcases List.mem_append.1 (List.mem_filter.1 hv').1 with h | h
      · exact hv.2.2.1.mem v h
      · exact hv.2.2.2.mem v h
    have hcS := hmem c (by rw [h]; simp)
    have hlen : before.length + 1 + after.length ≤ K + 1 := by
      have := hv.2.1
      rw [h] at this
      simp only [List.length_append, List.length_cons] at this
      omega
    obtain ⟨l, hl⟩ : ∃ l, l = sortKids ((args ++ kwargs.map (·.2)).map kidOf) := ⟨_, rfl⟩
    have hg : ∀ k ∈ l, GoodKid K k := by
      intro k hk
      rw [hl] at hk
      obtain ⟨w, hw, rfl⟩ := List.mem_map.1 ((sortKids_perm _).subset hk)
      rcases List.mem_append.1 hw with h | h
      · exact good P w (hv.2.2.1.mem w h)
      · exact good P w (hv.2.2.2.mem w h)
    have hp : (l.filter Kid.isFresh).Perm ((before ++ c :: after).map kidOf) := by rw [hl, ← h]; exact fresh_inputs args kwargs
    have hsort : Sorted (l.filter Kid.isFresh) := by
      have : Sorted l := by rw [hl]; exact sortKids_sorted _
      exact List.Pairwise.filter _ this
    rw [bound_merge, h, ← hl, stack_filter hg]
    apply max_le
    · generalize hl' : l.filter Kid.isFresh = l' at hp hsort
      have hlen' : l'.length = before.length + 1 + after.length := by
        rw [hp.length_eq]; simp only [List.length_map, List.length_append, List.length_cons]; omega
      have hside : ∀ w ∈ before ++ after, (kidOf w).bound ≤ 2 ∧ (kidOf w).height ≤ 2 := fun w hw => side_small (hs w hw)
      by_cases hh : height c ≤ 2
      · have hb : ∀ k ∈ l', k.bound ≤ K + 2 := by
          intro k hk
          obtain ⟨w, hw, rfl⟩ := List.mem_map.1 (hp.subset hk)
          rw [List.mem_append, List.mem_cons] at hw
          by_cases hwc : w = c
          · subst hwc
            have h1 := (good P w hcS).deep
            have h2 : K * ((kidOf w).height - 1) ≤ K * 1 := Nat.mul_le_mul_left _ (by show height w - 1 ≤ 1; omega)
            omega
          · have h1 := (hside w (by rw [List.mem_append]; tauto)).1
            omega
        have := stack_le hb (by omega)
        omega
      · obtain ⟨u, w, huw⟩ := List.append_of_mem (hp.symm.subset (List.mem_map_of_mem (f := kidOf) (show c ∈ before ++ c :: after by simp)))
        rw [huw] at hp hsort hlen'
        have hp2 : (u ++ w).Perm ((before ++ after).map kidOf) := by
          have e1 : (kidOf c :: (u ++ w)).Perm (kidOf c :: (before ++ after).map kidOf) := by
            refine (List.perm_middle.symm.trans hp).trans ?_
            rw [List.map_append, List.map_cons, List.map_append]
            exact List.perm_middle
          exact e1.cons_inv
        have hu : u = [] := by
          cases u with
          | nil => rfl
          | cons a u =>
            exfalso
            obtain ⟨x, hx, hxa⟩ := List.mem_map.1 (hp2.subset (show a ∈ a :: u ++ w by simp))
            have h1 := (hside x hx).2
            rw [hxa] at h1
            unfold Sorted at hsort
            rw [List.cons_append, List.pairwise_cons] at hsort
            have h2 : height c ≤ a.height := hsort.1 (kidOf c) (by simp)
            omega
        subst hu
        rw [huw]
        simp only [List.nil_append] at hp2 hlen' ⊢
        have hb : ∀ k ∈ w, k.bound ≤ 2 := by
          intro k hk
          obtain ⟨x, hx, rfl⟩ := List.mem_map.1 (hp2.subset hk)
          exact (hside x hx).1
        have h1 := stack_le hb (by omega)
        have h2 : bound c ≤ 2 * (K + 1) := ih hcS
        have hw : weight (kidOf c).isFresh ≤ 1 := by unfold weight; split_ifs <;> omega
        simp only [List.length_cons] at hlen'
        simp only [stack]
        refine max_le h2 ?_
        cases w with
        | nil => simp only [stack]; omega
        | cons d w => simp only [List.length_cons] at h1 hlen'; omega
    · simp only [List.length_append, List.length_cons]; omega

end Verif.Held
