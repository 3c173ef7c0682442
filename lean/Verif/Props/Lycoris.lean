import Verif.Model.Lycoris
import Verif.Proofs.Text
import Mathlib.Algebra.BigOperators.Ring.Finset
import Mathlib.Algebra.BigOperators.Group.Finset.Sigma
import Mathlib.Algebra.Order.Ring.Unbundled.Rat
import Mathlib.Algebra.Field.Rat
import Mathlib.Tactic.Ring
import Mathlib.Tactic.NormNum

/-!
# LoRA

C58: the composed weight is what the two layers of the network do, one after the other.
C59: which keys a conversion reads.
-/
namespace Verif.Lycoris
open Text

/-! ## Specification -/

/-- What a layer does to an image (channel, row, column): a convolution; a linear layer acts on the channels. -/
def Weight.apply {K : Type} [Field K] (w : Weight K) (img : ℕ → ℕ → ℕ → K) (o y x : ℕ) : K :=
  ∑ i ∈ Finset.range w.inp, ∑ dy ∈ Finset.range w.kh, ∑ dx ∈ Finset.range w.kw, w.at' o i dy dx * img i (y + dy) (x + dx)

/-- `down` and `up` are the two layers of a module: `up` acts on channels only, and on as many as `down` gives. -/
structure Fit {K : Type} (down up : Weight K) : Prop where
  rank : up.inp = down.out
  kh : up.kh = 1
  kw : up.kw = 1
  linear : up.linear = down.linear
  axes : down.linear = true → down.kh = 1 ∧ down.kw = 1
  kernel : 0 < down.kh ∧ 0 < down.kw

/-- The name of the module of a key: dots become underscores, a last part `weight` is dropped. -/
def Spec.module (pre key : Text) : Text :=
  let stem := if key = key% "weight" then [] else if key% ".weight" <:+ key then key.take (key.length - 7) else key
  pre ++ key% "_" ++ stem.map fun c => if c = 46 then 95 else c

/-- The result of looking up a module: its three tensors, or one of their keys that is missing. -/
def Spec.Fetched {T : Type} (sd : Text → Option T) (m : Text) : Except Text (T × T × T) → Prop
  | .ok (alpha, down, up) => sd (m ++ key% ".alpha") = some alpha ∧ sd (m ++ key% ".lora_down.weight") = some down ∧ sd (m ++ key% ".lora_up.weight") = some up
  | .error k => sd k = none ∧ (k = m ++ key% ".alpha" ∨ k = m ++ key% ".lora_down.weight" ∨ k = m ++ key% ".lora_up.weight")

/-! ## C58 -/

variable {K : Type} [Field K]

/-- Whichever factor the scale is folded into, and for linear layers, 1×1 and larger convolutions alike: the result has the sizes of the
base layer and the entries of `alpha / rank * up @ down`. -/
theorem C58_compose (alpha : K) (down up : Weight K) (h : Fit down up) :
    ∃ w, compose alpha down up = some w ∧ w.linear = down.linear ∧ w.out = up.out ∧ w.inp = down.inp ∧ w.kh = down.kh ∧ w.kw = down.kw ∧
      ∀ o i y x, y < down.kh → x < down.kw →
        w.at' o i y x = alpha / (down.out : K) * ∑ r ∈ Finset.range down.out, up.at' o r 0 0 * down.at' r i y x := by
  obtain ⟨hr, hkh, hkw, hl, hax, hk⟩ := h
  have sum1 : ∀ (c : K) (f g : ℕ → K) (n : ℕ), ∑ r ∈ Finset.range n, f r * c * g r = c * ∑ r ∈ Finset.range n, f r * g r := by
    intro c f g n
    rw [Finset.mul_sum]
    exact Finset.sum_congr rfl fun r _ => by ring
  have sum2 : ∀ (c : K) (f g : ℕ → K) (n : ℕ), ∑ r ∈ Finset.range n, f r * (g r * c) = c * ∑ r ∈ Finset.range n, f r * g r := by
    intro c f g n
    rw [Finset.mul_sum]
    exact Finset.sum_congr rfl fun r _ => by ring
  have sum3 : ∀ (c : K) (f g : ℕ → K) (n : ℕ), ∑ r ∈ Finset.range n, f r * c * g r = c * ∑ r ∈ Finset.range n, g r * f r := by
    intro c f g n
    rw [Finset.mul_sum]
    exact Finset.sum_congr rfl fun r _ => by ring
  have sum4 : ∀ (c : K) (f g : ℕ → K) (n : ℕ), ∑ r ∈ Finset.range n, f r * (g r * c) = c * ∑ r ∈ Finset.range n, g r * f r := by
    intro c f g n
    rw [Finset.mul_sum]
    exact Finset.sum_congr rfl fun r _ => by ring
  unfold compose
  dsimp only
  rw [if_neg (by rw [hl]; simp)]
  by_cases hn : up.numel ≤ down.numel
  · rw [if_pos hn, if_pos hn]
    by_cases hlin : down.linear = true
    · obtain ⟨h1, h2⟩ := hax hlin
      rw [if_pos hlin]
      unfold Weight.matmul
      rw [if_pos (show (up.scale (alpha / (down.out : K))).inp = down.out from hr)]
      refine ⟨_, rfl, hlin.symm, rfl, rfl, h1.symm, h2.symm, ?_⟩
      intro o i y x hy hx
      obtain rfl : y = 0 := by omega
      obtain rfl : x = 0 := by omega
      show ∑ r ∈ Finset.range up.inp, up.at' o r 0 0 * (alpha / (down.out : K)) * down.at' r i 0 0 = _
      rw [sum1, hr]
    · rw [if_neg hlin]
      by_cases h1 : down.kh = 1 ∧ down.kw = 1
      · rw [if_pos h1, if_pos ⟨hkh, hkw⟩]
        unfold Weight.matmul
        rw [if_pos (show (up.scale (alpha / (down.out : K))).squeeze.inp = down.squeeze.out from hr)]
        refine ⟨_, rfl, (Bool.not_eq_true _ ▸ hlin : down.linear = false).symm, rfl, rfl, h1.1.symm, h1.2.symm, ?_⟩
        intro o i y x hy hx
        obtain rfl : y = 0 := by omega
        obtain rfl : x = 0 := by omega
        show ∑ r ∈ Finset.range up.inp, up.at' o r 0 0 * (alpha / (down.out : K)) * down.at' r i 0 0 = _
        rw [sum1, hr]
      · rw [if_neg h1]
        unfold Weight.conv2d
        rw [if_pos (show (up.scale (alpha / (down.out : K))).inp = down.permute.inp ∧ (up.scale (alpha / (down.out : K))).kh ≤ down.permute.kh ∧
          (up.scale (alpha / (down.out : K))).kw ≤ down.permute.kw ∧ 0 < (up.scale (alpha / (down.out : K))).kh ∧ 0 < (up.scale (alpha / (down.out : K))).kw from
          ⟨hr, by rw [show (up.scale (alpha / (down.out : K))).kh = 1 from hkh]; exact hk.1, by rw [show (up.scale (alpha / (down.out : K))).kw = 1 from hkw]; exact hk.2,
            by rw [show (up.scale (alpha / (down.out : K))).kh = 1 from hkh]; exact Nat.one_pos, by rw [show (up.scale (alpha / (down.out : K))).kw = 1 from hkw]; exact Nat.one_pos⟩)]
        refine ⟨_, rfl, (Bool.not_eq_true _ ▸ hlin : down.linear = false).symm, rfl, rfl, ?_, ?_, ?_⟩
        · show down.kh + 1 - up.kh = down.kh
          omega
        · show down.kw + 1 - up.kw = down.kw
          omega
        · intro o i y x _ _
          show ∑ r ∈ Finset.range up.inp, ∑ dy ∈ Finset.range up.kh, ∑ dx ∈ Finset.range up.kw,
            down.at' r i (y + dy) (x + dx) * (up.at' o r dy dx * (alpha / (down.out : K))) = _
          rw [hkh, hkw]
          simp only [Finset.sum_range_one, Nat.add_zero]
          rw [sum4 _ (fun r => down.at' r i y x) (fun r => up.at' o r 0 0), hr]
  · rw [if_neg hn, if_neg hn]
    by_cases hlin : down.linear = true
    · obtain ⟨h1, h2⟩ := hax hlin
      rw [if_pos (show (down.scale (alpha / (down.out : K))).linear = true from hlin)]
      unfold Weight.matmul
      rw [if_pos (show up.inp = (down.scale (alpha / (down.out : K))).out from hr)]
      refine ⟨_, rfl, hlin.symm, rfl, rfl, h1.symm, h2.symm, ?_⟩
      intro o i y x hy hx
      obtain rfl : y = 0 := by omega
      obtain rfl : x = 0 := by omega
      show ∑ r ∈ Finset.range up.inp, up.at' o r 0 0 * (down.at' r i 0 0 * (alpha / (down.out : K))) = _
      rw [sum2, hr]
    · rw [if_neg (show ¬ (down.scale (alpha / (down.out : K))).linear = true from hlin)]
      by_cases h1 : down.kh = 1 ∧ down.kw = 1
      · rw [if_pos (show (down.scale (alpha / (down.out : K))).kh = 1 ∧ (down.scale (alpha / (down.out : K))).kw = 1 from h1), if_pos ⟨hkh, hkw⟩]
        unfold Weight.matmul
        rw [if_pos (show up.squeeze.inp = (down.scale (alpha / (down.out : K))).squeeze.out from hr)]
        refine ⟨_, rfl, (Bool.not_eq_true _ ▸ hlin : down.linear = false).symm, rfl, rfl, h1.1.symm, h1.2.symm, ?_⟩
        intro o i y x hy hx
        obtain rfl : y = 0 := by omega
        obtain rfl : x = 0 := by omega
        show ∑ r ∈ Finset.range up.inp, up.at' o r 0 0 * (down.at' r i 0 0 * (alpha / (down.out : K))) = _
        rw [sum2, hr]
      · rw [if_neg (show ¬ ((down.scale (alpha / (down.out : K))).kh = 1 ∧ (down.scale (alpha / (down.out : K))).kw = 1) from h1)]
        unfold Weight.conv2d
        rw [if_pos (show up.inp = (down.scale (alpha / (down.out : K))).permute.inp ∧ up.kh ≤ (down.scale (alpha / (down.out : K))).permute.kh ∧
          up.kw ≤ (down.scale (alpha / (down.out : K))).permute.kw ∧ 0 < up.kh ∧ 0 < up.kw from
          ⟨hr, by rw [hkh]; exact hk.1, by rw [hkw]; exact hk.2, by omega, by omega⟩)]
        refine ⟨_, rfl, (Bool.not_eq_true _ ▸ hlin : down.linear = false).symm, rfl, rfl, ?_, ?_, ?_⟩
        · show down.kh + 1 - up.kh = down.kh
          omega
        · show down.kw + 1 - up.kw = down.kw
          omega
        · intro o i y x _ _
          show ∑ r ∈ Finset.range up.inp, ∑ dy ∈ Finset.range up.kh, ∑ dx ∈ Finset.range up.kw,
            down.at' r i (y + dy) (x + dx) * (alpha / (down.out : K)) * up.at' o r dy dx = _
          rw [hkh, hkw]
          simp only [Finset.sum_range_one, Nat.add_zero]
          rw [sum3 _ (fun r => down.at' r i y x) (fun r => up.at' o r 0 0), hr]

/-- Adding the composed weight to a layer adds, to what the layer does to any image, `alpha / rank` times what the two layers of the module
do one after the other. -/
theorem C58_network (alpha : K) (down up : Weight K) (h : Fit down up) (img : ℕ → ℕ → ℕ → K) (o y x : ℕ) :
    ∃ w, compose alpha down up = some w ∧ w.apply img o y x = alpha / (down.out : K) * up.apply (down.apply img) o y x := by
  obtain ⟨w, hw, -, -, hinp, hkh, hkw, hat⟩ := C58_compose alpha down up h
  refine ⟨w, hw, ?_⟩
  have hup : up.apply (down.apply img) o y x = ∑ r ∈ Finset.range down.out, up.at' o r 0 0 * down.apply img r y x := by
    unfold Weight.apply
    rw [h.rank, h.kh, h.kw]
    simp only [Finset.sum_range_one, Nat.add_zero]
  rw [hup]
  unfold Weight.apply
  rw [hinp, hkh, hkw]
  have e1 : ∀ i ∈ Finset.range down.inp, ∀ dy ∈ Finset.range down.kh, ∀ dx ∈ Finset.range down.kw,
      w.at' o i dy dx * img i (y + dy) (x + dx) =
      ∑ r ∈ Finset.range down.out, alpha / (down.out : K) * (up.at' o r 0 0 * (down.at' r i dy dx * img i (y + dy) (x + dx))) := by
    intro i _ dy hdy dx hdx
    rw [hat o i dy dx (Finset.mem_range.1 hdy) (Finset.mem_range.1 hdx), ← Finset.mul_sum, mul_assoc, Finset.sum_mul]
    exact congrArg _ (Finset.sum_congr rfl fun r _ => by ring)
  rw [Finset.sum_congr rfl fun i hi => Finset.sum_congr rfl fun dy hdy => Finset.sum_congr rfl fun dx hdx => e1 i hi dy hdy dx hdx]
  simp only [Finset.mul_sum]
  rw [Finset.sum_congr rfl fun i _ => Finset.sum_congr rfl fun dy _ => Finset.sum_comm]
  rw [Finset.sum_congr rfl fun i _ => Finset.sum_comm]
  rw [Finset.sum_comm]

/-- A 3×3 convolution of rank 1 whose scale is folded into `up` -/
example : Fit (K := ℚ) ⟨false, 1, 2, 3, 3, fun _ _ _ _ => 1⟩ ⟨false, 4, 1, 1, 1, fun _ _ _ _ => 2⟩ :=
  ⟨rfl, rfl, rfl, rfl, (fun h => by cases h), by decide⟩

/-! ## C59 -/

theorem join_underscores (parts : List Text) (h : ∀ p ∈ parts, 46 ∉ p) :
    join (key% "_") parts = (join (key% ".") parts).map fun c => if c = 46 then 95 else c := by
  have hp : ∀ p : Text, 46 ∉ p → p.map (fun c => if c = 46 then 95 else c) = p := by
    intro p hp
    induction p with
    | nil => rfl
    | cons c p ih =>
      rw [List.map_cons, ih (fun hc => hp (List.mem_cons_of_mem _ hc)), if_neg (fun hc : c = 46 => hp (hc ▸ List.mem_cons_self))]
  induction parts with
  | nil => rfl
  | cons p ps ih =>
    cases ps with
    | nil => exact (hp p (h p List.mem_cons_self)).symm
    | cons q qs =>
      rw [join, join, ih fun x hx => h x (List.mem_cons_of_mem _ hx), List.map_append, List.map_append, hp p (h p List.mem_cons_self)]
      rfl

theorem split_no_dot (s : Text) : ∀ p ∈ split s, 46 ∉ p := by
  induction s with
  | nil => simp [split, splitDots]
  | cons c s ih =>
    unfold split at ih ⊢
    rw [splitDots]
    by_cases h : c = 46
    · rw [if_pos h]
      intro p hp
      rcases List.mem_cons.1 hp with rfl | hp
      · simp
      · exact ih p hp
    · rw [if_neg h]
      intro p hp
      rcases List.mem_cons.1 hp with rfl | hp
      · intro hc
        rcases List.mem_cons.1 hc with hc | hc
        · exact h hc.symm
        · exact ih _ List.mem_cons_self hc
      · exact ih p (List.mem_cons_of_mem _ hp)

theorem split_append (x y : Text) : split (x ++ 46 :: y) = split x ++ split y := by
  induction x with
  | nil => rfl
  | cons c x ih =>
    unfold split at ih ⊢
    rw [List.cons_append, splitDots, splitDots]
    by_cases h : c = 46
    · rw [if_pos h, if_pos h]
      show [] :: ((splitDots (x ++ 46 :: y)).1 :: (splitDots (x ++ 46 :: y)).2) = _
      rw [ih]
      rfl
    · rw [if_neg h, if_neg h]
      have h1 := (List.cons.inj ih).1
      have h2 := (List.cons.inj ih).2
      dsimp only
      rw [h1, h2]
      rfl

theorem join_snoc (sep : Text) (ps : List Text) (q : Text) : join sep (ps ++ [q]) = if ps = [] then q else join sep ps ++ sep ++ q := by
  induction ps with
  | nil => rfl
  | cons p ps ih =>
    cases ps with
    | nil => rfl
    | cons p' ps =>
      rw [if_neg (List.cons_ne_nil _ _)]
      show p ++ sep ++ join sep ((p' :: ps) ++ [q]) = _
      rw [ih, if_neg (List.cons_ne_nil _ _)]
      show _ = p ++ sep ++ join sep (p' :: ps) ++ sep ++ q
      simp only [List.append_assoc]

/-- The name of a module, in terms of the characters of the key -/
theorem moduleName_eq (pre key : Text) : moduleName pre key true = if endsWith (key% "bias") key then none else some (Spec.module pre key) := by
  unfold moduleName
  rw [Bool.not_true, Bool.or_false]
  by_cases hb : endsWith (key% "bias") key = true
  · rw [if_pos hb, if_pos hb]
  · rw [if_neg hb, if_neg hb]
    dsimp only [Spec.module]
    congr 2
    by_cases hw : (split key).getLast? = some (key% "weight")
    · rw [if_pos hw]
      have hs : split key = (split key).dropLast ++ [key% "weight"] := by
        have := List.dropLast_append_getLast? (l := split key) (key% "weight") (by rw [hw]; rfl)
        exact this.symm
      rw [join_underscores _ fun p hp => split_no_dot key p (List.mem_of_mem_dropLast hp)]
      congr 1
      have hj := Fast.join_split key
      rw [hs, join_snoc] at hj
      by_cases hn : (split key).dropLast = []
      · rw [if_pos hn] at hj
        rw [if_pos hj.symm, hn]
        rfl
      · rw [if_neg hn, List.append_assoc] at hj
        have hlen : key.length = (join (key% ".") (split key).dropLast).length + 7 := by
          conv_lhs => rw [← hj]
          rw [List.length_append]
          rfl
        rw [if_neg (fun h => by rw [h] at hlen; simp at hlen), if_pos ⟨_, hj⟩]
        rw [hlen, Nat.add_sub_cancel]
        exact (List.take_left' rfl (l₂ := key% "." ++ key% "weight")).symm.trans (congrArg _ hj)
    · rw [if_neg hw]
      rw [join_underscores _ (split_no_dot key), Fast.join_split]
      congr 1
      have h1 : key ≠ key% "weight" := by
        rintro rfl
        exact hw rfl
      have h2 : ¬ key% ".weight" <:+ key := by
        rintro ⟨x, rfl⟩
        apply hw
        show (split (x ++ 46 :: key% "weight")).getLast? = _
        rw [split_append, List.getLast?_append]
        rfl
      rw [if_neg h1, if_neg h2]

theorem toKeys_one (pre key m : Text) (h : moduleName pre key true = some m) :
    toKeys pre [(key, true)] = [m ++ key% "." ++ key% "lora_up.weight", m ++ key% "." ++ key% "lora_down.weight", m ++ key% "." ++ key% "alpha"] := by
  unfold toKeys
  rw [List.flatMap_cons, List.flatMap_nil, List.append_nil]
  dsimp only
  rw [h]
  simp [suffixes]

theorem toKeys_none (pre key : Text) (h : moduleName pre key true = none) : toKeys pre [(key, true)] = [] := by
  unfold toKeys
  rw [List.flatMap_cons, List.flatMap_nil, List.append_nil]
  dsimp only
  rw [h]
  rfl

theorem split_head (m : Text) (h : 46 ∉ m) (r : Text) : (split (m ++ key% "." ++ r)).headD [] = m := by
  rw [List.append_assoc]
  show (split (m ++ 46 :: r)).headD [] = m
  rw [split_append]
  have : split m = [m] := by
    induction m with
    | nil => rfl
    | cons c m ih =>
      have := ih fun hc => h (List.mem_cons_of_mem _ hc)
      unfold split at this ⊢
      rw [splitDots, if_neg (fun hc : c = 46 => h (hc ▸ List.mem_cons_self))]
      have h1 := (List.cons.inj this).1
      have h2 := (List.cons.inj this).2
      dsimp only
      rw [h1, h2]
  rw [this]
  rfl

theorem module_no_dot (pre key : Text) (hp : 46 ∉ pre) : 46 ∉ Spec.module pre key := by
  unfold Spec.module
  intro h
  rcases List.mem_append.1 h with h | h
  · rcases List.mem_append.1 h with h | h
    · exact hp h
    · simp at h
  · obtain ⟨c, _, hc⟩ := List.mem_map.1 h
    split at hc
    · cases hc
    · exact absurd hc ‹_›

/-- What a conversion fetches is given by the prefix of the config the variable holds last. -/
theorem fetched_eq {T : Type} (s : State) (c : Config) (hc : s.lycoConfig = some c) (hp : 46 ∉ c.pre) (v : Converter) (sd : Text → Option T) (key : Text) :
    fetched s v sd key = if endsWith (key% "bias") key then .error key else fetch sd (Spec.module c.pre key) := by
  unfold fetched
  rw [hc]
  dsimp only
  have hm := moduleName_eq c.pre key
  by_cases hb : endsWith (key% "bias") key = true
  · rw [if_pos hb] at hm ⊢
    rw [toKeys_none _ _ hm]
  · rw [if_neg hb] at hm ⊢
    rw [toKeys_one _ _ _ hm]
    dsimp only
    rw [split_head _ (module_no_dot _ _ hp)]

/-- The variable holds the last config, and every config has a conversion to its base. -/
theorem fetch_fetched {T : Type} (sd : Text → Option T) (m : Text) : Spec.Fetched sd m (fetch sd m) := by
  unfold fetch
  simp only [List.append_assoc, List.cons_append, List.nil_append]
  cases h1 : sd (m ++ key% ".alpha") with
  | none => exact ⟨h1, .inl rfl⟩
  | some a =>
    cases h2 : sd (m ++ key% ".lora_down.weight") with
    | none => exact ⟨h2, .inr (.inl rfl)⟩
    | some d =>
      cases h3 : sd (m ++ key% ".lora_up.weight") with
      | none => exact ⟨h3, .inr (.inr rfl)⟩
      | some u => exact ⟨h1, h2, h3⟩

theorem register_state (bases : List Text) (cs : List Config) (s₀ s : State) (h : cs.foldlM (step bases) s₀ = some s) :
    s.lycoConfig = (cs.getLast?.or s₀.lycoConfig) ∧ s.converters = s₀.converters ++ cs.map fun c => ⟨c.identifier, c.base⟩ := by
  induction cs generalizing s₀ with
  | nil =>
    obtain rfl := Option.some.inj h
    simp
  | cons c cs ih =>
    rw [List.foldlM_cons] at h
    unfold step at h
    split at h
    · cases h
    · obtain ⟨h1, h2⟩ := ih _ h
      rw [h1, h2]
      cases hl : cs.getLast? with
      | none => simp [List.getLast?_eq_none_iff.1 hl]
      | some d => simp [List.getLast?_cons, hl]

theorem last_config (bases : List Text) (b : Text) (hb : bases.getLast? = some b) :
    (bases.flatMap configsOf).getLast? = some ⟨b, key% "kohya", key% "lora"⟩ := by
  have hs : bases = bases.dropLast ++ [b] := (List.dropLast_append_getLast? (l := bases) b (by rw [hb]; rfl)).symm
  rw [hs, List.flatMap_append, List.getLast?_append]
  rfl

/-- Every base config gets two conversions, and every conversion, of whichever config, fetches the tensors of the module named with the
prefix `lora`; keys that end in `bias` have none. -/
theorem C59_reads (bases : List Text) (hb : bases ≠ []) (s : State) (hs : register bases = some s) :
    (∀ b ∈ bases, ⟨b ++ key% "_lycoris_lora", b⟩ ∈ s.converters ∧ ⟨b ++ key% "_kohya_lora", b⟩ ∈ s.converters) ∧
    ∀ v ∈ s.converters, ∀ (T : Type) (sd : Text → Option T) (key : Text),
      if key% "bias" <:+ key then fetched s v sd key = .error key else Spec.Fetched sd (Spec.module (key% "lora") key) (fetched s v sd key) := by
  obtain ⟨h1, h2⟩ := register_state bases _ _ _ hs
  constructor
  · intro b hbm
    rw [h2]
    have hm : ∀ c ∈ configsOf b, (⟨c.identifier, c.base⟩ : Converter) ∈ (bases.flatMap configsOf).map fun c => ⟨c.identifier, c.base⟩ := fun c hc =>
      List.mem_map_of_mem (List.mem_flatMap.2 ⟨b, hbm, hc⟩)
    refine ⟨?_, ?_⟩
    · have := hm ⟨b, key% "lycoris", key% "lycoris"⟩ (by simp [configsOf])
      simpa [Config.identifier] using this
    · have := hm ⟨b, key% "kohya", key% "lora"⟩ (by simp [configsOf])
      simpa [Config.identifier] using this
  · intro v _ T sd key
    have hl := last_config bases (bases.getLast hb) (List.getLast?_eq_getLast_of_ne_nil hb)
    rw [hl] at h1
    rw [fetched_eq s _ h1 (show 46 ∉ key% "lora" by decide) v sd key]
    simp only [← endsWith_iff]
    by_cases h : endsWith (key% "bias") key = true
    · rw [if_pos h, if_pos h]
    · rw [if_neg h, if_neg h]
      exact fetch_fetched _ _

/-- Partial: the conversion of a model in the layout of kohya fetches the tensors with the prefix of that layout. -/
theorem C59_kohya_partial (bases : List Text) (s : State) (hs : register bases = some s) (b : Text) (hb : b ∈ bases) (T : Type) (sd : Text → Option T) (key : Text)
    (hk : ¬ key% "bias" <:+ key) : ∃ v ∈ s.converters, v.source = b ++ key% "_kohya_lora" ∧ v.target = b ∧ Spec.Fetched sd (Spec.module (key% "lora") key) (fetched s v sd key) := by
  obtain ⟨h1, h2⟩ := C59_reads bases (List.ne_nil_of_mem hb) s hs
  refine ⟨_, (h1 b hb).2, rfl, rfl, ?_⟩
  have h := h2 _ (h1 b hb).2 T sd key
  rw [if_neg hk] at h
  exact h

/-- False of models with the prefix `lycoris`: all their keys start with it, and the conversion finds a tensor for no key of the base. -/
theorem C59_lycoris_false (bases : List Text) (s : State) (hs : register bases = some s) (b : Text) (hb : b ∈ bases) :
    ∃ v ∈ s.converters, v.source = b ++ key% "_lycoris_lora" ∧ v.target = b ∧
      ∀ (T : Type) (sd : Text → Option T), (∀ k, sd k ≠ none → key% "lycoris_" <+: k) → ∀ key, ∃ missing, fetched s v sd key = .error missing := by
  obtain ⟨h1, h2⟩ := C59_reads bases (List.ne_nil_of_mem hb) s hs
  refine ⟨_, (h1 b hb).1, rfl, rfl, ?_⟩
  intro T sd hsd key
  have h := h2 _ (h1 b hb).1 T sd key
  have hnone : ∀ r, sd (Spec.module (key% "lora") key ++ r) = none := fun r => by
    by_contra hne
    obtain ⟨r', hr⟩ := hsd _ hne
    have := congrArg (fun l : Text => l.drop 1 |>.head?) hr
    simp [Spec.module] at this
  split at h
  · exact ⟨_, h⟩
  · cases hr : fetched s ⟨b ++ key% "_lycoris_lora", b⟩ sd key with
    | error k => exact ⟨k, rfl⟩
    | ok x =>
      rw [hr] at h
      obtain ⟨a, d, u⟩ := x
      have h1 := h.1
      rw [hnone] at h1
      cases h1

/-- Registration succeeds for base configs whose names do not clash with those of the others' LoRA configs. -/
example : (register [key% "sd1-ldm", key% "sdxl-sgm"]).isSome = true := by decide

/-- The module of a layer of the U-Net, and of a key without `weight` -/
example : Spec.module (key% "lora") (key% "unet.conv_in.weight") = key% "lora_unet_conv_in" ∧
    Spec.module (key% "lora") (key% "te.logit_scale") = key% "lora_te_logit_scale" := by decide

end Verif.Lycoris
