import Verif.Proofs.HeldBound
import Verif.Proofs.BlocksCast
import Verif.Proofs.ByName

/-!
# How many results are held: the recipe that `merge` evaluates
-/
namespace Verif.Held
open Method Recipe Config Eval Program Whole Held.Spec
variable {F T : Type}

/-- A literal, or something small -/
def Small (v : Val F) : Prop := Side v ∨ isNode v = false

theorem small_filter {l : List (Val F)} (h : ∀ v ∈ l, Small v) : ∀ v ∈ l.filter isNode, Side v := by
  intro v hv
  obtain ⟨h1, h2⟩ := List.mem_filter.1 hv
  rcases h v h1 with hs | hs
  · exact hs
  · rw [hs] at h2; cases h2

theorem chain_pos (m : Str) {before after : List (Val F)} {c : Val F} {kwargs : List (Str × Val F)} (hc : Chain c) (hn : isNode c = true)
    (h : ∀ v ∈ before ++ after, Small v) (hk : ∀ p ∈ kwargs, Small p.2) : Chain (.merge m (before ++ c :: after) kwargs) := by
  refine .step m _ _ (before.filter isNode) c (after.filter isNode ++ (kwargs.map (·.2)).filter isNode) ?_ hc ?_
  · unfold inputs
    rw [List.filter_append, List.filter_append, List.filter_cons, if_pos hn, List.append_assoc, List.cons_append]
  · rw [← List.filter_append, ← List.filter_append]
    apply small_filter
    intro v hv
    rcases List.mem_append.1 hv with h1 | h1
    · exact h v (List.mem_append_left _ h1)
    · rcases List.mem_append.1 h1 with h2 | h2
      · exact h v (List.mem_append_right _ h2)
      · obtain ⟨p, hp, rfl⟩ := List.mem_map.1 h2; exact hk p hp

theorem chain_name (m : Str) {args : List (Val F)} {before after : List (Str × Val F)} {k : Str} {c : Val F} (hc : Chain c) (hn : isNode c = true)
    (h : ∀ v ∈ args, Small v) (hk : ∀ p ∈ before ++ after, Small p.2) : Chain (.merge m args (before ++ (k, c) :: after)) := by
  refine .step m _ _ ((args ++ before.map (·.2)).filter isNode) c ((after.map (·.2)).filter isNode) ?_ hc ?_
  · unfold inputs
    rw [List.map_append, List.map_cons, ← List.append_assoc, List.filter_append, List.filter_cons, if_pos hn]
  · rw [← List.filter_append]
    apply small_filter
    intro v hv
    rcases List.mem_append.1 hv with h1 | h1
    · rcases List.mem_append.1 h1 with h2 | h2
      · exact h v h2
      · obtain ⟨p, hp, rfl⟩ := List.mem_map.1 h2; exact hk p (List.mem_append_left _ hp)
    · obtain ⟨p, hp, rfl⟩ := List.mem_map.1 h1; exact hk p (List.mem_append_right _ hp)

theorem leaf_small {v : Val F} (h : isLeaf v) : Small v := by
  cases v with
  | model p c s => exact .inl (.model p c s)
  | lit v c s => exact .inr rfl
  | _ => exact absurd h (by simp [isLeaf])

theorem accumulates_node {v : Val F} (h : Accumulates v) : isNode v = true := by cases h <;> rfl

theorem accumulates_chain {v : Val F} (h : Accumulates v) : Chain v := by
  induction h with
  | model p c s => exact .side _ (.model p c s)
  | pos m before c after kwargs hc h1 h2 ih =>
    exact chain_pos m ih (accumulates_node hc) (fun v hv => leaf_small (h1 v hv)) fun p hp => leaf_small (h2 p hp)
  | name m args before k c after hc h1 h2 ih =>
    exact chain_name m ih (accumulates_node hc) (fun v hv => leaf_small (h1 v hv)) fun p hp => leaf_small (h2 p hp)

/-! ### Casting -/

theorem split_forall₂ {A B : Type} {R : A → B → Prop} {c : A} {b : List A} : ∀ {a : List A} {l : List B}, List.Forall₂ R (a ++ c :: b) l →
    ∃ a' c' b', l = a' ++ c' :: b' ∧ List.Forall₂ R a a' ∧ R c c' ∧ List.Forall₂ R b b'
  | [], _, .cons h hl => ⟨[], _, _, rfl, .nil, h, hl⟩
  | _ :: _, _, .cons h hl => by
    obtain ⟨a', c', b', rfl, h1, h2, h3⟩ := split_forall₂ hl
    exact ⟨_ :: a', c', b', rfl, .cons h h1, h2, h3⟩

theorem forall₂_mem {A B : Type} {R : A → B → Prop} {l : List A} {l' : List B} (h : List.Forall₂ R l l') : ∀ b ∈ l', ∃ a ∈ l, R a b := by
  induction h with
  | nil => simp
  | cons h _ ih =>
    intro b hb
    rcases List.mem_cons.1 hb with rfl | hb
    · exact ⟨_, by simp, h⟩
    · obtain ⟨a, ha, hr⟩ := ih b hb
      exact ⟨a, by simp [ha], hr⟩

theorem flat_opt (o : Option Str) (c : Option Str) (s : Str) : Flat (.lit (optVal o) c s : Val F) := by
  cases o <;> simp [optVal, Flat, isNode]

theorem cast_inputs (a : Val F) (d t : Option Str) : ∃ m args kwargs, castNode a d t = .merge m args kwargs ∧ inputs args kwargs = [a].filter isNode := by
  refine ⟨_, _, _, rfl, ?_⟩
  have h1 : ∀ (v : Val F) c s, isNode (.lit v c s) = false := fun _ _ _ => rfl
  unfold inputs
  rw [List.map_nil, List.append_nil, List.filter_cons, List.filter_cons, List.filter_cons, h1, h1, List.filter_cons]
  rfl

theorem simple_castNode {P : PWorld F T} {move} (hP : Registered P move) {K : ℕ} {a : Val F} (h : Simple P (K + 1) a) (d t : Option Str) :
    Simple P (K + 1) (castNode a d t) := by
  have hlit : ∀ o, Simple P (K + 1) (.lit (optVal o) none paramSpace) := fun o => by
    have := flat_opt (F := F) o none paramSpace
    simpa only [Simple] using this
  have hin : (inputs [a, .lit (optVal d) none paramSpace, .lit (optVal t) none paramSpace] []).length ≤ 1 := by
    have h1 : ∀ (v : Val F) c s, isNode (.lit v c s) = false := fun _ _ _ => rfl
    unfold inputs
    rw [List.map_nil, List.append_nil, List.filter_cons, List.filter_cons, List.filter_cons, h1, h1]
    cases isNode a <;> simp
  unfold castNode
  rw [Simple, SimpleL, SimpleL, SimpleL, SimpleL, SimpleK]
  · refine ⟨?_, ?_, ⟨h, hlit _, hlit _, trivial⟩, trivial⟩
    · intro i ty hi
      rw [hP.cast] at hi
      have e : ((castSource move : Source F T).types.asDict (some [a, .lit (optVal d) none paramSpace, .lit (optVal t) none paramSpace].length)) =
          [(.pos 0, .val .tensor), (.pos 1, .val .str), (.pos 2, .val .str)] := rfl
      rw [e] at hi
      simp only [Dict.get?] at hi
      split_ifs at hi <;> cases hi
    · exact hin.trans (by omega)

theorem size_castNode (a : Val F) (d t : Option Str) : size (castNode a d t) = size a + 3 := by
  unfold castNode
  simp only [size, sizeL, sizeK]
  omega

theorem node_castNode (a : Val F) (d t : Option Str) : isNode (castNode a d t) = true := rfl

theorem leaf_cast {P : PWorld F T} {move} (hP : Registered P move) {K : ℕ} {d t : Option Str} {v r : Val F} (hl : isLeaf v) (hf : Flat v)
    (h : castInputs P.env d t v = .ok r) : Simple P (K + 1) r ∧ size r ≤ 4 ∧ Small r := by
  have hW : Builtin (Program.Spec.world P fun _ _ => .error .key) move := builtin hP _
  have key : ∀ {a : Val F}, a.isNode = true → isLeaf a → Flat a → toNode P.env a d t = .ok r → Simple P (K + 1) r ∧ size r ≤ 4 ∧ Small r := by
    intro a hn hla hfa hto
    have e := toNode_shape hW hn hto
    rw [e]
    have hs : Simple P (K + 1) a := by
      cases a with
      | merge => exact absurd hla (by simp [isLeaf])
      | _ => simpa only [Simple] using hfa
    refine ⟨simple_castNode hP hs d t, ?_, .inl ?_⟩
    · rw [size_castNode]
      cases a with
      | merge => exact absurd hla (by simp [isLeaf])
      | _ => simp [size]
    · obtain ⟨m, args, kwargs, e1, e2⟩ := cast_inputs a d t
      rw [e1]
      cases a with
      | model p c s => exact .cast m args kwargs p c s e2
      | lit v c s => exact .number m args kwargs e2
      | _ => exact absurd hla (by simp [isLeaf])
  have stay : ∀ {v : Val F} {c : Option Str} {s : Str}, Flat (.lit v c s) → r = .lit v c s → Simple P (K + 1) r ∧ size r ≤ 4 ∧ Small r := by
    intro v c s hf e
    rw [e]
    exact ⟨by simpa only [Simple] using hf, by simp [size], .inr rfl⟩
  cases v with
  | model p c s => rw [castInputs] at h; exact key rfl hl hf h
  | lit v c s =>
    cases v with
    | dict es =>
      cases es with
      | nil => rw [castInputs] at h; cases h
      | cons e es =>
        obtain ⟨k, v⟩ := e
        have hv := hf (k, v) (by simp)
        rw [castInputs] at h
        split_ifs at h with hs hs'
        · exact key rfl hl hf h
        · exfalso
          cases v with
          | lit v c s => exact hv.2 v c s rfl
          | model => simp [isNode] at hv
          | merge => simp [isNode] at hv
          | _ => cases hs'
        · exact stay hf (Except.ok.inj h).symm
    | _ =>
      rw [castInputs] at h
      · split_ifs at h
        all_goals first | exact key rfl hl hf h | exact stay hf (Except.ok.inj h).symm
      all_goals simp
  | _ => exact absurd hl (by simp [isLeaf])

theorem simpleL_of {P : PWorld F T} {k : ℕ} : ∀ {l : List (Val F)}, (∀ v ∈ l, Simple P k v) → SimpleL P k l
  | [], _ => by rw [SimpleL]; trivial
  | v :: l, h => by rw [SimpleL]; exact ⟨h v (by simp), simpleL_of fun x hx => h x (by simp [hx])⟩

theorem simpleK_of {P : PWorld F T} {k : ℕ} : ∀ {l : List (Str × Val F)}, (∀ p ∈ l, Simple P k p.2) → SimpleK P k l
  | [], _ => by rw [SimpleK]; trivial
  | (k', v) :: l, h => by rw [SimpleK]; exact ⟨h (k', v) (by simp), simpleK_of fun x hx => h x (by simp [hx])⟩

theorem inputs_le (args : List (Val F)) (kwargs : List (Str × Val F)) : (inputs args kwargs).length ≤ args.length + kwargs.length := by
  unfold inputs
  refine (List.length_filter_le _ _).trans ?_
  rw [List.length_append, List.length_map]

mutual
theorem narrow_simple {P : PWorld F T} {k : ℕ} : ∀ (v : Val F), Narrow P k v → Simple P k v
  | .merge m args kwargs, h => by
    rw [Narrow] at h
    rw [Simple]
    exact ⟨h.1, (inputs_le args kwargs).trans h.2.1, narrowL_simple args h.2.2.1, narrowK_simple kwargs h.2.2.2⟩
  | .lit v c s, h => by simpa only [Narrow, Simple] using h
  | .model p c s, h => by simpa only [Narrow, Simple] using h
  | .str _, h => by simpa only [Narrow, Simple] using h
  | .int _, h => by simpa only [Narrow, Simple] using h
  | .float _, h => by simpa only [Narrow, Simple] using h
  | .bool _, h => by simpa only [Narrow, Simple] using h
  | .none, h => by simpa only [Narrow, Simple] using h
  | .tensor _, h => by simpa only [Narrow, Simple] using h
  | .dict _, h => by simpa only [Narrow, Simple] using h
theorem narrowL_simple {P : PWorld F T} {k : ℕ} : ∀ (l : List (Val F)), NarrowL P k l → SimpleL P k l
  | [], _ => by rw [SimpleL]; trivial
  | v :: l, h => by
    rw [NarrowL] at h
    rw [SimpleL]
    exact ⟨narrow_simple v h.1, narrowL_simple l h.2⟩
theorem narrowK_simple {P : PWorld F T} {k : ℕ} : ∀ (l : List (Str × Val F)), NarrowK P k l → SimpleK P k l
  | [], _ => by rw [SimpleK]; trivial
  | (k', v) :: l, h => by
    rw [NarrowK] at h
    rw [SimpleK]
    exact ⟨narrow_simple v h.1, narrowK_simple l h.2⟩
end

mutual
theorem cast_simple {P : PWorld F T} {move} (hP : Registered P move) {K : ℕ} {d t : Option Str} : ∀ (v : Val F) {r : Val F}, Narrow P (K + 1) v →
    castInputs P.env d t v = .ok r → Simple P (K + 1) r ∧ size r ≤ 4 * size v
  | .merge m args kwargs, r, hv, h => by
    obtain ⟨as, ks, h1, h2, rfl⟩ := Blocks.castInputs_merge h
    rw [Narrow] at hv
    have l1 := castL_simple hP args hv.2.2.1 h1
    have l2 := castK_simple hP kwargs hv.2.2.2 h2
    rw [Simple, l1.2.2]
    refine ⟨⟨hv.1, (inputs_le as ks).trans (by rw [l1.2.2, l2.2.2]; exact hv.2.1), l1.1, l2.1⟩, ?_⟩
    simp only [size]
    have := l1.2.1
    have := l2.2.1
    omega
  | .lit v c s, r, hv, h => by
    have := leaf_cast hP (K := K) (by simp [isLeaf]) (by simpa only [Narrow] using hv) h
    exact ⟨this.1, by simpa only [size] using this.2.1⟩
  | .model p c s, r, hv, h => by
    have := leaf_cast hP (K := K) (by simp [isLeaf]) (by simp [Flat]) h
    exact ⟨this.1, by simpa only [size] using this.2.1⟩
  | .str _, r, hv, h => by rw [castInputs] at h <;> first | cases h | simp
  | .int _, r, hv, h => by rw [castInputs] at h <;> first | cases h | simp
  | .float _, r, hv, h => by rw [castInputs] at h <;> first | cases h | simp
  | .bool _, r, hv, h => by rw [castInputs] at h <;> first | cases h | simp
  | .none, r, hv, h => by rw [castInputs] at h <;> first | cases h | simp
  | .tensor _, r, hv, h => by rw [castInputs] at h <;> first | cases h | simp
  | .dict _, r, hv, h => by rw [castInputs] at h <;> first | cases h | simp
theorem castL_simple {P : PWorld F T} {move} (hP : Registered P move) {K : ℕ} {d t : Option Str} : ∀ (l : List (Val F)) {l' : List (Val F)},
    NarrowL P (K + 1) l → castInputsL P.env d t l = .ok l' → SimpleL P (K + 1) l' ∧ sizeL l' ≤ 4 * sizeL l ∧ l'.length = l.length
  | [], l', _, h => by rw [castInputsL] at h; cases h; rw [SimpleL]; simp [sizeL]
  | v :: l, l', hv, h => by
    rw [castInputsL] at h
    rw [NarrowL] at hv
    cases h1 : castInputs P.env d t v with
    | error e => rw [h1] at h; cases h
    | ok v' =>
      cases h2 : castInputsL P.env d t l with
      | error e => rw [h1, h2] at h; cases h
      | ok l'' =>
        rw [h1, h2] at h
        obtain rfl := Except.ok.inj h
        have i1 := cast_simple hP v hv.1 h1
        have i2 := castL_simple hP l hv.2 h2
        rw [SimpleL]
        refine ⟨⟨i1.1, i2.1⟩, ?_, by simp only [List.length_cons, i2.2.2]⟩
        simp only [sizeL]
        have := i1.2
        have := i2.2.1
        omega
theorem castK_simple {P : PWorld F T} {move} (hP : Registered P move) {K : ℕ} {d t : Option Str} : ∀ (l : List (Str × Val F)) {l' : List (Str × Val F)},
    NarrowK P (K + 1) l → castInputsK P.env d t l = .ok l' → SimpleK P (K + 1) l' ∧ sizeK l' ≤ 4 * sizeK l ∧ l'.length = l.length
  | [], l', _, h => by rw [castInputsK] at h; cases h; rw [SimpleK]; simp [sizeK]
  | (k, v) :: l, l', hv, h => by
    rw [castInputsK] at h
    rw [NarrowK] at hv
    cases h1 : castInputs P.env d t v with
    | error e => rw [h1] at h; cases h
    | ok v' =>
      cases h2 : castInputsK P.env d t l with
      | error e => rw [h1, h2] at h; cases h
      | ok l'' =>
        rw [h1, h2] at h
        obtain rfl := Except.ok.inj h
        have i1 := cast_simple hP v hv.1 h1
        have i2 := castK_simple hP l hv.2 h2
        rw [SimpleK]
        refine ⟨⟨i1.1, i2.1⟩, ?_, by simp only [List.length_cons, i2.2.2]⟩
        simp only [sizeK]
        have := i1.2
        have := i2.2.1
        omega
end

theorem Spec.NarrowL.mem {P : PWorld F T} {k : ℕ} : ∀ {l : List (Val F)}, NarrowL P k l → ∀ v ∈ l, Narrow P k v
  | [], _, v, hv => by simp at hv
  | w :: l, h, v, hv => by
    rw [NarrowL] at h
    rcases List.mem_cons.1 hv with rfl | hv
    · exact h.1
    · exact Spec.NarrowL.mem h.2 v hv

theorem Spec.NarrowK.mem {P : PWorld F T} {k : ℕ} : ∀ {l : List (Str × Val F)}, NarrowK P k l → ∀ p ∈ l, Narrow P k p.2
  | [], _, v, hv => by simp at hv
  | (_, w) :: l, h, v, hv => by
    rw [NarrowK] at h
    rcases List.mem_cons.1 hv with rfl | hv
    · exact h.1
    · exact Spec.NarrowK.mem h.2 v hv

theorem leaf_flat {P : PWorld F T} {k : ℕ} {v : Val F} (hl : isLeaf v) (h : Narrow P k v) : Flat v := by
  cases v with
  | merge => exact absurd hl (by simp [isLeaf])
  | _ => simpa only [Narrow] using h

theorem cast_chain {P : PWorld F T} {move} (hP : Registered P move) {K : ℕ} {d t : Option Str} {v : Val F} (ha : Accumulates v) :
    ∀ {r : Val F}, Narrow P (K + 1) v → castInputs P.env d t v = .ok r → Chain r ∧ isNode r = true := by
  induction ha with
  | model p c s =>
    intro r hv h
    have h1 := (leaf_cast hP (K := K) (by simp [isLeaf]) (by simp [Flat]) h).2.2
    have e : r = castNode (.model p c s) d t := toNode_shape (builtin hP fun _ _ => .error .key) rfl (by rw [castInputs] at h; exact h)
    rcases h1 with h1 | h1
    · exact ⟨.side _ h1, by rw [e]; rfl⟩
    · rw [e] at h1; cases h1
  | pos m before c after kwargs hc h1 h2 ih =>
    intro r hv h
    obtain ⟨as, ks, e1, e2, rfl⟩ := Blocks.castInputs_merge h
    rw [Narrow] at hv
    obtain ⟨b', c', a', rfl, f1, f2, f3⟩ := split_forall₂ (Blocks.castInputsL_ok e1)
    obtain ⟨g1, g2⟩ := ih (hv.2.2.1.mem c (by simp)) f2
    refine ⟨chain_pos m g1 g2 ?_ ?_, rfl⟩
    · intro v hv'
      rcases List.mem_append.1 hv' with h' | h'
      · obtain ⟨x, hx, hr⟩ := forall₂_mem f1 v h'
        have hl := h1 x (List.mem_append_left _ hx)
        exact (leaf_cast hP (K := K) hl (leaf_flat hl (hv.2.2.1.mem x (by simp [hx]))) hr).2.2
      · obtain ⟨x, hx, hr⟩ := forall₂_mem f3 v h'
        have hl := h1 x (List.mem_append_right _ hx)
        exact (leaf_cast hP (K := K) hl (leaf_flat hl (hv.2.2.1.mem x (by simp [hx]))) hr).2.2
    · intro p hp
      obtain ⟨x, hx, hr⟩ := forall₂_mem (Blocks.castInputsK_ok e2) p hp
      have hl := h2 x hx
      exact (leaf_cast hP (K := K) hl (leaf_flat hl (hv.2.2.2.mem x hx)) hr.2).2.2
  | name m args before k c after hc h1 h2 ih =>
    intro r hv h
    obtain ⟨as, ks, e1, e2, rfl⟩ := Blocks.castInputs_merge h
    rw [Narrow] at hv
    obtain ⟨b', ⟨k', c'⟩, a', rfl, f1, f2, f3⟩ := split_forall₂ (Blocks.castInputsK_ok e2)
    obtain ⟨g1, g2⟩ := ih (hv.2.2.2.mem (k, c) (by simp)) f2.2
    refine ⟨chain_name m g1 g2 ?_ ?_, rfl⟩
    · intro v hv'
      obtain ⟨x, hx, hr⟩ := forall₂_mem (Blocks.castInputsL_ok e1) v hv'
      have hl := h1 x hx
      exact (leaf_cast hP (K := K) hl (leaf_flat hl (hv.2.2.1.mem x hx)) hr).2.2
    · intro p hp
      rcases List.mem_append.1 hp with h' | h'
      · obtain ⟨x, hx, hr⟩ := forall₂_mem f1 p h'
        have hl := h2 x (List.mem_append_left _ hx)
        exact (leaf_cast hP (K := K) hl (leaf_flat hl (hv.2.2.2.mem x (by simp [hx]))) hr.2).2.2
      · obtain ⟨x, hx, hr⟩ := forall₂_mem f3 p h'
        have hl := h2 x (List.mem_append_right _ hx)
        exact (leaf_cast hP (K := K) hl (leaf_flat hl (hv.2.2.2.mem x (by simp [hx]))) hr.2).2.2

theorem castNode_chain {a : Val F} (h : Chain a) (hn : isNode a = true) (d t : Option Str) : Chain (castNode a d t) := by
  obtain ⟨m, args, kwargs, e1, e2⟩ := cast_inputs a d t
  rw [e1]
  refine .step m args kwargs [] a [] ?_ h (by simp)
  rw [e2, List.filter_cons, if_pos hn]; rfl

theorem cast_node {P : PWorld F T} {move} (hP : Registered P move) {d t : Option Str} {v r : Val F} (hn : isNode v = true)
    (h : castInputs P.env d t v = .ok r) : isNode r = true := by
  cases v with
  | model p c s =>
    rw [castInputs] at h
    rw [toNode_shape (builtin hP fun _ _ => .error .key) rfl h]
    rfl
  | merge m args kwargs =>
    obtain ⟨as, ks, _, _, rfl⟩ := Blocks.castInputs_merge h
    rfl
  | _ => cases hn

theorem isNode_val {v : Val F} (h : isNode v = true) : v.isNode = true := by cases v <;> first | rfl | cases h

/-- The recipe that is merged, from the recipe that is given -/
theorem prepared {P : PWorld F T} {move} (hP : Registered P move) {K : ℕ} {o : Options F} (hfb : o.fallback = none) {recipe original p : Val F}
    (hn : isNode recipe = true) (hv : Narrow P (K + 1) recipe) (h : prepare P.env o recipe = .ok (original, p)) :
    Simple P (K + 1) p ∧ size p ≤ 4 * size recipe + 3 ∧ isNode p = true ∧ (Accumulates recipe → Chain p) := by
  obtain ⟨h0, r1, r2, h1, h2, h3⟩ := ByName.prepare_steps h
  have e0 : original = recipe := by
    have : valueToNode P.env recipe = .ok recipe := by cases recipe <;> first | rfl | cases hn
    rw [this] at h0
    exact (Except.ok.inj h0).symm
  have e1 : r1 = recipe := by
    unfold withFallback at h1
    rw [hfb, e0] at h1
    exact (Except.ok.inj h1).symm
  rw [e1] at h2
  have hpos := size_pos recipe
  obtain ⟨s1, s2, s3, s4⟩ : Simple P (K + 1) r2 ∧ size r2 ≤ 4 * size recipe ∧ isNode r2 = true ∧ (Accumulates recipe → Chain r2) := by
    unfold withInputs at h2
    split_ifs at h2
    · have := cast_simple hP recipe hv h2
      exact ⟨this.1, this.2, cast_node hP hn h2, fun ha => (cast_chain hP ha hv h2).1⟩
    · obtain rfl := Except.ok.inj h2
      exact ⟨narrow_simple _ hv, by omega, hn, accumulates_chain⟩
  unfold withOutput at h3
  split_ifs at h3
  · have e := toNode_shape (builtin hP fun _ _ => .error .key) (isNode_val s3) h3
    rw [e]
    exact ⟨simple_castNode hP s1 _ _, by rw [size_castNode]; omega, rfl, fun ha => castNode_chain (s4 ha) s3 _ _⟩
  · obtain rfl := Except.ok.inj h3
    exact ⟨s1, by omega, s3, s4⟩

end Verif.Held
