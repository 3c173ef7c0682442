import Verif.Spec.WholeExtra
import Verif.Props.Extra
import Verif.Proofs.Whole

/-!
# The order in which extra keys are looked for
-/
namespace Verif.WholeExtra
open Method Recipe Config Eval Eval.Spec Whole Whole.Spec Spec Extra Extra.Spec
variable {F T : Type}

/-! ### The inputs of a recipe -/

theorem isTensor_iff {v : Val F} : v.isTensor = true ↔ ∃ i, v = .tensor i := by
  cases v <;> simp [Val.isTensor]

theorem tensor_not_node {v : Val F} (h : v.isTensor = true) : v.isNode = false := by
  obtain ⟨i, rfl⟩ := isTensor_iff.1 h
  rfl

theorem mem_inputsL {c : Str} {space : Option Str} {n : Val F} : ∀ {l : List (Val F)}, n ∈ inputsL c space l ↔ ∃ v ∈ l, n ∈ inputs c space v
  | [] => by simp [inputsL]
  | v :: l => by rw [inputsL, List.mem_append, mem_inputsL]; simp

theorem mem_inputsK {c : Str} {space : Option Str} {n : Val F} : ∀ {l : List (Str × Val F)}, n ∈ inputsK c space l ↔ ∃ p ∈ l, n ∈ inputs c space p.2
  | [] => by simp [inputsK]
  | (k, v) :: l => by rw [inputsK, List.mem_append, mem_inputsK]; simp

theorem inputs_dict {c : Str} {space : Option Str} {es : List (Str × Val F)} {c' : Option Str} {s : Str} :
    inputs c space (.lit (.dict es) c' s) = if es.all (fun p => p.2.isNode) then inputsK c space es
      else if es.all (fun p => p.2.isTensor) ∧ c' = some c ∧ some s = space then [.lit (.dict es) c' s] else [] := by
  rw [inputs]

theorem inputs_lit {c : Str} {space : Option Str} {v : Val F} {c' : Option Str} {s : Str} (hv : ∀ es, v ≠ .dict es) :
    inputs c space (.lit v c' s) = [] := by
  cases v <;> first | (exact absurd rfl (hv _)) | (rw [inputs] <;> simp)

/-- What a source is, by itself -/
def Leaf (c : Str) (space : Option Str) (n : Val F) : Prop :=
  (∃ p s, n = .model p (some c) s) ∨ ∃ es s, n = .lit (.dict es) (some c) s ∧ some s = space ∧ es ≠ [] ∧ ∀ p ∈ es, ∃ i, p.2 = .tensor i

theorem source_iff {r n : Val F} {c : Str} {space : Option Str} : Source r c space n ↔ Occurs r n ∧ Leaf c space n := by
  constructor
  · intro h
    cases h with
    | file h => exact ⟨h, .inl ⟨_, _, rfl⟩⟩
    | dict h hs hne ht => exact ⟨h, .inr ⟨_, _, rfl, hs, hne, ht⟩⟩
  · rintro ⟨h, ⟨p, s, rfl⟩ | ⟨es, s, rfl, hs, hne, ht⟩⟩
    · exact .file h
    · exact .dict h hs hne ht

theorem leaf_mem {c : Str} {space : Option Str} {n : Val F} (h : Leaf c space n) : n ∈ inputs c space n := by
  rcases h with ⟨p, s, rfl⟩ | ⟨es, s, rfl, hs, hne, ht⟩
  · rw [inputs, if_pos rfl]; simp
  · rw [inputs_dict]
    cases es with
    | nil => exact absurd rfl hne
    | cons p es =>
      have hn : ¬ ((p :: es).all (fun p => p.2.isNode) = true) := by
        intro h
        obtain ⟨i, hi⟩ := ht p (by simp)
        have := List.all_eq_true.1 h p (by simp)
        rw [hi] at this; cases this
      rw [if_neg hn, if_pos ⟨List.all_eq_true.2 fun q hq => isTensor_iff.2 (ht q hq), rfl, hs⟩]
      simp

theorem mem_of_occurs {r n : Val F} {c : Str} {space : Option Str} (h : Occurs r n) (hl : Leaf c space n) : n ∈ inputs c space r := by
  induction h with
  | self v => exact leaf_mem hl
  | arg hv _ ih => rw [inputs, List.mem_append]; exact .inl (mem_inputsL.2 ⟨_, hv, ih hl⟩)
  | kwarg hv _ ih => rw [inputs, List.mem_append]; exact .inr (mem_inputsK.2 ⟨_, hv, ih hl⟩)
  | entry hes hv _ ih =>
    rw [inputs_dict, if_pos (List.all_eq_true.2 hes)]
    exact mem_inputsK.2 ⟨_, hv, ih hl⟩

mutual
theorem of_mem {c : Str} {space : Option Str} {n : Val F} : ∀ (r : Val F), n ∈ inputs c space r → Occurs r n ∧ Leaf c space n
  | .lit (.dict es) c' s => fun h => by
    rw [inputs_dict] at h
    by_cases h1 : es.all (fun p => p.2.isNode) = true
    · rw [if_pos h1] at h
      obtain ⟨p, hp, ho, hl⟩ := of_memK es h
      exact ⟨.entry (List.all_eq_true.1 h1) hp ho, hl⟩
    · rw [if_neg h1] at h
      split_ifs at h with h2
      · obtain rfl := List.mem_singleton.1 h
        obtain ⟨ht, rfl, hs⟩ := h2
        refine ⟨.self _, .inr ⟨es, s, rfl, hs, ?_, fun p hp => isTensor_iff.1 (List.all_eq_true.1 ht p hp)⟩⟩
        rintro rfl
        exact h1 rfl
      · cases h
  | .lit (.str x) c' s => fun h => by rw [inputs_lit (by simp)] at h; cases h
  | .lit (.int x) c' s => fun h => by rw [inputs_lit (by simp)] at h; cases h
  | .lit (.float x) c' s => fun h => by rw [inputs_lit (by simp)] at h; cases h
  | .lit (.bool x) c' s => fun h => by rw [inputs_lit (by simp)] at h; cases h
  | .lit .none c' s => fun h => by rw [inputs_lit (by simp)] at h; cases h
  | .lit (.tensor x) c' s => fun h => by rw [inputs_lit (by simp)] at h; cases h
  | .lit (.lit x y z) c' s => fun h => by rw [inputs_lit (by simp)] at h; cases h
  | .lit (.model x y z) c' s => fun h => by rw [inputs_lit (by simp)] at h; cases h
  | .lit (.merge x y z) c' s => fun h => by rw [inputs_lit (by simp)] at h; cases h
  | .model p c' s => fun h => by
    rw [inputs] at h
    split_ifs at h with hc
    · obtain rfl := List.mem_singleton.1 h
      subst hc
      exact ⟨.self _, .inl ⟨_, _, rfl⟩⟩
    · cases h
  | .merge m args kwargs => fun h => by
    rw [inputs, List.mem_append] at h
    rcases h with h | h
    · obtain ⟨v, hv, ho, hl⟩ := of_memL args h
      exact ⟨.arg hv ho, hl⟩
    · obtain ⟨p, hp, ho, hl⟩ := of_memK kwargs h
      exact ⟨.kwarg (k := p.1) hp ho, hl⟩
  | .str _ => fun h => by simp [inputs] at h
  | .int _ => fun h => by simp [inputs] at h
  | .float _ => fun h => by simp [inputs] at h
  | .bool _ => fun h => by simp [inputs] at h
  | .none => fun h => by simp [inputs] at h
  | .tensor _ => fun h => by simp [inputs] at h
  | .dict _ => fun h => by simp [inputs] at h
theorem of_memL {c : Str} {space : Option Str} {n : Val F} : ∀ (l : List (Val F)), n ∈ inputsL c space l → ∃ v ∈ l, Occurs v n ∧ Leaf c space n
  | [] => fun h => by simp [inputsL] at h
  | v :: l => fun h => by
    rw [inputsL, List.mem_append] at h
    rcases h with h | h
    · exact ⟨v, by simp, of_mem v h⟩
    · obtain ⟨w, hw, hx⟩ := of_memL l h
      exact ⟨w, by simp [hw], hx⟩
theorem of_memK {c : Str} {space : Option Str} {n : Val F} : ∀ (l : List (Str × Val F)), n ∈ inputsK c space l → ∃ p ∈ l, Occurs p.2 n ∧ Leaf c space n
  | [] => fun h => by simp [inputsK] at h
  | (k, v) :: l => fun h => by
    rw [inputsK, List.mem_append] at h
    rcases h with h | h
    · exact ⟨(k, v), by simp, of_mem v h⟩
    · obtain ⟨w, hw, hx⟩ := of_memK l h
      exact ⟨w, by simp [hw], hx⟩
end

/-- The list has the inputs that C46 speaks of. -/
theorem mem_inputs {r n : Val F} {c : Str} {space : Option Str} : n ∈ inputs c space r ↔ Source r c space n := by
  rw [source_iff]
  exact ⟨of_mem r, fun h => mem_of_occurs h.1 h.2⟩

/-! ### Casts have the same inputs -/

theorem inputs_castNode {c : Str} {space : Option Str} (a : Val F) (d t : Option Str) : inputs c space (castNode a d t) = inputs c space a := by
  unfold castNode
  have h : ∀ o : Option Str, inputs c space (.lit (optVal o) none paramSpace : Val F) = [] := fun o => inputs_lit (by cases o <;> simp [optVal])
  rw [inputs, inputsL, inputsL, inputsL, inputsL, inputsK, h, h]
  simp

theorem inputs_fallback {c : Str} {space : Option Str} (a b : Val F) :
    inputs c space (.merge nFallback [a, b] []) = inputs c space a ++ inputs c space b := by
  rw [inputs, inputsL, inputsL, inputsL, inputsK]
  simp

theorem inputs_toNode {W : World F T} {move} (hW : Builtin W move) {c : Str} {space : Option Str} {a r : Val F} (ha : a.isNode = true) {d t : Option Str}
    (h : toNode W.env a d t = .ok r) : inputs c space r = inputs c space a := by
  rw [toNode_shape hW ha h, inputs_castNode]

theorem mkLit_dict {E : Env F} {es : List (Str × Val F)} {c : Option Str} {s : Option Str} {r : Val F} (h : mkLit E (.dict es) c s = .ok r) :
    ∃ c' s', r = .lit (.dict es) c' s' := by
  unfold mkLit at h
  split at h
  · rename_i k first es' he
    cases he
    split_ifs at h with h1
    · simp only [Bind.bind, Except.bind] at h
      repeat' (split at h)
      all_goals first | (cases h; done) | exact ⟨_, _, (Except.ok.inj h).symm⟩ | skip
    · exact ⟨_, _, (Except.ok.inj h).symm⟩
  · exact ⟨_, _, (Except.ok.inj h).symm⟩

theorem toNode_isNode {W : World F T} {move} (hW : Builtin W move) {a r : Val F} (ha : a.isNode = true) {d t : Option Str}
    (h : toNode W.env a d t = .ok r) : r.isNode = true := by
  rw [toNode_shape hW ha h]; rfl

theorem castInputs_isNode {W : World F T} {move} (hW : Builtin W move) {d t : Option Str} {v r : Val F} (h : castInputs W.env d t v = .ok r) :
    v.isNode = true ∧ r.isNode = true := by
  unfold castInputs at h
  split at h
  · cases h
  · refine ⟨rfl, ?_⟩
    split_ifs at h
    · exact toNode_isNode hW rfl h
    · split at h
      · cases h
      · obtain ⟨_, _, rfl⟩ := mkLit_dict h; rfl
    · cases h; rfl
  · refine ⟨rfl, ?_⟩
    split_ifs at h
    · exact toNode_isNode hW rfl h
    · cases h; rfl
  · exact ⟨rfl, toNode_isNode hW rfl h⟩
  · refine ⟨rfl, ?_⟩
    split at h
    · cases h
    · cases h
    · split at h
      · cases h
      · cases h; rfl
  · cases h

theorem castInputsK_nodes {W : World F T} {move} (hW : Builtin W move) {d t : Option Str} : ∀ {l l' : List (Str × Val F)},
    castInputsK W.env d t l = .ok l' → (∀ p ∈ l, p.2.isNode = true) ∧ ∀ p ∈ l', p.2.isNode = true
  | [], l', h => by rw [castInputsK] at h; cases h; simp
  | (k, v) :: l, l', h => by
    rw [castInputsK] at h
    cases hv : castInputs W.env d t v with
    | error e => rw [hv] at h; cases h
    | ok v' =>
      cases hl : castInputsK W.env d t l with
      | error e => rw [hv, hl] at h; cases h
      | ok l'' =>
        rw [hv, hl] at h
        obtain rfl := Except.ok.inj h
        obtain ⟨h1, h2⟩ := castInputs_isNode hW hv
        obtain ⟨h3, h4⟩ := castInputsK_nodes hW hl
        constructor
        · intro p hp
          rcases List.mem_cons.1 hp with rfl | hp
          · exact h1
          · exact h3 p hp
        · intro p hp
          rcases List.mem_cons.1 hp with rfl | hp
          · exact h2
          · exact h4 p hp

theorem inputs_castLit {W : World F T} {move} (hW : Builtin W move) {c : Str} {space : Option Str} {d t : Option Str} {v : Val F} {c' : Option Str} {s : Str}
    {r : Val F} (h : (if isScalar v then toNode W.env (.lit v c' s) d t else .ok (.lit v c' s)) = .ok r) :
    inputs c space r = inputs c space (.lit v c' s) := by
  split_ifs at h
  · exact inputs_toNode hW rfl h
  · cases h; rfl

mutual
theorem inputs_cast {W : World F T} {move} (hW : Builtin W move) {c : Str} {space : Option Str} (d t : Option Str) :
    ∀ (v r : Val F), castInputs W.env d t v = .ok r → inputs c space r = inputs c space v
  | .lit (.dict []) c' s, r => fun h => by rw [castInputs] at h; cases h
  | .lit (.dict ((k, v) :: es)) c' s, r => fun h => by
    rw [castInputs] at h
    split_ifs at h with h1 h2
    · exact inputs_toNode hW rfl h
    · cases hk : castInputsK W.env d t ((k, v) :: es) with
      | error e => rw [hk] at h; cases h
      | ok es' =>
        rw [hk] at h
        obtain ⟨_, _, rfl⟩ := mkLit_dict h
        obtain ⟨n1, n2⟩ := castInputsK_nodes hW hk
        rw [inputs_dict, inputs_dict, if_pos (List.all_eq_true.2 n2), if_pos (List.all_eq_true.2 n1)]
        exact inputs_castK hW d t _ _ hk
    · cases h; rfl
  | .lit (.str x) c' s, r => fun h => inputs_castLit hW (by rw [castInputs] at h <;> first | exact h | simp)
  | .lit (.int x) c' s, r => fun h => inputs_castLit hW (by rw [castInputs] at h <;> first | exact h | simp)
  | .lit (.float x) c' s, r => fun h => inputs_castLit hW (by rw [castInputs] at h <;> first | exact h | simp)
  | .lit (.bool x) c' s, r => fun h => inputs_castLit hW (by rw [castInputs] at h <;> first | exact h | simp)
  | .lit .none c' s, r => fun h => inputs_castLit hW (by rw [castInputs] at h <;> first | exact h | simp)
  | .lit (.tensor x) c' s, r => fun h => inputs_castLit hW (by rw [castInputs] at h <;> first | exact h | simp)
  | .lit (.lit x y z) c' s, r => fun h => inputs_castLit hW (by rw [castInputs] at h <;> first | exact h | simp)
  | .lit (.model x y z) c' s, r => fun h => inputs_castLit hW (by rw [castInputs] at h <;> first | exact h | simp)
  | .lit (.merge x y z) c' s, r => fun h => inputs_castLit hW (by rw [castInputs] at h <;> first | exact h | simp)
  | .model p c' s, r => fun h => by rw [castInputs] at h; exact inputs_toNode hW rfl h
  | .merge m args kwargs, r => fun h => by
    rw [castInputs] at h
    cases ha : castInputsL W.env d t args with
    | error e => rw [ha] at h; cases h
    | ok as =>
      cases hk : castInputsK W.env d t kwargs with
      | error e => rw [ha, hk] at h; cases h
      | ok ks =>
        rw [ha, hk] at h
        simp only at h
        split at h
        · cases h
        · cases h
          rw [inputs, inputs, inputs_castL hW d t _ _ ha, inputs_castK hW d t _ _ hk]
  | .str _, r => fun h => by rw [castInputs] at h <;> first | (cases h; done) | simp
  | .int _, r => fun h => by rw [castInputs] at h <;> first | (cases h; done) | simp
  | .float _, r => fun h => by rw [castInputs] at h <;> first | (cases h; done) | simp
  | .bool _, r => fun h => by rw [castInputs] at h <;> first | (cases h; done) | simp
  | .none, r => fun h => by rw [castInputs] at h <;> first | (cases h; done) | simp
  | .tensor _, r => fun h => by rw [castInputs] at h <;> first | (cases h; done) | simp
  | .dict _, r => fun h => by rw [castInputs] at h <;> first | (cases h; done) | simp
theorem inputs_castL {W : World F T} {move} (hW : Builtin W move) {c : Str} {space : Option Str} (d t : Option Str) :
    ∀ (l l' : List (Val F)), castInputsL W.env d t l = .ok l' → inputsL c space l' = inputsL c space l
  | [], l' => fun h => by rw [castInputsL] at h; cases h; rfl
  | v :: l, l' => fun h => by
    rw [castInputsL] at h
    cases hv : castInputs W.env d t v with
    | error e => rw [hv] at h; cases h
    | ok v' =>
      cases hl : castInputsL W.env d t l with
      | error e => rw [hv, hl] at h; cases h
      | ok l'' =>
        rw [hv, hl] at h
        obtain rfl := Except.ok.inj h
        rw [inputsL, inputsL, inputs_cast hW d t _ _ hv, inputs_castL hW d t _ _ hl]
theorem inputs_castK {W : World F T} {move} (hW : Builtin W move) {c : Str} {space : Option Str} (d t : Option Str) :
    ∀ (l l' : List (Str × Val F)), castInputsK W.env d t l = .ok l' → inputsK c space l' = inputsK c space l
  | [], l' => fun h => by rw [castInputsK] at h; cases h; rfl
  | (k, v) :: l, l' => fun h => by
    rw [castInputsK] at h
    cases hv : castInputs W.env d t v with
    | error e => rw [hv] at h; cases h
    | ok v' =>
      cases hl : castInputsK W.env d t l with
      | error e => rw [hv, hl] at h; cases h
      | ok l'' =>
        rw [hv, hl] at h
        obtain rfl := Except.ok.inj h
        rw [inputsK, inputsK, inputs_cast hW d t _ _ hv, inputs_castK hW d t _ _ hl]
end

/-- The recipe that is merged has the inputs of the recipe asked for and of the fallback model. -/
theorem inputs_prepare {W : World F T} {move} (hW : Builtin W move) {c : Str} {space : Option Str} {o : Options F} {recipe original r : Val F}
    {fb : Option (Val F)} (hn : original.isNode = true) (h : prepare W.env o recipe = .ok (original, r)) (hfb : IsFallback W.env o fb)
    (hr : ∀ r1, withFallback W.env o original = .ok r1 → r1.isNode = true) :
    inputs c space r = allInputs c space original fb := by
  unfold prepare at h
  cases h0 : valueToNode W.env recipe with
  | error e => rw [h0] at h; cases h
  | ok original' =>
    rw [h0] at h
    have h : (withFallback W.env o original').bind _ = _ := h
    cases h1 : withFallback W.env o original' with
    | error e => rw [h1] at h; cases h
    | ok r1 =>
      rw [h1] at h
      have h : (withInputs W.env o r1).bind _ = _ := h
      cases h2 : withInputs W.env o r1 with
      | error e => rw [h2] at h; cases h
      | ok r2 =>
        rw [h2] at h
        have h : (withOutput W.env o r2).bind _ = _ := h
        cases h3 : withOutput W.env o r2 with
        | error e => rw [h3] at h; cases h
        | ok r3 =>
          rw [h3] at h
          obtain ⟨rfl, rfl⟩ := Prod.mk.inj (Except.ok.inj h)
          have e1 : inputs c space r1 = allInputs c space original' fb := by
            unfold withFallback at h1
            unfold IsFallback at hfb
            unfold allInputs
            cases hf : o.fallback with
            | none =>
              rw [hf] at h1 hfb
              obtain rfl := Except.ok.inj h1
              rw [show fb = none from hfb]
              simp
            | some b =>
              rw [hf] at h1 hfb
              obtain ⟨b', hb', rfl⟩ := hfb
              obtain ⟨b'', hb'', rfl⟩ := orNode_shape hW hn h1
              rw [hb'] at hb''
              cases hb''
              rw [inputs_fallback]
          have e2 : inputs c space r2 = inputs c space r1 ∧ r2.isNode = true := by
            unfold withInputs at h2
            split_ifs at h2
            · exact ⟨inputs_cast hW _ _ _ _ h2, (castInputs_isNode hW h2).2⟩
            · obtain rfl := Except.ok.inj h2
              exact ⟨rfl, hr _ h1⟩
          have e3 : inputs c space r3 = inputs c space r2 := by
            unfold withOutput at h3
            split_ifs at h3
            · exact inputs_toNode hW e2.2 h3
            · obtain rfl := Except.ok.inj h3; rfl
          rw [e3, e2.1, e1]

/-! ### The first input that has the key -/

/-- The second result if the first is a missing key -/
def alt : Res F T → Res F T → Res F T
  | .error .stateDictKey, y => y
  | x, _ => x

theorem alt_of_ne {x : Res F T} (h : x ≠ .error .stateDictKey) (y : Res F T) : alt x y = x := by
  unfold alt
  split
  · exact absurd rfl h
  · rfl

theorem firstOf_cons (x : Res F T) (l : List (Res F T)) : firstOf (x :: l) = alt x (firstOf l) := by
  by_cases hx : x = .error .stateDictKey
  · subst hx; rfl
  · rw [alt_of_ne hx]
    unfold firstOf
    split
    · rename_i h; cases h
    · rename_i h; cases h; exact absurd rfl hx
    · rename_i h; cases h; rfl

theorem firstOf_append (a b : List (Res F T)) : firstOf (a ++ b) = alt (firstOf a) (firstOf b) := by
  induction a with
  | nil => rfl
  | cons x a ih =>
    rw [List.cons_append, firstOf_cons, firstOf_cons, ih]
    by_cases hx : x = .error .stateDictKey
    · subst hx; rfl
    · rw [alt_of_ne hx, alt_of_ne hx, alt_of_ne hx]

theorem firstOf_ne {l : List (Res F T)} {x : Res F T} (hx : x ∈ l) (hne : x ≠ .error .stateDictKey) : firstOf l ≠ .error .stateDictKey := by
  induction l with
  | nil => cases hx
  | cons y l ih =>
    rw [firstOf_cons]
    by_cases hy : y = .error .stateDictKey
    · subst hy
      rcases List.mem_cons.1 hx with rfl | hx
      · exact absurd rfl hne
      · exact ih hx
    · rw [alt_of_ne hy]; exact hy

theorem firstOf_missing {l : List (Res F T)} (h : ∀ x ∈ l, x = .error .stateDictKey) : firstOf l = .error .stateDictKey := by
  induction l with
  | nil => rfl
  | cons y l ih =>
    rw [firstOf_cons, h y (by simp)]
    exact ih fun x hx => h x (by simp [hx])

theorem foldl_first (key : Str) (ns : List (Str → Res F T)) (f : Str → Res F T) :
    ns.foldl orElse f key = firstOf (f key :: ns.map fun g => g key) := by
  induction ns generalizing f with
  | nil => rw [List.foldl_nil, List.map_nil, firstOf_cons]; unfold alt; split <;> simp_all [firstOf]
  | cons g ns ih =>
    rw [List.foldl_cons, ih, List.map_cons, firstOf_cons, firstOf_cons, firstOf_cons]
    have : orElse f g key = alt (f key) (g key) := by unfold orElse alt; split <;> simp_all
    rw [this]
    by_cases hx : f key = .error .stateDictKey
    · rw [hx]; rfl
    · rw [alt_of_ne hx, alt_of_ne hx, alt_of_ne hx]

/-! ### The nodes found, in order -/
section
variable {I : Inputs F}

/-- An input that is passed over has no key that the other lacks. -/
theorem isIn_key {W : World F T} {c : Str} {cfg : ModelConfig} (hcfg : W.configs c = some cfg) {space : Option Str} {r n m : Val F} (hd : Distinct r c space)
    (hn : Source r c space n) (hm : Source r c space m) (h : isIn I n m = .ok true) (key : Str) (hne : eval W n key ≠ .error .stateDictKey) :
    eval W m key ≠ .error .stateDictKey := by
  have ht := isIn_twin (W := W) hcfg hd hn hm h
  cases hn with
  | file h2 =>
    cases hm with
    | file h1 =>
      simp only [isIn, Except.ok.injEq, decide_eq_true_eq] at h
      subst h
      rw [eval] at hne ⊢
      exact hne
    | dict => simp [isIn] at h
  | @dict es s h1 hs hne' htn =>
    by_cases hex : ∃ k ∈ key :: (cfg.aliases.get? key).getD [], k ∈ Dict.keys es
    · obtain ⟨t, hv⟩ := (eval_tensors (W := W) (s := s) hcfg htn key).1 hex
      obtain ⟨v', hv'⟩ := ht.value key _ hv
      rw [hv']; simp
    · exact absurd ((eval_tensors (W := W) (s := s) hcfg htn key).2 hex) hne

/-- The first result among nodes -/
def firstIn (W : World F T) (key : Str) (l : List (Val F)) : Res F T := firstOf (l.map fun n => eval W n key)

theorem firstIn_append (W : World F T) (key : Str) (a b : List (Val F)) : firstIn W key (a ++ b) = alt (firstIn W key a) (firstIn W key b) := by
  unfold firstIn
  rw [List.map_append, firstOf_append]

theorem addNew_first {W : World F T} {c : Str} {cfg : ModelConfig} (hcfg : W.configs c = some cfg) {space : Option Str} {r n : Val F} (hd : Distinct r c space)
    {md : Except Err (Dict Str TensorMeta)} {acc acc' : Found F} (hg : Good I r c space acc) (hn : Source r c space n)
    (h : addNew I n md acc = .ok acc') (key : Str) :
    firstIn W key (acc'.map (·.1)) = firstIn W key (acc.map (·.1) ++ [n]) := by
  unfold addNew at h
  cases ha : anyIn I n acc with
  | error e => rw [ha] at h; cases h
  | ok x =>
    rw [ha] at h
    cases x with
    | true =>
      obtain rfl := Except.ok.inj h
      obtain ⟨m, hm, hi⟩ := anyIn_true ha
      rw [firstIn_append]
      by_cases hne : eval W n key = .error .stateDictKey
      · have : firstIn W key [n] = .error .stateDictKey := by unfold firstIn; simp [hne, firstOf]
        rw [this]
        generalize firstIn W key (acc.map (·.1)) = x
        unfold alt
        split <;> rfl
      · have : firstIn W key (acc.map (·.1)) ≠ .error .stateDictKey := by
          unfold firstIn
          exact firstOf_ne (List.mem_map.2 ⟨m.1, List.mem_map.2 ⟨m, hm, rfl⟩, rfl⟩) (isIn_key hcfg hd hn (hg m hm).1 hi key hne)
        rw [alt_of_ne this]
    | false =>
      cases md with
      | error e => cases h
      | ok d =>
        obtain rfl := Except.ok.inj h
        simp

/-- After a visit: the first result among the nodes found is that among the nodes found before and the inputs visited. -/
def First (W : World F T) (acc acc' : Found F) (l : List (Val F)) : Prop :=
  ∀ key, firstIn W key (acc'.map (·.1)) = firstIn W key (acc.map (·.1) ++ l)

theorem First.then {W : World F T} {a1 a2 a3 : Found F} {l1 l2 : List (Val F)} (h1 : First W a1 a2 l1) (h2 : First W a2 a3 l2) : First W a1 a3 (l1 ++ l2) := by
  intro key
  rw [h2 key, firstIn_append, h1 key, ← firstIn_append, List.append_assoc]

theorem First.skip (W : World F T) (a : Found F) : First W a a [] := by
  intro key
  rw [List.append_nil]

theorem first_lit {W : World F T} {c : Str} {space : Option Str} {v : Val F} {c' : Option Str} {s' : Str} {acc acc' : Found F} (hv : ∀ es, v ≠ .dict es)
    (h : (.ok acc : Except Err (Found F)) = .ok acc') : First W acc acc' (inputs c space (.lit v c' s')) := by
  obtain rfl := Except.ok.inj h
  rw [inputs_lit hv]
  exact First.skip W _

mutual
theorem visit_first {W : World F T} {c : Str} {cfg : ModelConfig} (hcfg : W.configs c = some cfg) {space : Option Str} {r : Val F} (hd : Distinct r c space) :
    ∀ (v : Val F) (acc acc' : Found F), (∀ n, Occurs v n → Occurs r n) → Good I r c space acc → visit I c space v acc = .ok acc' →
      First W acc acc' (inputs c space v)
  | .lit (.dict []) c' s', acc, acc', _, hg, h => by
    rw [visit] at h
    obtain rfl := Except.ok.inj h
    rw [inputs_dict]
    exact First.skip W _
  | .lit (.dict ((k, first) :: es)) c' s', acc, acc', hocc, hg, h => by
    rw [visit] at h
    rw [inputs_dict]
    by_cases hnode : first.isNode = true
    · rw [if_pos hnode] at h
      by_cases hall : ∀ p ∈ (k, first) :: es, p.2.isNode = true
      · rw [if_pos (List.all_eq_true.2 hall)]
        exact visitK_first hcfg hd ((k, first) :: es) acc acc' (fun k' w hm n hn => hocc n (.entry hall hm hn)) hg h
      · exact absurd h (visitK_notNode hall acc acc')
    · rw [if_neg hnode] at h
      rw [if_neg (by simp [hnode])]
      by_cases hcond : first.isTensor ∧ c' = some c ∧ some s' = space
      · rw [if_pos hcond] at h
        obtain ⟨_, rfl, hsp⟩ := hcond
        cases hm : dictMeta I ((k, first) :: es) with
        | ok d =>
          obtain ⟨_, ht⟩ := dictMeta_spec hm
          rw [if_pos ⟨List.all_eq_true.2 fun p hp => isTensor_iff.2 (ht p hp), rfl, hsp⟩]
          exact fun key => addNew_first hcfg hd hg (.dict (hocc _ (.self _)) hsp (by simp) ht) h key
        | error e =>
          unfold addNew at h
          rw [hm] at h
          cases ha : anyIn I (.lit (.dict ((k, first) :: es)) (some c) s') acc with
          | error e => rw [ha] at h; cases h
          | ok x =>
            rw [ha] at h
            cases x with
            | false => cases h
            | true =>
              obtain rfl := Except.ok.inj h
              split_ifs with h2
              · have ht : ∀ p ∈ (k, first) :: es, ∃ i, p.2 = .tensor i := fun p hp => isTensor_iff.1 (List.all_eq_true.1 h2.1 p hp)
                have h' : addNew I (.lit (.dict ((k, first) :: es)) (some c) s') (dictMeta I ((k, first) :: es)) acc = .ok acc := by
                  unfold addNew; rw [ha]
                exact fun key => addNew_first hcfg hd hg (.dict (hocc _ (.self _)) hsp (by simp) ht) h' key
              · exact First.skip W _
      · rw [if_neg hcond] at h
        obtain rfl := Except.ok.inj h
        rw [if_neg]
        · exact First.skip W _
        · rintro ⟨h1, h2, h3⟩
          exact hcond ⟨List.all_eq_true.1 h1 (k, first) (by simp), h2, h3⟩
  | .lit (.str x) c' s', acc, acc', _, hg, h => first_lit (by simp) (by rw [visit] at h <;> first | exact h | simp)
  | .lit (.int x) c' s', acc, acc', _, hg, h => first_lit (by simp) (by rw [visit] at h <;> first | exact h | simp)
  | .lit (.float x) c' s', acc, acc', _, hg, h => first_lit (by simp) (by rw [visit] at h <;> first | exact h | simp)
  | .lit (.bool x) c' s', acc, acc', _, hg, h => first_lit (by simp) (by rw [visit] at h <;> first | exact h | simp)
  | .lit .none c' s', acc, acc', _, hg, h => first_lit (by simp) (by rw [visit] at h <;> first | exact h | simp)
  | .lit (.tensor x) c' s', acc, acc', _, hg, h => first_lit (by simp) (by rw [visit] at h <;> first | exact h | simp)
  | .lit (.lit x y z) c' s', acc, acc', _, hg, h => first_lit (by simp) (by rw [visit] at h <;> first | exact h | simp)
  | .lit (.model x y z) c' s', acc, acc', _, hg, h => first_lit (by simp) (by rw [visit] at h <;> first | exact h | simp)
  | .lit (.merge x y z) c' s', acc, acc', _, hg, h => first_lit (by simp) (by rw [visit] at h <;> first | exact h | simp)
  | .model path c' s', acc, acc', hocc, hg, h => by
    rw [visit] at h
    rw [inputs]
    by_cases hc : c' = some c
    · rw [if_pos hc] at h ⊢
      subst hc
      exact fun key => addNew_first hcfg hd hg (.file (hocc _ (.self _))) h key
    · rw [if_neg hc] at h ⊢
      obtain rfl := Except.ok.inj h
      exact First.skip W _
  | .merge m args kwargs, acc, acc', hocc, hg, h => by
    rw [visit] at h
    rw [inputs]
    cases hl : visitL I c space args acc with
    | error e => rw [hl] at h; cases h
    | ok acc1 =>
      rw [hl] at h
      have hg1 := (visitL_done (W := W) hcfg hd args acc acc1 (fun v hv n hn => hocc n (.arg hv hn)) hg hl).good
      exact (visitL_first hcfg hd args acc acc1 (fun v hv n hn => hocc n (.arg hv hn)) hg hl).then
        (visitK_first hcfg hd kwargs acc1 acc' (fun k v hv n hn => hocc n (.kwarg hv hn)) hg1 h)
  | .str _, acc, acc', _, _, h => by rw [visit] at h <;> cases h
  | .int _, acc, acc', _, _, h => by rw [visit] at h <;> cases h
  | .float _, acc, acc', _, _, h => by rw [visit] at h <;> cases h
  | .bool _, acc, acc', _, _, h => by rw [visit] at h <;> cases h
  | .none, acc, acc', _, _, h => by rw [visit] at h <;> cases h
  | .tensor _, acc, acc', _, _, h => by rw [visit] at h <;> cases h
  | .dict _, acc, acc', _, _, h => by rw [visit] at h <;> cases h
theorem visitL_first {W : World F T} {c : Str} {cfg : ModelConfig} (hcfg : W.configs c = some cfg) {space : Option Str} {r : Val F} (hd : Distinct r c space) :
    ∀ (l : List (Val F)) (acc acc' : Found F), (∀ v ∈ l, ∀ n, Occurs v n → Occurs r n) → Good I r c space acc → visitL I c space l acc = .ok acc' →
      First W acc acc' (inputsL c space l)
  | [], acc, acc', _, hg, h => by
    rw [visitL] at h
    obtain rfl := Except.ok.inj h
    exact First.skip W _
  | v :: l, acc, acc', hocc, hg, h => by
    rw [visitL] at h
    rw [inputsL]
    cases hv : visit I c space v acc with
    | error e => rw [hv] at h; cases h
    | ok acc1 =>
      rw [hv] at h
      have hg1 := (visit_done (W := W) hcfg hd v acc acc1 (hocc v (by simp)) hg hv).good
      exact (visit_first hcfg hd v acc acc1 (hocc v (by simp)) hg hv).then
        (visitL_first hcfg hd l acc1 acc' (fun w hw => hocc w (by simp [hw])) hg1 h)
theorem visitK_first {W : World F T} {c : Str} {cfg : ModelConfig} (hcfg : W.configs c = some cfg) {space : Option Str} {r : Val F} (hd : Distinct r c space) :
    ∀ (l : List (Str × Val F)) (acc acc' : Found F), (∀ k v, (k, v) ∈ l → ∀ n, Occurs v n → Occurs r n) → Good I r c space acc →
      visitK I c space l acc = .ok acc' → First W acc acc' (inputsK c space l)
  | [], acc, acc', _, hg, h => by
    rw [visitK] at h
    obtain rfl := Except.ok.inj h
    exact First.skip W _
  | (k, v) :: l, acc, acc', hocc, hg, h => by
    rw [visitK] at h
    rw [inputsK]
    cases hv : visit I c space v acc with
    | error e => rw [hv] at h; cases h
    | ok acc1 =>
      rw [hv] at h
      have hg1 := (visit_done (W := W) hcfg hd v acc acc1 (hocc k v (by simp)) hg hv).good
      exact (visit_first hcfg hd v acc acc1 (hocc k v (by simp)) hg hv).then
        (visitK_first hcfg hd l acc1 acc' (fun k' w hw => hocc k' w (by simp [hw])) hg1 h)
end

/-- The new recipe has the recipe's result, and where that is missing, that of the first input that has the key. -/
theorem copyExtra_first {W : World F T} {move : Option Str → Option Str → T → Except Err T} (hW : Builtin W move) {recipe new : Val F} {md : Dict Str TensorMeta}
    {c : Str} {cfg : ModelConfig} {space : Option Str} (hp : Proper recipe) (hd : Distinct recipe c space) (hc : recipe.config W.env = .ok (some c))
    (hcfg : W.configs c = some cfg) (hsp : recipe.space W.env = .ok space) (h : copyExtra W I recipe = .ok (new, md)) (key : Str) :
    eval W new key = firstOf (eval W recipe key :: (inputs c space recipe).map fun n => eval W n key) := by
  unfold copyExtra at h
  simp only [hc, hcfg, hsp] at h
  cases hv : visit I c space recipe [] with
  | error e => rw [hv] at h; cases h
  | ok found =>
    rw [hv] at h
    simp only at h
    cases ho : orAll W.env recipe (found.map (·.1)) with
    | error e => rw [ho] at h; cases h
    | ok r =>
      rw [ho] at h
      simp only [Except.ok.injEq, Prod.mk.injEq] at h
      obtain ⟨rfl, _⟩ := h
      have hdone := visit_done (W := W) hcfg hd recipe [] found (fun _ h => h) (by intro m hm; cases hm) hv
      have hfirst := visit_first (W := W) hcfg hd recipe [] found (fun _ h => h) (by intro m hm; cases hm) hv key
      have hnew := orAll_eval hW _ recipe r hp (fun n hn => by
        obtain ⟨m, hm, rfl⟩ := List.mem_map.1 hn
        exact (hdone.good m hm).1.proper) ho
      have hnew' : eval W r = ((found.map (·.1)).map (eval W)).foldl orElse (eval W recipe) := by
        rw [hnew, List.foldl_map, List.foldl_map, List.foldl_map]
      rw [hnew', foldl_first, firstOf_cons, firstOf_cons, List.map_map]
      unfold firstIn at hfirst
      rw [List.map_nil, List.nil_append] at hfirst
      rw [← hfirst]
      rfl

end
end Verif.WholeExtra
