import Verif.Proofs.Cast

/-!
# Casting inputs: the induction over recipes
-/
namespace Verif.Eval
open Method Recipe Config Spec
variable {F T : Type}

/-- Post-processing what is found -/
def andThen {α β : Type} (r : Except Err α) (h : α → Except Err β) : Except Err β := match r with | .ok a => h a | .error e => .error e

theorem visitKeys_andThen {α β : Type} (get : Str → Except Err α) (h : α → Except Err β) (hh : ∀ a e, h a = .error e → Err.isKeyError e = false)
    (keys : List Str) : visitKeys (fun k => andThen (get k) h) keys = andThen (visitKeys get keys) h := by
  induction keys with
  | nil => rfl
  | cons k ks ih =>
    have hone : ∀ (rest : Except Err β) (rest' : Except Err α), rest = andThen rest' h →
        (match andThen (get k) h with | .ok v => Except.ok v | .error e => if Err.isKeyError e then rest else .error e) =
          andThen (match get k with | .ok v => .ok v | .error e => if Err.isKeyError e then rest' else .error e) h := by
      intro rest rest' hr
      cases hg : get k with
      | ok a =>
        simp only [andThen]
        cases ha : h a with
        | ok b => rfl
        | error e => simp [hh a e ha]
      | error e =>
        simp only [andThen]
        by_cases hk : Err.isKeyError e = true
        · simp only [hk, if_true]; exact hr
        · simp only [hk, if_false]; rfl
    cases ks with
    | nil =>
      have := hone (.error .stateDictKey) (.error .stateDictKey) rfl
      exact this
    | cons k1 ks => exact hone _ _ ih

theorem visitSd_andThen {α β : Type} {W W' : World F T} (hcfg : W'.configs = W.configs) (get : Str → Except Err α) (h : α → Except Err β)
    (hh : ∀ a e, h a = .error e → Err.isKeyError e = false) (c : Option Str) (key : Str) :
    visitSd W' (fun k => andThen (get k) h) c key = andThen (visitSd W get c key) h := by
  unfold visitSd
  cases c with
  | none => rfl
  | some c =>
    simp only [hcfg]
    cases W.configs c with
    | none => rfl
    | some cfg => exact visitKeys_andThen get h hh _

/-- Lookup of a raw value in a dict literal -/
def rawGet (es : Dict Str (Val F)) (k : Str) : Except Err (Val F) := match es.get? k with | some v => .ok v | none => .error .key

theorem eval_dict (W : World F T) (es : List (Str × Val F)) (c : Option Str) (s : Str) (key : Str) :
    eval W (.lit (.dict es) c s) key = andThen (visitSd W (rawGet es) c key) (fun v => eval W v key) := by
  obtain ⟨get, hget⟩ : ∃ get : Str → Except Err (Str → Res F T), get = fun k => match Dict.get? (evalD W es) k with | some f => .ok f | none => .error .key :=
    ⟨_, rfl⟩
  have heval : eval W (.lit (.dict es) c s) key =
      match visitSd W get c key with | .ok f => f key | .error e => .error e := by rw [eval, hget]; rfl
  have h1 := visitSd_andThen (W := W) (W' := W) rfl (rawGet es) (fun v => .ok (eval W v)) (by simp) c key
  have h2 : (fun k => andThen (rawGet es k) fun v => (.ok (eval W v) : Except Err (Str → Res F T))) = get := by
    funext k
    rw [hget]
    simp only [get?_evalD]
    unfold rawGet andThen
    cases Dict.get? es k <;> rfl
  rw [h2] at h1
  rw [heval, h1]
  unfold andThen
  cases visitSd W (rawGet es) c key <;> rfl

theorem rawGet_mem {es : Dict Str (Val F)} {k : Str} {v : Val F} (h : rawGet es k = .ok v) : ∃ k, (k, v) ∈ es := by
  unfold rawGet at h
  cases hg : es.get? k with
  | none => rw [hg] at h; cases h
  | some w => rw [hg] at h; cases h; exact ⟨k, Dict.mem_of_get? hg⟩

theorem visitKeys_mem {α : Type} {get : Str → Except Err α} {keys : List Str} {a : α} (h : visitKeys get keys = .ok a) : ∃ k, get k = .ok a := by
  induction keys with
  | nil => simp [visitKeys] at h
  | cons k ks ih =>
    have hone : ∀ rest : Except Err α, (rest = .ok a → ∃ k, get k = .ok a) →
        (match get k with | .ok v => Except.ok v | .error e => if Err.isKeyError e then rest else .error e) = .ok a → ∃ k, get k = .ok a := by
      intro rest hrest hm
      cases hg : get k with
      | ok v => rw [hg] at hm; cases hm; exact ⟨k, hg⟩
      | error e =>
        rw [hg] at hm
        simp only at hm
        split_ifs at hm
        exact hrest hm
    cases ks with
    | nil => exact hone (.error .stateDictKey) (by simp) h
    | cons k1 ks => exact hone _ ih h

theorem visitSd_mem {α : Type} {W : World F T} {get : Str → Except Err α} {c : Option Str} {key : Str} {a : α} (h : visitSd W get c key = .ok a) :
    ∃ k, get k = .ok a := by
  unfold visitSd at h
  cases c with
  | none => cases h
  | some c =>
    simp only at h
    cases hc : W.configs c with
    | none => rw [hc] at h; cases h
    | some cfg => rw [hc] at h; exact visitKeys_mem h

section
variable {W : World F T} {move : Option Str → Option Str → T → Except Err T} {d t : Option Str} {tensors : ℕ → T} {enc : Val F → ℕ}

theorem get?_precastD (es : List (Str × Val F)) (k : Str) :
    Dict.get? (precastD enc es) k = (Dict.get? es k).map fun v => if isScalar v then .tensor (enc v) else precast enc v := by
  induction es with
  | nil => simp [precastD]
  | cons p es ih =>
    obtain ⟨k', v⟩ := p
    rw [precastD, Dict.get?, Dict.get?]
    by_cases hk : k' = k
    · rw [if_pos hk, if_pos hk]; rfl
    · rw [if_neg hk, if_neg hk]; exact ih

theorem castableD_mem {es : List (Str × Val F)} (h : CastableD W (move d t) tensors enc es) {k : Str} {v : Val F} (hm : (k, v) ∈ es) :
    isScalar v = true → CastScalar W (move d t) tensors enc v := by
  induction es with
  | nil => simp at hm
  | cons p es ih =>
    obtain ⟨k', v'⟩ := p
    rw [CastableD] at h
    rcases List.mem_cons.1 hm with hm | hm
    · cases hm; exact h.1
    · exact ih h.2.2 hm

/-- Dict literals are nodes of depth 0 whatever they hold. -/
theorem same_scalarDict (hW : Builtin W move) (ht : ∀ s, t = some s → s ∈ dtypeNames) {es : List (Str × Val F)}
    (hs : ∀ p ∈ es, isScalar p.2 = true) (hc : CastableD W (move d t) tensors enc es) (c : Option Str) (s : Str) :
    Same W (castWorld W (move d t) tensors) (castNode (.lit (.dict es) c s) d t) (.lit (.dict (precastD enc es)) c s) := by
  refine ⟨?_, ?_, fun _ => proper_castNode (by simp [Proper]) d t⟩
  · intro key
    rw [eval_castNode hW (by simp [Proper]) ht, eval_dict, eval_dict]
    have h1 := visitSd_andThen (W := W) (W' := castWorld W (move d t) tensors) rfl (rawGet es)
      (fun v => (.ok (if isScalar v then .tensor (enc v) else precast enc v) : Except Err (Val F))) (by simp) c key
    have h2 : (fun k => andThen (rawGet es k) fun v => (.ok (if isScalar v then .tensor (enc v) else precast enc v) : Except Err (Val F))) =
        rawGet (precastD enc es) := by
      funext k
      unfold rawGet andThen
      rw [get?_precastD]
      cases Dict.get? es k <;> rfl
    rw [h2] at h1
    rw [h1]
    cases hv : visitSd W (rawGet es) c key with
    | error e => rfl
    | ok v =>
      obtain ⟨k, hk⟩ := visitSd_mem hv
      obtain ⟨k', hm⟩ := rawGet_mem hk
      obtain ⟨v', x, e1, e2, e3⟩ := castableD_mem hc hm (hs _ hm)
      simp only [andThen, e1, castLeaf, e2, e3, if_pos (hs _ hm)]
      rw [eval]
      rfl
  · unfold configOf
    rw [config_castNode hW]
    rfl

theorem same_scalar (hW : Builtin W move) (ht : ∀ s, t = some s → s ∈ dtypeNames) {v : Val F} (hs : isScalar v = true)
    (hc : CastScalar W (move d t) tensors enc v) (c : Option Str) (s : Str) :
    Same W (castWorld W (move d t) tensors) (castNode (.lit v c s) d t) (.lit (.tensor (enc v)) c s) := by
  refine ⟨?_, ?_, fun _ => proper_castNode (by simp [Proper]) d t⟩
  · intro key
    rw [eval_castNode hW (by simp [Proper]) ht]
    obtain ⟨v', x, e1, e2, e3⟩ := hc
    have h1 : eval W (.lit v c s) key = .ok v' := by
      cases v <;> first | (simp [isScalar] at hs; done) | (rw [eval] <;> [exact e1 key; simp])
    rw [h1]
    simp only [castLeaf, e2, e3]
    rw [eval, eval]
    · rfl
    · simp
  · unfold configOf
    rw [config_castNode hW]
    rfl

theorem same_model (hW : Builtin W move) (ht : ∀ s, t = some s → s ∈ dtypeNames)
    (hmove : ∀ x e, move d t x = .error e → Err.isKeyError e = false) (path : Str) (c s : Option Str) :
    Same W (castWorld W (move d t) tensors) (castNode (.model path c s) d t) (.model path c s) := by
  refine ⟨?_, ?_, fun _ => proper_castNode (by simp [Proper]) d t⟩
  · intro key
    rw [eval_castNode hW (by simp [Proper]) ht, eval, eval]
    have h1 := visitSd_andThen (W := W) (W' := castWorld W (move d t) tensors) rfl (W.read path) (move d t) hmove c key
    have h2 : (fun k => andThen (W.read path k) (move d t)) = (castWorld W (move d t) tensors).read path := by
      funext k
      rfl
    rw [h2] at h1
    show castLeaf W.conv (move d t) (match visitSd W (W.read path) c key with | .ok t => .ok (.tensor t) | .error e => .error e) =
      match visitSd (castWorld W (move d t) tensors) ((castWorld W (move d t) tensors).read path) c key with
        | .ok t => .ok (.tensor t) | .error e => .error e
    rw [h1]
    cases hv : visitSd W (W.read path) c key with
    | error e => rfl
    | ok x =>
      simp only [castLeaf, castTo, RVal.isInstance, or_true, if_true, andThen]
      cases move d t x <;> rfl
  · unfold configOf
    rw [config_castNode hW]
    rfl

theorem same_refl_lit {v : Val F} (hs : isScalar v = false) (hn : v.isNode = false) (hd : ∀ es, v ≠ .dict es) (c : Option Str) (s : Str) :
    Same W (castWorld W (move d t) tensors) (.lit v c s) (.lit v c s) := by
  refine ⟨?_, rfl, fun h => h⟩
  intro key
  cases v <;> first | (simp [isScalar] at hs; done) | (simp [Val.isNode] at hn; done) | exact absurd rfl (hd _) | (simp [eval])

theorem precastD_other {es : List (Str × Val F)} (h : ∀ p ∈ es, isScalar p.2 = false ∧ p.2.isNode = false) : precastD enc es = es := by
  induction es with
  | nil => rfl
  | cons p es ih =>
    obtain ⟨k, v⟩ := p
    rw [precastD, ih (fun p hp => h p (by simp [hp]))]
    obtain ⟨h1, h2⟩ := h (k, v) (by simp)
    simp only at h1 h2
    rw [if_neg (by rw [h1]; simp)]
    cases v <;> first | (simp [Val.isNode] at h2; done) | (simp [precast])

theorem precastD_nodes {es : List (Str × Val F)} (h : ∀ p ∈ es, p.2.isNode = true) : precastD enc es = precastK enc es := by
  induction es with
  | nil => rfl
  | cons p es ih =>
    obtain ⟨k, v⟩ := p
    rw [precastD, precastK, ih (fun p hp => h p (by simp [hp]))]
    have h1 := h (k, v) (by simp)
    simp only at h1
    rw [if_neg]
    cases v <;> first | (simp [Val.isNode] at h1; done) | (simp [isScalar])

theorem same_otherDict {es : List (Str × Val F)} (h : ∀ p ∈ es, isScalar p.2 = false ∧ p.2.isNode = false) (c : Option Str) (s : Str) :
    Same W (castWorld W (move d t) tensors) (.lit (.dict es) c s) (.lit (.dict (precastD enc es)) c s) := by
  rw [precastD_other h]
  refine ⟨?_, rfl, fun h => h⟩
  intro key
  rw [eval_dict, eval_dict]
  have h1 : visitSd (castWorld W (move d t) tensors) (rawGet es) c key = visitSd W (rawGet es) c key := rfl
  rw [h1]
  cases hv : visitSd W (rawGet es) c key with
  | error e => rfl
  | ok v =>
    obtain ⟨k, hk⟩ := visitSd_mem hv
    obtain ⟨k', hm⟩ := rawGet_mem hk
    obtain ⟨h2, h3⟩ := h _ hm
    simp only at h2 h3
    simp only [andThen]
    cases v <;> first | (simp [isScalar] at h2; done) | (simp [Val.isNode] at h3; done) | (simp [eval])

theorem evalD_same {W' : World F T} {es es' : List (Str × Val F)} (h : List.Forall₂ (fun p q => p.1 = q.1 ∧ Same W W' p.2 q.2) es es') :
    evalD W es = evalD W' es' := by
  induction h with
  | nil => rw [evalD, evalD]
  | @cons p q l l' h _ ih =>
    obtain ⟨k, v⟩ := p
    obtain ⟨k', w⟩ := q
    obtain ⟨h1, h2⟩ := h
    simp only at h1 h2
    subst h1
    rw [evalD, evalD, ih]
    congr 2
    funext key
    exact h2.run key

theorem same_nodeDict {es es' : List (Str × Val F)}
    (h : List.Forall₂ (fun p q => p.1 = q.1 ∧ Same W (castWorld W (move d t) tensors) p.2 q.2) es' es) (c : Option Str) (s : Str) :
    Same W (castWorld W (move d t) tensors) (.lit (.dict es') c s) (.lit (.dict es) c s) := by
  refine ⟨?_, rfl, fun _ => by simp [Proper]⟩
  intro key
  rw [eval, eval, evalD_same h]
  rfl

theorem mkLit_config {E : Env F} {es : List (Str × Val F)} {c s : Str} {r : Val F} (h : mkLit E (.dict es) (some c) (some s) = .ok r) :
    r = .lit (.dict es) (some c) s := by
  cases es with
  | nil => simp [mkLit] at h; exact h.symm
  | cons p es =>
    obtain ⟨k, v⟩ := p
    unfold mkLit at h
    simp only at h
    split_ifs at h with hn
    · simp only [Bind.bind, Except.bind] at h
      cases hs : v.space E with
      | error e => rw [hs] at h; cases h
      | ok sp =>
        rw [hs] at h
        simp only at h
        cases ha : allConfig E (some c) ((k, v) :: es) with
        | error e => rw [ha] at h; cases h
        | ok b =>
          rw [ha] at h
          simp only at h
          split_ifs at h
          cases hb : allSpace E sp ((k, v) :: es) with
          | error e => rw [hb] at h; cases h
          | ok b' =>
            rw [hb] at h
            simp only at h
            split_ifs at h
            exact (Except.ok.inj h).symm
    · exact (Except.ok.inj h).symm

end

section
variable {W W' : World F T}

theorem properL_same {l l' : List (Val F)} (h : List.Forall₂ (Same W W') l l') (hp : ProperL l') : ProperL l := by
  induction h with
  | nil => exact hp
  | cons h _ ih => rw [ProperL] at hp ⊢; exact ⟨h.proper hp.1, ih hp.2⟩

theorem properK_same {l l' : List (Str × Val F)} (h : List.Forall₂ (fun p q => p.1 = q.1 ∧ Same W W' p.2 q.2) l l') (hp : ProperK l') : ProperK l := by
  induction h with
  | nil => exact hp
  | @cons p q l l' h _ ih =>
    obtain ⟨k, v⟩ := p
    obtain ⟨k', w⟩ := q
    rw [ProperK] at hp ⊢
    exact ⟨h.2.proper hp.1, ih hp.2⟩

end

mutual
theorem config_precast (E : Env F) (enc : Val F → ℕ) : ∀ v : Val F, (precast enc v).config E = v.config E
  | .lit (.dict es) c s => by rw [precast]; rfl
  | .lit (.lit ..) c s => by simp [precast, Val.config]
  | .lit (.merge ..) c s => by simp [precast, Val.config]
  | .lit (.model ..) c s => by simp [precast, Val.config]
  | .lit (.str _) c s => by simp [precast, Val.config]
  | .lit (.int _) c s => by simp [precast, Val.config]
  | .lit (.float _) c s => by simp [precast, Val.config]
  | .lit (.bool _) c s => by simp [precast, Val.config]
  | .lit .none c s => by simp [precast, Val.config]
  | .lit (.tensor _) c s => by simp [precast, Val.config]
  | .merge m args kwargs => by
    rw [precast, Val.config, Val.config, configL_precast E enc args, configK_precast E enc kwargs]
  | .model .. => by simp [precast]
  | .str _ => by simp [precast]
  | .int _ => by simp [precast]
  | .float _ => by simp [precast]
  | .bool _ => by simp [precast]
  | .none => by simp [precast]
  | .tensor _ => by simp [precast]
  | .dict _ => by simp [precast]
theorem configL_precast (E : Env F) (enc : Val F → ℕ) : ∀ l : List (Val F), configL E (precastL enc l) = configL E l
  | [] => by rw [precastL]
  | v :: l => by rw [precastL, configL, configL, config_precast E enc v, configL_precast E enc l]
theorem configK_precast (E : Env F) (enc : Val F → ℕ) : ∀ l : List (Str × Val F), configK E (precastK enc l) = configK E l
  | [] => by rw [precastK]
  | (k, v) :: l => by rw [precastK, configK, configK, config_precast E enc v, configK_precast E enc l]
end

mutual
theorem proper_precast (enc : Val F → ℕ) : ∀ v : Val F, Proper (precast enc v) ↔ Proper v
  | .lit (.dict es) c s => by rw [precast]; simp [Proper]
  | .lit (.lit ..) c s => by simp [precast, Proper]
  | .lit (.merge ..) c s => by simp [precast, Proper]
  | .lit (.model ..) c s => by simp [precast, Proper]
  | .lit (.str _) c s => by simp [precast, Proper]
  | .lit (.int _) c s => by simp [precast, Proper]
  | .lit (.float _) c s => by simp [precast, Proper]
  | .lit (.bool _) c s => by simp [precast, Proper]
  | .lit .none c s => by simp [precast, Proper]
  | .lit (.tensor _) c s => by simp [precast, Proper]
  | .merge m args kwargs => by
    rw [precast, Proper, Proper, properL_precast enc args, properK_precast enc kwargs]
    have h1 : precastL enc args ≠ [] ↔ args ≠ [] := by cases args <;> simp [precastL]
    have h2 : precastK enc kwargs ≠ [] ↔ kwargs ≠ [] := by
      cases kwargs with
      | nil => simp [precastK]
      | cons p l => obtain ⟨k, v⟩ := p; simp [precastK]
    rw [h1, h2]
  | .model .. => by simp [precast]
  | .str _ => by simp [precast]
  | .int _ => by simp [precast]
  | .float _ => by simp [precast]
  | .bool _ => by simp [precast]
  | .none => by simp [precast]
  | .tensor _ => by simp [precast]
  | .dict _ => by simp [precast]
theorem properL_precast (enc : Val F → ℕ) : ∀ l : List (Val F), ProperL (precastL enc l) ↔ ProperL l
  | [] => by rw [precastL]
  | v :: l => by rw [precastL, ProperL, ProperL, proper_precast enc v, properL_precast enc l]
theorem properK_precast (enc : Val F → ℕ) : ∀ l : List (Str × Val F), ProperK (precastK enc l) ↔ ProperK l
  | [] => by rw [precastK]
  | (k, v) :: l => by rw [precastK, ProperK, ProperK, proper_precast enc v, properK_precast enc l]
end

theorem getElem_precastL (enc : Val F → ℕ) (l : List (Val F)) : precastL enc l = l.map (precast enc) := by
  induction l with
  | nil => rfl
  | cons v l ih => rw [precastL, ih]; rfl

theorem precastK_eq (enc : Val F → ℕ) (l : List (Str × Val F)) : precastK enc l = l.map fun p => (p.1, precast enc p.2) := by
  induction l with
  | nil => rfl
  | cons p l ih => obtain ⟨k, v⟩ := p; rw [precastK, ih]; rfl

theorem get?_mapVal {α β : Type} (f : α → β) (l : List (Str × α)) (k : Str) :
    Dict.get? (l.map fun p => (p.1, f p.2)) k = (Dict.get? l k).map f := by
  induction l with
  | nil => rfl
  | cons p l ih =>
    obtain ⟨k', v⟩ := p
    rw [List.map_cons, Dict.get?, Dict.get?]
    split_ifs
    · rfl
    · exact ih

theorem call_precast {W W' : World F T} (himpl : W'.impl = W.impl) (enc : Val F → ℕ) {m : Str} {args : List (Val F)} {kwargs : Dict Str (Val F)}
    (h : Call W m args kwargs) : Call W' m (precastL enc args) (precastK enc kwargs) := by
  have harg : ∀ idx w, ArgAt (precastL enc args) (precastK enc kwargs) idx w → ∃ v, ArgAt args kwargs idx v ∧ w = precast enc v := by
    intro idx w hw
    cases idx with
    | pos i =>
      have hw : (precastL enc args)[i]? = some w := hw
      rw [getElem_precastL, List.getElem?_map] at hw
      cases hv : args[i]? with
      | none => rw [hv] at hw; cases hw
      | some v => rw [hv] at hw; cases hw; exact ⟨v, hv, rfl⟩
    | name k =>
      have hw : Dict.get? (precastK enc kwargs) k = some w := hw
      rw [precastK_eq, get?_mapVal] at hw
      cases hv : Dict.get? kwargs k with
      | none => rw [hv] at hw; cases hw
      | some v => rw [hv] at hw; cases hw; exact ⟨v, hv, rfl⟩
  refine ⟨?_, ?_, ?_⟩
  · have : Dict.keys (precastK enc kwargs) = Dict.keys kwargs := by
      rw [precastK_eq]; unfold Dict.keys; rw [List.map_map]; rfl
    rw [this]; exact h.names
  · intro idx w hw
    obtain ⟨v, h1, rfl⟩ := harg idx w hw
    exact (proper_precast enc v).2 (h.proper idx v h1)
  · intro idx w hw
    obtain ⟨v, h1, rfl⟩ := harg idx w hw
    have := h.typed idx v h1
    unfold typeOf at this ⊢
    rw [himpl, getElem_precastL, List.length_map]
    exact this

section
variable {W : World F T} {move : Option Str → Option Str → T → Except Err T} {d t : Option Str} {tensors : ℕ → T} {enc : Val F → ℕ}

mutual
theorem same_cast (hW : Builtin W move) (ht : ∀ s, t = some s → s ∈ dtypeNames)
    (hmove : ∀ x e, move d t x = .error e → Err.isKeyError e = false) :
    ∀ (v r : Val F), Castable W (move d t) tensors enc v → castInputs W.env d t v = .ok r →
      Same W (castWorld W (move d t) tensors) r (precast enc v) ∧ r.config W.env = v.config W.env
  | .lit (.dict []) c s, r => fun _ h => by rw [castInputs] at h; cases h
  | .lit (.dict ((k, v) :: es)) c s, r => fun hc h => by
    rw [Castable] at hc
    obtain ⟨hcs, hsort, hd⟩ := hc
    rw [castInputs] at h
    split_ifs at h with h1 h2
    · rw [toNode_shape hW rfl h]
      rw [precast]
      refine ⟨same_scalarDict hW ht ?_ hd c s, config_castNode hW _ d t⟩
      rcases hsort with hs | hs | hs
      · exact hs
      · have h3 := hs (k, v) (by simp)
        simp only at h3
        cases v <;> first | (simp [isScalar] at h1; done) | (simp [Val.isNode] at h3)
      · have h3 := (hs (k, v) (by simp)).1
        simp only at h3
        rw [h1] at h3; cases h3
    · have hnodes : ∀ p ∈ (k, v) :: es, p.2.isNode = true := by
        rcases hsort with hs | hs | hs
        · have h3 := hs (k, v) (by simp)
          exact absurd h3 h1
        · exact hs
        · have h3 := (hs (k, v) (by simp)).2
          simp only at h3
          rw [h2] at h3; cases h3
      cases hk : castInputsK W.env d t ((k, v) :: es) with
      | error e => rw [hk] at h; cases h
      | ok es' =>
        rw [hk] at h
        simp only at h
        have hK := same_castD hW ht hmove ((k, v) :: es) es' hnodes hd hk
        obtain ⟨c, rfl⟩ := Option.isSome_iff_exists.1 hcs
        rw [mkLit_config h, precast, precastD_nodes hnodes]
        exact ⟨same_nodeDict hK _ _, rfl⟩
    · cases h
      refine ⟨?_, rfl⟩
      rw [precast]
      apply same_otherDict
      rcases hsort with hs | hs | hs
      · exact absurd (hs (k, v) (by simp)) h1
      · exact absurd (hs (k, v) (by simp)) h2
      · exact hs
  | .lit (.str x) c s, r => fun hc h => by
    rw [castInputs] at h
    · cases h
      refine ⟨?_, rfl⟩
      rw [precast]
      · exact same_refl_lit rfl rfl (by simp) c s
      · simp
    · simp
    · simp
  | .lit .none c s, r => fun hc h => by
    rw [castInputs] at h
    · cases h
      refine ⟨?_, rfl⟩
      rw [precast]
      · exact same_refl_lit rfl rfl (by simp) c s
      · simp
    · simp
    · simp
  | .lit (.int x) c s, r => fun hc h => by
    rw [Castable] at hc
    · rw [castInputs] at h
      · rw [toNode_shape hW rfl h, precast]
        · exact ⟨same_scalar hW ht rfl (hc.2 rfl) c s, config_castNode hW _ d t⟩
        · simp
      · simp
      · simp
    · simp
  | .lit (.float x) c s, r => fun hc h => by
    rw [Castable] at hc
    · rw [castInputs] at h
      · rw [toNode_shape hW rfl h, precast]
        · exact ⟨same_scalar hW ht rfl (hc.2 rfl) c s, config_castNode hW _ d t⟩
        · simp
      · simp
      · simp
    · simp
  | .lit (.bool x) c s, r => fun hc h => by
    rw [Castable] at hc
    · rw [castInputs] at h
      · rw [toNode_shape hW rfl h, precast]
        · exact ⟨same_scalar hW ht rfl (hc.2 rfl) c s, config_castNode hW _ d t⟩
        · simp
      · simp
      · simp
    · simp
  | .lit (.tensor x) c s, r => fun hc h => by
    rw [Castable] at hc
    · rw [castInputs] at h
      · rw [toNode_shape hW rfl h, precast]
        · exact ⟨same_scalar hW ht rfl (hc.2 rfl) c s, config_castNode hW _ d t⟩
        · simp
      · simp
      · simp
    · simp
  | .lit (.lit v c' s') c s, r => fun hc h => by
    rw [Castable] at hc
    · exact absurd hc.1 (by simp [Val.isNode])
    · simp
  | .lit (.model p c' s') c s, r => fun hc h => by
    rw [Castable] at hc
    · exact absurd hc.1 (by simp [Val.isNode])
    · simp
  | .lit (.merge m a k) c s, r => fun hc h => by
    rw [Castable] at hc
    · exact absurd hc.1 (by simp [Val.isNode])
    · simp
  | .model p c s, r => fun _ h => by
    rw [castInputs] at h
    rw [toNode_shape hW rfl h, precast]
    · exact ⟨same_model hW ht hmove p c s, config_castNode hW _ d t⟩
    all_goals simp
  | .merge m args kwargs, r => fun hc h => by
    rw [Castable] at hc
    obtain ⟨hcall, hone, hl, hk⟩ := hc
    rw [castInputs] at h
    cases hL : castInputsL W.env d t args with
    | error e => rw [hL] at h; cases h
    | ok as =>
      cases hK : castInputsK W.env d t kwargs with
      | error e => rw [hL, hK] at h; cases h
      | ok ks =>
        rw [hL, hK] at h
        simp only at h
        cases hsp : (Val.merge m as ks).space W.env with
        | error e => rw [hsp] at h; cases h
        | ok sp =>
          rw [hsp] at h
          cases h
          obtain ⟨sL, cL⟩ := same_castL hW ht hmove args as hl hL
          obtain ⟨sK, cK⟩ := same_castK hW ht hmove kwargs ks hk hK
          have hcfg : (Val.merge m as ks).config W.env = (Val.merge m args kwargs).config W.env := by
            rw [Val.config, Val.config, cL, cK]
          refine ⟨⟨?_, ?_, ?_⟩, hcfg⟩
          · intro key
            rw [precast]
            exact eval_same (W := W) (W' := castWorld W (move d t) tensors) ⟨rfl, rfl⟩ sL sK
              (call_precast (W := W) (W' := castWorld W (move d t) tensors) rfl enc hcall) hone key
          · unfold configOf
            rw [hcfg]
            have : (precast enc (Val.merge m args kwargs)).config (castWorld W (move d t) tensors).env = (Val.merge m args kwargs).config W.env :=
              config_precast W.env enc _
            rw [this]
            rfl
          · intro hp
            rw [precast, Proper] at hp
            rw [Proper]
            refine ⟨hp.1.imp (fun h0 h1 => h0 ?_) (fun h0 h1 => h0 ?_), properL_same sL hp.2.1, properK_same sK hp.2.2⟩
            · subst h1; exact List.forall₂_nil_left_iff.1 sL
            · subst h1; exact List.forall₂_nil_left_iff.1 sK
  | .str _, r => fun _ h => by simp [castInputs] at h
  | .int _, r => fun _ h => by simp [castInputs] at h
  | .float _, r => fun _ h => by simp [castInputs] at h
  | .bool _, r => fun _ h => by simp [castInputs] at h
  | .none, r => fun _ h => by simp [castInputs] at h
  | .tensor _, r => fun _ h => by simp [castInputs] at h
  | .dict _, r => fun _ h => by simp [castInputs] at h
theorem same_castL (hW : Builtin W move) (ht : ∀ s, t = some s → s ∈ dtypeNames)
    (hmove : ∀ x e, move d t x = .error e → Err.isKeyError e = false) :
    ∀ (l l' : List (Val F)), CastableL W (move d t) tensors enc l → castInputsL W.env d t l = .ok l' →
      List.Forall₂ (Same W (castWorld W (move d t) tensors)) l' (precastL enc l) ∧ configL W.env l' = configL W.env l
  | [], l' => fun _ h => by rw [castInputsL] at h; cases h; rw [precastL]; exact ⟨.nil, rfl⟩
  | v :: l, l' => fun hc h => by
    rw [CastableL] at hc
    rw [castInputsL] at h
    cases hv : castInputs W.env d t v with
    | error e => rw [hv] at h; cases h
    | ok v' =>
      cases hl : castInputsL W.env d t l with
      | error e => rw [hv, hl] at h; cases h
      | ok l'' =>
        rw [hv, hl] at h
        cases h
        obtain ⟨h1, h2⟩ := same_cast hW ht hmove v v' hc.1 hv
        obtain ⟨h3, h4⟩ := same_castL hW ht hmove l l'' hc.2 hl
        rw [precastL, configL, configL, h2, h4]
        exact ⟨.cons h1 h3, rfl⟩
theorem same_castK (hW : Builtin W move) (ht : ∀ s, t = some s → s ∈ dtypeNames)
    (hmove : ∀ x e, move d t x = .error e → Err.isKeyError e = false) :
    ∀ (l l' : List (Str × Val F)), CastableK W (move d t) tensors enc l → castInputsK W.env d t l = .ok l' →
      List.Forall₂ (fun p q => p.1 = q.1 ∧ Same W (castWorld W (move d t) tensors) p.2 q.2) l' (precastK enc l) ∧
        configK W.env l' = configK W.env l
  | [], l' => fun _ h => by rw [castInputsK] at h; cases h; rw [precastK]; exact ⟨.nil, rfl⟩
  | (k, v) :: l, l' => fun hc h => by
    rw [CastableK] at hc
    rw [castInputsK] at h
    cases hv : castInputs W.env d t v with
    | error e => rw [hv] at h; cases h
    | ok v' =>
      cases hl : castInputsK W.env d t l with
      | error e => rw [hv, hl] at h; cases h
      | ok l'' =>
        rw [hv, hl] at h
        cases h
        obtain ⟨h1, h2⟩ := same_cast hW ht hmove v v' hc.1 hv
        obtain ⟨h3, h4⟩ := same_castK hW ht hmove l l'' hc.2 hl
        rw [precastK, configK, configK, h2, h4]
        exact ⟨.cons ⟨rfl, h1⟩ h3, rfl⟩
theorem same_castD (hW : Builtin W move) (ht : ∀ s, t = some s → s ∈ dtypeNames)
    (hmove : ∀ x e, move d t x = .error e → Err.isKeyError e = false) :
    ∀ (l l' : List (Str × Val F)), (∀ p ∈ l, p.2.isNode = true) → CastableD W (move d t) tensors enc l → castInputsK W.env d t l = .ok l' →
      List.Forall₂ (fun p q => p.1 = q.1 ∧ Same W (castWorld W (move d t) tensors) p.2 q.2) l' (precastK enc l)
  | [], l' => fun _ _ h => by rw [castInputsK] at h; cases h; rw [precastK]; exact .nil
  | (k, v) :: l, l' => fun hn hc h => by
    rw [CastableD] at hc
    rw [castInputsK] at h
    cases hv : castInputs W.env d t v with
    | error e => rw [hv] at h; cases h
    | ok v' =>
      cases hl : castInputsK W.env d t l with
      | error e => rw [hv, hl] at h; cases h
      | ok l'' =>
        rw [hv, hl] at h
        cases h
        obtain ⟨h1, _⟩ := same_cast hW ht hmove v v' hc.2.1 hv
        have h3 := same_castD hW ht hmove l l'' (fun p hp => hn p (by simp [hp])) hc.2.2 hl
        rw [precastK]
        exact .cons ⟨rfl, h1⟩ h3
end

end

end Verif.Eval
