import Verif.Spec.Total
import Verif.Proofs.Whole
import Verif.Proofs.ByName
import Verif.Props.Threads
import Verif.Proofs.Overwrite

/-!
# Proofs on recipes that can be merged
-/
namespace Verif.Total
open Method Recipe Config Eval Eval.Spec Whole Spec
variable {F T : Type} {W : World F T} {move : Option Str → Option Str → T → Except Err T}

theorem return_cast_ok {s : Str} (hs : s ∈ allSpaces) : (castSig (F := F)).returnSpace [s, paramSpace, paramSpace] [] = .ok s := by
  simp only [allSpaces, List.mem_cons, List.not_mem_nil, or_false] at hs
  rcases hs with rfl | rfl | rfl <;> rfl

theorem return_fallback_ok {s : Str} (hs : s ∈ allSpaces) : (fallbackSig (F := F)).returnSpace [s, s] [] = .ok s := by
  simp only [allSpaces, List.mem_cons, List.not_mem_nil, or_false] at hs
  rcases hs with rfl | rfl | rfl <;> rfl

theorem castNode_space (hW : Builtin W move) {a : Val F} {d t : Option Str} {s : Str} (ha : a.space W.env = .ok (some s)) (hs : s ∈ allSpaces) :
    (castNode a d t).space W.env = .ok (some s) := by
  unfold castNode
  rw [Val.space, hW.sigCast]
  simp only [spaceL, spaceK, Val.space, ha]
  show ((castSig (F := F)).returnSpace [s, paramSpace, paramSpace] []).bind (fun r => .ok (some r)) = .ok (some s)
  rw [return_cast_ok hs]
  rfl

theorem toNode_total (hW : Builtin W move) {a : Val F} (hn : a.isNode = true) {s : Str} (ha : a.space W.env = .ok (some s)) (hs : s ∈ allSpaces)
    (d t : Option Str) : toNode W.env a d t = .ok (castNode a d t) :=
  ByName.toNode_of_space hW.sigCast hn (castNode_space hW ha hs)

theorem fallback_space (hW : Builtin W move) {a b : Val F} {s : Str} (ha : a.space W.env = .ok (some s)) (hb : b.space W.env = .ok (some s))
    (hs : s ∈ allSpaces) : (Val.merge nFallback [a, b] []).space W.env = .ok (some s) := by
  rw [Val.space, hW.sigFallback]
  simp only [spaceL, spaceK, ha, hb]
  show ((fallbackSig (F := F)).returnSpace [s, s] []).bind (fun r => .ok (some r)) = .ok (some s)
  rw [return_fallback_ok hs]
  rfl

/-- The recipe `r` is as good as `v`. -/
structure Alike (E : Env F) (v r : Val F) : Prop where
  node : r.isNode = true
  space : r.space E = v.space E
  config : r.config E = v.config E

theorem allConfig_all {E : Env F} {c : Option Str} {es : List (Str × Val F)} (h : ∀ p ∈ es, p.2.config E = .ok c) : allConfig E c es = .ok true := by
  induction es with
  | nil => rfl
  | cons p es ih =>
    obtain ⟨k, v⟩ := p
    rw [allConfig, h (k, v) (by simp)]
    simp only [if_true]
    exact ih fun p hp => h p (by simp [hp])

theorem allSpace_all {E : Env F} {c : Option Str} {es : List (Str × Val F)} (h : ∀ p ∈ es, p.2.space E = .ok c) : allSpace E c es = .ok true := by
  induction es with
  | nil => rfl
  | cons p es ih =>
    obtain ⟨k, v⟩ := p
    rw [allSpace, h (k, v) (by simp)]
    simp only [if_true]
    exact ih fun p hp => h p (by simp [hp])

theorem mkLit_nodes {E : Env F} {c : Option Str} {t s : Str} {es : List (Str × Val F)}
    (h : ∀ p ∈ es, p.2.isNode = true ∧ p.2.config E = .ok c ∧ p.2.space E = .ok (some t)) :
    mkLit E (.dict es) c (some s) = .ok (.lit (.dict es) c s) := by
  cases es with
  | nil => rfl
  | cons p es =>
    obtain ⟨k, v⟩ := p
    obtain ⟨h1, h2, h3⟩ := h (k, v) (by simp)
    dsimp only at h1 h2 h3
    have hc := allConfig_all fun p hp => (h p hp).2.1
    have hsp := allSpace_all fun p hp => (h p hp).2.2
    unfold mkLit
    cases c with
    | none => simp only [h1, if_true, h2, h3, Bind.bind, Except.bind, hc, hsp]; rfl
    | some x => simp only [h1, if_true, h3, Bind.bind, Except.bind, hc, hsp]; rfl

theorem forall2_right {α β : Type} {R : α → β → Prop} {l : List α} {l' : List β} (h : List.Forall₂ R l l') {b : β} (hb : b ∈ l') :
    ∃ a ∈ l, R a b := by
  induction h with
  | nil => cases hb
  | @cons x y l l' hxy _ ih =>
    rcases List.mem_cons.1 hb with rfl | hb
    · exact ⟨x, by simp, hxy⟩
    · obtain ⟨a, ha, hR⟩ := ih hb
      exact ⟨a, by simp [ha], hR⟩

theorem alikeK {E : Env F} {es es' : List (Str × Val F)} (h : List.Forall₂ (fun p q => p.1 = q.1 ∧ Alike E p.2 q.2) es es') :
    spaceK E es' = spaceK E es ∧ configK E es' = configK E es := by
  induction h with
  | nil => exact ⟨rfl, rfl⟩
  | @cons p q es es' hpq _ ih =>
    obtain ⟨k, v⟩ := p
    obtain ⟨k', v'⟩ := q
    obtain ⟨rfl, hv⟩ := hpq
    rw [spaceK, spaceK, configK, configK, ih.1, ih.2, hv.space, hv.config]
    exact ⟨rfl, rfl⟩

theorem alikeL {E : Env F} {l l' : List (Val F)} (h : List.Forall₂ (Alike E) l l') : spaceL E l' = spaceL E l ∧ configL E l' = configL E l := by
  induction h with
  | nil => exact ⟨rfl, rfl⟩
  | cons hv _ ih =>
    rw [spaceL, spaceL, configL, configL, ih.1, ih.2, hv.space, hv.config]
    exact ⟨rfl, rfl⟩

mutual
/-- Casting the inputs of a recipe that is ready succeeds and keeps its merge space and config. -/
theorem cast_total (hW : Builtin W move) (d t : Option Str) : ∀ v : Val F, Ready W.env v → ∃ r, castInputs W.env d t v = .ok r ∧ Alike W.env v r
  | .model p c s, h => by
    rw [Ready] at h
    obtain ⟨x, hx, rfl⟩ := h
    refine ⟨castNode (.model p c (some x)) d t, ?_, rfl, ?_, config_castNode hW _ _ _⟩
    · rw [castInputs]; exact toNode_total hW rfl rfl hx d t
    · rw [castNode_space hW (s := x) rfl hx]; rfl
  | .lit (.dict []) c s, h => by rw [Ready] at h; exact absurd rfl h.2.1
  | .lit (.dict ((k, v) :: es)) c s, h => by
    rw [Ready] at h
    obtain ⟨hs, _, hd⟩ := h
    rw [castInputs]
    by_cases hsc : isScalar v = true
    · rw [if_pos hsc]
      refine ⟨_, toNode_total hW rfl rfl hs d t, rfl, ?_, config_castNode hW _ _ _⟩
      rw [castNode_space hW (s := s) rfl hs]; rfl
    · rw [if_neg hsc]
      rcases hd with hd | ⟨⟨t', hd⟩, hR⟩
      · have hv := hd (k, v) (by simp)
        dsimp only at hv
        rw [hv]
        exact ⟨_, rfl, rfl, rfl, rfl⟩
      · have hv := (hd (k, v) (by simp)).1
        dsimp only at hv
        rw [if_pos hv]
        obtain ⟨es', h1, h2⟩ := cast_totalK hW d t ((k, v) :: es) hR
        rw [h1]
        have hall : ∀ q ∈ es', q.2.isNode = true ∧ q.2.config W.env = .ok c ∧ q.2.space W.env = .ok (some t') := by
          intro q hq
          obtain ⟨p, hp, e, hA⟩ := forall2_right h2 hq
          obtain ⟨e1, e2, e3⟩ := hd p hp
          exact ⟨hA.node, by rw [hA.config, e2], by rw [hA.space, e3]⟩
        refine ⟨_, mkLit_nodes hall, rfl, rfl, rfl⟩
  | .lit (.str _) c s, h | .lit .none c s, h | .lit (.lit _ _ _) c s, h | .lit (.model _ _ _) c s, h | .lit (.merge _ _ _) c s, h => by
    rw [castInputs]
    · exact ⟨_, by simp only [isScalar, Bool.false_eq_true, if_false], rfl, rfl, rfl⟩
    all_goals simp
  | .lit (.int _) c s, h | .lit (.float _) c s, h | .lit (.bool _) c s, h | .lit (.tensor _) c s, h => by
    rw [Ready] at h
    · rw [castInputs]
      · simp only [isScalar, if_true]
        refine ⟨_, toNode_total hW rfl rfl h d t, rfl, ?_, config_castNode hW _ _ _⟩
        rw [castNode_space hW (s := s) rfl h]; rfl
      all_goals simp
    all_goals simp
  | .merge m args kwargs, h => by
    rw [Ready] at h
    obtain ⟨⟨s, hs⟩, hL, hK⟩ := h
    obtain ⟨as, a1, a2⟩ := cast_totalL hW d t args hL
    obtain ⟨ks, k1, k2⟩ := cast_totalK hW d t kwargs hK
    have hsp : (Val.merge m as ks).space W.env = (Val.merge m args kwargs).space W.env := by
      rw [Val.space, Val.space, (alikeL a2).1, (alikeK k2).1]
    refine ⟨.merge m as ks, ?_, rfl, hsp, ?_⟩
    · rw [castInputs, a1, k1]
      simp only [hsp, hs]
    · rw [Val.config, Val.config, (alikeL a2).2, (alikeK k2).2]
  | .str _, h | .int _, h | .float _, h | .bool _, h | .none, h | .tensor _, h | .dict _, h => by
    rw [Ready] at h
    · exact h.elim
    all_goals simp
theorem cast_totalL (hW : Builtin W move) (d t : Option Str) :
    ∀ l : List (Val F), ReadyL W.env l → ∃ l', castInputsL W.env d t l = .ok l' ∧ List.Forall₂ (Alike W.env) l l'
  | [], _ => ⟨[], by rw [castInputsL], .nil⟩
  | v :: l, h => by
    rw [ReadyL] at h
    obtain ⟨v', h1, h2⟩ := cast_total hW d t v h.1
    obtain ⟨l', h3, h4⟩ := cast_totalL hW d t l h.2
    exact ⟨v' :: l', by rw [castInputsL, h1, h3], .cons h2 h4⟩
theorem cast_totalK (hW : Builtin W move) (d t : Option Str) :
    ∀ l : List (Str × Val F), ReadyK W.env l →
      ∃ l', castInputsK W.env d t l = .ok l' ∧ List.Forall₂ (fun p q => p.1 = q.1 ∧ Alike W.env p.2 q.2) l l'
  | [], _ => ⟨[], by rw [castInputsK], .nil⟩
  | (k, v) :: l, h => by
    rw [ReadyK] at h
    obtain ⟨v', h1, h2⟩ := cast_total hW d t v h.1
    obtain ⟨l', h3, h4⟩ := cast_totalK hW d t l h.2
    exact ⟨(k, v') :: l', by rw [castInputsK, h1, h3], .cons ⟨rfl, h2⟩ h4⟩
end

/-! ### Recipes that are built are ready -/

theorem readyL_iff {E : Env F} {l : List (Val F)} : ReadyL E l ↔ ∀ v ∈ l, Ready E v := by
  induction l with
  | nil => simp [ReadyL]
  | cons v l ih => rw [ReadyL, ih]; simp

theorem readyK_iff {E : Env F} {l : List (Str × Val F)} : ReadyK E l ↔ ∀ p ∈ l, Ready E p.2 := by
  induction l with
  | nil => simp [ReadyK]
  | cons p l ih => obtain ⟨k, v⟩ := p; rw [ReadyK, ih]; simp

theorem allConfig_true {E : Env F} {c : Option Str} {es : List (Str × Val F)} (h : allConfig E c es = .ok true) : ∀ p ∈ es, p.2.config E = .ok c := by
  induction es with
  | nil => simp
  | cons p es ih =>
    obtain ⟨k, v⟩ := p
    rw [allConfig] at h
    cases hc : v.config E with
    | error e => rw [hc] at h; cases h
    | ok c' =>
      rw [hc] at h
      dsimp only at h
      split_ifs at h with hcc
      · subst hcc
        intro p hp
        rcases List.mem_cons.1 hp with rfl | hp
        · exact hc
        · exact ih h p hp
      · cases h

theorem allSpace_true {E : Env F} {c : Option Str} {es : List (Str × Val F)} (h : allSpace E c es = .ok true) : ∀ p ∈ es, p.2.space E = .ok c := by
  induction es with
  | nil => simp
  | cons p es ih =>
    obtain ⟨k, v⟩ := p
    rw [allSpace] at h
    cases hc : v.space E with
    | error e => rw [hc] at h; cases h
    | ok c' =>
      rw [hc] at h
      dsimp only at h
      split_ifs at h with hcc
      · subst hcc
        intro p hp
        rcases List.mem_cons.1 hp with rfl | hp
        · exact hc
        · exact ih h p hp
      · cases h

theorem ready_lit {E : Env F} {v : Val F} (hn : v.isNode = false) (hd : ∀ es, v ≠ .dict es) (c : Option Str) {s : Str} (hs : s ∈ allSpaces) :
    Ready E (.lit v c s) := by
  cases v with
  | dict es => exact absurd rfl (hd es)
  | _ => first | (cases hn; done) | (rw [Ready] <;> simp [hs])

theorem good_ready {E : Env F} {v n : Val F} (h : Good E v) (hv : valueToNode E v = .ok n) : Ready E n := by
  have hp : paramSpace ∈ allSpaces := by decide
  cases v with
  | lit _ _ _ | model _ _ _ | merge _ _ _ => rw [← Except.ok.inj hv]; exact h rfl
  | dict es =>
    obtain ⟨hne, h⟩ := h
    cases es with
    | nil => exact absurd rfl hne
    | cons p es =>
      obtain ⟨k, first⟩ := p
      rcases h with h | h
      · have hf : first.isNode = false := h (k, first) (by simp)
        have : n = .lit (.dict ((k, first) :: es)) none paramSpace := by
          simp only [valueToNode, mkLit, hf, Bind.bind, Except.bind] at hv
          split at hv
          · cases hv
          · exact (Except.ok.inj hv).symm
        rw [this, Ready]
        exact ⟨hp, hne, .inl h⟩
      · obtain ⟨hf, _, s, hs, hsp⟩ := h (k, first) (by simp)
        dsimp only at hf hsp
        simp only [valueToNode, mkLit, hf, if_true, hsp, Bind.bind, Except.bind] at hv
        split at hv
        · cases hv
        · split at hv
          · cases hv
          · rename_i c hc
            split at hv
            · cases hv
            · rename_i b1 hb1
              split_ifs at hv with hb
              split at hv
              · cases hv
              · rename_i b2 hb2
                split_ifs at hv with hb'
                simp only [Bool.not_eq_true', Bool.not_eq_false] at hb hb'
                subst hb hb'
                rw [← Except.ok.inj hv, Option.getD_some, Ready]
                refine ⟨hs, hne, .inr ⟨⟨s, fun p hp => ⟨(h p hp).1, allConfig_true hb1 p hp, allSpace_true hb2 p hp⟩⟩, ?_⟩⟩
                rw [readyK_iff]
                exact fun p hp => (h p hp).2.1
  | _ => rw [← Except.ok.inj hv]; exact ready_lit rfl (by simp) _ hp

theorem goods_ready {E : Env F} {vs ns : List (Val F)} (h : ∀ v ∈ vs, Good E v) (hv : valuesToNodes E vs = .ok ns) : ReadyL E ns := by
  induction vs generalizing ns with
  | nil => rw [← Except.ok.inj hv, ReadyL]; trivial
  | cons v vs ih =>
    simp only [valuesToNodes, Bind.bind, Except.bind] at hv
    split at hv
    · cases hv
    · rename_i n hn
      split at hv
      · cases hv
      · rename_i ns' hns
        rw [← Except.ok.inj hv, ReadyL]
        exact ⟨good_ready (h v (by simp)) hn, ih (fun v hv => h v (by simp [hv])) hns⟩

theorem goods_readyK {E : Env F} {vs ns : List (Str × Val F)} (h : ∀ p ∈ vs, Good E p.2) (hv : valuesToNodesK E vs = .ok ns) : ReadyK E ns := by
  induction vs generalizing ns with
  | nil => rw [← Except.ok.inj hv, ReadyK]; trivial
  | cons p vs ih =>
    obtain ⟨k, v⟩ := p
    simp only [valuesToNodesK, Bind.bind, Except.bind] at hv
    split at hv
    · cases hv
    · rename_i n hn
      split at hv
      · cases hv
      · rename_i ns' hns
        rw [← Except.ok.inj hv, ReadyK]
        exact ⟨good_ready (h (k, v) (by simp)) hn, ih (fun v hv => h v (by simp [hv])) hns⟩

theorem bind_mem {α : Type} {s : Sig α} {args : List α} {kwargs : Dict Str α} {b : Bound α} (h : Method.bind s args kwargs = .ok b) :
    (∀ a ∈ b.args, a ∈ args ∨ (∃ k, (k, a) ∈ kwargs) ∨ a ∈ s.defaults) ∧ ∀ p ∈ b.kwargs, p ∈ kwargs ∨ p ∈ s.kwdefaults := by
  rw [bind_ok_iff] at h
  obtain ⟨_, ⟨bound, hm, hb⟩, _, _, hkw⟩ := h
  constructor
  · intro a ha
    rw [hb] at ha
    rcases List.mem_append.1 ha with ha | ha
    · obtain ⟨hl, hall⟩ := (mapM_ok_iff _ _ _).1 hm
      obtain ⟨i, hi, rfl⟩ := List.mem_iff_getElem.1 ha
      have hi' : i < ((names s).mapIdx fun i k => (i, k)).length := by omega
      obtain ⟨x, hx1, hx⟩ := hall i _ (List.getElem?_eq_getElem hi')
      rw [List.getElem?_eq_getElem hi] at hx1
      rw [Option.some.inj hx1]
      unfold bindArg at hx
      split at hx
      · rename_i a' ha'
        split_ifs at ha' with hbp
        rw [← Except.ok.inj hx]
        exact .inl (List.mem_of_getElem? ha')
      · split at hx
        · rename_i a' ha'
          rw [← Except.ok.inj hx]
          exact .inr (.inl ⟨_, Dict.mem_of_get? ha'⟩)
        · split_ifs at hx
          split at hx
          · rename_i d hd
            rw [← Except.ok.inj hx]
            exact .inr (.inr (List.mem_of_getElem? hd))
          · cases hx
    · exact .inl (List.mem_of_mem_drop ha)
  · intro p hp
    rw [hkw] at hp
    rcases Dict.mem_update hp with hp | hp
    · exact .inl (List.mem_filter.1 hp).1
    · exact .inr hp

/-! ### The recipe that is merged -/

/-- The recipe with its fallback model -/
def joined (r : Val F) : Option (Val F) → Val F
  | none => r
  | some b => .merge nFallback [r, b] []

theorem withFallback_ok (hW : Builtin W move) {o : Options F} {r : Val F} {fb : Option (Val F)} {s : Str} (hn : r.isNode = true)
    (hfb : IsFallback W.env o fb) (hsp : InSpace W.env r fb s) (hs : s ∈ allSpaces) : withFallback W.env o r = .ok (joined r fb) := by
  unfold IsFallback at hfb
  unfold withFallback
  cases hb : o.fallback with
  | none => rw [hb] at hfb; dsimp only at hfb; subst hfb; rfl
  | some b =>
    rw [hb] at hfb
    obtain ⟨b', h1, rfl⟩ := hfb
    have hb' := valueToNode_isNode h1
    have := ByName.orNode_of_space hW.sigFallback hn hb' (fallback_space hW hsp.1 (hsp.2 b' rfl) hs)
    unfold orNode at this ⊢
    rw [Serialize.valueToNode_node hb'] at this
    dsimp only
    rw [h1]
    exact this

theorem joined_space (hW : Builtin W move) {r : Val F} {fb : Option (Val F)} {s : Str} (hsp : InSpace W.env r fb s) (hs : s ∈ allSpaces) :
    (joined r fb).space W.env = .ok (some s) := by
  cases fb with
  | none => exact hsp.1
  | some b => exact fallback_space hW hsp.1 (hsp.2 b rfl) hs

theorem joined_ready (hW : Builtin W move) {r : Val F} {fb : Option (Val F)} {s : Str} (hr : Ready W.env r) (hfr : ∀ b, fb = some b → Ready W.env b)
    (hsp : InSpace W.env r fb s) (hs : s ∈ allSpaces) : Ready W.env (joined r fb) := by
  cases fb with
  | none => exact hr
  | some b =>
    unfold joined
    rw [Ready, ReadyL, ReadyL, ReadyL, ReadyK]
    exact ⟨⟨s, joined_space hW hsp hs⟩, ⟨hr, hfr b rfl, trivial⟩, trivial⟩

theorem joined_config (hW : Builtin W move) {r : Val F} {fb : Option (Val F)} {c : Str} :
    (joined r fb).config W.env = .ok (some c) ↔ OneConfig W.env r fb c := by
  cases fb with
  | none => exact Iff.rfl
  | some b =>
    unfold joined OneConfig
    rw [Val.config, hW.sigFallback]
    simp only [configL, configK]
    cases hr : r.config W.env with
    | error e =>
      constructor
      · intro h; cases h
      · rintro ⟨cr, cb, h, _⟩; cases h
    | ok cr =>
      cases hb : b.config W.env with
      | error e =>
        constructor
        · intro h; cases h
        · rintro ⟨cr, cb, _, h, _⟩; cases h
      | ok cb =>
        show configLoop [(.pos 0, none), (.pos 1, none)] none [(.pos 0, cr), (.pos 1, cb)] = _ ↔ _
        have e : configLoop [(.pos 0, none), (.pos 1, none)] none [(.pos 0, cr), (.pos 1, cb)] =
            match cr, cb with
            | none, x => .ok x
            | some x, none => .ok (some x)
            | some x, some y => if x ≠ y then .error .value else .ok (some x) := by
          cases cr <;> cases cb <;> rfl
        rw [e]
        cases cr with
        | none => simp
        | some x =>
          cases cb with
          | none => simp
          | some y =>
            by_cases hxy : x = y
            · subst hxy; simp
            · simp only [ne_eq, hxy, not_false_eq_true, if_true, reduceCtorEq, false_iff]
              rintro ⟨cr, cb, h1, h2, h⟩
              cases h1; cases h2
              rcases h with ⟨h1, h2 | h2⟩ | ⟨h1, _⟩
              · cases h2
              · exact hxy (by rw [Option.some.inj h1, Option.some.inj h2])
              · cases h1

/-- `merge` accepts a recipe that is ready; what it merges has the merge space, and the config of recipe and fallback model. -/
theorem prepare_total (hW : Builtin W move) {o : Options F} {recipe r : Val F} {fb : Option (Val F)} {s : Str}
    (hv : valueToNode W.env recipe = .ok r) (hfb : IsFallback W.env o fb) (hr : Ready W.env r) (hfr : ∀ b, fb = some b → Ready W.env b)
    (hsp : InSpace W.env r fb s) (hs : s ∈ allSpaces) :
    ∃ merged, prepare W.env o recipe = .ok (r, merged) ∧ merged.space W.env = .ok (some s) ∧
      merged.config W.env = (joined r fb).config W.env := by
  have hn := valueToNode_isNode hv
  have h1 := withFallback_ok hW hn hfb hsp hs
  have hj : (joined r fb).isNode = true := by cases fb <;> [exact hn; rfl]
  have hjs := joined_space hW hsp hs
  have h2 : ∃ r2, withInputs W.env o (joined r fb) = .ok r2 ∧ Alike W.env (joined r fb) r2 := by
    unfold withInputs
    split_ifs
    · exact cast_total hW _ _ _ (joined_ready hW hr hfr hsp hs)
    · exact ⟨_, rfl, hj, rfl, rfl⟩
  obtain ⟨r2, h2, hA⟩ := h2
  have h3 : ∃ r3, withOutput W.env o r2 = .ok r3 ∧ r3.space W.env = .ok (some s) ∧ r3.config W.env = r2.config W.env := by
    unfold withOutput
    split_ifs
    · have hsp2 : r2.space W.env = .ok (some s) := by rw [hA.space, hjs]
      exact ⟨_, toNode_total hW hA.node hsp2 hs _ _, castNode_space hW hsp2 hs, config_castNode hW _ _ _⟩
    · exact ⟨_, rfl, by rw [hA.space, hjs], rfl⟩
  obtain ⟨r3, h3, h4, h5⟩ := h3
  refine ⟨r3, ?_, h4, by rw [h5, hA.config]⟩
  unfold prepare
  simp only [hv, Bind.bind, Except.bind, h1, h2, h3]

/-! ### Runs -/

open Program (Prog) in
open Threads.Spec in
theorem runs_exist {V : Type} {start : Str → Prog StreamOut.Tensor (Except Err V)} {opened : Str → Option StreamIn.State} (hop : Opened opened)
    {keys : List Str} (hk : keys.Nodup) (n : ℕ) : ∃ stores o, Runs n start opened keys stores o := by
  cases n with
  | zero => exact ⟨_, _, rfl⟩
  | succ n =>
    have jobs : Str → Threads.Job V := fun _ => ⟨.ret (.error .type), .idle⟩
    have go : ∀ (N : ℕ) (s : Threads.TState V), Threads.measure opened start s ≤ N → Steps (n + 1) start (Threads.init keys opened jobs) s →
        ∃ s' o, Steps (n + 1) start (Threads.init keys opened jobs) s' ∧ s'.base.over = some o := by
      intro N
      induction N with
      | zero =>
        intro s hm hs
        cases ho : s.base.over with
        | some o => exact ⟨s, o, hs, ho⟩
        | none =>
          obtain ⟨t, ht⟩ := Threads.progress hk hop (by omega) hs ho
          obtain ⟨⟨hist, hI⟩, _⟩ := Threads.inv_steps hk hop hs
          have := Threads.measure_step hI hop ht
          omega
      | succ N ih =>
        intro s hm hs
        cases ho : s.base.over with
        | some o => exact ⟨s, o, hs, ho⟩
        | none =>
          obtain ⟨t, ht⟩ := Threads.progress hk hop (by omega) hs ho
          obtain ⟨⟨hist, hI⟩, _⟩ := Threads.inv_steps hk hop hs
          have := Threads.measure_step hI hop ht
          exact ih t (by omega) (hs.step ht)
    obtain ⟨s', o, h1, h2⟩ := go _ _ (Nat.le_refl _) (.refl _)
    exact ⟨_, o, jobs, s', h1, h2, rfl⟩

open Program (Prog) in
open Threads.Spec in
theorem runs_job {V : Type} {start : Str → Prog StreamOut.Tensor (Except Err V)} {opened : Str → Option StreamIn.State} (hop : Opened opened)
    {keys : List Str} (hk : keys.Nodup) {n : ℕ} {stores : List (Str × V)} {o : Merge.Outcome} (h : Runs n start opened keys stores o) :
    Merge.Spec.Runs n (Threads.outcome opened start) keys stores o := by
  cases n with
  | zero =>
    have h : Threads.sequential start opened keys = (stores, o) := h
    rw [Threads.sequential_value hop keys (Threads.loaded_start opened)] at h
    exact h
  | succ n =>
    obtain ⟨jobs, s, h1, h2, h3⟩ := h
    exact ⟨s.base, (Threads.inv_steps hk hop h1).2, h2, h3⟩

/-! ### Writing -/

open StreamOut StreamOut.Spec in
/-- Assignments by one thread go through. -/
theorem write_all (stores : List (Key × Tensor)) (w : StreamOut.State) (hq : Quiescent w) :
    ∃ as w', StreamOut.run w as = some w' ∧ Quiescent w' ∧ StreamOut.Spec.stored as = stores := by
  induction stores generalizing w with
  | nil => exact ⟨[], w, rfl, hq, rfl⟩
  | cons p l ih =>
    obtain ⟨k, t⟩ := p
    obtain ⟨w1, h1, h2⟩ := Overwrite.put_run hq k t
    obtain ⟨as, w2, h3, h4, h5⟩ := ih w1 h2
    refine ⟨Overwrite.putActions w k t ++ as, w2, ?_, h4, ?_⟩
    · rw [Overwrite.run_append]
      have h1 : StreamOut.run w (Overwrite.putActions w k t) = some w1 := h1
      rw [h1]
      exact h3
    · rw [Overwrite.stored_append, Overwrite.stored_put, h5]
      rfl

end Verif.Total
