import Verif.Spec.Whole
import Verif.Proofs.CastEval
import Verif.Spec.Program
import Verif.Proofs.Method

/-!
# `merge` as a whole
-/
namespace Verif.Whole
open Method Recipe Config Eval Eval.Spec Program Program.Spec Spec
variable {F T : Type}

/-! ### The builtin methods -/

theorem impl_ext {m m' : Impl F T} (h1 : m.types = m'.types) (h2 : ∀ as ks key, m.run as ks key = m'.run as ks key) : m = m' := by
  cases m; cases m'
  simp only at h1 h2
  subst h1
  congr 1
  funext as ks key
  exact h2 as ks key

theorem impl_fallback : impl (fallbackSource (F := F) (T := T)) = fallbackImpl := by
  refine impl_ext rfl fun as ks key => ?_
  match as with
  | [.sd a _, .sd b _] =>
    simp only [impl, fallbackSource, fallbackImpl, List.map_cons, List.map_nil, shape, result, argAt, look, List.getElem?_cons_zero]
    cases a key with
    | ok v => rfl
    | error e => cases e <;> rfl
  | [] => rfl
  | [.sd _ _] => rfl
  | [.val _] => rfl
  | .val _ :: _ :: _ => rfl
  | .sd _ _ :: .val _ :: _ => rfl
  | .sd _ _ :: .sd _ _ :: _ :: _ => rfl

theorem impl_cast (move : Option Str → Option Str → T → Except Err T) : impl (castSource (F := F) move) = castImpl move := by
  refine impl_ext rfl fun as ks key => ?_
  match as with
  | [.val a, .val d, .val t] =>
    simp only [impl, castSource, castImpl, List.map_cons, List.map_nil, shape]
    cases deviceArg d with
    | error e => rfl
    | ok d =>
      cases dtypeArg t with
      | error e => rfl
      | ok t => cases a <;> rfl
  | [] => rfl
  | [.sd _ _] => rfl
  | [.val _] => rfl
  | .sd _ _ :: _ :: _ => rfl
  | [.val _, .val _] => rfl
  | [.val _, .sd _ _] => rfl
  | .val _ :: .sd _ _ :: _ :: _ => rfl
  | .val _ :: .val _ :: .sd _ _ :: _ => rfl
  | .val _ :: .val _ :: .val _ :: _ :: _ => rfl

theorem impl_pick : impl (pickSource (F := F) (T := T)) = pickImpl := by
  refine impl_ext rfl fun as ks key => ?_
  match as with
  | [.sd a c, .val v] =>
    simp only [impl, pickSource, pickImpl, List.map_cons, List.map_nil, shape]
    cases componentKeys c v with
    | error e => rfl
    | ok keys => by_cases h : key ∈ keys <;> simp [h, result, argAt, look]
  | [] => rfl
  | [.sd _ _] => rfl
  | [.val _] => rfl
  | .val _ :: _ :: _ => rfl
  | .sd _ _ :: .sd _ _ :: _ => rfl
  | .sd _ _ :: .val _ :: _ :: _ => rfl

theorem impl_omit : impl (omitSource (F := F) (T := T)) = omitImpl := by
  refine impl_ext rfl fun as ks key => ?_
  match as with
  | [.sd a c, .val v] =>
    simp only [impl, omitSource, omitImpl, List.map_cons, List.map_nil, shape]
    cases componentKeys c v with
    | error e => rfl
    | ok keys => by_cases h : key ∈ keys <;> simp [h, result, argAt, look]
  | [] => rfl
  | [.sd _ _] => rfl
  | [.val _] => rfl
  | .val _ :: _ :: _ => rfl
  | .sd _ _ :: .sd _ _ :: _ => rfl
  | .sd _ _ :: .val _ :: _ :: _ => rfl

theorem builtin {P : PWorld F T} {move} (h : Registered P move) (read : Str → Str → Except Err T) : Builtin (world P read) move where
  sigFallback := h.sigFallback
  implFallback := by show impl (P.source nFallback) = _; rw [h.fallback, impl_fallback]
  sigCast := h.sigCast
  implCast := by show impl (P.source nCast) = _; rw [h.cast, impl_cast]
  sigPick := h.sigPick
  implPick := by show impl (P.source nPick) = _; rw [h.pick, impl_pick]
  sigOmit := h.sigOmit
  implOmit := by show impl (P.source nOmit) = _; rw [h.omit_, impl_omit]

/-! ### Nodes of `fallback` -/

variable {W : World F T} {move : Option Str → Option Str → T → Except Err T}

theorem arg2 {a b v : Val F} {idx : Idx} (h : ArgAt [a, b] [] idx v) : (idx = .pos 0 ∧ v = a) ∨ (idx = .pos 1 ∧ v = b) := by
  cases idx with
  | name k => cases h
  | pos i =>
    have h' : [a, b][i]? = some v := h
    match i, h' with
    | 0, h' => left; simp at h'; exact ⟨rfl, h'.symm⟩
    | 1, h' => right; simp at h'; exact ⟨rfl, h'.symm⟩
    | i + 2, h' => simp at h'

theorem typeOf_fallback (hW : Builtin W move) :
    typeOf W nFallback 2 (.pos 0) = some (.sd .typeVar) ∧ typeOf W nFallback 2 (.pos 1) = some (.sd .typeVar) := by
  unfold typeOf
  rw [hW.implFallback]
  exact ⟨rfl, rfl⟩

theorem castable_fallback (hW : Builtin W move) {d t : Option Str} {tensors : ℕ → T} {enc : Val F → ℕ} {a b : Val F}
    (ha : Proper a) (hb : Proper b) (ca : Castable W (move d t) tensors enc a) (cb : Castable W (move d t) tensors enc b) :
    Castable W (move d t) tensors enc (.merge nFallback [a, b] []) := by
  obtain ⟨t0, t1⟩ := typeOf_fallback hW
  rw [Castable]
  refine ⟨⟨by simp [Dict.keys], ?_, ?_⟩, ?_, ?_, by rw [CastableK]; trivial⟩
  · intro idx v h
    rcases arg2 h with ⟨_, rfl⟩ | ⟨_, rfl⟩
    · exact ha
    · exact hb
  · intro idx v h
    rcases arg2 h with ⟨rfl, _⟩ | ⟨rfl, _⟩
    · simp only [List.length_cons, List.length_nil]; rw [t0]; rfl
    · simp only [List.length_cons, List.length_nil]; rw [t1]; rfl
  · rintro key e e' ⟨idx, v, ty, h1, h2, _⟩ _
    rw [precastL, precastL, precastL, precastK] at h1
    rw [precastL, precastL, precastL] at h2
    simp only [List.length_cons, List.length_nil] at h2
    rcases arg2 h1 with ⟨rfl, _⟩ | ⟨rfl, _⟩
    · have h3 : typeOf W nFallback 2 (.pos 0) = some (.val ty) := h2
      rw [t0] at h3; cases h3
    · have h3 : typeOf W nFallback 2 (.pos 1) = some (.val ty) := h2
      rw [t1] at h3; cases h3
  · rw [CastableL, CastableL, CastableL]
    exact ⟨ca, cb, trivial⟩

theorem configOf_fallback (hW : Builtin W move) {a b : Val F} {cfg : ModelConfig}
    (h : configOf W (.merge nFallback [a, b] []) = .ok (some cfg)) :
    configOf W a = .ok (some cfg) ∨ configOf W a = .ok none ∧ configOf W b = .ok (some cfg) := by
  unfold configOf at h ⊢
  rw [Val.config, hW.sigFallback] at h
  simp only [configL, configK] at h
  cases ha : a.config W.env with
  | error e => rw [ha] at h; cases h
  | ok ca =>
    cases hb : b.config W.env with
    | error e => rw [ha, hb] at h; cases h
    | ok cb =>
      rw [ha, hb] at h
      have key : ∀ x : Option Str, configLoop [(.pos 0, none), (.pos 1, none)] none [(.pos 0, ca), (.pos 1, cb)] = .ok x →
          x = ca ∨ ca = none ∧ x = cb := by
        intro x hx
        cases ca with
        | none =>
          right
          refine ⟨rfl, ?_⟩
          cases cb with
          | none => exact (Except.ok.inj hx).symm
          | some c => exact (Except.ok.inj hx).symm
        | some c =>
          left
          cases cb with
          | none => exact (Except.ok.inj hx).symm
          | some c' =>
            have hx' : (if c ≠ c' then .error .value else .ok (some c) : Except Err (Option Str)) = .ok x := hx
            split_ifs at hx' with hc
            exact (Except.ok.inj hx').symm
      cases hl : configLoop [(.pos 0, none), (.pos 1, none)] none [(.pos 0, ca), (.pos 1, cb)] with
      | error e =>
        have h' : (match configLoop [(.pos 0, none), (.pos 1, none)] none [(.pos 0, ca), (.pos 1, cb)] with
          | .error e => .error e | .ok none => .ok none | .ok (some c) => .ok (W.configs c) : Except Err (Option ModelConfig)) = .ok (some cfg) := h
        rw [hl] at h'; cases h'
      | ok x =>
        have h' : (match configLoop [(.pos 0, none), (.pos 1, none)] none [(.pos 0, ca), (.pos 1, cb)] with
          | .error e => .error e | .ok none => .ok none | .ok (some c) => .ok (W.configs c) : Except Err (Option ModelConfig)) = .ok (some cfg) := h
        rw [hl] at h'
        rcases key x hl with rfl | ⟨rfl, rfl⟩
        · left; exact h'
        · right; exact ⟨rfl, h'⟩

theorem config_fallback (hW : Builtin W move) {a b : Val F} {c : Str} (h : (Val.merge nFallback [a, b] []).config W.env = .ok (some c)) :
    a.config W.env = .ok (some c) ∨ a.config W.env = .ok none ∧ b.config W.env = .ok (some c) := by
  rw [Val.config, hW.sigFallback] at h
  simp only [configL, configK] at h
  cases ha : a.config W.env with
  | error e => rw [ha] at h; cases h
  | ok ca =>
    cases hb : b.config W.env with
    | error e => rw [ha, hb] at h; cases h
    | ok cb =>
      rw [ha, hb] at h
      have h : configLoop [(.pos 0, none), (.pos 1, none)] none [(.pos 0, ca), (.pos 1, cb)] = .ok (some c) := h
      cases ca with
      | none =>
        right
        refine ⟨rfl, ?_⟩
        cases cb with
        | none => cases h
        | some c' => exact h
      | some c' =>
        left
        cases cb with
        | none => exact h
        | some c'' =>
          have hx' : (if c' ≠ c'' then .error .value else .ok (some c') : Except Err (Option Str)) = .ok (some c) := h
          split_ifs at hx' with hc
          exact hx'

/-! ### Merge spaces -/

theorem return_dflt {α : Type} {sig : Sig α} (hret : sig.retSpace = .none) {args : List Str} {kwargs : Dict Str Str} {s : Str}
    (h : sig.returnSpace args kwargs = .ok s) :
    ∃ resolved, spaceLoop (sig.inputSpaces.asDict (some args.length)) [] (argIdx args kwargs) = .ok resolved ∧
      ∀ r, resolved.get? .dflt = some r → r = s := by
  unfold Sig.returnSpace at h
  dsimp only at h
  cases hl : spaceLoop (sig.inputSpaces.asDict (some args.length)) [] (argIdx args kwargs) with
  | error e => rw [hl] at h; cases h
  | ok resolved =>
    rw [hl, hret] at h
    refine ⟨resolved, rfl, fun r hr => ?_⟩
    simp only [hr] at h
    exact Except.ok.inj h

theorem return_fallback {x y s : Str} (h : (fallbackSig (F := F)).returnSpace [x, y] [] = .ok s) : x = s ∧ y = s := by
  obtain ⟨resolved, hl, hr⟩ := return_dflt rfl h
  obtain ⟨_, h2, _⟩ := spaceLoop_sound hl
  obtain ⟨a, ha, _, hs⟩ := h2 (.pos 0) x (by simp [argIdx])
  obtain ⟨b, hb, _, hs'⟩ := h2 (.pos 1) y (by simp [argIdx])
  exact ⟨hr x (hs .dflt allSpaces (Option.some.inj ha).symm), hr y (hs' .dflt allSpaces (Option.some.inj hb).symm)⟩

theorem return_cast {x s : Str} (h : (castSig (F := F)).returnSpace [x, paramSpace, paramSpace] [] = .ok s) : x = s := by
  obtain ⟨resolved, hl, hr⟩ := return_dflt rfl h
  obtain ⟨_, h2, _⟩ := spaceLoop_sound hl
  obtain ⟨a, ha, _, hs⟩ := h2 (.pos 0) x (by simp [argIdx])
  exact hr x (hs .dflt allSpaces (Option.some.inj ha).symm)

theorem space_some {E : Env F} {m : Str} {args : List (Val F)} {kwargs : List (Str × Val F)} {sp : Option Str}
    (h : (Val.merge m args kwargs).space E = .ok sp) : ∃ s, sp = some s := by
  rw [Val.space] at h
  cases h1 : E.resolve m with
  | error e => rw [h1] at h; cases h
  | ok sig =>
    rw [h1] at h
    cases h2 : spaceL E args with
    | error e => rw [h2] at h; cases h
    | ok as =>
      rw [h2] at h
      have h : (someSpaces as).bind _ = _ := h
      cases h3 : someSpaces as with
      | error e => rw [h3] at h; cases h
      | ok as' =>
        rw [h3] at h
        have h : (spaceK E kwargs).bind _ = _ := h
        cases h4 : spaceK E kwargs with
        | error e => rw [h4] at h; cases h
        | ok ks =>
          rw [h4] at h
          have h : (someSpaces (ks.map (·.2))).bind _ = _ := h
          cases h5 : someSpaces (ks.map (·.2)) with
          | error e => rw [h5] at h; cases h
          | ok kvs =>
            rw [h5] at h
            have h : (sig.returnSpace as' ((ks.map (·.1)).zip kvs)).bind _ = _ := h
            cases h6 : sig.returnSpace as' ((ks.map (·.1)).zip kvs) with
            | error e => rw [h6] at h; cases h
            | ok r => rw [h6] at h; exact ⟨r, (Except.ok.inj h).symm⟩

theorem space_fallback (hW : Builtin W move) {a b : Val F} {s : Str} (h : (Val.merge nFallback [a, b] []).space W.env = .ok (some s)) :
    a.space W.env = .ok (some s) ∧ b.space W.env = .ok (some s) := by
  rw [Val.space, hW.sigFallback] at h
  simp only [spaceL, spaceK] at h
  cases ha : a.space W.env with
  | error e => rw [ha] at h; cases h
  | ok sa =>
    cases hb : b.space W.env with
    | error e => rw [ha, hb] at h; cases h
    | ok sb =>
      rw [ha, hb] at h
      cases sa with
      | none => cases h
      | some x =>
        cases sb with
        | none => cases h
        | some y =>
          have h : ((fallbackSig (F := F)).returnSpace [x, y] []).bind (fun r => .ok (some r)) = .ok (some s) := h
          cases hr : (fallbackSig (F := F)).returnSpace [x, y] [] with
          | error e => rw [hr] at h; cases h
          | ok r =>
            rw [hr] at h
            obtain ⟨rfl, rfl⟩ := return_fallback hr
            obtain rfl := Option.some.inj (Except.ok.inj h)
            exact ⟨rfl, rfl⟩

theorem space_castNode (hW : Builtin W move) {a : Val F} {d t : Option Str} {s : Str} (h : (castNode a d t).space W.env = .ok (some s)) :
    a.space W.env = .ok (some s) := by
  unfold castNode at h
  rw [Val.space, hW.sigCast] at h
  simp only [spaceL, spaceK, Val.space] at h
  cases ha : a.space W.env with
  | error e => rw [ha] at h; cases h
  | ok sa =>
    rw [ha] at h
    cases sa with
    | none => cases h
    | some x =>
      have h : ((castSig (F := F)).returnSpace [x, paramSpace, paramSpace] []).bind (fun r => .ok (some r)) = .ok (some s) := h
      cases hr : (castSig (F := F)).returnSpace [x, paramSpace, paramSpace] [] with
      | error e => rw [hr] at h; cases h
      | ok r =>
        rw [hr] at h
        obtain rfl := return_cast hr
        obtain rfl := Option.some.inj (Except.ok.inj h)
        rfl

theorem space_toNode (hW : Builtin W move) {a r : Val F} (ha : a.isNode = true) {d t : Option Str} (h : toNode W.env a d t = .ok r) :
    r.space W.env = a.space W.env := by
  have e := toNode_shape hW ha h
  have h' : createRecipe W.env nCast [a] [("device".toList, optVal d), ("dtype".toList, optVal t)] = .ok r := h
  obtain ⟨_, _, as, ks, sp, _, _, _, _, h5, rfl⟩ := Serialize.createRecipe_ok.1 h'
  obtain ⟨s, rfl⟩ := space_some h5
  rw [h5]
  rw [e] at h5
  exact (space_castNode hW h5).symm

theorem mkLit_space {E : Env F} {v r : Val F} {c : Option Str} {s : Str} (h : mkLit E v c (some s) = .ok r) : r.space E = .ok (some s) := by
  unfold mkLit at h
  split at h
  · rename_i k first es
    split_ifs at h with h1
    · have key : ∀ c' : Option Str, (do
          let fs ← first.space E
          let b ← allConfig E c' ((k, first) :: es)
          if !b then .error .value
          else do
            let b ← allSpace E fs ((k, first) :: es)
            if !b then .error .value else .ok (.lit (.dict ((k, first) :: es)) c' s) : Except Err (Val F)) = .ok r → r.space E = .ok (some s) := by
        intro c' h
        have h : (first.space E).bind _ = _ := h
        cases h3 : first.space E with
        | error e => rw [h3] at h; cases h
        | ok fs =>
          rw [h3] at h
          have h : (allConfig E c' ((k, first) :: es)).bind _ = _ := h
          cases h4 : allConfig E c' ((k, first) :: es) with
          | error e => rw [h4] at h; cases h
          | ok b =>
            rw [h4] at h
            cases b with
            | false => cases h
            | true =>
              have h : (allSpace E fs ((k, first) :: es)).bind _ = _ := h
              cases h5 : allSpace E fs ((k, first) :: es) with
              | error e => rw [h5] at h; cases h
              | ok b =>
                rw [h5] at h
                cases b with
                | false => cases h
                | true => rw [← Except.ok.inj h]; rfl
      cases c with
      | some c => exact key _ h
      | none =>
        cases h2 : first.config E with
        | error e => simp only [h2] at h; cases h
        | ok c' => simp only [h2] at h; exact key c' h
    · rw [← Except.ok.inj h]; rfl
  · rw [← Except.ok.inj h]; rfl

mutual
theorem space_cast (hW : Builtin W move) (d t : Option Str) : ∀ (v r : Val F), castInputs W.env d t v = .ok r → r.space W.env = v.space W.env
  | .lit (.dict []) c s, r => fun h => by rw [castInputs] at h; cases h
  | .lit (.dict ((k, v) :: es)) c s, r => fun h => by
    rw [castInputs] at h
    split_ifs at h with h1 h2
    · exact space_toNode hW rfl h
    · cases hk : castInputsK W.env d t ((k, v) :: es) with
      | error e => rw [hk] at h; cases h
      | ok es' =>
        rw [hk] at h
        rw [mkLit_space h]
        rfl
    · cases h; rfl
  | .lit (.str x) c s, r => fun h => by simp [castInputs, isScalar] at h; rw [← h]
  | .lit .none c s, r => fun h => by simp [castInputs, isScalar] at h; rw [← h]
  | .lit (.int x) c s, r => fun h => by simp only [castInputs, isScalar, if_true] at h; exact space_toNode hW rfl h
  | .lit (.float x) c s, r => fun h => by simp only [castInputs, isScalar, if_true] at h; exact space_toNode hW rfl h
  | .lit (.bool x) c s, r => fun h => by simp only [castInputs, isScalar, if_true] at h; exact space_toNode hW rfl h
  | .lit (.tensor x) c s, r => fun h => by simp only [castInputs, isScalar, if_true] at h; exact space_toNode hW rfl h
  | .lit (.lit ..) c s, r => fun h => by simp [castInputs, isScalar] at h; rw [← h]
  | .lit (.model ..) c s, r => fun h => by simp [castInputs, isScalar] at h; rw [← h]
  | .lit (.merge ..) c s, r => fun h => by simp [castInputs, isScalar] at h; rw [← h]
  | .model p c s, r => fun h => by rw [castInputs] at h; exact space_toNode hW rfl h
  | .merge m args kwargs, r => fun h => by
    rw [castInputs] at h
    cases hL : castInputsL W.env d t args with
    | error e => rw [hL] at h; cases h
    | ok as =>
      cases hK : castInputsK W.env d t kwargs with
      | error e => rw [hL, hK] at h; cases h
      | ok ks =>
        rw [hL, hK] at h
        simp only at h
        cases hsp : (Val.merge m as ks).space W.env with
        | error e => rw [hsp] at h; cases h
        | ok sp =>
          rw [hsp] at h
          cases h
          rw [Val.space, Val.space, space_castL hW d t args as hL, space_castK hW d t kwargs ks hK]
  | .str _, r => fun h => by simp [castInputs] at h
  | .int _, r => fun h => by simp [castInputs] at h
  | .float _, r => fun h => by simp [castInputs] at h
  | .bool _, r => fun h => by simp [castInputs] at h
  | .none, r => fun h => by simp [castInputs] at h
  | .tensor _, r => fun h => by simp [castInputs] at h
  | .dict _, r => fun h => by simp [castInputs] at h
theorem space_castL (hW : Builtin W move) (d t : Option Str) :
    ∀ (l l' : List (Val F)), castInputsL W.env d t l = .ok l' → spaceL W.env l' = spaceL W.env l
  | [], l' => fun h => by rw [castInputsL] at h; cases h; rfl
  | v :: l, l' => fun h => by
    rw [castInputsL] at h
    cases hv : castInputs W.env d t v with
    | error e => rw [hv] at h; cases h
    | ok v' =>
      cases hl : castInputsL W.env d t l with
      | error e => rw [hv, hl] at h; cases h
      | ok l'' =>
        rw [hv, hl] at h
        cases h
        rw [spaceL, spaceL, space_cast hW d t v v' hv, space_castL hW d t l l'' hl]
theorem space_castK (hW : Builtin W move) (d t : Option Str) :
    ∀ (l l' : List (Str × Val F)), castInputsK W.env d t l = .ok l' → spaceK W.env l' = spaceK W.env l
  | [], l' => fun h => by rw [castInputsK] at h; cases h; rfl
  | (k, v) :: l, l' => fun h => by
    rw [castInputsK] at h
    cases hv : castInputs W.env d t v with
    | error e => rw [hv] at h; cases h
    | ok v' =>
      cases hl : castInputsK W.env d t l with
      | error e => rw [hv, hl] at h; cases h
      | ok l'' =>
        rw [hv, hl] at h
        cases h
        rw [spaceK, spaceK, space_cast hW d t v v' hv, space_castK hW d t l l'' hl]
end

/-! ### The recipe that is merged -/

theorem castsInputs_iff (o : Options F) : o.castsInputs = true ↔ ¬ (o.mergeDevice = none ∧ o.mergeDtype = none) := by
  unfold Options.castsInputs
  cases o.mergeDevice <;> cases o.mergeDtype <;> simp

theorem castsOutput_iff (o : Options F) : o.castsOutput = true ↔ ¬ (o.outputDevice = none ∧ o.outputDtype = none) := by
  unfold Options.castsOutput
  cases o.outputDevice <;> cases o.outputDtype <;> simp

theorem castLeaf_eq (C : Conv F T) (o : Options F) (h : o.castsOutput = true) (r : Res F T) :
    castLeaf C (move o.outputDevice o.outputDtype) r = match r with | .error e => .error e | .ok v => delivered C move o v := by
  unfold castLeaf
  cases r with
  | error e => rfl
  | ok v =>
    simp only
    unfold delivered
    rw [if_neg ((castsOutput_iff o).1 h)]
    cases castTo C .tensor v with
    | error e => rfl
    | ok w =>
      cases w with
      | tensor x => simp only; cases move o.outputDevice o.outputDtype x <;> rfl
      | _ => rfl

/-- Facts on the recipe that is merged, in terms of the recipe asked for and the node of the fallback model -/
structure Facts (W : World F T) (move : Option Str → Option Str → T → Except Err T) (tensors : ℕ → T) (enc : Val F → ℕ) (o : Options F)
    (original : Val F) (fb : Option (Val F)) (r : Val F) : Prop where
  eval : ∀ key, eval W r key = final W move tensors enc o original fb key
  config : ∀ cfg, configOf W r = .ok (some cfg) → HasConfig W original fb cfg
  space : ∀ s, r.space W.env = .ok (some s) → original.space W.env = .ok (some s) ∧ ∀ b, fb = some b → b.space W.env = .ok (some s)
  proper : Proper r
  name : ∀ c, r.config W.env = .ok (some c) →
    original.config W.env = .ok (some c) ∨ original.config W.env = .ok none ∧ ∃ b, fb = some b ∧ b.config W.env = .ok (some c)

theorem facts (hW : Builtin W move) {tensors : ℕ → T} {enc : Val F → ℕ} {o : Options F} {recipe original r : Val F}
    (hm : ∀ s, o.mergeDtype = some s → s ∈ dtypeNames) (ho : ∀ s, o.outputDtype = some s → s ∈ dtypeNames)
    (hmove : ∀ x e, move o.mergeDevice o.mergeDtype x = .error e → Err.isKeyError e = false)
    (h : prepare W.env o recipe = .ok (original, r)) (hfit : Fits W move tensors enc o original)
    (hfb : ∀ b b', o.fallback = some b → valueToNode W.env b = .ok b' → Fits W move tensors enc o b') :
    valueToNode W.env recipe = .ok original ∧ ∃ fb, IsFallback W.env o fb ∧
      Facts W move tensors enc o original fb r := by
  unfold prepare at h
  cases h0 : valueToNode W.env recipe with
  | error e => rw [h0] at h; cases h
  | ok original' =>
    rw [h0] at h
    have h : (withFallback W.env o original').bind _ = _ := h
    cases h1 : withFallback W.env o original' with
    | error e => rw [h1] at h; cases h
    | ok r1 =>
      rw [h1] at h
      have h : (withInputs W.env o r1).bind _ = _ := h
      cases h2 : withInputs W.env o r1 with
      | error e => rw [h2] at h; cases h
      | ok r2 =>
        rw [h2] at h
        have h : (withOutput W.env o r2).bind _ = _ := h
        cases h3 : withOutput W.env o r2 with
        | error e => rw [h3] at h; cases h
        | ok r3 =>
          rw [h3] at h
          obtain ⟨rfl, rfl⟩ := Prod.mk.inj (Except.ok.inj h)
          refine ⟨rfl, ?_⟩
          -- the recipe with its fallback
          have s1 : ∃ fb, IsFallback W.env o fb ∧
              Proper r1 ∧ (¬ (o.mergeDevice = none ∧ o.mergeDtype = none) → Castable W (move o.mergeDevice o.mergeDtype) tensors enc r1) ∧
              (∀ key, computed W move tensors enc o r1 key = combined W move tensors enc o original' fb key) ∧
              (∀ cfg, configOf W r1 = .ok (some cfg) → HasConfig W original' fb cfg) ∧
              (∀ s, r1.space W.env = .ok (some s) → (original'.space W.env = .ok (some s) ∧ ∀ b, fb = some b → b.space W.env = .ok (some s))) ∧
              ∀ c, r1.config W.env = .ok (some c) →
                original'.config W.env = .ok (some c) ∨ original'.config W.env = .ok none ∧ ∃ b, fb = some b ∧ b.config W.env = .ok (some c) := by
            unfold withFallback at h1
            unfold IsFallback
            cases hf : o.fallback with
            | none =>
              rw [hf] at h1
              obtain rfl := Except.ok.inj h1
              exact ⟨none, rfl, hfit.proper, hfit.cast, fun _ => rfl, fun cfg hc => .inl hc, fun s hs => ⟨hs, by simp⟩, fun c hc => .inl hc⟩
            | some b =>
              rw [hf] at h1
              obtain ⟨b', hb', rfl⟩ := orNode_shape hW hfit.proper.isNode h1
              have fitb := hfb b b' hf hb'
              refine ⟨some b', ⟨b', hb', rfl⟩, ?_, ?_, ?_, ?_, ?_, ?_⟩
              · simp [Proper, ProperL, ProperK, hfit.proper, fitb.proper]
              · exact fun hc => castable_fallback hW hfit.proper fitb.proper (hfit.cast hc) (fitb.cast hc)
              · intro key
                unfold computed combined computed
                split_ifs with hc
                · simp only [eval_fallback hW hfit.proper fitb.proper]
                · simp only [precast, precastL, precastK]
                  rw [eval_fallback (W := castWorld W (move o.mergeDevice o.mergeDtype) tensors) (move := move)
                    ⟨hW.1, hW.2, hW.3, hW.4, hW.5, hW.6, hW.7, hW.8⟩ ((proper_precast enc _).2 hfit.proper) ((proper_precast enc _).2 fitb.proper)]
              · intro cfg hc
                rcases configOf_fallback hW hc with hc | ⟨hc, hc'⟩
                · exact .inl hc
                · exact .inr ⟨hc, b', rfl, hc'⟩
              · intro s hs
                obtain ⟨e1, e2⟩ := space_fallback hW hs
                exact ⟨e1, fun x hx => by cases hx; exact e2⟩
              · intro c hc
                rcases config_fallback hW hc with hc | ⟨hc, hc'⟩
                · exact .inl hc
                · exact .inr ⟨hc, b', rfl, hc'⟩
          obtain ⟨fb, f1, f2, f3, f4, f5, f6, f7⟩ := s1
          -- with its inputs cast
          have s2 : Proper r2 ∧ (∀ key, Eval.eval W r2 key = computed W move tensors enc o r1 key) ∧
              r2.config W.env = r1.config W.env ∧ r2.space W.env = r1.space W.env := by
            unfold withInputs at h2
            unfold computed
            by_cases hc : o.castsInputs = true
            · rw [if_pos hc] at h2
              rw [if_neg ((castsInputs_iff o).1 hc)]
              obtain ⟨e1, e2⟩ := same_cast hW hm hmove r1 r2 (f3 ((castsInputs_iff o).1 hc)) h2
              exact ⟨e1.proper ((proper_precast enc _).2 f2), e1.run, e2, space_cast hW _ _ r1 r2 h2⟩
            · rw [if_neg hc] at h2
              obtain rfl := Except.ok.inj h2
              rw [if_pos (by by_contra hn; exact hc ((castsInputs_iff o).2 hn))]
              exact ⟨f2, fun _ => rfl, rfl, rfl⟩
          obtain ⟨g1, g2, g5, g4⟩ := s2
          have g3 : configOf W r2 = configOf W r1 := by unfold configOf; rw [g5]
          refine ⟨fb, f1, ?_⟩
          unfold withOutput at h3
          by_cases hc : o.castsOutput = true
          · rw [if_pos hc] at h3
            have e := toNode_shape hW g1.isNode h3
            refine ⟨?_, ?_, ?_, ?_, ?_⟩
            · intro key
              rw [e, eval_castNode hW g1 ho, castLeaf_eq _ o hc, g2, f4]
              rfl
            · intro cfg hcfg
              refine f5 cfg ?_
              rw [← g3, ← hcfg, e]
              unfold configOf
              rw [config_castNode hW]
            · intro s hs
              rw [space_toNode hW g1.isNode h3, g4] at hs
              exact f6 s hs
            · rw [e]
              unfold castNode
              simp [Proper, ProperL, ProperK, g1]
            · intro c hcfg
              refine f7 c ?_
              rw [← g5, ← hcfg, e, config_castNode hW]
          · rw [if_neg hc] at h3
            obtain rfl := Except.ok.inj h3
            refine ⟨?_, ?_, ?_, ?_, ?_⟩
            · intro key
              rw [g2, f4]
              unfold final
              cases combined W move tensors enc o original' fb key with
              | error e => rfl
              | ok v =>
                show _ = delivered W.conv move o v
                unfold delivered
                rw [if_pos (by by_contra hn; exact hc ((castsOutput_iff o).2 hn))]
            · intro cfg hcfg
              exact f5 cfg (by rw [← g3]; exact hcfg)
            · intro s hs
              rw [g4] at hs
              exact f6 s hs
            · exact g1
            · intro c hcfg
              exact f7 c (by rw [← g5]; exact hcfg)

end Verif.Whole
