import Verif.Spec.Assembly
import Verif.Proofs.BlocksWhole
import Verif.Proofs.WholeExtra

/-!
# Recipes put together by component
-/
namespace Verif.Assembly
open Method Recipe Config Eval Eval.Spec Program Program.Spec Whole Spec
open Blocks (castInputs_merge castInputs_config castF castInputsL_ok castInputsK_ok)
open Blocks.Spec (Known)
open WholeExtra.Spec (firstOf)
open WholeExtra (alt alt_of_ne firstOf_cons firstOf_append)
variable {F T : Type}

/-- The recipe that python builds -/
def recipe (r : ℕ → Val F) : Assembly → Val F
  | .part i => r i
  | .pick a c => .merge nPick [recipe r a, .lit (.str c) none paramSpace] []
  | .drop a c => .merge nOmit [recipe r a, .lit (.str c) none paramSpace] []
  | .either a b => .merge nFallback [recipe r a, recipe r b] []

theorem proper_recipe {r : ℕ → Val F} : ∀ A : Assembly, (∀ i ∈ A.parts, Proper (r i)) → Proper (recipe r A)
  | .part i => fun h => h i (by simp [Assembly.parts])
  | .pick a c => fun h => by
    rw [recipe]; exact Blocks.proper_two (proper_recipe a h) (by simp [Proper])
  | .drop a c => fun h => by
    rw [recipe]; exact Blocks.proper_two (proper_recipe a h) (by simp [Proper])
  | .either a b => fun h => by
    rw [recipe]
    exact Blocks.proper_two (proper_recipe a fun i hi => h i (by simp [Assembly.parts, hi])) (proper_recipe b fun i hi => h i (by simp [Assembly.parts, hi]))

theorem build_recipe {W : World F T} {move} (hW : Builtin W move) {r : ℕ → Val F} : ∀ (A : Assembly), (∀ i ∈ A.parts, Proper (r i)) → ∀ {v : Val F},
    A.build W.env r = .ok v → v = recipe r A
  | .part i => fun _ v h => by rw [Assembly.build] at h; rw [recipe]; exact (Except.ok.inj h).symm
  | .pick a c => fun hp v h => by
    rw [Assembly.build] at h
    cases ha : a.build W.env r with
    | error e => rw [ha] at h; cases h
    | ok x =>
      rw [ha] at h
      obtain rfl := build_recipe hW a hp ha
      obtain ⟨p2, e1, rfl⟩ := create_two hW.sigPick bind_component (proper_recipe a hp).isNode h
      rw [recipe, ← (Except.ok.inj e1 : _ = p2)]
      rfl
  | .drop a c => fun hp v h => by
    rw [Assembly.build] at h
    cases ha : a.build W.env r with
    | error e => rw [ha] at h; cases h
    | ok x =>
      rw [ha] at h
      obtain rfl := build_recipe hW a hp ha
      obtain ⟨p2, e1, rfl⟩ := create_two hW.sigOmit bind_component (proper_recipe a hp).isNode h
      rw [recipe, ← (Except.ok.inj e1 : _ = p2)]
      rfl
  | .either a b => fun hp v h => by
    have pa : ∀ i ∈ a.parts, Proper (r i) := fun i hi => hp i (by simp [Assembly.parts, hi])
    have pb : ∀ i ∈ b.parts, Proper (r i) := fun i hi => hp i (by simp [Assembly.parts, hi])
    rw [Assembly.build] at h
    cases ha : a.build W.env r with
    | error e => rw [ha] at h; cases h
    | ok x =>
      cases hb : b.build W.env r with
      | error e => rw [ha, hb] at h; cases h
      | ok y =>
        rw [ha, hb] at h
        obtain rfl := build_recipe hW a pa ha
        obtain rfl := build_recipe hW b pb hb
        obtain ⟨b', e1, rfl⟩ := orNode_shape hW (proper_recipe a pa).isNode h
        rw [Serialize.valueToNode_node (proper_recipe b pb).isNode] at e1
        rw [recipe, Except.ok.inj e1]

theorem config_component {W : World F T} {m : Str} (hsig : W.env.resolve m = .ok componentSig) {a : Val F} {c comp s : Str}
    (ha : a.config W.env = .ok (some c)) : (Val.merge m [a, .lit (.str comp) none s] []).config W.env = .ok (some c) := by
  have hl : (Val.lit (.str comp) none s : Val F).config W.env = .ok none := by rw [Val.config]
  rw [Val.config, hsig]
  simp only [configL, configK, ha, hl, Bind.bind, Except.bind]
  rfl

theorem config_either {W : World F T} {move} (hW : Builtin W move) {a b : Val F} {c : Str} (ha : a.config W.env = .ok (some c))
    (hb : b.config W.env = .ok (some c)) : (Val.merge nFallback [a, b] []).config W.env = .ok (some c) := by
  rw [Val.config, hW.sigFallback]
  simp only [configL, configK, ha, hb, Bind.bind, Except.bind]
  refine Blocks.configLoop_free (l := [(.pos 0, some c), (.pos 1, some c)]) ?_ ?_ (.inl rfl) (.inr ⟨(.pos 0, some c), by simp, rfl⟩)
  · intro p hp
    simp only [List.mem_cons, List.not_mem_nil, or_false] at hp
    rcases hp with rfl | rfl <;> exact .inr rfl
  · intro p hp
    simp only [List.mem_cons, List.not_mem_nil, or_false] at hp
    rcases hp with rfl | rfl <;> rfl

theorem config_recipe {W : World F T} {move} (hW : Builtin W move) {r : ℕ → Val F} {c : Str} : ∀ A : Assembly,
    (∀ i ∈ A.parts, (r i).config W.env = .ok (some c)) → (recipe r A).config W.env = .ok (some c)
  | .part i => fun h => h i (by simp [Assembly.parts])
  | .pick a comp => fun h => by rw [recipe]; exact config_component hW.sigPick (config_recipe hW a h)
  | .drop a comp => fun h => by rw [recipe]; exact config_component hW.sigOmit (config_recipe hW a h)
  | .either a b => fun h => by
    rw [recipe]
    exact config_either hW (config_recipe hW a fun i hi => h i (by simp [Assembly.parts, hi])) (config_recipe hW b fun i hi => h i (by simp [Assembly.parts, hi]))

/-- The value at a key is that of the first source that has the key. -/
theorem eval_recipe {W : World F T} {move} (hW : Builtin W move) {r : ℕ → Val F} {c : Str} {cfg : ModelConfig} (hcfg : W.configs c = some cfg) (key : Str) :
    ∀ A : Assembly, (∀ i ∈ A.parts, Proper (r i) ∧ (r i).config W.env = .ok (some c)) → A.Within cfg →
      eval W (recipe r A) key = firstOf ((A.sources cfg key).map fun i => eval W (r i) key)
  | .part i => fun _ _ => by
    rw [recipe, Assembly.sources, List.map_singleton, firstOf_cons]
    unfold alt
    cases eval W (r i) key with
    | ok v => rfl
    | error e => cases e <;> rfl
  | .pick a comp => fun h hin => by
    have hc : configOf W (recipe r a) = .ok (some cfg) := by
      unfold configOf; rw [config_recipe hW a fun i hi => (h i hi).2]; exact congrArg _ hcfg
    obtain ⟨keys, hk⟩ := Option.isSome_iff_exists.1 ((Dict.get?_isSome_iff _ _).2 hin.2)
    rw [recipe, eval_component hW.implPick rfl (proper_recipe a fun i hi => (h i hi).1)]
    simp only [pickImpl, componentKeys, hc, hk, Assembly.sources, isIn, decide_eq_true_eq]
    split_ifs
    · exact eval_recipe hW hcfg key a h hin.1
    · rfl
  | .drop a comp => fun h hin => by
    have hc : configOf W (recipe r a) = .ok (some cfg) := by
      unfold configOf; rw [config_recipe hW a fun i hi => (h i hi).2]; exact congrArg _ hcfg
    obtain ⟨keys, hk⟩ := Option.isSome_iff_exists.1 ((Dict.get?_isSome_iff _ _).2 hin.2)
    rw [recipe, eval_component hW.implOmit rfl (proper_recipe a fun i hi => (h i hi).1)]
    simp only [omitImpl, componentKeys, hc, hk, Assembly.sources, isIn, decide_eq_true_eq]
    split_ifs
    · rfl
    · exact eval_recipe hW hcfg key a h hin.1
  | .either a b => fun h hin => by
    have pa : ∀ i ∈ a.parts, Proper (r i) ∧ (r i).config W.env = .ok (some c) := fun i hi => h i (by simp [Assembly.parts, hi])
    have pb : ∀ i ∈ b.parts, Proper (r i) ∧ (r i).config W.env = .ok (some c) := fun i hi => h i (by simp [Assembly.parts, hi])
    rw [recipe, eval_fallback hW (proper_recipe a fun i hi => (pa i hi).1) (proper_recipe b fun i hi => (pb i hi).1), Assembly.sources, List.map_append,
      firstOf_append, ← eval_recipe hW hcfg key a pa hin.1, ← eval_recipe hW hcfg key b pb hin.2]
    unfold orElse alt
    cases eval W (recipe r a) key with
    | ok v => rfl
    | error e => cases e <;> rfl

/-! ### The recipe as `merge` prepares it -/

theorem castF_ok {E : Env F} {d t : Option Str} {r : ℕ → Val F} {i : ℕ} {x : Val F} (h : castInputs E d t (r i) = .ok x) : castF E d t r i = x := by
  unfold castF; rw [h]

theorem cast_two {E : Env F} {d t : Option Str} {m : Str} {a b x : Val F} (h : castInputs E d t (.merge m [a, b] []) = .ok x) :
    ∃ a' b', castInputs E d t a = .ok a' ∧ castInputs E d t b = .ok b' ∧ x = .merge m [a', b'] [] := by
  obtain ⟨as, ks, h1, h2, rfl⟩ := castInputs_merge h
  rw [castInputsK] at h2
  cases h2
  rw [castInputsL, castInputsL, castInputsL] at h1
  cases ha : castInputs E d t a with
  | error e => rw [ha] at h1; cases h1
  | ok a' =>
    cases hb : castInputs E d t b with
    | error e => rw [ha, hb] at h1; cases h1
    | ok b' =>
      rw [ha, hb] at h1
      cases h1
      exact ⟨a', b', rfl, rfl, rfl⟩

theorem cast_str {E : Env F} {d t : Option Str} {c s : Str} {x : Val F} (h : castInputs E d t (.lit (.str c) none s) = .ok x) : x = .lit (.str c) none s := by
  rw [castInputs] at h
  · exact (Except.ok.inj h).symm
  · simp
  · simp

theorem cast_recipe {E : Env F} {d t : Option Str} {r : ℕ → Val F} : ∀ (A : Assembly) {x : Val F}, castInputs E d t (recipe r A) = .ok x →
    x = recipe (castF E d t r) A ∧ ∀ i ∈ A.parts, castInputs E d t (r i) = .ok (castF E d t r i)
  | .part i, x => fun h => by
    have h : castInputs E d t (r i) = .ok x := h
    refine ⟨(castF_ok h).symm, ?_⟩
    intro j hj
    have : j = i := by simpa [Assembly.parts] using hj
    subst this
    rw [castF_ok h, h]
  | .pick a c, x => fun h => by
    rw [recipe] at h
    obtain ⟨a', b', h1, h2, rfl⟩ := cast_two h
    obtain ⟨rfl, h3⟩ := cast_recipe a h1
    rw [cast_str h2, recipe]
    exact ⟨rfl, h3⟩
  | .drop a c, x => fun h => by
    rw [recipe] at h
    obtain ⟨a', b', h1, h2, rfl⟩ := cast_two h
    obtain ⟨rfl, h3⟩ := cast_recipe a h1
    rw [cast_str h2, recipe]
    exact ⟨rfl, h3⟩
  | .either a b, x => fun h => by
    rw [recipe] at h
    obtain ⟨a', b', h1, h2, rfl⟩ := cast_two h
    obtain ⟨rfl, h3⟩ := cast_recipe a h1
    obtain ⟨rfl, h4⟩ := cast_recipe b h2
    refine ⟨by rw [recipe], ?_⟩
    intro i hi
    rcases List.mem_append.1 hi with hi | hi
    · exact h3 i hi
    · exact h4 i hi

theorem mkLit_lit {E : Env F} {v r : Val F} {c s : Option Str} (h : mkLit E v c s = .ok r) : ∃ c' s', r = .lit v c' s' := by
  unfold mkLit at h
  split at h
  · split_ifs at h
    · simp only [Bind.bind, Except.bind] at h
      repeat' split at h
      all_goals first | (exact ⟨_, _, (Except.ok.inj h).symm⟩) | cases h
    · exact ⟨_, _, (Except.ok.inj h).symm⟩
  · exact ⟨_, _, (Except.ok.inj h).symm⟩

theorem lit_cast {W : World F T} {move} (hW : Builtin W move) {d t : Option Str} {v r : Val F} {c : Option Str} {s : Str} (hd : ∀ es, v ≠ .dict es)
    (hv : Proper (.lit v c s)) (h : castInputs W.env d t (.lit v c s) = .ok r) : Proper r := by
  rw [castInputs] at h
  · split_ifs at h
    · rw [toNode_shape hW rfl h]
      exact proper_castNode hv _ _
    · cases h; exact hv
  · exact hd _
  · exact fun _ _ _ => hd _

mutual
theorem proper_cast {W : World F T} {move} (hW : Builtin W move) {d t : Option Str} : ∀ (v r : Val F), Proper v → castInputs W.env d t v = .ok r → Proper r
  | .lit (.dict []) c s, r => fun _ h => by rw [castInputs] at h; cases h
  | .lit (.dict ((k, v) :: es)) c s, r => fun hv h => by
    rw [castInputs] at h
    split_ifs at h with h1 h2
    · rw [toNode_shape hW rfl h]
      exact proper_castNode hv _ _
    · cases hk : castInputsK W.env d t ((k, v) :: es) with
      | error e => rw [hk] at h; cases h
      | ok es' =>
        rw [hk] at h
        obtain ⟨c', s', rfl⟩ := mkLit_lit h
        simp [Proper]
    · cases h; exact hv
  | .model p c s, r => fun hv h => by
    rw [castInputs] at h
    rw [toNode_shape hW rfl h]
    exact proper_castNode hv _ _
  | .merge m args kwargs, r => fun hv h => by
    obtain ⟨as, ks, h1, h2, rfl⟩ := castInputs_merge h
    rw [Proper] at hv ⊢
    obtain ⟨p1, l1⟩ := proper_castL hW args as hv.2.1 h1
    obtain ⟨p2, l2⟩ := proper_castK hW kwargs ks hv.2.2 h2
    refine ⟨?_, p1, p2⟩
    rcases hv.1 with h | h
    · exact .inl fun e => h (List.length_eq_zero_iff.1 (by rw [← l1, e]; rfl))
    · exact .inr fun e => h (List.length_eq_zero_iff.1 (by rw [← l2, e]; rfl))
  | .lit (.str _) _ _, _ | .lit (.int _) _ _, _ | .lit (.float _) _ _, _ | .lit (.bool _) _ _, _ | .lit .none _ _, _ | .lit (.tensor _) _ _, _
  | .lit (.lit _ _ _) _ _, _ | .lit (.model _ _ _) _ _, _ | .lit (.merge _ _ _) _ _, _ => fun hv h => lit_cast hW (by simp) hv h
  | .str _, _ | .int _, _ | .float _, _ | .bool _, _ | .none, _ | .tensor _, _ | .dict _, _ => fun hv _ => by simp [Proper] at hv
theorem proper_castL {W : World F T} {move} (hW : Builtin W move) {d t : Option Str} : ∀ (l l' : List (Val F)), ProperL l → castInputsL W.env d t l = .ok l' →
    ProperL l' ∧ l'.length = l.length
  | [], l' => fun _ h => by rw [castInputsL] at h; cases h; exact ⟨trivial, rfl⟩
  | v :: l, l' => fun hv h => by
    rw [castInputsL] at h
    cases h1 : castInputs W.env d t v with
    | error e => rw [h1] at h; cases h
    | ok v' =>
      cases h2 : castInputsL W.env d t l with
      | error e => rw [h1, h2] at h; cases h
      | ok l'' =>
        rw [h1, h2] at h
        cases h
        rw [ProperL] at hv ⊢
        obtain ⟨p1, p2⟩ := proper_castL hW l l'' hv.2 h2
        exact ⟨⟨proper_cast hW v v' hv.1 h1, p1⟩, by simp [p2]⟩
theorem proper_castK {W : World F T} {move} (hW : Builtin W move) {d t : Option Str} : ∀ (l l' : List (Str × Val F)), ProperK l →
    castInputsK W.env d t l = .ok l' → ProperK l' ∧ l'.length = l.length
  | [], l' => fun _ h => by rw [castInputsK] at h; cases h; exact ⟨trivial, rfl⟩
  | (k, v) :: l, l' => fun hv h => by
    rw [castInputsK] at h
    cases h1 : castInputs W.env d t v with
    | error e => rw [h1] at h; cases h
    | ok v' =>
      cases h2 : castInputsK W.env d t l with
      | error e => rw [h1, h2] at h; cases h
      | ok l'' =>
        rw [h1, h2] at h
        cases h
        rw [ProperK] at hv ⊢
        obtain ⟨p1, p2⟩ := proper_castK hW l l'' hv.2 h2
        exact ⟨⟨proper_cast hW v v' hv.1 h1, p1⟩, by simp [p2]⟩
end

/-- The cast for the output -/
def outNode (o : Options F) (a : Val F) : Val F := if o.castsOutput then castNode a o.outputDevice o.outputDtype else a

/-- What it makes of a value -/
def deliver (C : Conv F T) (move : Option Str → Option Str → T → Except Err T) (o : Options F) (r : Res F T) : Res F T :=
  if o.castsOutput then castLeaf C (move o.outputDevice o.outputDtype) r else r

theorem prepare_recipe {W : World F T} {move} (hW : Builtin W move) {o : Options F} (hfb : o.fallback = none) {r : ℕ → Val F} {A : Assembly}
    (hp : ∀ i ∈ A.parts, Proper (r i)) {v p : Val F} (h : prepare W.env o (recipe r A) = .ok (v, p)) :
    p = outNode o (recipe (Blocks.prepF W.env o r) A) ∧
      ∀ i ∈ A.parts, o.castsInputs = true → castInputs W.env o.mergeDevice o.mergeDtype (r i) = .ok (Blocks.prepF W.env o r i) := by
  unfold prepare at h
  have hn := (proper_recipe A hp).isNode
  rw [Serialize.valueToNode_node hn] at h
  have h : (withFallback W.env o (recipe r A)).bind _ = _ := h
  have e : withFallback W.env o (recipe r A) = .ok (recipe r A) := by unfold withFallback; rw [hfb]
  rw [e] at h
  have h : (withInputs W.env o (recipe r A)).bind _ = _ := h
  unfold Blocks.prepF outNode
  unfold withInputs at h
  by_cases hc : o.castsInputs = true
  · rw [if_pos hc] at h
    simp only [hc, if_true]
    cases h2 : castInputs W.env o.mergeDevice o.mergeDtype (recipe r A) with
    | error e => rw [h2] at h; cases h
    | ok x =>
      rw [h2] at h
      have h : (withOutput W.env o x).bind _ = _ := h
      obtain ⟨rfl, h4⟩ := cast_recipe A h2
      refine ⟨?_, fun i hi _ => h4 i hi⟩
      have hn' := (proper_cast hW _ _ (proper_recipe A hp) h2).isNode
      unfold withOutput at h
      by_cases ho : o.castsOutput = true
      · rw [if_pos ho] at h ⊢
        cases h3 : toNode W.env (recipe (castF W.env o.mergeDevice o.mergeDtype r) A) o.outputDevice o.outputDtype with
        | error e => rw [h3] at h; cases h
        | ok y =>
          rw [h3] at h
          rw [← (Prod.mk.inj (Except.ok.inj h)).2, toNode_shape hW hn' h3]
      · rw [if_neg ho] at h ⊢
        exact (Prod.mk.inj (Except.ok.inj h)).2.symm
  · rw [if_neg hc] at h
    simp only [hc]
    have h : (withOutput W.env o (recipe r A)).bind _ = _ := h
    refine ⟨?_, fun i hi hh => by cases hh⟩
    unfold withOutput at h
    by_cases ho : o.castsOutput = true
    · rw [if_pos ho] at h ⊢
      cases h3 : toNode W.env (recipe r A) o.outputDevice o.outputDtype with
      | error e => rw [h3] at h; cases h
      | ok y =>
        rw [h3] at h
        rw [← (Prod.mk.inj (Except.ok.inj h)).2, toNode_shape hW hn h3]
        rfl
    · rw [if_neg ho] at h ⊢
      exact (Prod.mk.inj (Except.ok.inj h)).2.symm

theorem eval_out {W : World F T} {move} (hW : Builtin W move) {o : Options F} (ho : ∀ s, o.outputDtype = some s → s ∈ dtypeNames) {a : Val F} (ha : Proper a)
    (key : Str) : eval W (outNode o a) key = deliver W.conv move o (eval W a key) := by
  unfold outNode deliver
  split_ifs
  · exact eval_castNode hW ha ho key
  · rfl

theorem config_out {W : World F T} {move} (hW : Builtin W move) (o : Options F) (a : Val F) : (outNode o a).config W.env = a.config W.env := by
  unfold outNode
  split_ifs
  · exact config_castNode hW _ _ _
  · rfl

theorem deliver_missing {C : Conv F T} {move : Option Str → Option Str → T → Except Err T} {o : Options F} (hconv : ∀ v, C.toTensor v ≠ .error .stateDictKey)
    (hmove : ∀ x, move o.outputDevice o.outputDtype x ≠ .error .stateDictKey) (r : Res F T) :
    deliver C move o r = .error .stateDictKey ↔ r = .error .stateDictKey := by
  unfold deliver
  split_ifs
  · constructor
    · intro h
      cases r with
      | error e => exact h
      | ok v =>
        exfalso
        unfold castLeaf at h
        simp only at h
        cases hv : castTo C .tensor v with
        | error e =>
          rw [hv] at h
          have h : (Except.error e : Res F T) = .error .stateDictKey := h
          rw [h] at hv
          unfold castTo at hv
          split at hv
          · cases hv
          · by_cases hi : Ty.tensor = Ty.typeVar ∨ v.isInstance .tensor = true
            · rw [if_pos hi] at hv; cases hv
            · rw [if_neg hi] at hv
              have hv : (C.toTensor v).map RVal.tensor = .error .stateDictKey := hv
              cases ht : C.toTensor v with
              | error e => rw [ht] at hv; cases hv; exact hconv _ ht
              | ok x => rw [ht] at hv; cases hv
        | ok w =>
          rw [hv] at h
          cases w with
          | tensor x =>
            have h : (move o.outputDevice o.outputDtype x).map RVal.tensor = .error .stateDictKey := h
            cases ht : move o.outputDevice o.outputDtype x with
            | error e => rw [ht] at h; cases h; exact hmove _ ht
            | ok x => rw [ht] at h; cases h
          | _ => cases h
    · rintro rfl; rfl
  · rfl

theorem deliver_first {C : Conv F T} {move : Option Str → Option Str → T → Except Err T} {o : Options F} (hconv : ∀ v, C.toTensor v ≠ .error .stateDictKey)
    (hmove : ∀ x, move o.outputDevice o.outputDtype x ≠ .error .stateDictKey) : ∀ l : List (Res F T),
    deliver C move o (firstOf l) = firstOf (l.map (deliver C move o))
  | [] => (deliver_missing hconv hmove _).2 rfl
  | x :: l => by
    rw [List.map_cons, firstOf_cons, firstOf_cons, ← deliver_first hconv hmove l]
    by_cases hx : x = .error .stateDictKey
    · rw [(deliver_missing hconv hmove x).2 hx, hx]; rfl
    · rw [alt_of_ne hx, alt_of_ne fun h => hx ((deliver_missing hconv hmove x).1 h)]

/-- The sources of a key are parts. -/
theorem sources_parts {cfg : ModelConfig} (key : Str) (B : Assembly) : ∀ i ∈ B.sources cfg key, i ∈ B.parts := by
  induction B with
  | part i => exact fun j hj => hj
  | pick a c ih =>
    intro j hj
    rw [Assembly.sources] at hj
    split_ifs at hj
    · exact ih j hj
    · simp at hj
  | drop a c ih =>
    intro j hj
    rw [Assembly.sources] at hj
    split_ifs at hj
    · simp at hj
    · exact ih j hj
  | either a b iha ihb =>
    intro j hj
    rcases List.mem_append.1 hj with h | h
    · exact List.mem_append.2 (.inl (iha j h))
    · exact List.mem_append.2 (.inr (ihb j h))

/-- What is merged is, key by key, what is merged for the first source that has the key. -/
theorem merged_first {W : World F T} {move} (hW : Builtin W move) {o : Options F} (hfb : o.fallback = none)
    (ho : ∀ s, o.outputDtype = some s → s ∈ dtypeNames) (hconv : ∀ v, W.conv.toTensor v ≠ .error .stateDictKey)
    (hmove : ∀ x, move o.outputDevice o.outputDtype x ≠ .error .stateDictKey) {c : Str} {cfg : ModelConfig} (hcfg : W.configs c = some cfg)
    {r : ℕ → Val F} {A : Assembly} (hA : A.Within cfg) (hr : ∀ i ∈ A.parts, Proper (r i) ∧ Known (r i) ∧ (r i).config W.env = .ok (some c))
    {v p : Val F} (h : prepare W.env o (recipe r A) = .ok (v, p)) {v' q : ℕ → Val F} (hq : ∀ i ∈ A.parts, prepare W.env o (r i) = .ok (v' i, q i)) :
    p.config W.env = .ok (some c) ∧ (∀ i ∈ A.parts, (q i).config W.env = .ok (some c)) ∧
      ∀ key, eval W p key = firstOf ((A.sources cfg key).map fun i => eval W (q i) key) := by
  obtain ⟨rfl, h2⟩ := prepare_recipe hW hfb (fun i hi => (hr i hi).1) h
  have hR : ∀ i ∈ A.parts, Proper (Blocks.prepF W.env o r i) ∧ (Blocks.prepF W.env o r i).config W.env = .ok (some c) := by
    intro i hi
    by_cases hc : o.castsInputs = true
    · have := h2 i hi hc
      exact ⟨proper_cast hW _ _ (hr i hi).1 this, by rw [(castInputs_config hW _ _ (hr i hi).2.1 this).1]; exact (hr i hi).2.2⟩
    · have e : Blocks.prepF W.env o r i = r i := by unfold Blocks.prepF; rw [if_neg hc]
      rw [e]
      exact ⟨(hr i hi).1, (hr i hi).2.2⟩
  have hQ : ∀ i ∈ A.parts, q i = outNode o (Blocks.prepF W.env o r i) := fun i hi =>
    (prepare_recipe hW hfb (r := r) (A := .part i) (fun j hj => by
      have : j = i := by simpa [Assembly.parts] using hj
      rw [this]; exact (hr i hi).1) (hq i hi)).1
  refine ⟨by rw [config_out hW]; exact config_recipe hW A fun i hi => (hR i hi).2, fun i hi => by rw [hQ i hi, config_out hW]; exact (hR i hi).2, fun key => ?_⟩
  rw [eval_out hW ho (proper_recipe A fun i hi => (hR i hi).1), eval_recipe hW hcfg key A hR hA, deliver_first hconv hmove, List.map_map]
  congr 1
  refine List.map_congr_left fun i hi => ?_
  have hi' := sources_parts key A i hi
  rw [hQ i hi', eval_out hW ho (hR i hi').1]
  rfl

end Verif.Assembly
