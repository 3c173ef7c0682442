import Verif.Proofs.Method
import Verif.Spec.RoundTrip

/-! # Calling a method again on the arguments of a node -/

namespace Verif.Dict
universe u v
variable {κ : Type u} {ν : Type v} [DecidableEq κ]

theorem set_append_left (d e : Dict κ ν) (k : κ) (v : ν) (h : k ∉ d.keys) : set (d ++ e) k v = d ++ set e k v := by
  induction d with
  | nil => rfl
  | cons p d ih =>
    obtain ⟨a, b⟩ := p
    simp only [keys, List.map_cons, List.mem_cons, not_or] at h
    rw [List.cons_append, set, if_neg (fun e => h.1 e.symm), ih h.2, List.cons_append]

/-- Overwriting every entry, in order, and adding new ones. -/
theorem update_overwrite (p d e : Dict κ ν) (r : List κ) (he : e.keys = d.keys ++ r)
    (hn : (p.keys ++ e.keys).Nodup) : update (p ++ d) e = p ++ e := by
  induction e generalizing p d r with
  | nil =>
    have : d = [] := by
      cases d with
      | nil => rfl
      | cons q d => simp [keys] at he
    subst this; simp
  | cons q e ih =>
    obtain ⟨k, v⟩ := q
    have hkp : k ∉ p.keys := by
      intro hk
      have := (List.nodup_append.1 hn).2.2 k hk k (by simp [keys])
      exact this rfl
    rw [update_cons, set_append_left p d k v hkp]
    cases d with
    | nil =>
      have h1 : set ([] : Dict κ ν) k v = [(k, v)] := rfl
      rw [h1]
      have := ih (p ++ [(k, v)]) [] (keys e) (by simp [keys]) (by simpa [keys] using hn)
      simpa using this
    | cons q d =>
      obtain ⟨k', v'⟩ := q
      simp only [keys, List.map_cons, List.cons_append, List.cons.injEq] at he
      obtain ⟨rfl, he⟩ := he
      simp only [set, if_true]
      have := ih (p ++ [(k, v)]) d r he (by simpa [keys] using hn)
      simpa using this

theorem keys_update_prefix (d e : Dict κ ν) : ∃ r, (d.update e).keys = d.keys ++ r := by
  induction e generalizing d with
  | nil => exact ⟨[], by simp⟩
  | cons p e ih =>
    rw [update_cons]
    obtain ⟨r, hr⟩ := ih (d.set p.1 p.2)
    rw [hr, keys_set]
    split
    · exact ⟨r, rfl⟩
    · exact ⟨p.1 :: r, by simp⟩

end Verif.Dict

namespace Verif.Method
open Spec
variable {α : Type}

/-- As many arguments and the same keywords as an accepted call has bound are bound one to one. -/
theorem bind_again {s : Sig α} (hwf : s.WF) {args : List α} {kwargs : Dict Str α} {b : Bound α}
    (h : bind s args kwargs = .ok b) (args' : List α) (kwargs' : Dict Str α) (ha : args'.length = b.args.length)
    (hk : kwargs'.keys = b.kwargs.keys) : bind s args' kwargs' = .ok ⟨args', kwargs'⟩ := by
  obtain ⟨⟨hc1, hc2⟩, ⟨bound, hm, hb⟩, hk1, hk2, hkw'⟩ := bind_ok_iff.1 h
  obtain ⟨hlen, hlen'⟩ := bind_length h
  have hkeys : ∀ k ∈ kwargs'.keys, k ∈ s.kwonly.keys := by
    intro k hk0
    rw [hk, hkw', Dict.mem_keys_update] at hk0
    rcases hk0 with h | h
    · exact hwf.kwdefaults k h
    · exact hk1 k h
  have hnodup : kwargs'.keys.Nodup := by rw [hk, hkw']; exact Dict.nodup_update hwf.kwdefaultsNodup _
  have hnone : ∀ k ∈ names s, k ∉ kwargs'.keys := fun k hk h' => hwf.disjoint k hk (hkeys k h')
  have hfilter : (names s).filter (fun k => decide (k ∈ kwargs'.keys)) = [] := by
    rw [List.filter_eq_nil_iff]; intro k hk; simp [hnone k hk]
  have hrest : kwargs'.filter (fun p => decide (p.1 ∉ names s)) = kwargs' := by
    rw [List.filter_eq_self]
    intro p hp
    simp only [decide_eq_true_eq]
    intro hn
    exact hnone _ hn (List.mem_map.2 ⟨p, hp, rfl⟩)
  have hfirst : firstArgAsKwarg (s.args.map (·.1)) kwargs' = none := by
    unfold firstArgAsKwarg
    rw [List.findIdx?_eq_none_iff]
    intro k hk
    simp [hnone k hk]
  rw [bind_ok_iff]
  simp only [hfilter, hrest, List.length_nil, Nat.add_zero]
  refine ⟨⟨by omega, fun hv => by rw [ha, hlen' hv]⟩, ⟨args'.take (names s).length, ?_, ?_⟩, ?_, ?_, ?_⟩
  · rw [mapM_ok_iff]
    refine ⟨by simp; omega, ?_⟩
    intro i p hp
    rw [mapIdx_getElem?] at hp
    obtain ⟨name, hn, rfl⟩ := Option.map_eq_some_iff.1 hp
    have hi : i < (names s).length := by
      rcases Nat.lt_or_ge i (names s).length with h | h
      · exact h
      · rw [List.getElem?_eq_none h] at hn; cases hn
    have hi' : i < args'.length := by omega
    refine ⟨args'[i], ?_, ?_⟩
    · rw [List.getElem?_take_of_lt hi, List.getElem?_eq_getElem hi']
    · unfold bindArg byPosition
      rw [hfirst]
      simp only [hi', decide_true, if_true, List.getElem?_eq_getElem hi']
  · simp
  · intro k hk0; exact hkeys k hk0
  · intro k hk0
    left
    rw [hk, hkw', Dict.mem_keys_update]
    rcases hk2 k hk0 with h | h
    · exact Or.inr h
    · exact Or.inl h
  · obtain ⟨r, hr⟩ := Dict.keys_update_prefix s.kwdefaults (kwargs.filter fun p => decide (p.1 ∉ names s))
    have := Dict.update_overwrite ([] : Dict Str α) s.kwdefaults kwargs' r (by rw [hk, hkw', hr]) (by simpa [Dict.keys] using hnodup)
    simpa using this.symm

end Verif.Method

namespace Verif.Serialize
open Method Recipe Spec
variable {F : Type} {E : Env F}

/-- What the caller passes: a literal without config is one that the conversion of a value would make. -/
def Spec.Passed (E : Env F) (v : Val F) : Prop := ∀ x s, v = .lit x none s → valueToNode E x = .ok v

theorem mkLit_shape {v n : Val F} {c s : Option Str} (h : mkLit E v c s = .ok n) : ∃ c' s', n = .lit v c' s' := by
  unfold mkLit at h
  split at h
  · split at h
    · simp only [Bind.bind, Except.bind] at h
      repeat' split at h
      all_goals first | (cases h; done) | (cases h; exact ⟨_, _, rfl⟩)
    · cases h; exact ⟨_, _, rfl⟩
  · cases h; exact ⟨_, _, rfl⟩

theorem valueToNode_node {v : Val F} (h : v.isNode = true) : valueToNode E v = .ok v := by
  cases v <;> first | rfl | cases h

theorem valueToNode_lit {v n : Val F} (hv : v.isNode = false) (h : valueToNode E v = .ok n) : ∃ c' s', n = .lit v c' s' := by
  unfold valueToNode at h
  split at h
  · cases hv
  · cases hv
  · cases hv
  · simp only [Bind.bind, Except.bind] at h
    split at h
    · cases h
    · exact mkLit_shape h
  · exact mkLit_shape h

theorem valueToNode_raw {v n : Val F} (hp : Passed E v) (h : valueToNode E v = .ok n) : valueToNode E (raw n) = .ok n := by
  cases hv : v.isNode with
  | true =>
    rw [valueToNode_node hv] at h
    cases h
    cases v with
    | lit x c s =>
      cases c with
      | none => exact hp x s rfl
      | some c => rfl
    | _ => first | rfl | cases hv
  | false =>
    obtain ⟨c', s', rfl⟩ := valueToNode_lit hv h
    cases c' with
    | none => exact h
    | some c => rfl

theorem valuesToNodes_raw {vs ns : List (Val F)} (hp : ∀ v ∈ vs, Passed E v) (h : valuesToNodes E vs = .ok ns) :
    valuesToNodes E (ns.map raw) = .ok ns ∧ ns.length = vs.length := by
  induction vs generalizing ns with
  | nil => simp [valuesToNodes] at h; subst h; simp [valuesToNodes]
  | cons v vs ih =>
    unfold valuesToNodes at h
    cases h1 : valueToNode E v with
    | error e => rw [h1] at h; cases h
    | ok n =>
      cases h2 : valuesToNodes E vs with
      | error e => rw [h1, h2] at h; cases h
      | ok ns' =>
        rw [h1, h2] at h
        cases h
        obtain ⟨a, b⟩ := ih (fun v hv => hp v (by simp [hv])) h2
        refine ⟨?_, by simp [b]⟩
        rw [List.map_cons]
        unfold valuesToNodes
        rw [valueToNode_raw (hp v (by simp)) h1, a]
        rfl

theorem valuesToNodesK_raw {vs ns : List (Str × Val F)} (hp : ∀ p ∈ vs, Passed E p.2) (h : valuesToNodesK E vs = .ok ns) :
    valuesToNodesK E (rawK ns) = .ok ns ∧ ns.map (·.1) = vs.map (·.1) := by
  induction vs generalizing ns with
  | nil => simp [valuesToNodesK] at h; subst h; simp [valuesToNodesK, rawK]
  | cons v vs ih =>
    obtain ⟨k, v⟩ := v
    unfold valuesToNodesK at h
    cases h1 : valueToNode E v with
    | error e => rw [h1] at h; cases h
    | ok n =>
      cases h2 : valuesToNodesK E vs with
      | error e => rw [h1, h2] at h; cases h
      | ok ns' =>
        rw [h1, h2] at h
        cases h
        obtain ⟨a, b⟩ := ih (fun v hv => hp v (by simp [hv])) h2
        refine ⟨?_, by simp [b]⟩
        unfold rawK at a ⊢
        rw [List.map_cons]
        unfold valuesToNodesK
        rw [valueToNode_raw (hp (k, v) (by simp)) h1, a]
        rfl

theorem createRecipe_ok {m : Str} {args : List (Val F)} {kwargs : List (Str × Val F)} {n : Val F} :
    createRecipe E m args kwargs = .ok n ↔ ∃ sig b as ks sp, E.resolve m = .ok sig ∧ Method.bind sig args kwargs = .ok b ∧
      valuesToNodes E b.args = .ok as ∧ valuesToNodesK E b.kwargs = .ok ks ∧ (Val.merge m as ks).space E = .ok sp ∧
      n = .merge m as ks := by
  unfold createRecipe
  constructor
  · intro h
    cases h1 : E.resolve m with
    | error e => rw [h1] at h; cases h
    | ok sig =>
      rw [h1] at h; simp only [Bind.bind, Except.bind] at h
      cases h2 : Method.bind sig args kwargs with
      | error e => rw [h2] at h; cases h
      | ok b =>
        rw [h2] at h; simp only at h
        cases h3 : valuesToNodes E b.args with
        | error e => rw [h3] at h; cases h
        | ok as =>
          rw [h3] at h; simp only at h
          cases h4 : valuesToNodesK E b.kwargs with
          | error e => rw [h4] at h; cases h
          | ok ks =>
            rw [h4] at h; simp only at h
            cases h5 : (Val.merge m as ks).space E with
            | error e => rw [h5] at h; cases h
            | ok sp =>
              rw [h5] at h; simp only at h
              cases h
              exact ⟨sig, b, as, ks, sp, rfl, h2, h3, h4, h5, rfl⟩
  · rintro ⟨sig, b, as, ks, sp, h1, h2, h3, h4, h5, rfl⟩
    simp only [h1, Bind.bind, Except.bind, h2, h3, h4, h5]

/-- A node built by a call is what a call on its own arguments builds. -/
theorem createRecipe_again {m : Str} {args : List (Val F)} {kwargs : List (Str × Val F)} {n : Val F}
    (hwf : ∀ sig, E.resolve m = .ok sig → sig.WF ∧ (∀ v ∈ sig.defaults, Passed E v) ∧ ∀ p ∈ sig.kwdefaults, Passed E p.2)
    (ha : ∀ v ∈ args, Passed E v) (hk : ∀ p ∈ kwargs, Passed E p.2) (h : createRecipe E m args kwargs = .ok n) :
    ∃ as ks, n = .merge m as ks ∧ createRecipe E m (as.map raw) (rawK ks) = .ok n := by
  obtain ⟨sig, b, as, ks, sp, h1, h2, h3, h4, h5, rfl⟩ := createRecipe_ok.1 h
  refine ⟨as, ks, rfl, ?_⟩
  obtain ⟨w1, w2, w3⟩ := hwf sig h1
  obtain ⟨⟨hc1, hc2⟩, ⟨bound, hm, hb⟩, hk1, hk2, hkw'⟩ := bind_ok_iff.1 h2
  have pa : ∀ v ∈ b.args, Passed E v := by
    intro v hv
    rw [hb] at hv
    rcases List.mem_append.1 hv with hv | hv
    · obtain ⟨i, hi⟩ := List.mem_iff_getElem?.1 hv
      obtain ⟨hlen, hall⟩ := (mapM_ok_iff _ _ _).1 hm
      have hil : i < ((names sig).mapIdx fun i k => (i, k)).length := by
        rw [hlen]
        rcases Nat.lt_or_ge i bound.length with h | h
        · exact h
        · rw [List.getElem?_eq_none h] at hi; cases hi
      obtain ⟨c, hc1, hc2⟩ := hall i _ (List.getElem?_eq_getElem hil)
      rw [hi] at hc1
      cases hc1
      unfold bindArg at hc2
      split at hc2
      · rename_i a heq
        cases hc2
        split at heq
        · exact ha _ (List.mem_of_getElem? heq)
        · cases heq
      · split at hc2
        · rename_i a heq
          cases hc2
          exact hk _ (Dict.mem_of_get? heq)
        · split at hc2
          · cases hc2
          · split at hc2
            · rename_i d heq
              cases hc2
              exact w2 _ (List.mem_of_getElem? heq)
            · cases hc2
    · exact ha v (List.mem_of_mem_drop hv)
  have pk : ∀ p ∈ b.kwargs, Passed E p.2 := by
    intro p hp
    rw [hkw'] at hp
    rcases Dict.mem_update hp with hp | hp
    · exact hk p (List.mem_filter.1 hp).1
    · exact w3 p hp
  obtain ⟨a1, a2⟩ := valuesToNodes_raw pa h3
  obtain ⟨k1, k2⟩ := valuesToNodesK_raw pk h4
  refine createRecipe_ok.2 ⟨sig, ⟨as.map raw, rawK ks⟩, as, ks, sp, h1, ?_, a1, k1, h5, rfl⟩
  apply bind_again w1 h2
  · simp [a2]
  · have : Dict.keys (rawK ks) = ks.map (·.1) := by simp [Dict.keys, rawK]
    rw [this, k2]; rfl

end Verif.Serialize
