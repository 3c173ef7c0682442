import Verif.Proofs.LinearEval

/-!
# `n_average` of nodes
-/
namespace Verif.Linear
open Method Recipe Config Eval Eval.Spec Program Program.Spec Whole Whole.Spec Ieee Ieee.Spec Spec Readme
open Threads.Spec (stored)
open StreamOut (Tensor)
variable {F : Type}

section

variable {A : Arith} {W : World F Tensor}

theorem typeOf_average (h : W.impl nAverage = impl (averageSource A)) {n i : ℕ} (hi : i < n) : typeOf W nAverage n (.pos i) = some (.val .tensor) := by
  unfold typeOf
  rw [h, FunctionArgs.asDict_get? _ (by rintro j ⟨⟩; exact hi)]
  rfl

theorem call_average (h : W.impl nAverage = impl (averageSource A)) {l : List (Val F)} (hl : ∀ v ∈ l, Proper v) : Call W nAverage l [] := by
  refine ⟨by simp [Dict.keys], ?_, ?_⟩
  · intro idx v hv
    cases idx with
    | name k => cases hv
    | pos i => exact hl v (List.mem_of_getElem? hv)
  · intro idx v hv
    cases idx with
    | name k => cases hv
    | pos i =>
      have hv : l[i]? = some v := hv
      rw [typeOf_average h (List.getElem?_eq_some_iff.1 hv).1]
      rfl

theorem fails_average (h : W.impl nAverage = impl (averageSource A)) {l : List (Val F)} {key : Str}
    (hp : ∀ v ∈ l, (∃ t, eval W v key = .ok (.tensor t)) ∨ eval W v key = .error .stateDictKey) {e : Err} :
    Fails W nAverage l [] key e ↔ e = .stateDictKey ∧ ∃ v ∈ l, eval W v key = .error .stateDictKey := by
  constructor
  · rintro ⟨idx, v, t, h1, h2, h3⟩
    cases idx with
    | name k => cases h1
    | pos i =>
      have h1 : l[i]? = some v := h1
      rw [typeOf_average h (List.getElem?_eq_some_iff.1 h1).1] at h2
      cases h2
      have hv := hp v (List.mem_of_getElem? h1)
      rw [castRun_id hv] at h3
      rcases hv with ⟨t, hv⟩ | hv
      · rw [hv] at h3; cases h3
      · rw [hv] at h3
        cases h3
        exact ⟨rfl, v, List.mem_of_getElem? h1, hv⟩
  · rintro ⟨rfl, v, hv, h1⟩
    obtain ⟨i, hi⟩ := List.mem_iff_getElem?.1 hv
    exact ⟨.pos i, v, .tensor, hi, typeOf_average h (List.getElem?_eq_some_iff.1 hi).1, (castRun_id (hp v hv)).trans h1⟩

/-- Where a model is missing -/
theorem average_missing (h : W.impl nAverage = impl (averageSource A)) {l : List (Val F)} (hl : ∀ v ∈ l, Proper v) {key : Str}
    (hp : ∀ v ∈ l, (∃ t, eval W v key = .ok (.tensor t)) ∨ eval W v key = .error .stateDictKey) (hm : ∃ v ∈ l, eval W v key = .error .stateDictKey) :
    eval W (.merge nAverage l []) key = .error .stateDictKey := by
  obtain ⟨e, h1, h2⟩ := eval_fails (call_average h hl) ⟨_, (fails_average h hp).2 ⟨rfl, hm⟩⟩
  rw [h2, ((fails_average h hp).1 h1).1]

theorem tensorArgs_map (ts : List Tensor) : tensorArgs (ts.map fun t => (Program.Shape.val (.tensor t) : Program.Shape F Tensor)) = some ts := by
  induction ts with
  | nil => rfl
  | cons t ts ih => rw [List.map_cons, tensorArgs, ih]; rfl

/-- Where none is -/
theorem eval_average (h : W.impl nAverage = impl (averageSource A)) {l : List (Val F)} (hl : ∀ v ∈ l, Proper v) {key : Str} {ts : List Tensor}
    (ht : List.Forall₂ (fun v t => eval W v key = .ok (.tensor t)) l ts) : eval W (.merge nAverage l []) key = (average A ts).map RVal.tensor := by
  have hc := call_average h hl
  have hev : ∀ (i : ℕ) (v : Val F), l[i]? = some v → ∃ t, ts[i]? = some t ∧ eval W v key = .ok (.tensor t) := by
    clear hl hc
    induction ht with
    | nil => simp
    | cons h1 _ ih =>
      rintro (_ | i) v hv
      · simp at hv
        subst hv
        exact ⟨_, rfl, h1⟩
      · exact ih i v hv
  have hp : ∀ v ∈ l, (∃ t, eval W v key = .ok (.tensor t)) ∨ eval W v key = .error .stateDictKey := by
    intro v hv
    obtain ⟨i, hi⟩ := List.mem_iff_getElem?.1 hv
    obtain ⟨t, _, h2⟩ := hev i v hi
    exact .inl ⟨t, h2⟩
  have hok : ¬ ∃ e, Fails W nAverage l [] key e := by
    rintro ⟨e, he⟩
    obtain ⟨_, v, hv, h1⟩ := (fails_average h hp).1 he
    obtain ⟨i, hi⟩ := List.mem_iff_getElem?.1 hv
    obtain ⟨t, _, h2⟩ := hev i v hi
    rw [h2] at h1
    cases h1
  obtain ⟨as, ks, h1, h2, _, _, h5⟩ := apply_ok hc hok (deeperFirst_perm _)
  rw [applyMerge_eq hc, h5, h]
  have hlen := ht.length_eq
  have has : as = ts.map fun t => Arg.val (.tensor t) := by
    refine List.ext_getElem? fun i => ?_
    rw [List.getElem?_map]
    by_cases hi : i < l.length
    · obtain ⟨v, hv⟩ : ∃ v, l[i]? = some v := ⟨_, List.getElem?_eq_getElem hi⟩
      obtain ⟨t, t1, t2⟩ := hev i v hv
      obtain ⟨p, a, p1, p2, p3⟩ := h2 i v hv
      rw [typeOf_average h hi] at p1
      cases p1
      obtain ⟨x, x1, x2⟩ := p3
      rw [castRun_id (.inl ⟨t, t2⟩), t2] at x1
      cases x1
      rw [p2, x2, t1]
      rfl
    · rw [List.getElem?_eq_none (by omega), List.getElem?_eq_none (by omega)]
      rfl
  rw [has]
  have e := tensorArgs_map (F := F) ts
  have e2 : (ts.map fun t => (Arg.val (.tensor t) : Arg F Tensor)).map Spec.shape = ts.map fun t => Program.Shape.val (.tensor t) := by
    rw [List.map_map]; rfl
  show result _ ((averageSource A).body (List.map Spec.shape _) _ key) = _
  rw [e2]
  unfold averageSource
  simp only [e]
  rfl

end

/-! ### Merge space and config -/

theorem someSpaces_replicate (n : ℕ) (s : Str) : someSpaces (List.replicate n (some s)) = .ok (List.replicate n s) := by
  induction n with
  | zero => rfl
  | succ n ih => rw [List.replicate_succ, someSpaces, ih]; rfl

theorem spaceL_all {E : Env F} {l : List (Val F)} {s : Str} (h : ∀ v ∈ l, v.space E = .ok (some s)) : spaceL E l = .ok (List.replicate l.length (some s)) := by
  induction l with
  | nil => rfl
  | cons v l ih =>
    rw [spaceL, h v (by simp), ih fun v hv => h v (by simp [hv])]
    rfl

theorem configL_all {E : Env F} {l : List (Val F)} {c : Option Str} (h : ∀ v ∈ l, v.config E = .ok c) : configL E l = .ok (List.replicate l.length c) := by
  induction l with
  | nil => rfl
  | cons v l ih =>
    rw [configL, h v (by simp), ih fun v hv => h v (by simp [hv])]
    rfl

theorem average_space {E : Env F} (h : E.resolve nAverage = .ok averageSig) {l : List (Val F)} {s : Str} (hs : s = "weight".toList ∨ s = "delta".toList)
    (hl : ∀ v ∈ l, v.space E = .ok (some s)) (hne : l ≠ []) : (Val.merge nAverage l []).space E = .ok (some s) := by
  have hloop : ∀ (input : Dict Idx Space) (k : ℕ) (r : Dict Sym Str) (ls : List (Idx × Str)), (∀ p ∈ ls, input.get? p.1 = some (.symbol .dflt allSpaces) ∧ p.2 = s) →
      r = [] ∨ r = [(.dflt, s)] → spaceLoop input r ls = .ok (if ls = [] then r else [(.dflt, s)]) := by
    intro input k r ls
    have hin : s ∈ allSpaces := by rcases hs with rfl | rfl <;> decide
    induction ls generalizing r with
    | nil => intro _ _; rfl
    | cons p ls ih =>
      intro hp hr
      obtain ⟨idx, sp⟩ := p
      obtain ⟨h1, h2⟩ := hp (idx, sp) (by simp)
      have h2 : sp = s := h2
      subst h2
      have hstep : spaceStep input r idx sp = .ok [(.dflt, sp)] := by
        unfold spaceStep
        rw [h1]
        have hin' : ¬ sp ∉ (Space.symbol Sym.dflt allSpaces).allowed := by simpa [Space.allowed] using hin
        simp only
        rw [if_neg hin']
        rcases hr with rfl | rfl
        · rfl
        · simp [Dict.get?]
      rw [spaceLoop, hstep]
      simp only
      rw [ih _ (fun p hp' => hp p (by simp [hp'])) (.inr rfl)]
      simp
  rw [Val.space, h, spaceL_all hl, spaceK]
  have e1 := someSpaces_replicate l.length s
  have e2 : someSpaces [] = .ok [] := rfl
  simp only [Bind.bind, Except.bind, e1, e2, List.map_nil, List.zip_nil_left]
  have hret : Sig.returnSpace (averageSig (F := F)) (List.replicate l.length s) [] = .ok s := by
    unfold Sig.returnSpace
    simp only
    rw [hloop _ 0 [] _ ?_ (.inl rfl)]
    · have hne' : argIdx (List.replicate l.length s) [] ≠ [] := by
        cases l with
        | nil => exact absurd rfl hne
        | cons v l => simp [argIdx, List.replicate_succ]
      rw [if_neg hne']
      rfl
    · rintro ⟨idx, sp⟩ hp
      cases idx with
      | name k => simp [argIdx] at hp
      | pos i =>
        refine ⟨?_, ?_⟩
        · rw [FunctionArgs.asDict_get? _ (by rintro j ⟨⟩; exact argIdx_pos_lt hp)]
          rfl
        · unfold argIdx at hp
          rw [List.map_nil, List.append_nil, List.mem_mapIdx] at hp
          obtain ⟨j, hj, he⟩ := hp
          simp at he
          exact he.2.symm
  rw [hret]

theorem average_config {E : Env F} (h : E.resolve nAverage = .ok averageSig) {l : List (Val F)} {c : Str}
    (hl : ∀ v ∈ l, v.config E = .ok (some c)) (hne : l ≠ []) : (Val.merge nAverage l []).config E = .ok (some c) := by
  have hloop : ∀ (input : Dict Idx (Option Str)) (d : Option Str) (ls : List (Idx × Option Str)), (∀ p ∈ ls, input.get? p.1 = some none ∧ p.2 = some c) →
      d = none ∨ d = some c → configLoop input d ls = .ok (if ls = [] then d else some c) := by
    intro input d ls
    induction ls generalizing d with
    | nil => intro _ _; rfl
    | cons p ls ih =>
      intro hp hr
      obtain ⟨idx, sp⟩ := p
      obtain ⟨h1, h2⟩ := hp (idx, sp) (by simp)
      have h1 : input.get? idx = some none := h1
      have h2 : sp = some c := h2
      subst h2
      have hrest := ih (some c) (fun p hp' => hp p (by simp [hp'])) (.inr rfl)
      rcases hr with rfl | rfl
      · rw [configLoop, h1]
        simp only
        rw [hrest]
        simp
      · rw [configLoop, h1]
        simp only [ne_eq, not_true, if_false]
        rw [hrest]
        simp
  rw [Val.config, h, configL_all hl, configK]
  simp only [Bind.bind, Except.bind]
  unfold Sig.returnConfig
  rw [hloop]
  · have hne' : argIdx (List.replicate l.length (some c)) [] ≠ [] := by
      cases l with
      | nil => exact absurd rfl hne
      | cons v l => simp [argIdx, List.replicate_succ]
    rw [if_neg hne']
  · rintro ⟨idx, sp⟩ hp
    cases idx with
    | name k => simp [argIdx] at hp
    | pos i =>
      refine ⟨?_, ?_⟩
      · rw [FunctionArgs.asDict_get? _ (by rintro j ⟨⟩; exact argIdx_pos_lt hp)]
        rfl
      · unfold argIdx at hp
        rw [List.map_nil, List.append_nil, List.mem_mapIdx] at hp
        obtain ⟨j, hj, he⟩ := hp
        simp at he
        exact he.2.symm
  · exact .inl rfl

end Verif.Linear
