import Verif.Proofs.EvalBuiltin

/-!
# Arguments of merge nodes: success and failure
-/
namespace Verif.Eval
open Method Recipe Config Spec
variable {F T : Type} {W : World F T}

/-- The child made of an argument. -/
def childOf (W : World F T) (idx : Idx) (v : Val F) : Child F T := ⟨idx, eval W v, depth v, configOf W v⟩

theorem mem_evalL {l : List (Val F)} {c : Child F T} {i : ℕ} : c ∈ evalL W i l ↔ ∃ j v, l[j]? = some v ∧ c = childOf W (.pos (i + j)) v := by
  induction l generalizing i with
  | nil => rw [evalL_nil]; simp
  | cons v l ih =>
    rw [evalL_cons, List.mem_cons, ih]
    constructor
    · rintro (rfl | ⟨j, v', h1, rfl⟩)
      · exact ⟨0, v, rfl, rfl⟩
      · refine ⟨j + 1, v', by simpa using h1, ?_⟩
        rw [show i + (j + 1) = i + 1 + j by omega]
    · rintro ⟨j, v', h1, rfl⟩
      cases j with
      | zero => left; simp at h1; subst h1; rfl
      | succ j =>
        right
        refine ⟨j, v', by simpa using h1, ?_⟩
        rw [show i + (j + 1) = i + 1 + j by omega]

theorem mem_evalK {l : List (Str × Val F)} {c : Child F T} : c ∈ evalK W l ↔ ∃ k v, (k, v) ∈ l ∧ c = childOf W (.name k) v := by
  induction l with
  | nil => rw [evalK_nil]; simp
  | cons p l ih =>
    obtain ⟨k, v⟩ := p
    rw [evalK_cons, List.mem_cons, ih]
    constructor
    · rintro (rfl | ⟨k', v', h1, rfl⟩)
      · exact ⟨k, v, by simp, rfl⟩
      · exact ⟨k', v', by simp [h1], rfl⟩
    · rintro ⟨k', v', h1, rfl⟩
      rcases List.mem_cons.1 h1 with h1 | h1
      · left; cases h1; rfl
      · right; exact ⟨k', v', h1, rfl⟩

theorem mem_children {args : List (Val F)} {kwargs : Dict Str (Val F)} (hn : kwargs.keys.Nodup) {c : Child F T} :
    c ∈ evalL W 0 args ++ evalK W kwargs ↔ ∃ idx v, ArgAt args kwargs idx v ∧ c = childOf W idx v := by
  rw [List.mem_append, mem_evalL, mem_evalK]
  constructor
  · rintro (⟨j, v, h, rfl⟩ | ⟨k, v, h, rfl⟩)
    · exact ⟨.pos j, v, h, by rw [Nat.zero_add]⟩
    · exact ⟨.name k, v, (Dict.get?_eq_some_iff hn).2 h, rfl⟩
  · rintro ⟨idx, v, h, rfl⟩
    cases idx with
    | pos j => left; exact ⟨j, v, h, by rw [Nat.zero_add]⟩
    | name k => right; exact ⟨k, v, (Dict.get?_eq_some_iff hn).1 h, rfl⟩

theorem good_of_no_fail {m : Str} {args : List (Val F)} {kwargs : Dict Str (Val F)} (hc : Call W m args kwargs) {key : Str}
    (hok : ¬ ∃ e, Fails W m args kwargs key e) {idx : Idx} {v : Val F} (h : ArgAt args kwargs idx v) :
    ∃ p a, typeOf W m args.length idx = some p ∧ Receives W key p v a ∧
      good W.conv ((W.impl m).types.asDict (some args.length)) key (childOf W idx v) = some a := by
  obtain ⟨p, hp⟩ := Option.isSome_iff_exists.1 (hc.typed idx v h)
  have hp' : Dict.get? ((W.impl m).types.asDict (some args.length)) (childOf W idx v).idx = some p := hp
  cases p with
  | sd t => refine ⟨_, _, hp, rfl, ?_⟩; unfold good; rw [hp']; rfl
  | val t =>
    cases hr : castRun W.conv t (eval W v) key with
    | error e => exact absurd ⟨e, idx, v, t, h, hp, hr⟩ hok
    | ok x =>
      refine ⟨_, _, hp, ⟨x, hr, rfl⟩, ?_⟩
      unfold good
      rw [hp']
      simp only [childOf, hr]

/-- All arguments succeed: what the function is called with, whatever the order. -/
theorem apply_ok {m : Str} {args : List (Val F)} {kwargs : Dict Str (Val F)} (hc : Call W m args kwargs) {key : Str}
    (hok : ¬ ∃ e, Fails W m args kwargs key e) {order : List (Child F T)} (hp : order.Perm (evalL W 0 args ++ evalK W kwargs)) :
    ∃ (as : List (Arg F T)) (ks : Str → Option (Arg F T)), as.length = args.length ∧
      (∀ i v, args[i]? = some v → ∃ p a, typeOf W m args.length (.pos i) = some p ∧ as[i]? = some a ∧ Receives W key p v a) ∧
      (∀ k v, kwargs.get? k = some v → ∃ p a, typeOf W m args.length (.name k) = some p ∧ ks k = some a ∧ Receives W key p v a) ∧
      (∀ k, kwargs.get? k = none → ks k = none) ∧
      applyOrdered W.conv (W.impl m) args.length order key = (W.impl m).run as ks key := by
  have hn := children_nodup W args kwargs hc.names
  obtain ⟨f, hf⟩ : ∃ f : Child F T → Arg F T, f = fun c => (good W.conv ((W.impl m).types.asDict (some args.length)) key c).getD (.val .none) :=
    ⟨_, rfl⟩
  have hgood : ∀ idx v, ArgAt args kwargs idx v → ∃ p, typeOf W m args.length idx = some p ∧ Receives W key p v (f (childOf W idx v)) ∧
      good W.conv ((W.impl m).types.asDict (some args.length)) key (childOf W idx v) = some (f (childOf W idx v)) := by
    intro idx v h
    obtain ⟨p, a, h1, h2, h3⟩ := good_of_no_fail hc hok h
    have : f (childOf W idx v) = a := by rw [hf]; simp [h3]
    exact ⟨p, h1, by rw [this]; exact h2, by rw [this]; exact h3⟩
  have happ := applyOrdered_good (C := W.conv) (impl := W.impl m) (n := args.length) (key := key) (f := f) hp hn (by
    intro c hcm
    obtain ⟨idx, v, h, rfl⟩ := (mem_children hc.names).1 hcm
    obtain ⟨_, _, _, h3⟩ := hgood idx v h
    exact h3)
  obtain ⟨d, hd⟩ : ∃ d : Dict Idx (Arg F T), d = (evalL W 0 args ++ evalK W kwargs).map fun c => (c.idx, f c) := ⟨_, rfl⟩
  have hdk : d.keys.Nodup := by rw [hd]; unfold Dict.keys; rw [List.map_map]; exact hn
  have hget : ∀ idx v, ArgAt args kwargs idx v → d.get? idx = some (f (childOf W idx v)) := by
    intro idx v h
    rw [Dict.get?_eq_some_iff hdk, hd]
    exact List.mem_map.2 ⟨childOf W idx v, (mem_children hc.names).2 ⟨idx, v, h, rfl⟩, rfl⟩
  have hnone : ∀ idx, (∀ v, ¬ ArgAt args kwargs idx v) → d.get? idx = none := by
    intro idx h
    cases hg : d.get? idx with
    | none => rfl
    | some a =>
      have := (Dict.get?_eq_some_iff hdk).1 hg
      rw [hd] at this
      obtain ⟨c, hcm, he⟩ := List.mem_map.1 this
      obtain ⟨idx', v, h', rfl⟩ := (mem_children hc.names).1 hcm
      cases he
      exact absurd h' (h v)
  rw [← hd] at happ
  refine ⟨argsFrom args.length d, kwargsFrom d, by simp [argsFrom], ?_, ?_, ?_, happ⟩
  · intro i v h
    obtain ⟨p, h1, h2, _⟩ := hgood (.pos i) v h
    refine ⟨p, _, h1, ?_, h2⟩
    have hi : i < args.length := (List.getElem?_eq_some_iff.1 h).1
    unfold argsFrom
    rw [List.getElem?_map, List.getElem?_range hi]
    simp [hget (.pos i) v h]
  · intro k v h
    obtain ⟨p, h1, h2, _⟩ := hgood (.name k) v h
    exact ⟨p, _, h1, hget (.name k) v h, h2⟩
  · intro k h
    apply hnone
    intro v hv
    have hv' : kwargs.get? k = some v := hv
    rw [h] at hv'
    cases hv'

theorem applyMerge_eq {m : Str} {args : List (Val F)} {kwargs : Dict Str (Val F)} (hc : Call W m args kwargs) (key : Str) :
    eval W (.merge m args kwargs) key =
      applyOrdered W.conv (W.impl m) args.length (deeperFirst (evalL W 0 args ++ evalK W kwargs)) key := by
  rw [eval_merge]
  unfold applyMerge
  rw [if_neg]
  simp only [List.any_eq_true, not_exists, not_and, Bool.not_eq_true]
  intro c hcm
  obtain ⟨idx, v, h, rfl⟩ := (mem_children hc.names).1 hcm
  obtain ⟨d, hd⟩ := Option.isSome_iff_exists.1 (depth_isSome v (hc.proper idx v h))
  unfold childOf
  rw [hd]
  rfl

/-! ### Failures -/

/-- How a child fails at `key`. -/
def failOf (C : Conv F T) (types : Dict Idx PTy) (key : Str) (c : Child F T) : Option Err :=
  match types.get? c.idx with
  | some (.val t) => match castRun C t c.run key with | .error e => some e | .ok _ => none
  | _ => none

theorem stepChild_cases {C : Conv F T} {types : Dict Idx PTy} {key : Str} (s : Merged F T) (c : Child F T)
    (ht : (types.get? c.idx).isSome) :
    (failOf C types key c = none ∧ ∃ s', stepChild C types key s c = .ok s' ∧ s'.holder = s.holder) ∨
    (∃ e, failOf C types key c = some e ∧ (stepChild C types key s c = .error e ∨
      ∃ s', stepChild C types key s c = .ok s' ∧ s'.holder = some e)) := by
  obtain ⟨p, hp⟩ := Option.isSome_iff_exists.1 ht
  unfold failOf stepChild castRun
  rw [hp]
  cases p with
  | sd t => left; exact ⟨rfl, _, rfl, rfl⟩
  | val t =>
    cases hr : c.run key with
    | error e =>
      right
      exact ⟨e, rfl, Or.inr ⟨_, rfl, rfl⟩⟩
    | ok v =>
      simp only
      cases hc : castTo C t v with
      | error e =>
        right
        exact ⟨e, rfl, Or.inl rfl⟩
      | ok v' => left; exact ⟨rfl, _, rfl, rfl⟩

/-- If some child fails, or an error is held already, the loop ends with the error of some child (or the held one). -/
theorem stepAll_fails {C : Conv F T} {types : Dict Idx PTy} {key : Str} {l : List (Child F T)}
    (ht : ∀ c ∈ l, (types.get? c.idx).isSome) (s : Merged F T) (h : s.holder ≠ none ∨ ∃ c ∈ l, failOf C types key c ≠ none) :
    ∃ e, (s.holder = some e ∨ ∃ c ∈ l, failOf C types key c = some e) ∧
      (stepAll C types key s l = .error e ∨ ∃ s', stepAll C types key s l = .ok s' ∧ s'.holder = some e) := by
  induction l generalizing s with
  | nil =>
    rcases h with h | ⟨c, hc, _⟩
    · cases hs : s.holder with
      | none => exact absurd hs h
      | some e => exact ⟨e, Or.inl rfl, Or.inr ⟨s, rfl, hs⟩⟩
    · simp at hc
  | cons c l ih =>
    have ihl := fun s h => ih (fun c hc => ht c (by simp [hc])) s h
    unfold stepAll
    rcases stepChild_cases (key := key) s c (ht c (by simp)) with ⟨h1, s', h2, h3⟩ | ⟨e, h1, h2 | ⟨s', h2, h3⟩⟩
    · rw [h2]
      simp only
      obtain ⟨e, he, hr⟩ := ihl s' (by
        rcases h with h | ⟨c', hc', hf⟩
        · left; rw [h3]; exact h
        · rcases List.mem_cons.1 hc' with rfl | hc'
          · exact absurd h1 hf
          · right; exact ⟨c', hc', hf⟩)
      refine ⟨e, ?_, hr⟩
      rcases he with he | ⟨c', hc', he⟩
      · left; rw [← h3]; exact he
      · right; exact ⟨c', by simp [hc'], he⟩
    · rw [h2]
      exact ⟨e, Or.inr ⟨c, by simp, h1⟩, Or.inl rfl⟩
    · rw [h2]
      simp only
      obtain ⟨e', he, hr⟩ := ihl s' (Or.inl (by rw [h3]; simp))
      refine ⟨e', ?_, hr⟩
      rcases he with he | ⟨c', hc', he⟩
      · right
        rw [h3] at he
        cases he
        exact ⟨c, by simp, h1⟩
      · right; exact ⟨c', by simp [hc'], he⟩

theorem failOf_childOf {m : Str} {args : List (Val F)} {idx : Idx} {v : Val F} {key : Str} {e : Err} :
    failOf W.conv ((W.impl m).types.asDict (some args.length)) key (childOf W idx v) = some e ↔
      ∃ t, typeOf W m args.length idx = some (.val t) ∧ castRun W.conv t (eval W v) key = .error e := by
  unfold failOf typeOf childOf
  simp only
  cases hp : Dict.get? ((W.impl m).types.asDict (some args.length)) idx with
  | none => simp
  | some p =>
    cases p with
    | sd t => simp
    | val t =>
      simp only [Option.some.injEq, PTy.val.injEq]
      cases hr : castRun W.conv t (eval W v) key with
      | error e' => simp [hr]
      | ok x => simp [hr]

theorem eval_fails {m : Str} {args : List (Val F)} {kwargs : Dict Str (Val F)} (hc : Call W m args kwargs) {key : Str}
    (h : ∃ e, Fails W m args kwargs key e) : ∃ e, Fails W m args kwargs key e ∧ eval W (.merge m args kwargs) key = .error e := by
  obtain ⟨e0, idx0, v0, t0, h1, h2, h3⟩ := h
  obtain ⟨order, ho⟩ : ∃ order : List (Child F T), order = deeperFirst (evalL W 0 args ++ evalK W kwargs) := ⟨_, rfl⟩
  have hp : order.Perm (evalL W 0 args ++ evalK W kwargs) := by rw [ho]; exact deeperFirst_perm _
  have hm : ∀ c ∈ order, ∃ idx v, ArgAt args kwargs idx v ∧ c = childOf W idx v := fun c hcm =>
    (mem_children hc.names).1 (hp.mem_iff.1 hcm)
  have ht : ∀ c ∈ order, (Dict.get? ((W.impl m).types.asDict (some args.length)) c.idx).isSome := by
    intro c hcm
    obtain ⟨idx, v, h, rfl⟩ := hm c hcm
    exact hc.typed idx v h
  obtain ⟨e, he, hr⟩ := stepAll_fails (C := W.conv) (key := key) ht ⟨none, []⟩ (Or.inr ⟨childOf W idx0 v0,
    hp.mem_iff.2 ((mem_children hc.names).2 ⟨idx0, v0, h1, rfl⟩), by rw [failOf_childOf.2 ⟨t0, h2, h3⟩]; simp⟩)
  rcases he with he | ⟨c, hcm, he⟩
  · cases he
  · obtain ⟨idx, v, h, rfl⟩ := hm c hcm
    obtain ⟨t, h4, h5⟩ := failOf_childOf.1 he
    refine ⟨e, ⟨idx, v, t, h, h4, h5⟩, ?_⟩
    rw [applyMerge_eq hc, ← ho]
    unfold applyOrdered
    rcases hr with hr | ⟨s', hr, hs⟩
    · rw [hr]
    · rw [hr]
      simp only [finish, hs]

theorem get?_evalD (es : List (Str × Val F)) (k : Str) : Dict.get? (evalD W es) k = (Dict.get? es k).map (eval W) := by
  induction es with
  | nil => simp [evalD]
  | cons p es ih =>
    obtain ⟨k', v⟩ := p
    rw [evalD, Dict.get?, Dict.get?]
    split
    · rfl
    · exact ih

end Verif.Eval
