import Verif.Proofs.Method

/-!
# Properties of merge method calls (C22–C25)
-/
namespace Verif.Method
open Spec
variable {α : Type}

/-! ## C22 -/

/-- Python's rules determine the bound values. -/
theorem Spec.PyBinds.unique {s : Sig α} {args : List α} {kwargs : Dict Str α} {b b' : Bound α}
    (h : PyBinds s args kwargs b) (h' : PyBinds s args kwargs b') :
    b.args = b'.args ∧ ∀ k, b.kwargs.get? k = b'.kwargs.get? k := by
  constructor
  · apply List.ext_getElem?
    intro i
    by_cases hi : i < (names s).length
    · have hn : (names s)[i]? = some (names s)[i] := List.getElem?_eq_getElem hi
      rw [(h.arg i _ hn).2, (h'.arg i _ hn).2]
    · rw [h.var i (by omega), h'.var i (by omega)]
  · intro k
    by_cases hk : k ∈ s.kwonly.keys
    · rw [(h.kw k hk).2, (h'.kw k hk).2]
    · rw [(Dict.get?_eq_none_iff _ _).2 (fun hh => hk (h.kwOnly k hh)),
        (Dict.get?_eq_none_iff _ _).2 (fun hh => hk (h'.kwOnly k hh))]

/-- **C22** (partial: an argument given both by position and by keyword is excluded, see `C22_double_false`).
For every signature and call, binding succeeds exactly when python's call would, and binds the same values to
the same parameters. -/
theorem C22_binding_partial (s : Sig α) (hwf : s.WF) (args : List α) (kwargs : Dict Str α) (hkw : kwargs.keys.Nodup)
    (hnd : NoDouble s args kwargs) :
    (∀ b, bind s args kwargs = .ok b → PyBinds s args kwargs b) ∧
    (∀ b, PyBinds s args kwargs b → ∃ b', bind s args kwargs = .ok b' ∧ b'.args = b.args ∧
      ∀ k, b'.kwargs.get? k = b.kwargs.get? k) := by
  refine ⟨fun b h => bind_sound hwf hkw hnd h, ?_⟩
  intro b hb
  obtain ⟨b', h'⟩ := bind_complete hwf hb
  obtain ⟨h1, h2⟩ := (bind_sound hwf hkw hnd h').unique hb
  exact ⟨b', h', h1, h2⟩

/-- For a method without default values for positional parameters and without variadic parameter, a call that
gives an argument twice is rejected, so that there the agreement with python is complete. -/
theorem C22_no_defaults (s : Sig α) (hwf : s.WF) (hd : s.defaults = []) (hv : s.vararg = none)
    (args : List α) (kwargs : Dict Str α) (hkw : kwargs.keys.Nodup) :
    (∀ b, bind s args kwargs = .ok b → PyBinds s args kwargs b) ∧
    (∀ b, PyBinds s args kwargs b → ∃ b', bind s args kwargs = .ok b' ∧ b'.args = b.args ∧
      ∀ k, b'.kwargs.get? k = b.kwargs.get? k) := by
  by_cases hnd : NoDouble s args kwargs
  · exact C22_binding_partial s hwf args kwargs hkw hnd
  · refine ⟨fun b h => absurd ?_ hnd, fun b h => absurd h.noDouble hnd⟩
    intro j name hj hlt hmem
    obtain ⟨⟨hc1, hc2⟩, ⟨bound, hm, hb⟩, -⟩ := bind_ok_iff.1 h
    have hc := hc2 hv
    obtain ⟨hl, hall⟩ := (mapM_ok_iff _ _ _).1 hm
    obtain ⟨f, hf⟩ : ∃ f, firstArgAsKwarg (names s) kwargs = some f := by
      cases hf : firstArgAsKwarg (names s) kwargs with
      | some f => exact ⟨f, rfl⟩
      | none =>
        exfalso
        unfold firstArgAsKwarg at hf
        rw [List.findIdx?_eq_none_iff] at hf
        have := hf name (List.mem_of_getElem? hj)
        simp [hmem] at this
    have hfj := firstArg_le hf hj hmem
    -- every parameter from `f` on is given by keyword
    have hkwd : ∀ i n, (names s)[i]? = some n → f ≤ i → n ∈ kwargs.keys := by
      intro i n hi hfi
      obtain ⟨c, h1, h2⟩ := hall i (i, n) (by rw [mapIdx_getElem?, hi]; rfl)
      by_contra hcon
      have hbp : byPosition s args kwargs i = false := by
        unfold byPosition
        have hf' : firstArgAsKwarg (s.args.map (·.1)) kwargs = some f := hf
        rw [hf']
        simp only [decide_eq_false_iff_not]; omega
      have hil : i < s.args.length := by
        rw [← names_length s]
        rcases Nat.lt_or_ge i (names s).length with h | h
        · exact h
        · rw [List.getElem?_eq_none h] at hi; cases hi
      simp only [bindArg, hbp, (Dict.get?_eq_none_iff _ _).2 hcon, hd, List.length_nil, Nat.sub_zero, hil, if_true,
        Bool.false_eq_true, if_false] at h2
      cases h2
    have hcount : (names s).length - f ≤ ((names s).filter fun k => decide (k ∈ kwargs.keys)).length := by
      have hsub : ((names s).drop f).Sublist ((names s).filter fun k => decide (k ∈ kwargs.keys)) := by
        have : (names s).drop f = ((names s).drop f).filter fun k => decide (k ∈ kwargs.keys) := by
          symm
          rw [List.filter_eq_self]
          intro k hk
          obtain ⟨i, hi, he⟩ := List.mem_iff_getElem.1 hk
          simp only [List.length_drop] at hi
          have : (names s)[f + i]? = some k := by rw [← he, List.getElem_drop, List.getElem?_eq_getElem]
          simpa using hkwd _ k this (by omega)
        rw [this]
        exact (List.drop_sublist _ _).filter _
      have := hsub.length_le
      simpa using this
    have hjl : j < (names s).length := by
      rcases Nat.lt_or_ge j (names s).length with h | h
      · exact h
      · rw [List.getElem?_eq_none h] at hj; cases hj
    omega

/-- `def f(a, b=2, *, c)` -/
def exSig : Sig ℕ where
  args := [(['a'], ⟨none, none, false⟩), (['b'], ⟨none, none, false⟩)]
  vararg := none
  kwonly := [(['c'], ⟨none, none, false⟩)]
  defaults := [2]
  kwdefaults := []
  retSpace := .none
  retConfig := none

theorem exSig_wf : exSig.WF := ⟨by decide, by decide, by decide, by decide, by decide, by decide⟩

/-- `f(1, c=3)` binds `a=1, b=2, c=3`. -/
example : bind exSig [1] [(['c'], 3)] = .ok ⟨[1, 2], [(['c'], 3)]⟩ ∧ NoDouble exSig [1] [(['c'], 3)] := by
  refine ⟨by decide +kernel, ?_⟩
  intro i name h hi
  have : i = 0 := by simpa using hi
  subst this
  simp [names, exSig] at h
  subst h
  decide

/-- `def g(a, *, c)`, `g(c=3, a=1)` -/
example : bind { exSig with args := [(['a'], ⟨none, none, false⟩)], defaults := [] } [] [(['c'], 3), (['a'], 1)] =
    .ok ⟨[1], [(['c'], 3)]⟩ := by decide +kernel

/-- **C22 is false of the code** when an argument is given twice: `f(1, a=5, c=3)` is accepted and the `1`
silently dropped, where python raises. -/
theorem C22_double_false : ∃ (s : Sig ℕ) (args : List ℕ) (kwargs : Dict Str ℕ) (b : Bound ℕ),
    s.WF ∧ kwargs.keys.Nodup ∧ bind s args kwargs = .ok b ∧ (∀ x ∈ args, x ∉ b.args) ∧
      ¬ ∃ b', PyBinds s args kwargs b' := by
  refine ⟨exSig, [1], [(['a'], 5), (['c'], 3)], ⟨[5, 2], [(['c'], 3)]⟩, exSig_wf, by decide, by decide +kernel,
    by decide, ?_⟩
  rintro ⟨b', hb⟩
  exact hb.noDouble 0 ['a'] rfl (by decide) (by decide)

/-- Calling the method again on the arguments it bound binds the same arguments: a node is a fixed point. -/
theorem C22_rebind (s : Sig α) (hwf : s.WF) (args : List α) (kwargs : Dict Str α) (hkw : kwargs.keys.Nodup)
    (b : Bound α) (h : bind s args kwargs = .ok b) :
    ∃ b', bind s b.args b.kwargs = .ok b' ∧ b'.args = b.args ∧ ∀ k, b'.kwargs.get? k = b.kwargs.get? k := by
  obtain ⟨⟨hc1, hc2⟩, ⟨bound, hm, hb⟩, hk1, hk2, hkw'⟩ := bind_ok_iff.1 h
  obtain ⟨hlen, hlen'⟩ := bind_length h
  have hkeys : ∀ k ∈ b.kwargs.keys, k ∈ s.kwonly.keys := by
    intro k hk
    rw [hkw', Dict.mem_keys_update] at hk
    rcases hk with h | h
    · exact hwf.kwdefaults k h
    · exact hk1 k h
  have hnodup : b.kwargs.keys.Nodup := by rw [hkw']; exact Dict.nodup_update hwf.kwdefaultsNodup _
  have hnd : NoDouble s b.args b.kwargs := by
    intro i name hi _ hmem
    exact hwf.disjoint name (List.mem_of_getElem? hi) (hkeys name hmem)
  apply (C22_binding_partial s hwf b.args b.kwargs hnodup hnd).2
  refine ⟨fun hv => Nat.le_of_eq (hlen' hv), fun k hk => Or.inr (hkeys k hk), hnd, ?_, fun _ _ => rfl, ?_, hkeys⟩
  · intro i name hi
    have hil : i < (names s).length := by
      rcases Nat.lt_or_ge i (names s).length with h | h
      · exact h
      · rw [List.getElem?_eq_none h] at hi; cases hi
    have : i < b.args.length := by omega
    rw [if_pos this, List.getElem?_eq_getElem this]
    simp
  · intro k hk
    have hs : (b.kwargs.get? k).isSome := by
      rw [Dict.get?_isSome_iff, hkw', Dict.mem_keys_update]
      rcases hk2 k hk with h | h
      · exact Or.inr h
      · exact Or.inl h
    refine ⟨hs, ?_⟩
    cases hg : b.kwargs.get? k with
    | none => rw [hg] at hs; cases hs
    | some v => simp

example : bind exSig [1, 2] [(['c'], 3)] = .ok ⟨[1, 2], [(['c'], 3)]⟩ := by decide +kernel

/-! ## C23 -/

/-- The declared sets of merge spaces are sets. -/
def SetsNodup (s : Sig α) : Prop := ∀ i l, spaceOf s i = some (.set l) → l.Nodup

/-- The arguments a call with `n` positional arguments may have. -/
def indices (s : Sig α) (n : ℕ) : Idx → Prop
  | .pos i => i < s.args.length ∨ (i < n ∧ s.vararg.isSome)
  | .name k => k ∈ s.kwonly.keys

/-- The merge space of the result, given the spaces of the arguments. -/
def Returns (s : Sig α) (l : List (Idx × Str)) (n : ℕ) (r : Str) : Prop :=
  match s.retSpace with
  | .space d => r = d
  | .symbol id => ∃ i al, (i, r) ∈ l ∧ spaceOf s i = some (.symbol id al)
  | .none => (∃ i al, (i, r) ∈ l ∧ spaceOf s i = some (.symbol .dflt al)) ∨
      ((∀ i sp al, (i, sp) ∈ l → spaceOf s i ≠ some (.symbol .dflt al)) ∧
        (∃ i, indices s n i) ∧ ∀ i, indices s n i → spaceOf s i = some (.set [r]))

theorem eqv_set {r : Str} {a : Space} (h : a.eqv (.set [r]) = true) : ∃ l, a = .set l ∧ r ∈ l ∧ ∀ x ∈ l, x = r := by
  cases a with
  | symbol i al => simp [Space.eqv] at h
  | set l =>
    simp only [Space.eqv, Bool.and_eq_true, List.all_eq_true, decide_eq_true_eq] at h
    exact ⟨l, rfl, h.2 r (by simp), fun x hx => by simpa using h.1 x hx⟩

theorem singleton_of_nodup {l : List Str} {r : Str} (hn : l.Nodup) (hr : r ∈ l) (hall : ∀ x ∈ l, x = r) : l = [r] := by
  cases l with
  | nil => simp at hr
  | cons a l =>
    have ha := hall a (by simp)
    subst ha
    cases l with
    | nil => rfl
    | cons b l =>
      have hb := hall b (by simp)
      subst hb
      simp at hn

theorem isSome_getElem?_iff {β : Type} (l : List β) (i : ℕ) : (l[i]?).isSome ↔ i < l.length := by
  rcases Nat.lt_or_ge i l.length with h | h
  · simp [h]
  · simp [h]

theorem mem_argsVarargs_iff {β : Type} (f : FunctionArgs β) (n : ℕ) (i : ℕ) :
    ((f.argsVarargs (some n))[i]?).isSome ↔ i < f.args.length ∨ (i < n ∧ f.vararg.isSome) := by
  rw [isSome_getElem?_iff]
  unfold FunctionArgs.argsVarargs FunctionArgs.varargsCount
  cases f.vararg with
  | none => simp
  | some v =>
    simp only [Option.getD_some, Option.isSome_some, if_true, Nat.mul_one, List.length_append, List.length_replicate]
    simp only [and_true]
    omega

/-- The table of merge spaces, entry by entry. -/
theorem mem_inputSpaces (s : Sig α) (hwf : s.WF) (n : ℕ) (i : Idx) (a : Space) :
    (i, a) ∈ s.inputSpaces.asDict (some n) ↔ indices s n i ∧ spaceOf s i = some a := by
  unfold FunctionArgs.asDict
  rw [List.mem_append]
  have hsl : s.inputSpaces.args.length = s.args.length := by simp [Sig.inputSpaces]
  have hvs : s.inputSpaces.vararg.isSome = s.vararg.isSome := by simp [Sig.inputSpaces]
  have hnodup : (Dict.keys s.inputSpaces.kwargs).Nodup := by
    have : Dict.keys s.inputSpaces.kwargs = s.kwonly.keys := by simp [Sig.inputSpaces, Dict.keys]
    rw [this]; exact hwf.kwNames
  cases i with
  | pos i =>
    have hlook : ∀ j, (s.inputSpaces.argsVarargs (some n))[j]? = some a → indices s n (.pos j) := by
      intro j hj
      have : ((s.inputSpaces.argsVarargs (some n))[j]?).isSome := by rw [hj]; rfl
      rw [mem_argsVarargs_iff, hsl, hvs] at this
      exact this
    have hget : indices s n (.pos i) → (s.inputSpaces.argsVarargs (some n))[i]? = spaceOf s (.pos i) := by
      intro h
      rcases Nat.lt_or_ge i n with hlt | hge
      · rw [FunctionArgs.argsVarargs_getElem? _ hlt, lookup_spaces]
      · rcases h with h | h
        · unfold FunctionArgs.argsVarargs
          rw [List.getElem?_append_left (by omega), ← lookup_spaces]
          have : s.inputSpaces.lookup (.pos i) = if i < s.inputSpaces.args.length then s.inputSpaces.args[i]? else s.inputSpaces.vararg := rfl
          rw [this, if_pos (by omega)]
        · omega
    constructor
    · rintro (h | h)
      · rw [List.mem_mapIdx] at h
        obtain ⟨j, hj, he⟩ := h
        simp only [Prod.mk.injEq, Idx.pos.injEq] at he
        obtain ⟨rfl, rfl⟩ := he
        have hg := List.getElem?_eq_getElem hj
        have hi := hlook j hg
        refine ⟨hi, ?_⟩
        rw [← hget hi, hg]
      · simp at h
    · rintro ⟨hi, hs⟩
      left
      rw [List.mem_mapIdx]
      rw [← hget hi] at hs
      obtain ⟨hj, he⟩ := List.getElem?_eq_some_iff.1 hs
      exact ⟨i, hj, by rw [he]⟩
  | name k =>
    have hk : s.inputSpaces.kwargs.get? k = spaceOf s (.name k) := lookup_spaces s (.name k)
    constructor
    · rintro (h | h)
      · rw [List.mem_mapIdx] at h
        obtain ⟨j, hj, he⟩ := h
        simp at he
      · rw [List.mem_map] at h
        obtain ⟨⟨k', a'⟩, hm, he⟩ := h
        simp only [Prod.mk.injEq, Idx.name.injEq] at he
        obtain ⟨rfl, rfl⟩ := he
        have hg := Dict.get?_of_mem hnodup hm
        refine ⟨?_, by rw [← hk, hg]⟩
        have : k' ∈ Dict.keys s.inputSpaces.kwargs := List.mem_map.2 ⟨_, hm, rfl⟩
        simpa [Sig.inputSpaces, Dict.keys, indices] using this
    · rintro ⟨_, hs⟩
      right
      rw [← hk] at hs
      exact List.mem_map.2 ⟨(k, a), Dict.mem_of_get? hs, rfl⟩

/-- **C23.** For every signature and every assignment of merge spaces to arguments, the merge space of a call
is computed to be `r` exactly when some reading of the symbols allows every argument (each argument's space
is one its parameter accepts, and parameters that share a symbol receive the same space) and `r` is the
declared space, the space the declared symbol received, or, without declaration, the space the undeclared
parameters received, or else the only space that all parameters accept. -/
theorem C23_merge_space (s : Sig α) (hwf : s.WF) (hsets : SetsNodup s) (args : List Str) (kwargs : Dict Str Str) (r : Str) :
    s.returnSpace args kwargs = .ok r ↔
      (∃ σ, Explains s σ (argIdx args kwargs)) ∧ Returns s (argIdx args kwargs) args.length r := by
  set l := argIdx args kwargs with hl
  set input := s.inputSpaces.asDict (some args.length) with hin
  have hlook : ∀ i sp, (i, sp) ∈ l → input.get? i = spaceOf s i := by
    intro i sp hm
    rw [hin, FunctionArgs.asDict_get?, lookup_spaces]
    rintro j rfl
    exact argIdx_pos_lt hm
  unfold Sig.returnSpace
  simp only [← hl, ← hin]
  cases hsl : spaceLoop input [] l with
  | error e =>
    simp only
    constructor
    · intro h; cases h
    · rintro ⟨⟨σ, hσ⟩, _⟩
      obtain ⟨r', hr'⟩ := spaceLoop_complete (input := input) (σ := σ) (r := []) (l := l) (by simp) (by
        intro i sp hm
        rw [hlook i sp hm]
        exact hσ i sp hm)
      rw [hsl] at hr'; cases hr'
  | ok resolved =>
    simp only
    obtain ⟨-, h2, h3⟩ := spaceLoop_sound hsl
    have hex : ∃ σ, Explains s σ l := ⟨resolved.get?, by
      intro i sp hm
      have := h2 i sp hm
      rw [hlook i sp hm] at this
      exact this⟩
    -- a symbol is resolved to the space of any argument with that symbol
    have hres : ∀ id x, resolved.get? id = some x ↔ ∃ i al, (i, x) ∈ l ∧ spaceOf s i = some (.symbol id al) := by
      intro id x
      constructor
      · intro hx
        rcases h3 id x hx with h | ⟨i, sp, al, hm, hi⟩
        · simp at h
        · obtain ⟨a, ha, _, hsym⟩ := h2 i sp hm
          rw [hi] at ha; cases ha
          have := hsym id al rfl
          rw [hx] at this; cases this
          rw [hlook i _ hm] at hi
          exact ⟨i, al, hm, hi⟩
      · rintro ⟨i, al, hm, hi⟩
        obtain ⟨a, ha, _, hsym⟩ := h2 i x hm
        rw [hlook i _ hm, hi] at ha; cases ha
        exact hsym id al rfl
    simp only [hex, true_and]
    unfold Returns
    cases hret : s.retSpace with
    | space d => simp only [Except.ok.injEq]; exact eq_comm
    | symbol id =>
      simp only
      rw [← hres]
      cases hg : resolved.get? id with
      | some x => simp
      | none => simp
    | none =>
      simp only
      have hnone : resolved.get? .dflt = none ↔ ∀ i sp al, (i, sp) ∈ l → spaceOf s i ≠ some (.symbol .dflt al) := by
        constructor
        · intro hn i sp al hm hi
          have := (hres .dflt sp).2 ⟨i, al, hm, hi⟩
          rw [hn] at this; cases this
        · intro h
          cases hg : resolved.get? .dflt with
          | none => rfl
          | some x =>
            obtain ⟨i, al, hm, hi⟩ := (hres _ _).1 hg
            exact absurd hi (h i x al hm)
      rw [← hnone, ← hres]
      cases hg : resolved.get? .dflt with
      | some x => simp
      | none =>
        simp only [reduceCtorEq, false_or, true_and]
        have hmem := mem_inputSpaces s hwf args.length
        rw [← hin] at hmem
        have hdef : ∀ i, indices s args.length i → ∃ a, (i, a) ∈ input := by
          intro i hi
          have : ∃ a, spaceOf s i = some a := by
            unfold spaceOf paramOf
            cases i with
            | pos i =>
              simp only
              rcases hi with h | h
              · simp [h]
              · split
                · rename_i h'; simp [h']
                · obtain ⟨v, hv⟩ := Option.isSome_iff_exists.1 h.2
                  simp [hv]
            | name k =>
              obtain ⟨v, hv⟩ := Option.isSome_iff_exists.1 ((Dict.get?_isSome_iff _ _).2 hi)
              simp [hv]
          obtain ⟨a, ha⟩ := this
          exact ⟨a, (hmem i a).2 ⟨hi, ha⟩⟩
        cases hinput : input with
        | nil =>
          simp only
          constructor
          · intro h; cases h
          · rintro ⟨⟨i, hi⟩, _⟩
            obtain ⟨a, ha⟩ := hdef i hi
            rw [hinput] at ha; simp at ha
        | cons p rest =>
          obtain ⟨i0, first⟩ := p
          simp only
          have hfirst := (hmem i0 first).1 (by rw [hinput]; simp)
          constructor
          · intro h
            split at h
            · rename_i hall
              cases first with
              | symbol id al => cases h
              | set ls =>
                have hls : ls = [r] := by
                  cases ls with
                  | nil => cases h
                  | cons x t =>
                    cases t with
                    | nil => simp only [Except.ok.injEq] at h; rw [h]
                    | cons y t => cases h
                subst hls
                refine ⟨⟨i0, hfirst.1⟩, ?_⟩
                intro i hi
                obtain ⟨a, ha⟩ := hdef i hi
                have hs := ((hmem i a).1 ha).2
                rw [hinput] at ha
                have he := List.all_eq_true.1 hall _ ha
                obtain ⟨la, rfl, hr, hall'⟩ := eqv_set he
                rw [hs, singleton_of_nodup (hsets i la hs) hr hall']
            · cases h
          · rintro ⟨_, hall⟩
            have hf := hall i0 hfirst.1
            rw [hfirst.2] at hf
            cases hf
            rw [if_pos]
            rw [List.all_eq_true]
            rintro ⟨i, a⟩ hm
            rw [← hinput] at hm
            obtain ⟨h1, h2⟩ := (hmem i a).1 hm
            rw [hall i h1] at h2
            cases h2
            simp [Space.eqv]

/-- `def f(a: Parameter(Tensor), b: Parameter(Tensor, merge_space="delta"), c: float = 1.0)` -/
def exSpaces : Sig ℕ where
  args := [(['a'], ⟨none, none, false⟩), (['b'], ⟨some (.set ["delta".toList]), none, false⟩), (['c'], ⟨none, none, true⟩)]
  vararg := none
  kwonly := []
  defaults := [1]
  kwdefaults := []
  retSpace := .none
  retConfig := none

example : exSpaces.returnSpace ["weight".toList, "delta".toList, "param".toList] [] = .ok "weight".toList := by decide +kernel
example : exSpaces.WF ∧ SetsNodup exSpaces := by
  refine ⟨⟨by decide, by decide, by decide, by decide, by decide, by decide⟩, ?_⟩
  intro i l h
  cases i with
  | pos i =>
    match i with
    | 0 => simp [spaceOf, paramOf, exSpaces, hasDefault, isVar] at h
    | 1 => simp [spaceOf, paramOf, exSpaces, hasDefault, isVar] at h; subst h; decide
    | 2 => simp [spaceOf, paramOf, exSpaces, hasDefault, isVar] at h; subst h; decide
    | i + 3 => simp [spaceOf, paramOf, exSpaces] at h
  | name k => simp [spaceOf, paramOf, exSpaces] at h

/-! ## C24 -/

/-- **C24.** For every signature and every assignment of configs (or none) to arguments, the config of a call
is computed to be `r` exactly when each argument that has a config has the one its parameter declares, or, if
its parameter declares none, the config `r`; and `r` is the declared config of the result, or, if there is no
declared one, comes from such an argument (`none` if there is none). -/
theorem C24_config (s : Sig α) (args : List (Option Str)) (kwargs : Dict Str (Option Str)) (r : Option Str) :
    s.returnConfig args kwargs = .ok r ↔
      (∀ i c, (i, some c) ∈ argIdx args kwargs →
        ∃ p, paramOf s i = some p ∧ (p.config = some c ∨ (p.config = none ∧ r = some c))) ∧
      (r = s.retConfig ∨ (s.retConfig = none ∧ ∃ i c p, (i, some c) ∈ argIdx args kwargs ∧
        paramOf s i = some p ∧ p.config = none ∧ r = some c)) := by
  unfold Sig.returnConfig
  rw [configLoop_iff]
  have hlook : ∀ i c, (i, c) ∈ argIdx args kwargs →
      (s.inputConfigs.asDict (some args.length)).get? i = (paramOf s i).map (·.config) := by
    intro i c hm
    rw [FunctionArgs.asDict_get?, lookup_configs]
    rintro j rfl
    exact argIdx_pos_lt hm
  constructor
  · rintro ⟨h1, h2⟩
    refine ⟨?_, ?_⟩
    · intro i c hm
      obtain ⟨p, hp, h⟩ := h1 i c hm
      rw [hlook i _ hm] at hp
      cases hpar : paramOf s i with
      | none => rw [hpar] at hp; cases hp
      | some q =>
        rw [hpar] at hp
        simp only [Option.map_some, Option.some.injEq] at hp
        exact ⟨q, rfl, by rw [hp]; exact h⟩
    · rcases h2 with h | ⟨h, i, c, hm, hi, hr⟩
      · exact Or.inl h
      · refine Or.inr ⟨h, i, c, ?_⟩
        rw [hlook i _ hm] at hi
        cases hpar : paramOf s i with
        | none => rw [hpar] at hi; cases hi
        | some q =>
          rw [hpar] at hi
          simp only [Option.map_some, Option.some.injEq] at hi
          exact ⟨q, hm, rfl, hi, hr⟩
  · rintro ⟨h1, h2⟩
    refine ⟨?_, ?_⟩
    · intro i c hm
      obtain ⟨p, hp, h⟩ := h1 i c hm
      exact ⟨p.config, by rw [hlook i _ hm, hp]; rfl, h⟩
    · rcases h2 with h | ⟨h, i, c, p, hm, hp, hc, hr⟩
      · exact Or.inl h
      · exact Or.inr ⟨h, i, c, hm, by rw [hlook i _ hm, hp, Option.map_some, hc], hr⟩

/-- In words: arguments of parameters without declared config all have the same config. -/
theorem C24_agree (s : Sig α) (args : List (Option Str)) (kwargs : Dict Str (Option Str)) (r : Option Str)
    (h : s.returnConfig args kwargs = .ok r) (i j : Idx) (c d : Str) (p q : Param)
    (hi : (i, some c) ∈ argIdx args kwargs) (hj : (j, some d) ∈ argIdx args kwargs)
    (hp : paramOf s i = some p) (hq : paramOf s j = some q) (hpc : p.config = none) (hqc : q.config = none) : c = d := by
  obtain ⟨h1, _⟩ := (C24_config s args kwargs r).1 h
  obtain ⟨p', hp', h2⟩ := h1 i c hi
  obtain ⟨q', hq', h3⟩ := h1 j d hj
  rw [hp] at hp'; cases hp'
  rw [hq] at hq'; cases hq'
  rw [hpc] at h2; rw [hqc] at h3
  simp only [reduceCtorEq, true_and, false_or] at h2 h3
  rw [h2] at h3; cases h3; rfl

/-- `def f(a, b: config "y", *, c)`: `a` and `c` have config `x`, `b` its declared config. -/
example : Sig.returnConfig { exSig with args := [(['a'], ⟨none, none, false⟩), (['b'], ⟨none, some ['y'], false⟩)] }
    [some ['x'], some ['y']] [(['c'], some ['x'])] = .ok (some ['x']) := by decide +kernel
/-- and a disagreement -/
example : Sig.returnConfig exSig [some ['x'], none] [(['c'], some ['z'])] = .error .value := by decide +kernel

/-! ## C25 -/

/-- The tables of a method: one entry per positional parameter, one for the variadic one, one per keyword. -/
def IsTable {β : Type} (s : Sig α) (f : FunctionArgs β) : Prop :=
  f.args.length = s.args.length ∧ f.vararg.isSome = s.vararg.isSome ∧ f.kwargs.keys = s.kwonly.keys

theorem params_isTable (s : Sig α) : IsTable s s.params := by simp [IsTable, Sig.params]
theorem inputSpaces_isTable (s : Sig α) : IsTable s s.inputSpaces := by simp [IsTable, Sig.inputSpaces, Dict.keys]
theorem inputConfigs_isTable (s : Sig α) : IsTable s s.inputConfigs := by simp [IsTable, Sig.inputConfigs, Dict.keys]

/-- **C25.** For every accepted call, each table of the method (parameters, merge spaces, configs), listed for
that number of positional arguments, has exactly one entry per positional argument, variadic ones included;
keyed by index, it has an entry for each argument of the call, which is the entry of the parameter it is
given to. -/
theorem C25_tables (s : Sig α) (hwf : s.WF) (args : List α) (kwargs : Dict Str α) (b : Bound α)
    (h : bind s args kwargs = .ok b) {β : Type} (f : FunctionArgs β) (hf : IsTable s f) :
    (f.argsVarargs (some b.args.length)).length = b.args.length ∧
    (∀ i v, (i, v) ∈ argIdx b.args b.kwargs →
      ((f.asDict (some b.args.length)).get? i).isSome ∧ (f.asDict (some b.args.length)).get? i = f.lookup i) := by
  obtain ⟨hlen, hlen'⟩ := bind_length h
  obtain ⟨hf1, hf2, hf3⟩ := hf
  have hnl := names_length s
  have hvn : f.vararg = none → s.vararg = none := by
    intro hv
    rw [hv] at hf2
    cases hs : s.vararg with
    | none => rfl
    | some v => rw [hs] at hf2; cases hf2
  have hl := f.argsVarargs_length b.args.length (by omega) (fun hv => by
    have := hlen' (hvn hv); omega)
  refine ⟨hl, ?_⟩
  intro i v hm
  have hlt : ∀ j, i = .pos j → j < b.args.length := by
    rintro j rfl
    exact argIdx_pos_lt hm
  have he := f.asDict_get? hlt
  refine ⟨?_, he⟩
  rw [he]
  cases i with
  | pos j =>
    have hj := hlt j rfl
    rw [← f.argsVarargs_getElem? hj, isSome_getElem?_iff]
    omega
  | name k =>
    show (f.kwargs.get? k).isSome
    rw [Dict.get?_isSome_iff, hf3]
    obtain ⟨⟨hc1, hc2⟩, ⟨bound, hm', hb⟩, hk1, hk2, hkw'⟩ := bind_ok_iff.1 h
    have hmem : k ∈ b.kwargs.keys := by
      unfold argIdx at hm
      rw [List.mem_append] at hm
      rcases hm with hm | hm
      · rw [List.mem_mapIdx] at hm
        obtain ⟨j, hj, he⟩ := hm
        simp at he
      · rw [List.mem_map] at hm
        obtain ⟨p, hp, he⟩ := hm
        simp only [Prod.mk.injEq, Idx.name.injEq] at he
        exact List.mem_map.2 ⟨p, hp, he.1⟩
    rw [hkw', Dict.mem_keys_update] at hmem
    rcases hmem with h | h
    · exact hwf.kwdefaults k h
    · exact hk1 k h

/-- `def f(a, *b)`, `f(1, 2, 3)` -/
example : bind { exSig with args := [(['a'], ⟨none, none, false⟩)], vararg := some (['b'], ⟨none, none, false⟩), kwonly := [], defaults := [] }
    [1, 2, 3] [] = .ok ⟨[1, 2, 3], []⟩ := by decide +kernel
example : (Sig.params { exSig with args := [(['a'], ⟨none, none, false⟩)], vararg := some (['b'], ⟨none, none, false⟩) }).argsVarargs (some 3)
    = List.replicate 3 ⟨none, none, false⟩ := by decide +kernel

end Verif.Method
