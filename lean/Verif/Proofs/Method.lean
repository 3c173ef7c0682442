import Verif.Spec.Method
import Mathlib.Data.List.Basic
import Mathlib.Data.List.Nodup
import Mathlib.Data.List.Perm.Basic

namespace Verif.Method
open Spec
variable {α : Type}

/-! ## Generic lemmas -/

theorem mapM_ok_iff {ε β γ : Type} (f : β → Except ε γ) (l : List β) (r : List γ) :
    l.mapM f = .ok r ↔ l.length = r.length ∧ ∀ (i : ℕ) b, l[i]? = some b → ∃ c, r[i]? = some c ∧ f b = .ok c := by
  induction l generalizing r with
  | nil =>
    cases r with
    | nil => simp [pure, Except.pure]
    | cons c r => simp [pure, Except.pure]
  | cons b l ih =>
    rw [List.mapM_cons]
    cases hf : f b with
    | error e =>
      simp only [Bind.bind, Except.bind]
      constructor
      · intro h; cases h
      · rintro ⟨_, h⟩
        obtain ⟨c, _, hc⟩ := h 0 b rfl
        rw [hf] at hc; cases hc
    | ok c =>
      simp only [Bind.bind, Except.bind]
      cases hm : l.mapM f with
      | error e =>
        simp only
        constructor
        · intro h; cases h
        · rintro ⟨hl, h⟩
          cases r with
          | nil => simp at hl
          | cons c' r =>
            have := (ih r).2 ⟨by simpa using hl, fun i b hb => h (i + 1) b (by simpa using hb)⟩
            rw [hm] at this; cases this
      | ok t =>
        simp only [pure, Except.pure, Except.ok.injEq]
        have ht := (ih t).1 hm
        constructor
        · rintro rfl
          refine ⟨by simp [ht.1], ?_⟩
          intro i b' hb
          cases i with
          | zero => simp at hb; subst hb; exact ⟨c, rfl, hf⟩
          | succ i => exact ht.2 i b' (by simpa using hb)
        · rintro ⟨hl, h⟩
          cases r with
          | nil => simp at hl
          | cons c' r =>
            obtain ⟨c0, h0, h1⟩ := h 0 b rfl
            simp at h0; subst h0
            rw [hf] at h1; cases h1
            have hr : l.mapM f = .ok r := (ih r).2 ⟨by simpa using hl, fun i b hb => h (i + 1) b (by simpa using hb)⟩
            rw [hm] at hr; cases hr
            rfl

theorem mapM_ok_of {ε β γ : Type} (f : β → Except ε γ) (l : List β)
    (h : ∀ b ∈ l, ∃ c, f b = .ok c) : ∃ r, l.mapM f = .ok r := by
  induction l with
  | nil => exact ⟨[], rfl⟩
  | cons b l ih =>
    obtain ⟨c, hc⟩ := h b (by simp)
    obtain ⟨r, hr⟩ := ih (fun b hb => h b (by simp [hb]))
    exact ⟨c :: r, by rw [List.mapM_cons, hc, hr]; rfl⟩

/-! ## Binding -/

theorem firstArg_le {names : List Str} {kwargs : Dict Str α} {f i : ℕ} {name : Str}
    (h : firstArgAsKwarg names kwargs = some f) (hi : names[i]? = some name) (hk : name ∈ kwargs.keys) : f ≤ i := by
  unfold firstArgAsKwarg at h
  by_contra hlt
  have := List.findIdx?_eq_some_iff_getElem.1 h
  obtain ⟨h1, h2, h3⟩ := this
  have hil : i < names.length := by
    rcases Nat.lt_or_ge i names.length with h | h
    · exact h
    · rw [List.getElem?_eq_none h] at hi; cases hi
  have := h3 i (by omega)
  rw [List.getElem?_eq_getElem hil] at hi
  simp only [Option.some.injEq] at hi
  rw [hi] at this
  simp [hk] at this

theorem firstArg_mem {names : List Str} {kwargs : Dict Str α} {f : ℕ}
    (h : firstArgAsKwarg names kwargs = some f) : ∃ name, names[f]? = some name ∧ name ∈ kwargs.keys := by
  unfold firstArgAsKwarg at h
  obtain ⟨h1, h2, h3⟩ := List.findIdx?_eq_some_iff_getElem.1 h
  exact ⟨names[f], by rw [List.getElem?_eq_getElem h1], by simpa using h2⟩

/-- Without doubly given parameters, `bindArg` picks what python would. -/
theorem bindArg_eq {s : Sig α} {args : List α} {kwargs : Dict Str α} (hnd : NoDouble s args kwargs)
    {i : ℕ} {name : Str} (hi : (names s)[i]? = some name) :
    (∀ a, bindArg s args kwargs i name = .ok a ↔
      (if i < args.length then args[i]? else (kwargs.get? name).or (defaultOf s i)) = some a) := by
  intro a
  have hil : i < s.args.length := by
    rcases Nat.lt_or_ge i (names s).length with h | h
    · simpa [names] using h
    · rw [List.getElem?_eq_none h] at hi; cases hi
  unfold bindArg
  have hpos : byPosition s args kwargs i = decide (i < args.length) := by
    unfold byPosition
    cases hf : firstArgAsKwarg (s.args.map (·.1)) kwargs with
    | none => rfl
    | some f =>
      obtain ⟨name', h1, h2⟩ := firstArg_mem hf
      have : ¬ f < args.length := fun hlt => hnd f name' h1 hlt h2
      simp only [decide_eq_decide]
      omega
  simp only [hpos]
  by_cases hlt : i < args.length
  · simp only [hlt, decide_true, if_true, List.getElem?_eq_getElem hlt]
    simp
  · simp only [hlt, decide_false, Bool.false_eq_true, if_false]
    cases hk : kwargs.get? name with
    | some b => simp
    | none =>
      simp only [Option.none_or, defaultOf]
      split
      · simp
      · cases hd : s.defaults[i - (s.args.length - s.defaults.length)]? with
        | some d => simp
        | none => simp

/-- The positional arguments bound. -/
theorem mapIdx_getElem? (l : List Str) (i : ℕ) : (l.mapIdx fun i k => (i, k))[i]? = l[i]?.map fun k => (i, k) := by
  simp [List.getElem?_mapIdx]

/-- Everything `bind` checks and computes, as conditions. -/
theorem bind_ok_iff {s : Sig α} {args : List α} {kwargs : Dict Str α} {b : Bound α} :
    bind s args kwargs = .ok b ↔
      let nArgs := args.length + ((names s).filter fun k => decide (k ∈ kwargs.keys)).length
      let rest : Dict Str α := kwargs.filter fun p => decide (p.1 ∉ names s)
      ((names s).length - s.defaults.length ≤ nArgs ∧ (s.vararg = none → nArgs ≤ (names s).length)) ∧
      (∃ bound, ((names s).mapIdx fun i k => (i, k)).mapM (fun p => bindArg s args kwargs p.1 p.2) = .ok bound ∧
        b.args = bound ++ args.drop (names s).length) ∧
      (∀ k ∈ rest.keys, k ∈ s.kwonly.keys) ∧
      (∀ k ∈ s.kwonly.keys, k ∈ rest.keys ∨ k ∈ s.kwdefaults.keys) ∧
      b.kwargs = s.kwdefaults.update rest := by
  simp only
  set nArgs := args.length + ((names s).filter fun k => decide (k ∈ kwargs.keys)).length with hn
  set rest : Dict Str α := kwargs.filter fun p => decide (p.1 ∉ names s) with hrest
  have hn' : args.length + ((s.args.map (·.1)).filter fun k => decide (k ∈ kwargs.keys)).length = nArgs := rfl
  have hr' : (kwargs.filter fun p => decide (p.1 ∉ s.args.map (·.1))) = rest := rfl
  unfold bind
  simp only [hn', hr']
  have hnm : s.args.map (·.1) = names s := rfl
  simp only [hnm]
  by_cases hcount : nArgs < (names s).length - s.defaults.length ∨ (s.vararg = none ∧ (names s).length < nArgs)
  · rw [if_pos hcount]
    constructor
    · intro h; cases h
    · rintro ⟨⟨h1, h2⟩, _⟩
      rcases hcount with h | ⟨h3, h4⟩
      · omega
      · have := h2 h3; omega
  · rw [if_neg hcount]
    push Not at hcount
    have hcount' : (names s).length - s.defaults.length ≤ nArgs ∧ (s.vararg = none → nArgs ≤ (names s).length) :=
      ⟨by omega, fun hv => by have := hcount.2 hv; omega⟩
    cases hm : ((names s).mapIdx fun i k => (i, k)).mapM (fun p => bindArg s args kwargs p.1 p.2) with
    | error e =>
      simp only [Bind.bind, Except.bind]
      constructor
      · intro h; cases h
      · rintro ⟨_, ⟨bound, h, _⟩, _⟩; cases h
    | ok bound =>
      simp only [Bind.bind, Except.bind]
      have hblen : bound.length = (names s).length := by
        have := ((mapM_ok_iff _ _ _).1 hm).1
        simpa using this.symm
      -- nothing is truncated
      have htake : (bound ++ args.drop (names s).length).take
          ((⟨s.args.map (·.2), s.vararg.map (·.2), s.kwonly⟩ : FunctionArgs Param).argsVarargs (some nArgs)).length =
          bound ++ args.drop (names s).length := by
        apply List.take_of_length_le
        have hsl : s.args.length = (names s).length := by simp [names]
        simp only [FunctionArgs.argsVarargs, List.length_append, List.length_map, List.length_drop, hblen, hsl]
        cases hv : s.vararg with
        | none =>
          have := hcount'.2 hv
          simp; omega
        | some v =>
          simp only [Option.map_some, FunctionArgs.varargsCount, Option.getD_some, List.length_map, hsl,
            Option.isSome_some, if_true, Nat.mul_one, List.length_replicate]
          omega
      rw [htake]
      by_cases h1 : rest.any fun p => decide (p.1 ∉ s.kwonly.keys)
      · rw [if_pos h1]
        constructor
        · intro h; cases h
        · rintro ⟨_, _, h, _⟩
          exfalso
          rw [List.any_eq_true] at h1
          obtain ⟨p, hp, hp2⟩ := h1
          simp only [decide_eq_true_eq] at hp2
          exact hp2 (h p.1 (List.mem_map.2 ⟨p, hp, rfl⟩))
      · rw [if_neg h1]
        have h1' : ∀ k ∈ rest.keys, k ∈ s.kwonly.keys := by
          intro k hk
          obtain ⟨p, hp, rfl⟩ := List.mem_map.1 hk
          by_contra hcon
          exact h1 (List.any_eq_true.2 ⟨p, hp, by simpa using hcon⟩)
        by_cases h2 : s.kwonly.any fun p => decide (p.1 ∉ rest.keys ∧ p.1 ∉ s.kwdefaults.keys)
        · rw [if_pos h2]
          constructor
          · intro h; cases h
          · rintro ⟨_, _, _, h, _⟩
            exfalso
            rw [List.any_eq_true] at h2
            obtain ⟨p, hp, hp2⟩ := h2
            simp only [decide_eq_true_eq] at hp2
            rcases h p.1 (List.mem_map.2 ⟨p, hp, rfl⟩) with h | h
            · exact hp2.1 h
            · exact hp2.2 h
        · rw [if_neg h2]
          have h2' : ∀ k ∈ s.kwonly.keys, k ∈ rest.keys ∨ k ∈ s.kwdefaults.keys := by
            intro k hk
            obtain ⟨p, hp, rfl⟩ := List.mem_map.1 hk
            by_contra hcon
            push Not at hcon
            exact h2 (List.any_eq_true.2 ⟨p, hp, by simpa using hcon⟩)
          constructor
          · intro h
            simp only [Except.ok.injEq] at h
            subst h
            exact ⟨hcount', ⟨bound, rfl, rfl⟩, h1', h2', rfl⟩
          · rintro ⟨_, ⟨bound', hb1, hb2⟩, _, _, hb3⟩
            simp only [Except.ok.injEq] at hb1
            subst hb1
            cases b
            simp only at hb2 hb3
            subst hb2; subst hb3
            rfl

theorem get?_filter_names {names : List Str} {kwargs : Dict Str α} {k : Str} (hk : k ∉ names) :
    Dict.get? (kwargs.filter fun p => decide (p.1 ∉ names)) k = kwargs.get? k := by
  induction kwargs with
  | nil => rfl
  | cons p d ih =>
    obtain ⟨a, v⟩ := p
    rw [List.filter_cons]
    by_cases ha : a ∉ names
    · simp only [ha, not_false_eq_true, decide_true, if_true]
      unfold Dict.get?
      rw [ih]
    · simp only [ha, decide_false, Bool.false_eq_true, if_false]
      rw [ih]
      conv_rhs => unfold Dict.get?
      rw [if_neg]
      rintro rfl; exact ha hk

theorem mem_keys_filter {names : List Str} {kwargs : Dict Str α} {k : Str} :
    k ∈ Dict.keys (kwargs.filter fun p => decide (p.1 ∉ names)) ↔ k ∈ kwargs.keys ∧ k ∉ names := by
  simp only [Dict.keys, List.mem_map, List.mem_filter, decide_eq_true_eq]
  constructor
  · rintro ⟨p, ⟨h1, h2⟩, rfl⟩; exact ⟨⟨p, h1, rfl⟩, h2⟩
  · rintro ⟨⟨p, h1, rfl⟩, h2⟩; exact ⟨p, ⟨h1, h2⟩, rfl⟩

theorem nodup_filter {names : List Str} {kwargs : Dict Str α} (h : kwargs.keys.Nodup) :
    (Dict.keys (kwargs.filter fun p => decide (p.1 ∉ names))).Nodup :=
  h.sublist (List.Sublist.map _ List.filter_sublist)

theorem names_length (s : Sig α) : (names s).length = s.args.length := by simp [names]

/-- How many keywords name positional parameters, when nothing is given twice. -/
theorem count_le {s : Sig α} {args : List α} {kwargs : Dict Str α} (hnd : NoDouble s args kwargs)
    (hlen : args.length ≤ (names s).length) :
    args.length + ((names s).filter fun k => decide (k ∈ kwargs.keys)).length ≤ (names s).length := by
  have h1 : (names s).filter (fun k => decide (k ∈ kwargs.keys)) =
      ((names s).take args.length).filter (fun k => decide (k ∈ kwargs.keys)) ++
      ((names s).drop args.length).filter (fun k => decide (k ∈ kwargs.keys)) := by
    rw [← List.filter_append, List.take_append_drop]
  have h2 : ((names s).take args.length).filter (fun k => decide (k ∈ kwargs.keys)) = [] := by
    rw [List.filter_eq_nil_iff]
    intro k hk
    obtain ⟨i, hi, he⟩ := List.mem_iff_getElem.1 hk
    simp only [List.length_take] at hi
    have : (names s)[i]? = some k := by
      rw [← he, List.getElem_take, List.getElem?_eq_getElem]
    simpa using hnd i k this (by omega)
  rw [h1, h2, List.nil_append]
  have := List.length_filter_le (fun k => decide (k ∈ kwargs.keys)) ((names s).drop args.length)
  rw [List.length_drop] at this
  omega

theorem count_ge {s : Sig α} {args : List α} {kwargs : Dict Str α}
    (hreq : ∀ i name, (names s)[i]? = some name → args.length ≤ i → i < (names s).length - s.defaults.length →
      name ∈ kwargs.keys) :
    (names s).length - s.defaults.length ≤
      args.length + ((names s).filter fun k => decide (k ∈ kwargs.keys)).length := by
  set m := (names s).length - s.defaults.length with hm
  rcases Nat.lt_or_ge args.length m with h | h
  · have hsub : (((names s).take m).drop args.length).Sublist
        ((names s).filter fun k => decide (k ∈ kwargs.keys)) := by
      have : ((names s).take m).drop args.length =
          (((names s).take m).drop args.length).filter fun k => decide (k ∈ kwargs.keys) := by
        symm
        rw [List.filter_eq_self]
        intro k hk
        obtain ⟨i, hi, he⟩ := List.mem_iff_getElem.1 hk
        simp only [List.length_drop, List.length_take] at hi
        have : (names s)[args.length + i]? = some k := by
          rw [← he, List.getElem_drop, List.getElem_take, List.getElem?_eq_getElem]
        simpa using hreq _ k this (by omega) (by omega)
      rw [this]
      exact ((List.drop_sublist _ _).trans (List.take_sublist _ _)).filter _
    have := hsub.length_le
    simp only [List.length_drop, List.length_take] at this
    omega
  · omega

theorem bind_sound {s : Sig α} {args : List α} {kwargs : Dict Str α} {b : Bound α} (hwf : s.WF)
    (hkn : kwargs.keys.Nodup) (hnd : NoDouble s args kwargs) (h : bind s args kwargs = .ok b) :
    PyBinds s args kwargs b := by
  rw [bind_ok_iff] at h
  obtain ⟨⟨hc1, hc2⟩, ⟨bound, hm, hb⟩, hk1, hk2, hkw⟩ := h
  obtain ⟨hl, hall⟩ := (mapM_ok_iff _ _ _).1 hm
  rw [List.length_mapIdx] at hl
  refine ⟨?_, ?_, hnd, ?_, ?_, ?_, ?_⟩
  · intro hv; have := hc2 hv; omega
  · intro k hk
    by_cases hkn : k ∈ names s
    · exact Or.inl hkn
    · exact Or.inr (hk1 k (mem_keys_filter.2 ⟨hk, hkn⟩))
  · intro i name hi
    have hil : i < (names s).length := by
      rcases Nat.lt_or_ge i (names s).length with h | h
      · exact h
      · rw [List.getElem?_eq_none h] at hi; cases hi
    obtain ⟨c, h1, h2⟩ := hall i (i, name) (by rw [mapIdx_getElem?, hi]; rfl)
    have h3 := (bindArg_eq hnd hi c).1 h2
    have h4 : b.args[i]? = some c := by
      rw [hb, List.getElem?_append_left (by omega)]; exact h1
    rw [h4, h3]; simp
  · intro i hi
    rw [hb, List.getElem?_append_right (by omega), List.getElem?_drop]
    congr 1; omega
  · intro k hk
    have hkn' : k ∉ names s := fun hh => hwf.disjoint k hh hk
    have he : b.kwargs.get? k = (kwargs.get? k).or (s.kwdefaults.get? k) := by
      rw [hkw, Dict.get?_update _ (nodup_filter hkn), get?_filter_names hkn']
    refine ⟨?_, he⟩
    rw [he]
    rcases hk2 k hk with h | h
    · have := (mem_keys_filter.1 h).1
      rw [← Dict.get?_isSome_iff] at this
      cases hg : kwargs.get? k <;> simp [hg] at this ⊢
    · rw [← Dict.get?_isSome_iff] at h
      cases hg : kwargs.get? k
      · simpa using h
      · simp
  · intro k hk
    rw [hkw, Dict.mem_keys_update] at hk
    rcases hk with h | h
    · exact hwf.kwdefaults k h
    · exact hk1 k h

theorem bind_complete {s : Sig α} {args : List α} {kwargs : Dict Str α} {b : Bound α} (hwf : s.WF)
    (h : PyBinds s args kwargs b) : ∃ b', bind s args kwargs = .ok b' := by
  obtain ⟨bound, hm⟩ := mapM_ok_of (fun p : ℕ × Str => bindArg s args kwargs p.1 p.2)
    ((names s).mapIdx fun i k => (i, k)) (by
      rintro ⟨i, name⟩ hmem
      obtain ⟨j, hj⟩ := List.mem_iff_getElem?.1 hmem
      rw [mapIdx_getElem?] at hj
      cases hn : (names s)[j]? with
      | none => rw [hn] at hj; simp at hj
      | some n =>
        rw [hn] at hj
        simp at hj
        obtain ⟨rfl, rfl⟩ := hj
        obtain ⟨h1, h2⟩ := h.arg _ _ hn
        rw [h2] at h1
        obtain ⟨a, ha⟩ := Option.isSome_iff_exists.1 h1
        exact ⟨a, (bindArg_eq h.noDouble hn a).2 ha⟩)
  refine ⟨⟨bound ++ args.drop (names s).length, s.kwdefaults.update (kwargs.filter fun p => decide (p.1 ∉ names s))⟩,
    bind_ok_iff.2 ⟨⟨?_, ?_⟩, ⟨bound, hm, rfl⟩, ?_, ?_, rfl⟩⟩
  · apply count_ge
    intro i name hi hlt hreq
    obtain ⟨h1, h2⟩ := h.arg i name hi
    rw [h2, if_neg (by omega), defaultOf, if_pos (by rw [names_length] at hreq; exact hreq)] at h1
    rw [← Dict.get?_isSome_iff]
    simpa using h1
  · intro hv
    exact count_le h.noDouble (h.noExtra hv)
  · intro k hk
    obtain ⟨h1, h2⟩ := mem_keys_filter.1 hk
    rcases h.known k h1 with h3 | h3
    · exact absurd h3 h2
    · exact h3
  · intro k hk
    obtain ⟨h1, h2⟩ := h.kw k hk
    rw [h2] at h1
    have hkn' : k ∉ names s := fun hh => hwf.disjoint k hh hk
    rw [← Dict.get?_isSome_iff, ← Dict.get?_isSome_iff, get?_filter_names hkn']
    cases hg : kwargs.get? k
    · right; simpa [hg] using h1
    · left; rfl

/-- The positional table is long enough exactly for the accepted calls. -/
theorem bind_length {s : Sig α} {args : List α} {kwargs : Dict Str α} {b : Bound α}
    (h : bind s args kwargs = .ok b) :
    b.args.length = max (names s).length args.length ∧ (s.vararg = none → b.args.length = (names s).length) := by
  rw [bind_ok_iff] at h
  obtain ⟨⟨hc1, hc2⟩, ⟨bound, hm, hb⟩, _⟩ := h
  obtain ⟨hl, _⟩ := (mapM_ok_iff _ _ _).1 hm
  rw [List.length_mapIdx] at hl
  have : b.args.length = max (names s).length args.length := by
    rw [hb]; simp only [List.length_append, List.length_drop]; omega
  refine ⟨this, ?_⟩
  intro hv
  have := hc2 hv
  omega

/-! ## Tables indexed by arguments -/

namespace FunctionArgs
variable {β : Type}

/-- What the table says about an argument. -/
def lookup (f : FunctionArgs β) : Idx → Option β
  | .pos i => if i < f.args.length then f.args[i]? else f.vararg
  | .name k => f.kwargs.get? k

theorem argsVarargs_length (f : FunctionArgs β) (n : ℕ) (h1 : f.args.length ≤ n)
    (h2 : f.vararg = none → n = f.args.length) : (f.argsVarargs (some n)).length = n := by
  unfold argsVarargs varargsCount
  cases hv : f.vararg with
  | none => simp [h2 hv]
  | some v =>
    simp only [Option.getD_some, Option.isSome_some, if_true, Nat.mul_one, List.length_append, List.length_replicate]
    omega

theorem argsVarargs_getElem? (f : FunctionArgs β) {n i : ℕ} (h : i < n) :
    (f.argsVarargs (some n))[i]? = f.lookup (.pos i) := by
  have hlk : f.lookup (.pos i) = if i < f.args.length then f.args[i]? else f.vararg := rfl
  rw [hlk]
  unfold argsVarargs varargsCount
  by_cases hi : i < f.args.length
  · rw [List.getElem?_append_left hi, if_pos hi]
  · rw [List.getElem?_append_right (by omega), if_neg hi]
    cases hv : f.vararg with
    | none => simp
    | some v =>
      simp only [Option.getD_some, Option.isSome_some, if_true, Nat.mul_one]
      rw [List.getElem?_replicate, if_pos (by omega)]

theorem get?_mapIdx_pos (l : List β) (i k : ℕ) :
    Dict.get? (l.mapIdx fun j v => (Idx.pos (j + k), v)) (.pos (i + k)) = l[i]? := by
  induction l generalizing i k with
  | nil => simp
  | cons b l ih =>
    rw [List.mapIdx_cons]
    unfold Dict.get?
    cases i with
    | zero => simp
    | succ i =>
      rw [if_neg (by simp)]
      have := ih i (k + 1)
      simp only [List.getElem?_cons_succ]
      rw [← this]
      congr 1
      · congr 1; funext j v; congr 2; omega
      · congr 1; omega

theorem get?_mapIdx_name (l : List β) (s : Str) (g : ℕ → ℕ) :
    Dict.get? (l.mapIdx fun j v => (Idx.pos (g j), v)) (.name s) = none := by
  rw [Dict.get?_eq_none_iff]
  simp only [Dict.keys, List.mem_map, List.mem_mapIdx]
  rintro ⟨_, ⟨i, _, rfl⟩, h⟩
  simp at h

theorem get?_map_name (d : Dict Str β) (s : Str) :
    Dict.get? (d.map fun p => (Idx.name p.1, p.2)) (.name s) = d.get? s := by
  induction d with
  | nil => rfl
  | cons p d ih =>
    obtain ⟨a, v⟩ := p
    rw [List.map_cons]
    unfold Dict.get?
    simp only [Idx.name.injEq]
    rw [ih]

theorem get?_map_pos (d : Dict Str β) (i : ℕ) :
    Dict.get? (d.map fun p => (Idx.name p.1, p.2)) (.pos i) = none := by
  rw [Dict.get?_eq_none_iff]
  simp [Dict.keys]

theorem asDict_get? (f : FunctionArgs β) {n : ℕ} {idx : Idx} (h : ∀ i, idx = .pos i → i < n) :
    (f.asDict (some n)).get? idx = f.lookup idx := by
  unfold asDict
  rw [Dict.get?_append]
  cases idx with
  | pos i =>
    have := get?_mapIdx_pos (f.argsVarargs (some n)) i 0
    simp only [Nat.add_zero] at this
    rw [this, get?_map_pos, Option.or_none, argsVarargs_getElem? f (h i rfl)]
  | name s =>
    have := get?_mapIdx_name (f.argsVarargs (some n)) s id
    simp only [id] at this
    rw [this, Option.none_or, get?_map_name]; rfl

end FunctionArgs

theorem argIdx_pos_lt {β : Type} {args : List β} {kwargs : Dict Str β} {i : ℕ} {v : β}
    (h : (Idx.pos i, v) ∈ argIdx args kwargs) : i < args.length := by
  unfold argIdx at h
  rw [List.mem_append] at h
  rcases h with h | h
  · rw [List.mem_mapIdx] at h
    obtain ⟨j, hj, he⟩ := h
    simp at he
    omega
  · simp at h

theorem lookup_spaces (s : Sig α) (idx : Idx) : s.inputSpaces.lookup idx = spaceOf s idx := by
  unfold FunctionArgs.lookup Sig.inputSpaces spaceOf paramOf hasDefault isVar spaceOrDefault
  cases idx with
  | pos i =>
    simp only [List.length_mapIdx]
    by_cases hi : i < s.args.length
    · simp only [hi, if_true, List.getElem?_mapIdx, List.getElem?_eq_getElem hi, Option.map_some]
      have h' : ¬ s.args.length ≤ i := by omega
      cases s.args[i].2.space <;> simp [h']
    · simp only [hi, if_false]
      have h' : s.args.length ≤ i := by omega
      cases s.vararg with
      | none => rfl
      | some v => simp [h']
  | name k =>
    simp only
    generalize s.kwdefaults = kd
    induction s.kwonly with
    | nil => rfl
    | cons p d ih =>
      obtain ⟨a, v⟩ := p
      rw [List.map_cons]
      unfold Dict.get?
      by_cases ha : a = k
      · subst ha
        simp only [if_true, Option.map_some, Bool.not_false, Bool.and_true]
        have : (Dict.get? kd a).isSome = decide (a ∈ kd.keys) := by
          rw [Bool.eq_iff_iff]; simp [Dict.get?_isSome_iff]
        rw [this]
        cases v.space <;> simp
      · simp only [ha, if_false]
        exact ih

theorem lookup_configs (s : Sig α) (idx : Idx) : s.inputConfigs.lookup idx = (paramOf s idx).map (·.config) := by
  unfold FunctionArgs.lookup Sig.inputConfigs paramOf
  cases idx with
  | pos i =>
    simp only [List.length_map]
    by_cases hi : i < s.args.length
    · simp [hi]
    · simp [hi]; rfl
  | name k =>
    simp only
    induction s.kwonly with
    | nil => rfl
    | cons p d ih =>
      obtain ⟨a, v⟩ := p
      rw [List.map_cons]
      unfold Dict.get?
      by_cases ha : a = k
      · simp [ha]
      · simp only [ha, if_false]; exact ih

/-! ## Merge spaces -/

/-- Which symbols the arguments use. -/
def usesSym (look : Idx → Option Space) (l : List (Idx × Str)) (id : Sym) : Prop :=
  ∃ i sp al, (i, sp) ∈ l ∧ look i = some (.symbol id al)

theorem spaceLoop_sound {input : Dict Idx Space} {r r' : Dict Sym Str} {l : List (Idx × Str)}
    (h : spaceLoop input r l = .ok r') :
    (∀ id x, r.get? id = some x → r'.get? id = some x) ∧
    (∀ i sp, (i, sp) ∈ l → ∃ a, input.get? i = some a ∧ sp ∈ a.allowed ∧
      ∀ id al, a = .symbol id al → r'.get? id = some sp) ∧
    (∀ id x, r'.get? id = some x → r.get? id = some x ∨ usesSym input.get? l id) := by
  induction l generalizing r with
  | nil => simp only [spaceLoop, Except.ok.injEq] at h; subst h; simp +contextual
  | cons p l ih =>
    obtain ⟨i, sp⟩ := p
    unfold spaceLoop at h
    cases hs : spaceStep input r i sp with
    | error e => rw [hs] at h; cases h
    | ok r1 =>
      rw [hs] at h
      simp only at h
      obtain ⟨h1, h2, h3⟩ := ih h
      unfold spaceStep at hs
      cases hg : input.get? i with
      | none => rw [hg] at hs; cases hs
      | some a =>
        rw [hg] at hs
        simp only at hs
        split at hs
        · cases hs
        · rename_i hall
          rw [not_not] at hall
          cases a with
          | set al =>
            simp only [Except.ok.injEq] at hs
            subst hs
            refine ⟨h1, ?_, ?_⟩
            · intro j sp' hm
              rcases List.mem_cons.1 hm with he | hm
              · cases he; exact ⟨_, hg, hall, fun id al h => by cases h⟩
              · exact h2 j sp' hm
            · intro id x hx
              rcases h3 id x hx with h | ⟨j, sp', al, hm, hj⟩
              · exact Or.inl h
              · exact Or.inr ⟨j, sp', al, List.mem_cons_of_mem _ hm, hj⟩
          | symbol id al =>
            simp only at hs
            cases hr : r.get? id with
            | some x =>
              rw [hr] at hs
              simp only at hs
              split at hs
              · cases hs
              · rename_i hx
                rw [not_not] at hx
                subst hx
                simp only [Except.ok.injEq] at hs
                subst hs
                refine ⟨h1, ?_, ?_⟩
                · intro j sp' hm
                  rcases List.mem_cons.1 hm with he | hm
                  · cases he
                    exact ⟨_, hg, hall, fun id' al' h => by cases h; exact h1 id sp hr⟩
                  · exact h2 j sp' hm
                · intro id' x hx
                  rcases h3 id' x hx with h | ⟨j, sp', al, hm, hj⟩
                  · exact Or.inl h
                  · exact Or.inr ⟨j, sp', al, List.mem_cons_of_mem _ hm, hj⟩
            | none =>
              rw [hr] at hs
              simp only [Except.ok.injEq] at hs
              subst hs
              refine ⟨?_, ?_, ?_⟩
              · intro id' x hx
                apply h1
                rw [Dict.get?_set]
                split
                · rename_i he; subst he; rw [hr] at hx; cases hx
                · exact hx
              · intro j sp' hm
                rcases List.mem_cons.1 hm with he | hm
                · cases he
                  exact ⟨_, hg, hall, fun id' al' h => by cases h; exact h1 id sp (by simp)⟩
                · exact h2 j sp' hm
              · intro id' x hx
                rcases h3 id' x hx with h | ⟨j, sp', al, hm, hj⟩
                · rw [Dict.get?_set] at h
                  split at h
                  · rename_i he; subst he
                    exact Or.inr ⟨i, sp, al, List.mem_cons_self, hg⟩
                  · exact Or.inl h
                · exact Or.inr ⟨j, sp', al, List.mem_cons_of_mem _ hm, hj⟩

theorem spaceLoop_complete {input : Dict Idx Space} {σ : Sym → Option Str} {r : Dict Sym Str} {l : List (Idx × Str)}
    (hr : ∀ id x, r.get? id = some x → σ id = some x)
    (hl : ∀ i sp, (i, sp) ∈ l → ∃ a, input.get? i = some a ∧ sp ∈ a.allowed ∧ ∀ id al, a = .symbol id al → σ id = some sp) :
    ∃ r', spaceLoop input r l = .ok r' := by
  induction l generalizing r with
  | nil => exact ⟨r, rfl⟩
  | cons p l ih =>
    obtain ⟨i, sp⟩ := p
    obtain ⟨a, h1, h2, h3⟩ := hl i sp List.mem_cons_self
    have hl' := fun j sp' hm => hl j sp' (List.mem_cons_of_mem _ hm)
    unfold spaceLoop
    have : ∃ r1, spaceStep input r i sp = .ok r1 ∧ ∀ id x, r1.get? id = some x → σ id = some x := by
      unfold spaceStep
      rw [h1]
      simp only
      rw [if_neg (by simpa using h2)]
      cases a with
      | set al => exact ⟨r, rfl, hr⟩
      | symbol id al =>
        have hσ := h3 id al rfl
        cases hg : r.get? id with
        | some x =>
          have := hr id x hg
          rw [hσ] at this
          cases this
          refine ⟨r, by simp [hg], hr⟩
        | none =>
          refine ⟨r.set id sp, by simp [hg], ?_⟩
          intro id' x hx
          rw [Dict.get?_set] at hx
          split at hx
          · rename_i he; subst he; cases hx; exact hσ
          · exact hr id' x hx
    obtain ⟨r1, he, hr1⟩ := this
    rw [he]
    exact ih hr1 hl'

/-! ## Configs -/

theorem configLoop_iff {input : Dict Idx (Option Str)} {d r : Option Str} {l : List (Idx × Option Str)} :
    configLoop input d l = .ok r ↔
      (∀ i c, (i, some c) ∈ l → ∃ p, input.get? i = some p ∧ (p = some c ∨ (p = none ∧ r = some c))) ∧
      (r = d ∨ (d = none ∧ ∃ i c, (i, some c) ∈ l ∧ input.get? i = some none ∧ r = some c)) := by
  induction l generalizing d with
  | nil =>
    simp only [configLoop, Except.ok.injEq, List.not_mem_nil, false_implies, implies_true, false_and, exists_false,
      and_false, or_false, true_and]
    exact eq_comm
  | cons p l ih =>
    obtain ⟨i, oc⟩ := p
    cases oc with
    | none =>
      unfold configLoop
      rw [ih]
      simp
    | some c =>
      unfold configLoop
      cases hg : input.get? i with
      | none =>
        simp only
        constructor
        · intro h; cases h
        · rintro ⟨h, _⟩
          obtain ⟨p, hp, _⟩ := h i c List.mem_cons_self
          rw [hg] at hp; cases hp
      | some q =>
        cases q with
        | some p =>
          simp only
          by_cases hpc : p = c
          · subst hpc
            simp only [ne_eq, not_true_eq_false, if_false]
            rw [ih]
            constructor
            · rintro ⟨h1, h2⟩
              refine ⟨?_, ?_⟩
              · intro j c' hm
                rcases List.mem_cons.1 hm with he | hm
                · cases he; exact ⟨_, hg, Or.inl rfl⟩
                · exact h1 j c' hm
              · rcases h2 with h | ⟨h, j, c', hm, hj, hr⟩
                · exact Or.inl h
                · exact Or.inr ⟨h, j, c', List.mem_cons_of_mem _ hm, hj, hr⟩
            · rintro ⟨h1, h2⟩
              refine ⟨fun j c' hm => h1 j c' (List.mem_cons_of_mem _ hm), ?_⟩
              rcases h2 with h | ⟨h, j, c', hm, hj, hr⟩
              · exact Or.inl h
              · rcases List.mem_cons.1 hm with he | hm
                · cases he; rw [hg] at hj; cases hj
                · exact Or.inr ⟨h, j, c', hm, hj, hr⟩
          · simp only [ne_eq, hpc, not_false_eq_true, if_true]
            constructor
            · intro h; cases h
            · rintro ⟨h, _⟩
              obtain ⟨p', hp, h⟩ := h i c List.mem_cons_self
              rw [hg] at hp; cases hp
              rcases h with h | ⟨h, _⟩ <;> cases h
              exact absurd rfl hpc
        | none =>
          simp only
          cases d with
          | some p =>
            simp only
            by_cases hpc : p = c
            · subst hpc
              simp only [ne_eq, not_true_eq_false, if_false]
              rw [ih]
              constructor
              · rintro ⟨h1, h2⟩
                have hr : r = some p := by
                  rcases h2 with h | ⟨h, _⟩
                  · exact h
                  · cases h
                refine ⟨?_, Or.inl hr⟩
                intro j c' hm
                rcases List.mem_cons.1 hm with he | hm
                · cases he; exact ⟨_, hg, Or.inr ⟨rfl, hr⟩⟩
                · exact h1 j c' hm
              · rintro ⟨h1, h2⟩
                refine ⟨fun j c' hm => h1 j c' (List.mem_cons_of_mem _ hm), ?_⟩
                rcases h2 with h | ⟨h, _⟩
                · exact Or.inl h
                · cases h
            · simp only [ne_eq, hpc, not_false_eq_true, if_true]
              constructor
              · intro h; cases h
              · rintro ⟨h, h2⟩
                obtain ⟨p', hp, h⟩ := h i c List.mem_cons_self
                rw [hg] at hp; cases hp
                rcases h with h | ⟨_, h⟩
                · cases h
                · rcases h2 with h2 | ⟨h2, _⟩
                  · rw [h2] at h; cases h; exact absurd rfl hpc
                  · cases h2
          | none =>
            simp only
            rw [ih]
            constructor
            · rintro ⟨h1, h2⟩
              have hr : r = some c := by
                rcases h2 with h | ⟨h, _⟩
                · exact h
                · cases h
              refine ⟨?_, Or.inr ⟨by simp, i, c, List.mem_cons_self, hg, hr⟩⟩
              intro j c' hm
              rcases List.mem_cons.1 hm with he | hm
              · cases he; exact ⟨_, hg, Or.inr ⟨rfl, hr⟩⟩
              · exact h1 j c' hm
            · rintro ⟨h1, h2⟩
              refine ⟨fun j c' hm => h1 j c' (List.mem_cons_of_mem _ hm), ?_⟩
              obtain ⟨p', hp, h⟩ := h1 i c List.mem_cons_self
              rw [hg] at hp; cases hp
              rcases h with h | ⟨_, h⟩
              · cases h
              · exact Or.inl h

end Verif.Method
