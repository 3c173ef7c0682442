import Verif.Model.Recipe

/-!
# Mappings as arguments: C92

A mapping passed where a recipe is expected must have values of one kind, and if they are recipes, of one model config and one merge space.
-/
namespace Verif.Recipe
open Method
variable {F : Type}

namespace Spec

/-- The kinds of values a mapping may have: numbers (booleans included), recipes, strings, tensors and `None` -/
inductive Kind
  | number | recipe | text | tensor | null
  deriving DecidableEq

/-- Mappings have no kind: they may not be nested. -/
inductive HasKind : Val F → Kind → Prop
  | int i : HasKind (.int i) .number
  | float x : HasKind (.float x) .number
  | bool b : HasKind (.bool b) .number
  | str s : HasKind (.str s) .text
  | tensor t : HasKind (.tensor t) .tensor
  | none : HasKind .none .null
  | lit v c s : HasKind (.lit v c s) .recipe
  | model p c s : HasKind (.model p c s) .recipe
  | merge m as ks : HasKind (.merge m as ks) .recipe

/-- All recipes of a mapping have the model config `c` and the merge space `s`. -/
def Agree (E : Env F) (es : List (Str × Val F)) (c s : Option Str) : Prop :=
  ∀ q ∈ es, q.2.config E = .ok c ∧ q.2.space E = .ok s

end Spec

open Spec

theorem hasKind_unique {v : Val F} {a b : Kind} (ha : HasKind v a) (hb : HasKind v b) : a = b := by
  cases ha <;> cases hb <;> rfl

theorem isNode_iff {v : Val F} : v.isNode = true ↔ HasKind v .recipe := by
  constructor
  · intro h
    cases v <;> first | constructor | simp [Val.isNode] at h
  · intro h; cases h <;> rfl

theorem kindOf_some {v : Val F} {p : Val F → Bool} (h : kindOf v = some p) :
    ∃ κ, HasKind v κ ∧ ∀ w : Val F, p w = true ↔ HasKind w κ := by
  cases v <;> simp only [kindOf, Val.isNumeric, Val.isNode, Val.isStr, Val.isTensor, Val.isNone, if_true, Bool.false_eq_true, if_false,
    Option.some.injEq, reduceCtorEq] at h <;> subst h
  all_goals refine ⟨_, by constructor, fun w => ⟨fun hw => ?_, fun hw => by cases hw <;> rfl⟩⟩
  all_goals
    cases w <;> first
      | constructor
      | simp [Val.isNumeric, Val.isNode, Val.isStr, Val.isTensor, Val.isNone] at hw

theorem kindOf_none {v : Val F} (h : kindOf v = none) (κ : Kind) : ¬ HasKind v κ := by
  intro hk
  cases hk <;> simp [kindOf, Val.isNumeric, Val.isNode, Val.isStr, Val.isTensor, Val.isNone] at h

theorem allConfig_true {E : Env F} {c : Option Str} : ∀ {es : List (Str × Val F)},
    allConfig E c es = .ok true ↔ ∀ q ∈ es, q.2.config E = .ok c
  | [] => by simp [allConfig]
  | (k, v) :: es => by
    simp only [allConfig, List.mem_cons, forall_eq_or_imp]
    cases h : v.config E with
    | error e => simp
    | ok c' =>
      by_cases hc : c' = c
      · simp [hc, allConfig_true (es := es)]
      · simp [hc]

theorem allSpace_true {E : Env F} {c : Option Str} : ∀ {es : List (Str × Val F)},
    allSpace E c es = .ok true ↔ ∀ q ∈ es, q.2.space E = .ok c
  | [] => by simp [allSpace]
  | (k, v) :: es => by
    simp only [allSpace, List.mem_cons, forall_eq_or_imp]
    cases h : v.space E with
    | error e => simp
    | ok c' =>
      by_cases hc : c' = c
      · simp [hc, allSpace_true (es := es)]
      · simp [hc]

/-- If all configs can be found, the comparison gives an answer. -/
theorem allConfig_total {E : Env F} {c : Option Str} : ∀ {es : List (Str × Val F)}, (∀ q ∈ es, ∃ c', q.2.config E = .ok c') →
    ∃ b, allConfig E c es = .ok b
  | [], _ => ⟨true, rfl⟩
  | (k, v) :: es, h => by
    obtain ⟨c', hc'⟩ := h (k, v) List.mem_cons_self
    by_cases hc : c' = c
    · obtain ⟨b, hb⟩ := allConfig_total (c := c) fun q hq => h q (List.mem_cons_of_mem _ hq)
      exact ⟨b, by simp only [allConfig, hc', hc, if_true, hb]⟩
    · exact ⟨false, by simp only [allConfig, hc', hc, if_false]⟩

theorem allSpace_total {E : Env F} {c : Option Str} : ∀ {es : List (Str × Val F)}, (∀ q ∈ es, ∃ c', q.2.space E = .ok c') →
    ∃ b, allSpace E c es = .ok b
  | [], _ => ⟨true, rfl⟩
  | (k, v) :: es, h => by
    obtain ⟨c', hc'⟩ := h (k, v) List.mem_cons_self
    by_cases hc : c' = c
    · obtain ⟨b, hb⟩ := allSpace_total (c := c) fun q hq => h q (List.mem_cons_of_mem _ hq)
      exact ⟨b, by simp only [allSpace, hc', hc, if_true, hb]⟩
    · exact ⟨false, by simp only [allSpace, hc', hc, if_false]⟩

/-- `checkDict` on recipes -/
theorem checkDict_nodes {E : Env F} {es : List (Str × Val F)} (hn : ∀ q ∈ es, HasKind q.2 .recipe) (hne : es ≠ []) :
    checkDict E es = .ok () ↔ ∃ c s, Agree E es c s := by
  obtain ⟨⟨k, v⟩, es, rfl⟩ := List.exists_cons_of_ne_nil hne
  have hv := hn (k, v) List.mem_cons_self
  have hvn : v.isNode = true := isNode_iff.mpr hv
  obtain ⟨p, hp⟩ : ∃ p, kindOf v = some p := by
    cases h : kindOf v with
    | none => exact absurd hv (kindOf_none h _)
    | some p => exact ⟨p, rfl⟩
  obtain ⟨κ, hκ, hpw⟩ := kindOf_some hp
  cases hasKind_unique hκ hv
  have hall : (((k, v) :: es).all fun q => p q.2) = true := List.all_eq_true.mpr fun q hq => (hpw _).mpr (hn q hq)
  rw [show checkDict E ((k, v) :: es) = (do
        let c ← v.config E
        if !(← allConfig E c ((k, v) :: es)) then .error .runtime
        else
          let s ← v.space E
          if !(← allSpace E s ((k, v) :: es)) then .error .runtime
          else .ok ()) from by simp only [checkDict, hp, hall, hvn]; rfl]
  constructor
  · intro h
    cases hc : v.config E with
    | error e => rw [hc] at h; exact absurd h (by rintro ⟨⟩)
    | ok c =>
      rw [hc] at h
      cases ha : allConfig E c ((k, v) :: es) with
      | error e =>
        exact absurd h (by show ¬ ((allConfig E c ((k, v) :: es)).bind _ = _); rw [ha]; rintro ⟨⟩)
      | ok b =>
        replace h : (allConfig E c ((k, v) :: es)).bind _ = _ := h
        rw [ha] at h
        cases b with
        | false => exact absurd h (by rintro ⟨⟩)
        | true =>
          cases hs : v.space E with
          | error e =>
            replace h : (v.space E).bind _ = _ := h
            rw [hs] at h; exact absurd h (by rintro ⟨⟩)
          | ok s =>
            replace h : (v.space E).bind _ = _ := h
            rw [hs] at h
            replace h : (allSpace E s ((k, v) :: es)).bind _ = _ := h
            cases hb : allSpace E s ((k, v) :: es) with
            | error e => rw [hb] at h; exact absurd h (by rintro ⟨⟩)
            | ok b =>
              rw [hb] at h
              cases b with
              | false => exact absurd h (by rintro ⟨⟩)
              | true => exact ⟨c, s, fun q hq => ⟨allConfig_true.mp ha q hq, allSpace_true.mp hb q hq⟩⟩
  · rintro ⟨c, s, h⟩
    obtain ⟨h1, h2⟩ := h (k, v) List.mem_cons_self
    have ha : allConfig E c ((k, v) :: es) = .ok true := allConfig_true.mpr fun q hq => (h q hq).1
    have hb : allSpace E s ((k, v) :: es) = .ok true := allSpace_true.mpr fun q hq => (h q hq).2
    simp only at h1 h2
    rw [h1]
    show (allConfig E c ((k, v) :: es)).bind _ = _
    rw [ha]
    show (v.space E).bind _ = _
    rw [h2]
    show (allSpace E s ((k, v) :: es)).bind _ = _
    rw [hb]
    rfl

theorem checkDict_other {E : Env F} {es : List (Str × Val F)} {κ : Kind} (hκ : κ ≠ .recipe) (hn : ∀ q ∈ es, HasKind q.2 κ) :
    checkDict E es = .ok () := by
  cases es with
  | nil => rfl
  | cons q es =>
    obtain ⟨k, v⟩ := q
    have hv := hn (k, v) List.mem_cons_self
    have hvn : v.isNode = false := by
      by_contra hc
      exact hκ (hasKind_unique hv (isNode_iff.mp (by simpa using hc)))
    obtain ⟨p, hp⟩ : ∃ p, kindOf v = some p := by
      cases h : kindOf v with
      | none => exact absurd hv (kindOf_none h _)
      | some p => exact ⟨p, rfl⟩
    obtain ⟨κ', hκ', hpw⟩ := kindOf_some hp
    cases hasKind_unique hκ' hv
    have hall : (((k, v) :: es).all fun q => p q.2) = true := List.all_eq_true.mpr fun q hq => (hpw _).mpr (hn q hq)
    simp [checkDict, hp, hall, hvn]

theorem checkDict_mixed {E : Env F} {es : List (Str × Val F)} (h : ∀ κ, ∃ q ∈ es, ¬ HasKind q.2 κ) :
    checkDict E es = .error .type := by
  cases es with
  | nil => obtain ⟨q, hq, _⟩ := h .null; cases hq
  | cons q es =>
    obtain ⟨k, v⟩ := q
    cases hp : kindOf v with
    | none => simp only [checkDict, hp]
    | some p =>
      obtain ⟨κ, hκ, hpw⟩ := kindOf_some hp
      have hall : (((k, v) :: es).all fun q => p q.2) = false := by
        obtain ⟨q, hq, hqn⟩ := h κ
        exact List.all_eq_false.mpr ⟨q, hq, fun hc => hqn ((hpw _).mp hc)⟩
      simp [checkDict, hp, hall]

theorem mkLit_nodes {E : Env F} {es : List (Str × Val F)} {c s : Option Str} (hne : es ≠ []) (hn : ∀ q ∈ es, HasKind q.2 .recipe)
    (h : Agree E es c s) : mkLit E (.dict es) none none = .ok (.lit (.dict es) c (s.getD paramSpace)) := by
  obtain ⟨⟨k, v⟩, es, rfl⟩ := List.exists_cons_of_ne_nil hne
  obtain ⟨h1, h2⟩ := h (k, v) List.mem_cons_self
  have ha : allConfig E c ((k, v) :: es) = .ok true := allConfig_true.mpr fun q hq => (h q hq).1
  have hb : allSpace E s ((k, v) :: es) = .ok true := allSpace_true.mpr fun q hq => (h q hq).2
  have hvn : v.isNode = true := isNode_iff.mpr (hn (k, v) List.mem_cons_self)
  simp only at h1 h2
  simp only [mkLit, hvn, if_true, h1, h2]
  show (allConfig E c ((k, v) :: es)).bind _ = _
  rw [ha]
  show (allSpace E s ((k, v) :: es)).bind _ = _
  rw [hb]
  rfl

theorem mkLit_other {E : Env F} {es : List (Str × Val F)} {κ : Kind} (hκ : κ ≠ .recipe) (hn : ∀ q ∈ es, HasKind q.2 κ) :
    mkLit E (.dict es) none none = .ok (.lit (.dict es) none paramSpace) := by
  cases es with
  | nil => rfl
  | cons q es =>
    obtain ⟨k, v⟩ := q
    have hvn : v.isNode = false := by
      by_contra hc
      exact hκ (hasKind_unique (hn (k, v) List.mem_cons_self) (isNode_iff.mp (by simpa using hc)))
    simp [mkLit, hvn]

/-- **C92, values that are not recipes.**  Any mapping of numbers, of strings, of tensors or of `None`s is accepted as a literal without a config,
in the merge space of parameters. -/
theorem C92_values (E : Env F) (es : List (Str × Val F)) (κ : Kind) (hκ : κ ≠ .recipe) (hn : ∀ q ∈ es, HasKind q.2 κ) :
    valueToNode E (.dict es) = .ok (.lit (.dict es) none paramSpace) := by
  show (do checkDict E es; mkLit E (.dict es) none none) = _
  rw [checkDict_other hκ hn, mkLit_other hκ hn]
  rfl

/-- **C92, kinds.**  A mapping whose values are not all of one kind, or that has a mapping as a value, is a `TypeError`. -/
theorem C92_kinds (E : Env F) (es : List (Str × Val F)) (h : ∀ κ, ∃ q ∈ es, ¬ HasKind q.2 κ) :
    valueToNode E (.dict es) = .error .type := by
  show (do checkDict E es; mkLit E (.dict es) none none) = _
  rw [checkDict_mixed h]
  rfl

/-- **C92, recipes.**  A mapping of recipes is accepted if and only if they all have the same model config and the same merge space, which are then
those of the mapping. -/
theorem C92_recipes (E : Env F) (es : List (Str × Val F)) (hne : es ≠ []) (hn : ∀ q ∈ es, HasKind q.2 .recipe) (r : Val F) :
    valueToNode E (.dict es) = .ok r ↔ ∃ c s, Agree E es c s ∧ r = .lit (.dict es) c (s.getD paramSpace) := by
  show (do checkDict E es; mkLit E (.dict es) none none) = _ ↔ _
  constructor
  · intro h
    cases hc : checkDict E es with
    | error e => rw [hc] at h; exact absurd h (by rintro ⟨⟩)
    | ok u =>
      rw [hc] at h
      obtain ⟨c, s, ha⟩ := (checkDict_nodes hn hne).mp hc
      replace h : mkLit E (.dict es) none none = .ok r := h
      rw [mkLit_nodes hne hn ha] at h
      cases h
      exact ⟨c, s, ha, rfl⟩
  · rintro ⟨c, s, ha, rfl⟩
    rw [(checkDict_nodes hn hne).mpr ⟨c, s, ha⟩]
    exact mkLit_nodes hne hn ha

/-- **C92, disagreement.**  If the configs and merge spaces of all recipes are known but differ somewhere, this is a `RuntimeError`. -/
theorem C92_differ (E : Env F) (es : List (Str × Val F)) (hne : es ≠ []) (hn : ∀ q ∈ es, HasKind q.2 .recipe)
    (hk : ∀ q ∈ es, ∃ c s, q.2.config E = .ok c ∧ q.2.space E = .ok s) (hd : ∀ c s, ¬ Agree E es c s) :
    valueToNode E (.dict es) = .error .runtime := by
  show (do checkDict E es; mkLit E (.dict es) none none) = _
  obtain ⟨⟨k, v⟩, es, rfl⟩ := List.exists_cons_of_ne_nil hne
  have hv := hn (k, v) List.mem_cons_self
  have hvn : v.isNode = true := isNode_iff.mpr hv
  obtain ⟨p, hp⟩ : ∃ p, kindOf v = some p := by
    cases h : kindOf v with
    | none => exact absurd hv (kindOf_none h _)
    | some p => exact ⟨p, rfl⟩
  obtain ⟨κ, hκ, hpw⟩ := kindOf_some hp
  cases hasKind_unique hκ hv
  have hall : (((k, v) :: es).all fun q => p q.2) = true := List.all_eq_true.mpr fun q hq => (hpw _).mpr (hn q hq)
  obtain ⟨c, s, hc, hs⟩ := hk (k, v) List.mem_cons_self
  simp only at hc hs
  have hcheck : checkDict E ((k, v) :: es) = .error .runtime := by
    rw [show checkDict E ((k, v) :: es) = (do
        let c ← v.config E
        if !(← allConfig E c ((k, v) :: es)) then .error .runtime
        else
          let s ← v.space E
          if !(← allSpace E s ((k, v) :: es)) then .error .runtime
          else .ok ()) from by simp only [checkDict, hp, hall, hvn]; rfl]
    rw [hc]
    show (allConfig E c ((k, v) :: es)).bind _ = _
    obtain ⟨b, hb⟩ := allConfig_total (E := E) (c := c) fun q hq => (hk q hq).imp fun _ h => h.choose_spec.1
    rw [hb]
    cases b with
    | false => rfl
    | true =>
      show (v.space E).bind _ = _
      rw [hs]
      show (allSpace E s ((k, v) :: es)).bind _ = _
      obtain ⟨b, hb'⟩ := allSpace_total (E := E) (c := s) fun q hq => by
        obtain ⟨_, s, _, hs⟩ := hk q hq
        exact ⟨s, hs⟩
      rw [hb']
      cases b with
      | false => rfl
      | true => exact absurd (fun q hq => ⟨allConfig_true.mp hb q hq, allSpace_true.mp hb' q hq⟩) (hd c s)
  rw [hcheck]
  rfl

/-- **C92, `literal`.**  A mapping of recipes wrapped by hand, with the config `c` given: all recipes must have it, and they must agree on the merge
space; the merge space given is taken as it is. -/
theorem C92_literal (E : Env F) (es : List (Str × Val F)) (c s : Str) (hne : es ≠ []) (hn : ∀ q ∈ es, HasKind q.2 .recipe) (r : Val F) :
    mkLit E (.dict es) (some c) (some s) = .ok r ↔ (∃ s', Agree E es (some c) s') ∧ r = .lit (.dict es) (some c) s := by
  obtain ⟨⟨k, v⟩, es, rfl⟩ := List.exists_cons_of_ne_nil hne
  have hvn : v.isNode = true := isNode_iff.mpr (hn (k, v) List.mem_cons_self)
  simp only [mkLit, hvn, if_true]
  constructor
  · intro h
    replace h : (v.space E).bind _ = _ := h
    cases hs : v.space E with
    | error e => rw [hs] at h; exact absurd h (by rintro ⟨⟩)
    | ok s' =>
      rw [hs] at h
      replace h : (allConfig E (some c) ((k, v) :: es)).bind _ = _ := h
      cases ha : allConfig E (some c) ((k, v) :: es) with
      | error e => rw [ha] at h; exact absurd h (by rintro ⟨⟩)
      | ok b =>
        rw [ha] at h
        cases b with
        | false => exact absurd h (by rintro ⟨⟩)
        | true =>
          replace h : (allSpace E s' ((k, v) :: es)).bind _ = _ := h
          cases hb : allSpace E s' ((k, v) :: es) with
          | error e => rw [hb] at h; exact absurd h (by rintro ⟨⟩)
          | ok b =>
            rw [hb] at h
            cases b with
            | false => exact absurd h (by rintro ⟨⟩)
            | true =>
              cases h
              exact ⟨⟨s', fun q hq => ⟨allConfig_true.mp ha q hq, allSpace_true.mp hb q hq⟩⟩, rfl⟩
  · rintro ⟨⟨s', h⟩, rfl⟩
    obtain ⟨h1, h2⟩ := h (k, v) List.mem_cons_self
    have ha : allConfig E (some c) ((k, v) :: es) = .ok true := allConfig_true.mpr fun q hq => (h q hq).1
    have hb : allSpace E s' ((k, v) :: es) = .ok true := allSpace_true.mpr fun q hq => (h q hq).2
    simp only at h1 h2
    show (v.space E).bind _ = _
    rw [h2]
    show (allConfig E (some c) ((k, v) :: es)).bind _ = _
    rw [ha]
    show (allSpace E s' ((k, v) :: es)).bind _ = _
    rw [hb]
    rfl

/-- **C92, `literal`, negation.**  Wrapped by hand, a mapping of values of different kinds is accepted unless the first one is a recipe:
here a number and a recipe. -/
theorem C92_literal_false : ∃ (E : Env ℕ) (es : List (Str × Val ℕ)) (r : Val ℕ), (∀ κ, ∃ q ∈ es, ¬ HasKind q.2 κ) ∧
    mkLit E (.dict es) none none = .ok r :=
  ⟨⟨[], [], [], id⟩, [("a".toList, .int 1), ("b".toList, .model "f".toList none none)], _,
    fun κ => by
      by_cases h : κ = .number
      · subst h; exact ⟨_, List.mem_cons_of_mem _ List.mem_cons_self, by rintro ⟨⟩⟩
      · exact ⟨_, List.mem_cons_self, fun hk => h (by cases hk; rfl)⟩,
    rfl⟩

/-! Examples: two models of one config, of different configs, and a model beside a number -/
namespace MappingEx

def E : Env ℕ := ⟨[], ["x".toList, "y".toList], ["weight".toList, "delta".toList], id⟩
def a (c s : String) : Val ℕ := .model "f".toList (some c.toList) (some s.toList)

example : Agree E [("k".toList, a "x" "weight"), ("l".toList, a "x" "weight")] (some "x".toList) (some "weight".toList) := by
  intro q hq
  simp only [List.mem_cons, List.not_mem_nil, or_false] at hq
  rcases hq with rfl | rfl <;> exact ⟨rfl, rfl⟩
example : (valueToNode E (.dict [("k".toList, a "x" "weight"), ("l".toList, a "x" "weight")])).toOption.isSome = true := by decide +kernel
example : valueToNode E (.dict [("k".toList, a "x" "weight"), ("l".toList, a "y" "weight")]) = .error .runtime := by decide +kernel
example : valueToNode E (.dict [("k".toList, a "x" "weight"), ("l".toList, a "x" "delta")]) = .error .runtime := by decide +kernel
example : valueToNode E (.dict [("k".toList, a "x" "weight"), ("l".toList, .int 3)]) = .error .type := by decide +kernel
example : valueToNode E (.dict [("k".toList, .dict [])]) = .error .type := by decide +kernel
example : valueToNode E (.dict [("k".toList, .int 3), ("l".toList, .bool true)]) =
    .ok (.lit (.dict [("k".toList, .int 3), ("l".toList, .bool true)]) none paramSpace) := by decide +kernel
example : ∀ c s, ¬ Agree E [("k".toList, a "x" "weight"), ("l".toList, a "y" "weight")] c s := by
  intro c s h
  have h1 := (h _ List.mem_cons_self).1
  have h2 := (h _ (List.mem_cons_of_mem _ List.mem_cons_self)).1
  have h3 : (Except.ok (some "x".toList) : Except Err (Option Str)) = .ok (some "y".toList) := h1.trans h2.symm
  exact absurd h3 (by decide)

end MappingEx

end Verif.Recipe
