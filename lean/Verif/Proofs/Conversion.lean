import Verif.Spec.Conversion
import Mathlib.Data.List.Induction

namespace Verif.Conversion
open Method Recipe Spec

/-! ## Graphs -/

/-- `g` has an edge `e` from `u` to `v`. -/
def Edge (g : Graph) (u v e : Str) : Prop := ∃ es, g.get? u = some es ∧ (v, e) ∈ es

/-- Edges lead to nodes of the graph. -/
def Closed (g : Graph) : Prop := ∀ u v e, Edge g u v e → v ∈ g.keys

inductive GPath (g : Graph) : Str → List Str → Str → Prop where
  | nil (a : Str) : GPath g a [] a
  | cons {a b c e : Str} {p : List Str} (h : Edge g a b e) (hp : GPath g b p c) : GPath g a (e :: p) c

theorem Edge.src_mem {g : Graph} {u v e : Str} (h : Edge g u v e) : u ∈ g.keys := by
  obtain ⟨es, h, _⟩ := h
  rw [← Dict.get?_isSome_iff, h]; rfl

theorem get?_setDefault (g : Graph) (k k' : Str) :
    (setDefault g k).get? k' = if k = k' ∧ g.get? k = none then some [] else g.get? k' := by
  unfold setDefault
  cases h : g.get? k with
  | some es => simp
  | none =>
    simp only [Dict.get?_set]
    by_cases hk : k = k' <;> simp [hk]

theorem edge_setDefault (g : Graph) (k u v e : Str) : Edge (setDefault g k) u v e ↔ Edge g u v e := by
  unfold Edge
  rw [get?_setDefault]
  by_cases h : k = u ∧ g.get? k = none
  · obtain ⟨rfl, h2⟩ := h
    simp [h2]
  · rw [if_neg h]

theorem mem_keys_setDefault (g : Graph) (k k' : Str) : k' ∈ (setDefault g k).keys ↔ k' = k ∨ k' ∈ g.keys := by
  rw [← Dict.get?_isSome_iff, get?_setDefault, ← Dict.get?_isSome_iff]
  by_cases h : k = k'
  · subst h
    cases hg : g.get? k <;> simp
  · simp [h, Ne.symm h]

theorem edge_addConverter (g : Graph) (c : Converter) (u v e : Str) :
    Edge (addConverter g c) u v e ↔ Edge g u v e ∨ c = ⟨e, u, v⟩ := by
  have h1 : Edge g u v e ↔ Edge (setDefault (setDefault g c.src) c.tgt) u v e := by
    rw [edge_setDefault, edge_setDefault]
  rw [h1]
  have hsrc : c.src ∈ (setDefault (setDefault g c.src) c.tgt).keys := by
    rw [mem_keys_setDefault, mem_keys_setDefault]; simp
  unfold addConverter
  simp only
  generalize setDefault (setDefault g c.src) c.tgt = g' at hsrc
  obtain ⟨es, hes⟩ := Option.isSome_iff_exists.1 ((Dict.get?_isSome_iff g' c.src).2 hsrc)
  unfold Edge
  rw [Dict.get?_set, hes]
  obtain ⟨name, src, tgt⟩ := c
  simp only at *
  by_cases h : src = u
  · subst h
    simp only [if_true, Option.getD_some, Option.some.injEq, exists_eq_left', List.mem_append, List.mem_singleton,
      Prod.mk.injEq, Converter.mk.injEq, true_and, hes]
    constructor
    · rintro (h | ⟨rfl, rfl⟩)
      · exact Or.inl h
      · exact Or.inr ⟨rfl, rfl⟩
    · rintro (h | ⟨rfl, rfl⟩)
      · exact Or.inl h
      · exact Or.inr ⟨rfl, rfl⟩
  · simp [h]

theorem mem_keys_addConverter (g : Graph) (c : Converter) (k : Str) :
    k ∈ (addConverter g c).keys ↔ k = c.src ∨ k = c.tgt ∨ k ∈ g.keys := by
  unfold addConverter
  simp only
  rw [Dict.mem_keys_set, mem_keys_setDefault, mem_keys_setDefault]
  constructor
  · rintro (h | h | h | h) <;> simp [h]
  · rintro (h | h | h) <;> simp [h]

theorem buildGraph_spec (cs : List Converter) :
    (∀ u v e, Edge (buildGraph cs) u v e ↔ (⟨e, u, v⟩ : Converter) ∈ cs) ∧
    ∀ k, k ∈ (buildGraph cs).keys ↔ ∃ c ∈ cs, k = c.src ∨ k = c.tgt := by
  unfold buildGraph
  induction cs using List.reverseRecOn with
  | nil => simp [Edge, Dict.keys]
  | append_singleton cs c ih =>
    rw [List.foldl_append, List.foldl_cons, List.foldl_nil]
    constructor
    · intro u v e
      rw [edge_addConverter, ih.1 u v e]
      simp [eq_comm]
    · intro k
      rw [mem_keys_addConverter, ih.2 k]
      constructor
      · rintro (h | h | ⟨c', hc', h⟩)
        · exact ⟨c, by simp, Or.inl h⟩
        · exact ⟨c, by simp, Or.inr h⟩
        · exact ⟨c', by simp [hc'], h⟩
      · rintro ⟨c', hc', h⟩
        rcases List.mem_append.1 hc' with hc' | hc'
        · exact Or.inr (Or.inr ⟨c', hc', h⟩)
        · simp at hc'
          subst hc'
          rcases h with h | h <;> simp [h]

theorem buildGraph_closed (cs : List Converter) : Closed (buildGraph cs) := by
  intro u v e h
  rw [(buildGraph_spec cs).1] at h
  rw [(buildGraph_spec cs).2]
  exact ⟨_, h, Or.inr rfl⟩

theorem chain_iff (cs : List Converter) (a : Str) (p : List Str) (b : Str) : Chain cs a p b ↔ GPath (buildGraph cs) a p b := by
  constructor
  · intro h
    induction h with
    | nil a => exact .nil a
    | cons c hc _ ih => exact .cons (((buildGraph_spec cs).1 c.src c.tgt c.name).2 hc) ih
  · intro h
    induction h with
    | nil a => exact .nil a
    | cons he _ ih => exact Chain.cons ⟨_, _, _⟩ (((buildGraph_spec cs).1 _ _ _).1 he) ih

/-! ## The heap -/

theorem popMin_none {h : List (ℕ × Str)} : popMin h = none ↔ h = [] := by
  cases h with
  | nil => simp [popMin]
  | cons a l =>
    unfold popMin
    cases popMin l with
    | none => simp
    | some q =>
      obtain ⟨b, r⟩ := q
      simp only
      split <;> simp

theorem entryLt_le {a b : ℕ × Str} (h : entryLt a b = true) : a.1 ≤ b.1 := by
  unfold entryLt at h
  simp only [Bool.or_eq_true, decide_eq_true_eq, Bool.and_eq_true] at h
  omega

theorem entryLt_not_le {a b : ℕ × Str} (h : ¬ entryLt a b = true) : b.1 ≤ a.1 := by
  unfold entryLt at h
  simp only [Bool.or_eq_true, decide_eq_true_eq, Bool.and_eq_true] at h
  omega

theorem popMin_some {h : List (ℕ × Str)} {x : ℕ × Str} {r : List (ℕ × Str)} (hp : popMin h = some (x, r)) :
    (∀ y, y ∈ h ↔ y = x ∨ y ∈ r) ∧ (∀ y ∈ h, x.1 ≤ y.1) ∧ h.length = r.length + 1 := by
  induction h generalizing x r with
  | nil => simp [popMin] at hp
  | cons a l ih =>
    unfold popMin at hp
    cases hl : popMin l with
    | none =>
      rw [hl] at hp
      rw [popMin_none] at hl
      subst hl
      simp at hp
      obtain ⟨rfl, rfl⟩ := hp
      simp
    | some q =>
      obtain ⟨b, s⟩ := q
      rw [hl] at hp
      obtain ⟨h1, h2, h3⟩ := ih hl
      simp only at hp
      by_cases hlt : entryLt b a = true
      · rw [if_pos hlt] at hp
        cases hp
        refine ⟨?_, ?_, by simp [h3]⟩
        · intro y
          rw [List.mem_cons, List.mem_cons, h1]
          constructor
          · rintro (h | h | h) <;> simp [h]
          · rintro (h | h | h) <;> simp [h]
        · intro y hy
          rcases List.mem_cons.1 hy with rfl | hy
          · exact entryLt_le hlt
          · exact h2 y hy
      · rw [if_neg hlt] at hp
        cases hp
        refine ⟨by intro y; simp, ?_, by simp⟩
        intro y hy
        rcases List.mem_cons.1 hy with rfl | hy
        · exact Nat.le_refl _
        · have := h2 y hy
          have := entryLt_not_le hlt
          omega

/-! ## Invariant -/

/-- The distance of `v` is known to be `d`. -/
def Fin (s : St) (v : Str) (d : ℕ) : Prop := s.dist.get? v = some (some d)

theorem Fin.inj {s : St} {v : Str} {d d' : ℕ} (h : Fin s v d) (h' : Fin s v d') : d = d' := by
  unfold Fin at h h'; rw [h] at h'; simpa using h'

/-- How many distances are infinite. -/
def inf (s : St) : ℕ := (s.dist.filter fun p => decide (p.2 = none)).length

theorem count_set {d : Dict Str (Option ℕ)} {k : Str} {x : ℕ} (h : d.get? k = some none) :
    (Dict.set d k (some x)).length = d.length ∧
    (d.filter fun p => decide (p.2 = none)).length = ((Dict.set d k (some x)).filter fun p => decide (p.2 = none)).length + 1 := by
  induction d with
  | nil => simp at h
  | cons p d ih =>
    obtain ⟨a, b⟩ := p
    unfold Dict.set
    by_cases hk : a = k
    · simp only [Dict.get?, hk, if_true, Option.some.injEq] at h
      subst h
      rw [if_pos hk]
      simp
    · simp only [Dict.get?, hk, if_false] at h
      rw [if_neg hk]
      obtain ⟨h1, h2⟩ := ih h
      refine ⟨by simp [h1], ?_⟩
      cases b <;> simp_all

/-- What holds whatever is in the heap. -/
structure Base (g : Graph) (start : Str) (s : St) : Prop where
  keys : ∀ v, v ∈ s.dist.keys ↔ v ∈ g.keys ∨ v = start
  zero : Fin s start 0
  pred : ∀ v d, Fin s v d → v ≠ start →
    ∃ u e d', s.pred.get? v = some (u, e) ∧ Edge g u v e ∧ Fin s u d' ∧ d = d' + 1
  heap : ∀ d v, (d, v) ∈ s.heap → Fin s v d
  bound : ∀ v d, Fin s v d → d + 1 + inf s ≤ s.dist.length
  size : s.dist.length ≤ g.length + 1

/-- The edges of `v` lead to nodes not too far. -/
def Settled (g : Graph) (s : St) (v : Str) (d : ℕ) : Prop := ∀ w e, Edge g v w e → ∃ d', Fin s w d' ∧ d' ≤ d + 1

structure Inv (g : Graph) (start : Str) (s : St) : Prop extends Base g start s where
  upper : ∀ d v w d', (d, v) ∈ s.heap → Fin s w d' → d' ≤ d + 1
  settled : ∀ v d, Fin s v d → (d, v) ∈ s.heap ∨ Settled g s v d

/-- While the edges of `cur` are looked at. -/
structure Mid (g : Graph) (start cur : Str) (d : ℕ) (s : St) : Prop extends Base g start s where
  fin : Fin s cur d
  upper : ∀ w d', Fin s w d' → d' ≤ d + 1
  lower : ∀ x v, (x, v) ∈ s.heap → d ≤ x
  settled : ∀ v x, Fin s v x → v = cur ∨ (x, v) ∈ s.heap ∨ Settled g s v x

theorem relax_spec {g : Graph} {start cur : Str} {d : ℕ} (l : List (Str × Str)) (s : St) (hl : ∀ q ∈ l, Edge g cur q.1 q.2)
    (hclosed : Closed g) (h : Mid g start cur d s) :
    ∃ s', relax cur d l s = .ok s' ∧ Mid g start cur d s' ∧ (∀ v x, Fin s v x → Fin s' v x) ∧
      (∀ q ∈ l, ∃ x, Fin s' q.1 x ∧ x ≤ d + 1) ∧ s'.heap.length + inf s' = s.heap.length + inf s := by
  induction l generalizing s with
  | nil => exact ⟨s, rfl, h, fun _ _ h => h, by simp, rfl⟩
  | cons q l ih =>
    obtain ⟨n, e⟩ := q
    have he := hl (n, e) (by simp)
    have hn : n ∈ s.dist.keys := (h.keys n).2 (Or.inl (hclosed _ _ _ he))
    obtain ⟨old, hold⟩ := Option.isSome_iff_exists.1 ((Dict.get?_isSome_iff s.dist n).2 hn)
    unfold relax
    rw [hold]
    simp only
    cases old with
    | some x =>
      have hx : x ≤ d + 1 := h.upper n x hold
      rw [if_neg (by simp only [less, decide_eq_true_eq]; omega)]
      obtain ⟨s', h1, h2, h3, h4, h5⟩ := ih s (fun q hq => hl q (by simp [hq])) h
      refine ⟨s', h1, h2, h3, ?_, h5⟩
      intro q hq
      rcases List.mem_cons.1 hq with rfl | hq
      · exact ⟨x, h3 n x hold, hx⟩
      · exact h4 q hq
    | none =>
      rw [if_pos (by simp [less])]
      generalize hs1 : (⟨s.dist.set n (some (d + 1)), s.pred.set n (cur, e), s.heap ++ [(d + 1, n)]⟩ : St) = s1
      have hd1 : s1.dist = s.dist.set n (some (d + 1)) := by rw [← hs1]
      have hp1 : s1.pred = s.pred.set n (cur, e) := by rw [← hs1]
      have hh1 : s1.heap = s.heap ++ [(d + 1, n)] := by rw [← hs1]
      have hfin : ∀ v x, Fin s1 v x ↔ (v = n ∧ x = d + 1) ∨ Fin s v x := by
        intro v x
        unfold Fin
        rw [hd1, Dict.get?_set]
        by_cases hv : n = v
        · subst hv; simp [hold, eq_comm]
        · simp [hv, Ne.symm hv]
      have hmono : ∀ v x, Fin s v x → Fin s1 v x := fun v x hv => (hfin v x).2 (Or.inr hv)
      obtain ⟨hlen, hinf⟩ := count_set (x := d + 1) hold
      have hinf' : inf s = inf s1 + 1 := by unfold inf; rw [hd1]; exact hinf
      have hlen' : s1.dist.length = s.dist.length := by rw [hd1]; exact hlen
      have hset : ∀ v x, Settled g s v x → Settled g s1 v x := by
        intro v x hv w e' hw
        obtain ⟨d', h1, h2⟩ := hv w e' hw
        exact ⟨d', hmono w d' h1, h2⟩
      have hmid : Mid g start cur d s1 := by
        constructor
        · constructor
          · intro v
            rw [hd1, Dict.mem_keys_set, h.keys]
            constructor
            · rintro (rfl | hv)
              · exact (h.keys v).1 hn
              · exact hv
            · intro hv; exact Or.inr hv
          · exact hmono _ _ h.zero
          · intro v x hv hvs
            rw [hp1, Dict.get?_set]
            rcases (hfin v x).1 hv with ⟨rfl, rfl⟩ | hv'
            · exact ⟨cur, e, d, by simp, he, hmono _ _ h.fin, rfl⟩
            · have hvn : n ≠ v := by
                rintro rfl
                unfold Fin at hv'; rw [hold] at hv'; cases hv'
              rw [if_neg hvn]
              obtain ⟨u, e', d', a1, a2, a3, a4⟩ := h.pred v x hv' hvs
              exact ⟨u, e', d', a1, a2, hmono _ _ a3, a4⟩
          · intro x v hv
            rw [hh1] at hv
            rcases List.mem_append.1 hv with hv | hv
            · exact hmono _ _ (h.heap x v hv)
            · simp at hv
              obtain ⟨rfl, rfl⟩ := hv
              exact (hfin _ _).2 (Or.inl ⟨rfl, rfl⟩)
          · intro v x hv
            rw [hlen']
            rcases (hfin v x).1 hv with ⟨rfl, rfl⟩ | hv'
            · have := h.bound cur d h.fin; omega
            · have := h.bound v x hv'; omega
          · rw [hlen']; exact h.size
        · exact hmono _ _ h.fin
        · intro w x hw
          rcases (hfin w x).1 hw with ⟨_, rfl⟩ | hw'
          · exact Nat.le_refl _
          · exact h.upper w x hw'
        · intro x v hv
          rw [hh1] at hv
          rcases List.mem_append.1 hv with hv | hv
          · exact h.lower x v hv
          · simp at hv; omega
        · intro v x hv
          rcases (hfin v x).1 hv with ⟨rfl, rfl⟩ | hv'
          · right; left; rw [hh1]; simp
          · rcases h.settled v x hv' with h' | h' | h'
            · exact Or.inl h'
            · right; left; rw [hh1]; simp [h']
            · exact Or.inr (Or.inr (hset v x h'))
      obtain ⟨s', h1, h2, h3, h4, h5⟩ := ih s1 (fun q hq => hl q (by simp [hq])) hmid
      refine ⟨s', h1, h2, fun v x hv => h3 v x (hmono v x hv), ?_, ?_⟩
      · intro q hq
        rcases List.mem_cons.1 hq with rfl | hq
        · exact ⟨d + 1, h3 _ _ ((hfin _ _).2 (Or.inl ⟨rfl, rfl⟩)), Nat.le_refl _⟩
        · exact h4 q hq
      · rw [h5, hh1, hinf', List.length_append, List.length_singleton]; omega

/-! ## The main loop -/

/-- How the main loop ends. -/
def Ends (g : Graph) (start goal : Str) : Except Err St → Prop
  | .error e => e = .key ∧ start ∉ g.keys ∧ start ≠ goal
  | .ok s => Inv g start s ∧ (s.heap = [] ∨ ∃ d, Fin s goal d ∧ ∀ x v, (x, v) ∈ s.heap → d ≤ x)

theorem search_spec {g : Graph} {start goal : Str} (hclosed : Closed g) (fuel : ℕ) (s : St) (h : Inv g start s)
    (hfuel : s.heap.length + inf s ≤ fuel) : ∃ r, search g goal fuel s = some r ∧ Ends g start goal r := by
  induction fuel generalizing s with
  | zero =>
    have : s.heap = [] := List.length_eq_zero_iff.1 (by omega)
    exact ⟨.ok s, by simp [search, this], h, Or.inl this⟩
  | succ fuel ih =>
    unfold search
    cases hp : popMin s.heap with
    | none => exact ⟨.ok s, rfl, h, Or.inl (popMin_none.1 hp)⟩
    | some q =>
      obtain ⟨⟨d, v⟩, rest⟩ := q
      obtain ⟨h1, h2, h3⟩ := popMin_some hp
      have hdv : (d, v) ∈ s.heap := (h1 _).2 (Or.inl rfl)
      have hfin := h.heap d v hdv
      unfold Fin at hfin
      simp only [hfin]
      rw [if_neg (by simp)]
      by_cases hg : v = goal
      · rw [if_pos hg]
        refine ⟨.ok s, rfl, h, Or.inr ⟨d, hg ▸ hfin, fun x w hw => h2 (x, w) hw⟩⟩
      · rw [if_neg hg]
        cases hgv : g.get? v with
        | none =>
          refine ⟨.error .key, rfl, rfl, ?_⟩
          have hv : v ∉ g.keys := (Dict.get?_eq_none_iff g v).1 hgv
          have : v = start := by
            have := (h.keys v).1 (by rw [← Dict.get?_isSome_iff, hfin]; rfl)
            rcases this with h | h
            · exact absurd h hv
            · exact h
          subst this
          exact ⟨hv, hg⟩
        | some es =>
          simp only
          have hmid : Mid g start v d { s with heap := rest } := by
            have e1 : ∀ w x, Fin { s with heap := rest } w x ↔ Fin s w x := fun _ _ => Iff.rfl
            constructor
            · exact ⟨h.keys, h.zero, h.pred, fun x w hw => h.heap x w ((h1 _).2 (Or.inr hw)), h.bound, h.size⟩
            · exact hfin
            · intro w x hw; exact h.upper d v w x hdv hw
            · intro x w hw; exact h2 (x, w) ((h1 _).2 (Or.inr hw))
            · intro w x hw
              rcases h.settled w x hw with h' | h'
              · rcases (h1 _).1 h' with h' | h'
                · left; exact (Prod.mk.inj h').2
                · exact Or.inr (Or.inl h')
              · exact Or.inr (Or.inr h')
          obtain ⟨s', a1, a2, a3, a4, a5⟩ := relax_spec es { s with heap := rest }
            (fun q hq => ⟨es, hgv, hq⟩) hclosed hmid
          rw [a1]
          simp only
          apply ih s'
          · constructor
            · exact a2.toBase
            · intro x w w' x' hw hw'
              have := a2.lower x w hw
              have := a2.upper w' x' hw'
              omega
            · intro w x hw
              rcases a2.settled w x hw with h' | h' | h'
              · subst h'
                have : x = d := Fin.inj hw a2.fin
                subst this
                right
                intro w' e' he'
                obtain ⟨es', h4, h5⟩ := he'
                rw [hgv] at h4
                cases h4
                obtain ⟨x, hx1, hx2⟩ := a4 _ h5
                exact ⟨x, hx1, hx2⟩
              · exact Or.inl h'
              · exact Or.inr h'
          · have : inf { s with heap := rest } = inf s := rfl
            rw [this] at a5
            simp only at a5
            omega

/-! ## Start -/

theorem get?_map_none (g : Graph) (v : Str) :
    Dict.get? (g.map fun p => (p.1, (none : Option ℕ))) v = if v ∈ g.keys then some none else none := by
  induction g with
  | nil => simp [Dict.keys]
  | cons p g ih =>
    obtain ⟨a, b⟩ := p
    simp only [List.map_cons, Dict.get?, ih]
    by_cases h : a = v
    · simp [h, Dict.keys]
    · simp only [h, if_false]
      by_cases h' : v ∈ Dict.keys g
      · rw [if_pos h', if_pos (by simp [Dict.keys] at h' ⊢; exact Or.inr h')]
      · rw [if_neg h', if_neg (by simp [Dict.keys] at h' ⊢; exact ⟨fun e => h e.symm, h'⟩)]

theorem set_length_le {κ ν : Type} [DecidableEq κ] (d : Dict κ ν) (k : κ) (v : ν) : (d.set k v).length ≤ d.length + 1 := by
  induction d with
  | nil => simp [Dict.set]
  | cons p d ih =>
    obtain ⟨a, b⟩ := p
    unfold Dict.set
    split
    · simp
    · simp; exact ih

theorem init_count (g : Graph) (start : Str) :
    1 + inf (init g start) ≤ (init g start).dist.length := by
  have : ∃ p ∈ (init g start).dist, ¬ decide (p.2 = none) = true := by
    refine ⟨(start, some 0), ?_, by simp⟩
    apply Dict.mem_of_get?
    simp [init]
  unfold inf
  have hlt := List.length_filter_lt_length_iff_exists.2 this
  omega

theorem init_inv (g : Graph) (start : Str) : Inv g start (init g start) := by
  have hfin : ∀ v d, Fin (init g start) v d ↔ v = start ∧ d = 0 := by
    intro v d
    unfold Fin init
    rw [Dict.get?_set, get?_map_none]
    by_cases h : start = v
    · simp [h, eq_comm]
    · rw [if_neg h]
      constructor
      · intro h'; split at h' <;> simp at h'
      · rintro ⟨rfl, _⟩; exact absurd rfl h
  constructor
  · constructor
    · intro v
      have : (init g start).dist.keys = (Dict.set (g.map fun p => (p.1, (none : Option ℕ))) start (some 0)).keys := rfl
      rw [this, Dict.mem_keys_set]
      have : Dict.keys (g.map fun p => (p.1, (none : Option ℕ))) = g.keys := by simp [Dict.keys]
      rw [this, or_comm]
    · exact (hfin _ _).2 ⟨rfl, rfl⟩
    · intro v d hv hne
      exact absurd ((hfin v d).1 hv).1 hne
    · intro d v hv
      simp only [init, List.mem_singleton, Prod.mk.injEq] at hv
      exact (hfin _ _).2 ⟨hv.2, hv.1⟩
    · intro v d hv
      have := init_count g start
      have := ((hfin v d).1 hv).2
      omega
    · have := set_length_le (g.map fun p => (p.1, (none : Option ℕ))) start (some 0)
      rw [List.length_map] at this
      exact this
  · intro d v w d' _ hw
    have := ((hfin w d').1 hw).2
    omega
  · intro v d hv
    left
    obtain ⟨rfl, rfl⟩ := (hfin v d).1 hv
    simp [init]

/-! ## The way back -/

theorem walk_spec {g : Graph} {start : Str} {s : St} (h : Base g start s) (fuel : ℕ) (v : Str) (d : ℕ) (goal : Str) (acc : List Str)
    (hv : Fin s v d) (hf : d ≤ fuel) (hacc : GPath g v acc goal) :
    ∃ p, walk s.pred start fuel v acc = some (.ok p) ∧ GPath g start p goal ∧ p.length = d + acc.length := by
  induction fuel generalizing v d acc with
  | zero =>
    have hd : d = 0 := by omega
    subst hd
    have : v = start := by
      by_contra hne
      obtain ⟨_, _, _, _, _, _, h'⟩ := h.pred v 0 hv hne
      omega
    subst this
    exact ⟨acc, by simp [walk], hacc, by simp⟩
  | succ fuel ih =>
    unfold walk
    by_cases hs : v = start
    · subst hs
      have : d = 0 := Fin.inj hv h.zero
      subst this
      exact ⟨acc, by simp, hacc, by simp⟩
    · rw [if_neg hs]
      obtain ⟨u, e, d', a1, a2, a3, rfl⟩ := h.pred v d hv hs
      simp only [a1]
      obtain ⟨p, b1, b2, b3⟩ := ih u d' (e :: acc) a3 (by omega) (.cons a2 hacc)
      exact ⟨p, b1, b2, by rw [b3, List.length_cons]; omega⟩

/-- Nodes reached by a path are not farther than its length, if no node before the end is still waiting. -/
theorem reach {g : Graph} {start : Str} {s : St} (h : Inv g start s) {bound : ℕ}
    (hb : ∀ x v, (x, v) ∈ s.heap → bound ≤ x) {v w : Str} {q : List Str} (hq : GPath g v q w) :
    ∀ x, Fin s v x → x + q.length ≤ bound → ∃ y, Fin s w y ∧ y ≤ x + q.length := by
  induction hq with
  | nil a => intro x hx _; exact ⟨x, hx, by simp⟩
  | @cons a b c e p he _ ih =>
    intro x hx hlen
    rw [List.length_cons] at hlen ⊢
    rcases h.settled a x hx with h' | h'
    · have := hb x a h'; omega
    · obtain ⟨x', h1, h2⟩ := h' b e he
      obtain ⟨y, h3, h4⟩ := ih x' h1 (by omega)
      exact ⟨y, h3, by omega⟩

/-- What the search returns. -/
def Found (g : Graph) (start goal : Str) : Except Err (Option (List Str)) → Prop
  | .error e => e = .key ∧ ∀ q, ¬ GPath g start q goal
  | .ok none => ∀ q, ¬ GPath g start q goal
  | .ok (some p) => GPath g start p goal ∧ ∀ q, GPath g start q goal → p.length ≤ q.length

theorem gpath_ends {g : Graph} (hc : Closed g) {a b : Str} {q : List Str} (h : GPath g a q b) (hne : a ≠ b) : a ∈ g.keys ∧ b ∈ g.keys := by
  induction h with
  | nil a => exact absurd rfl hne
  | @cons a b c e p he _ ih =>
    refine ⟨he.src_mem, ?_⟩
    by_cases hbc : b = c
    · subst hbc; exact hc _ _ _ he
    · exact (ih hbc).2

theorem dijkstra_spec (g : Graph) (hclosed : Closed g) (start goal : Str) :
    ∃ r, dijkstra g start goal = some r ∧ Found g start goal r := by
  have hc := init_count g start
  have hi := init_inv g start
  have hfuel : (init g start).heap.length + inf (init g start) ≤ fuelFor g := by
    have := hi.size
    unfold fuelFor
    have : (init g start).heap.length = 1 := rfl
    omega
  obtain ⟨r, h1, h2⟩ := search_spec (goal := goal) hclosed (fuelFor g) (init g start) hi hfuel
  unfold dijkstra
  rw [h1]
  cases r with
  | error e =>
    obtain ⟨rfl, h3, h4⟩ := h2
    exact ⟨.error .key, rfl, rfl, fun q hq => h3 (gpath_ends hclosed hq h4).1⟩
  | ok s =>
    obtain ⟨hinv, hend⟩ := h2
    simp only
    cases hg : s.dist.get? goal with
    | none =>
      refine ⟨.error .key, rfl, rfl, ?_⟩
      have hn : goal ∉ s.dist.keys := (Dict.get?_eq_none_iff _ _).1 hg
      have hne : start ≠ goal := by
        rintro rfl
        exact hn ((hinv.keys start).2 (Or.inr rfl))
      intro q hq
      exact hn ((hinv.keys goal).2 (Or.inl (gpath_ends hclosed hq hne).2))
    | some o =>
      cases o with
      | none =>
        refine ⟨.ok none, rfl, ?_⟩
        intro q hq
        rcases hend with hend | ⟨d, hd, _⟩
        · obtain ⟨y, hy, _⟩ := reach hinv (bound := 0 + q.length) (by rw [hend]; simp) hq 0 hinv.zero (Nat.le_refl _)
          unfold Fin at hy; rw [hg] at hy; cases hy
        · unfold Fin at hd; rw [hg] at hd; cases hd
      | some d =>
        have hb := hinv.bound goal d hg
        have hsz := hinv.size
        obtain ⟨p, a1, a2, a3⟩ := walk_spec hinv.toBase (fuelFor g) goal d goal [] hg (by unfold fuelFor; omega) (.nil goal)
        simp only [a1]
        refine ⟨.ok (some p), rfl, a2, ?_⟩
        intro q hq
        rw [a3, List.length_nil, Nat.add_zero]
        rcases hend with hend | ⟨d', hd', hmin⟩
        · obtain ⟨y, hy, hy2⟩ := reach hinv (bound := 0 + q.length) (by rw [hend]; simp) hq 0 hinv.zero (Nat.le_refl _)
          have := Fin.inj hy hg
          omega
        · have : d' = d := Fin.inj hd' hg
          subst this
          by_contra hlt
          obtain ⟨y, hy, hy2⟩ := reach hinv hmin hq 0 hinv.zero (by omega)
          have := Fin.inj hy hg
          omega

end Verif.Conversion
