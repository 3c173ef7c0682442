import Verif.Spec.Blocks
import Verif.Proofs.Whole
import Verif.Proofs.WholeExtra
import Verif.Props.Eval

/-!
# Recipes with open parameters
-/
namespace Verif.Blocks
open Method Recipe Config Eval Eval.Spec Program Program.Spec Whole Spec
variable {F T : Type}

/-! ### Induction -/

section
variable {Q : Plan F → Prop} (hh : ∀ i, Q (.hole i)) (hf : ∀ v, Q (.fixed v))
  (hm : ∀ m args kwargs, (∀ a ∈ args, Q a) → (∀ p ∈ kwargs, Q p.2) → Q (.merge m args kwargs))
include hh hf hm
mutual
theorem plan_induct : ∀ q : Plan F, Q q
  | .hole i => hh i
  | .fixed v => hf v
  | .merge m args kwargs => hm m args kwargs (plan_inductL args) (plan_inductK kwargs)
theorem plan_inductL : ∀ l : List (Plan F), ∀ a ∈ l, Q a
  | [] => fun a h => absurd h (by simp)
  | b :: l => fun a h => by
    rcases List.mem_cons.1 h with h | h
    · rw [h]; exact plan_induct b
    · exact plan_inductL l a h
theorem plan_inductK : ∀ l : List (Str × Plan F), ∀ p ∈ l, Q p.2
  | [] => fun a h => absurd h (by simp)
  | (k, b) :: l => fun a h => by
    rcases List.mem_cons.1 h with h | h
    · rw [h]; exact plan_induct b
    · exact plan_inductK l a h
end
end

theorem fillL_map (f : ℕ → Val F) : ∀ l : List (Plan F), fillL f l = l.map (Plan.fill f)
  | [] => by rw [fillL]; rfl
  | a :: l => by rw [fillL, fillL_map f l]; rfl

theorem fillK_map (f : ℕ → Val F) : ∀ l : List (Str × Plan F), fillK f l = l.map fun p => (p.1, p.2.fill f)
  | [] => by rw [fillK]; rfl
  | (k, a) :: l => by rw [fillK, fillK_map f l]; rfl

theorem everyL_iff (p : ℕ → Prop) : ∀ l : List (Plan F), EveryL p l ↔ ∀ a ∈ l, a.Every p
  | [] => by simp [EveryL]
  | a :: l => by rw [EveryL, everyL_iff p l]; simp

theorem everyK_iff (p : ℕ → Prop) : ∀ l : List (Str × Plan F), EveryK p l ↔ ∀ q ∈ l, q.2.Every p
  | [] => by simp [EveryK]
  | (k, a) :: l => by rw [EveryK, everyK_iff p l]; simp

theorem fineL_iff (W : World F T) (c : Str) : ∀ l : List (Plan F), FineL W c l ↔ ∀ a ∈ l, Fine W c a
  | [] => by simp [FineL]
  | a :: l => by rw [FineL, fineL_iff W c l]; simp

theorem fineK_iff (W : World F T) (c : Str) : ∀ l : List (Str × Plan F), FineK W c l ↔ ∀ q ∈ l, Fine W c q.2
  | [] => by simp [FineK]
  | (k, a) :: l => by rw [FineK, fineK_iff W c l]; simp

theorem calmL_iff (W : World F T) (key : Str) : ∀ l : List (Val F), CalmL W key l ↔ ∀ a ∈ l, Calm W key a
  | [] => by simp [CalmL]
  | a :: l => by rw [CalmL, calmL_iff W key l]; simp

theorem calmK_iff (W : World F T) (key : Str) : ∀ l : List (Str × Val F), CalmK W key l ↔ ∀ q ∈ l, Calm W key q.2
  | [] => by simp [CalmK]
  | (k, a) :: l => by rw [CalmK, calmK_iff W key l]; simp

theorem properL_iff : ∀ l : List (Val F), ProperL l ↔ ∀ a ∈ l, Proper a
  | [] => by simp [ProperL]
  | a :: l => by rw [ProperL, properL_iff l]; simp

theorem properK_iff : ∀ l : List (Str × Val F), ProperK l ↔ ∀ q ∈ l, Proper q.2
  | [] => by simp [ProperK]
  | (k, a) :: l => by rw [ProperK, properK_iff l]; simp

theorem every_mono {p p' : ℕ → Prop} (h : ∀ i, p i → p' i) (q : Plan F) : q.Every p → q.Every p' := by
  induction q using plan_induct with
  | hh i => simp only [Plan.Every]; exact h i
  | hf v => simp only [Plan.Every]; exact id
  | hm m args kwargs ha hk =>
    simp only [Plan.Every, everyL_iff, everyK_iff]
    exact fun hq => ⟨fun a h => ha a h (hq.1 a h), fun a h => hk a h (hq.2 a h)⟩

theorem every_and {p p' : ℕ → Prop} (q : Plan F) : q.Every p → q.Every p' → q.Every (fun i => p i ∧ p' i) := by
  induction q using plan_induct with
  | hh i => simp only [Plan.Every]; exact fun a b => ⟨a, b⟩
  | hf v => simp only [Plan.Every]; exact fun _ => id
  | hm m args kwargs ha hk =>
    simp only [Plan.Every, everyL_iff, everyK_iff]
    exact fun hq hq' => ⟨fun a h => ha a h (hq.1 a h) (hq'.1 a h), fun a h => hk a h (hq.2 a h) (hq'.2 a h)⟩

/-! ### Configs -/

theorem configL_ok {E : Env F} {P : Option Str → Prop} : ∀ {l : List (Val F)}, (∀ v ∈ l, ∃ c, v.config E = .ok c ∧ P c) →
    ∃ cs, configL E l = .ok cs ∧ List.Forall₂ (fun v c => v.config E = .ok c ∧ P c) l cs
  | [], _ => ⟨[], by rw [configL], .nil⟩
  | v :: l, h => by
    obtain ⟨c, h1, h2⟩ := h v (by simp)
    obtain ⟨cs, h3, h4⟩ := configL_ok (l := l) fun x hx => h x (by simp [hx])
    exact ⟨c :: cs, by rw [configL, h1, h3]; rfl, .cons ⟨h1, h2⟩ h4⟩

theorem configK_ok {E : Env F} {P : Option Str → Prop} : ∀ {l : List (Str × Val F)}, (∀ p ∈ l, ∃ c, p.2.config E = .ok c ∧ P c) →
    ∃ cs, configK E l = .ok cs ∧ List.Forall₂ (fun p q => p.1 = q.1 ∧ p.2.config E = .ok q.2 ∧ P q.2) l cs
  | [], _ => ⟨[], by rw [configK], .nil⟩
  | (k, v) :: l, h => by
    obtain ⟨c, h1, h2⟩ := h (k, v) (by simp)
    obtain ⟨cs, h3, h4⟩ := configK_ok (l := l) fun x hx => h x (by simp [hx])
    simp only at h1
    exact ⟨(k, c) :: cs, by rw [configK, h1, h3]; rfl, .cons ⟨rfl, h1, h2⟩ h4⟩

theorem configLoop_free {input : Dict Idx (Option Str)} {c : Str} : ∀ {l : List (Idx × Option Str)} {d : Option Str},
    (∀ p ∈ l, p.2 = none ∨ p.2 = some c) → (∀ p ∈ l, input.get? p.1 = some none) → d = none ∨ d = some c →
    (d = some c ∨ ∃ p ∈ l, p.2 = some c) → configLoop input d l = .ok (some c)
  | [], d, _, _, hd, h => by
    rcases h with h | ⟨p, hp, _⟩
    · rw [h]; rfl
    · simp at hp
  | (i, none) :: l, d, h1, h2, hd, h => by
    show configLoop input d l = _
    refine configLoop_free (fun p hp => h1 p (by simp [hp])) (fun p hp => h2 p (by simp [hp])) hd ?_
    rcases h with h | ⟨p, hp, h⟩
    · exact .inl h
    · rcases List.mem_cons.1 hp with rfl | hp
      · cases h
      · exact .inr ⟨p, hp, h⟩
  | (i, some c') :: l, d, h1, h2, hd, h => by
    have e : c' = c := by
      rcases h1 (i, some c') (by simp) with h | h
      · cases h
      · exact Option.some.inj h
    subst e
    have e2 := h2 (i, some c') (by simp)
    simp only at e2
    have ih := configLoop_free (input := input) (l := l) (d := some c') (fun p hp => h1 p (by simp [hp])) (fun p hp => h2 p (by simp [hp])) (.inr rfl) (.inl rfl)
    rcases hd with rfl | rfl
    · unfold configLoop
      simp only [e2]
      exact ih
    · unfold configLoop
      simp only [e2, ne_eq, not_true_eq_false, if_false]
      exact ih

theorem argIdx_mem {β : Type} {args : List β} {kwargs : Dict Str β} {idx : Idx} {b : β} :
    (idx, b) ∈ argIdx args kwargs ↔ At args kwargs idx b := by
  unfold argIdx
  rw [List.mem_append, List.mem_mapIdx, List.mem_map]
  cases idx with
  | pos i =>
    show _ ↔ args[i]? = some b
    constructor
    · rintro (⟨j, hj, h⟩ | ⟨p, _, h⟩)
      · obtain ⟨h1, h2⟩ := Prod.mk.inj h
        cases h1
        rw [List.getElem?_eq_getElem hj, h2]
      · cases h
    · intro h
      obtain ⟨hj, h⟩ := List.getElem?_eq_some_iff.1 h
      exact .inl ⟨i, hj, by rw [h]⟩
  | name k =>
    show _ ↔ (k, b) ∈ kwargs
    constructor
    · rintro (⟨j, hj, h⟩ | ⟨⟨k', b'⟩, h', h⟩)
      · cases h
      · cases h; exact h'
    · intro h
      exact .inr ⟨(k, b), h, rfl⟩

theorem at_mem {A : Type} {args : List A} {kwargs : List (Str × A)} {idx : Idx} {a : A} (h : At args kwargs idx a) :
    a ∈ args ∨ ∃ p ∈ kwargs, p.2 = a := by
  cases idx with
  | pos i => exact .inl (List.mem_of_getElem? h)
  | name k => exact .inr ⟨(k, a), h, rfl⟩

theorem at_map {A B : Type} (g : A → B) {args : List A} {kwargs : List (Str × A)} {idx : Idx} {b : B} :
    At (args.map g) (kwargs.map fun p => (p.1, g p.2)) idx b ↔ ∃ a, At args kwargs idx a ∧ g a = b := by
  cases idx with
  | pos i =>
    show (args.map g)[i]? = some b ↔ ∃ a, args[i]? = some a ∧ _
    rw [List.getElem?_map]
    simp
  | name k =>
    show (k, b) ∈ kwargs.map _ ↔ ∃ a, (k, a) ∈ kwargs ∧ _
    rw [List.mem_map]
    constructor
    · rintro ⟨⟨k', a⟩, h1, h2⟩
      cases h2
      exact ⟨a, h1, rfl⟩
    · rintro ⟨a, h1, h2⟩
      exact ⟨(k, a), h1, by rw [h2]⟩

theorem at_forall {A B : Type} {R : A → B → Prop} {args : List A} {args' : List B} {kwargs : List (Str × A)} {kwargs' : List (Str × B)}
    (h : List.Forall₂ R args args') (hk : List.Forall₂ (fun p q => p.1 = q.1 ∧ R p.2 q.2) kwargs kwargs') {idx : Idx} {a : A}
    (ha : At args kwargs idx a) : ∃ b, At args' kwargs' idx b ∧ R a b := by
  cases idx with
  | pos i =>
    change args[i]? = some a at ha
    show ∃ b, args'[i]? = some b ∧ _
    induction h generalizing i with
    | nil => simp at ha
    | cons h _ ih =>
      cases i with
      | zero => simp at ha; subst ha; exact ⟨_, rfl, h⟩
      | succ i => simpa using ih i (by simpa using ha)
  | name k =>
    change (k, a) ∈ kwargs at ha
    show ∃ b, (k, b) ∈ kwargs' ∧ _
    induction hk with
    | nil => simp at ha
    | @cons p q l l' h _ ih =>
      rcases List.mem_cons.1 ha with ha | ha
      · obtain ⟨k', b⟩ := q
        subst ha
        obtain ⟨h1, h2⟩ := h
        simp only at h1 h2
        subst h1
        exact ⟨b, by simp, h2⟩
      · obtain ⟨b, h1, h2⟩ := ih ha
        exact ⟨b, by simp [h1], h2⟩

theorem forall_flip {A B : Type} {R : A → B → Prop} {kwargs : List (Str × A)} {kwargs' : List (Str × B)}
    (hk : List.Forall₂ (fun p q => p.1 = q.1 ∧ R p.2 q.2) kwargs kwargs') :
    List.Forall₂ (fun q p => q.1 = p.1 ∧ R p.2 q.2) kwargs' kwargs := by
  have := List.Forall₂.flip hk
  exact this.imp fun _ _ h => ⟨h.1.symm, h.2⟩

/-- A config that is `c` or unknown -/
def Maybe (E : Env F) (c : Str) (v : Val F) : Prop := v.config E = .ok none ∨ v.config E = .ok (some c)

theorem config_fill {W : World F T} {c : Str} {f : ℕ → Val F} (q : Plan F) : Fine W c q → q.Every (fun i => Maybe W.env c (f i)) →
    Maybe W.env c (q.fill f) ∧ (Given W.env c q → (q.fill f).config W.env = .ok (some c)) := by
  induction q using plan_induct with
  | hh i =>
    intro _ h
    simp only [Plan.Every] at h
    rw [Plan.fill]
    exact ⟨h, fun h => h.elim⟩
  | hf v =>
    intro hq _
    simp only [Fine] at hq
    rw [Plan.fill]
    exact ⟨hq.2, fun h => h⟩
  | hm m args kwargs ha hk =>
    intro hq he
    simp only [Fine, fineL_iff, fineK_iff] at hq
    simp only [Plan.Every, everyL_iff, everyK_iff] at he
    obtain ⟨_, ⟨sig, s1, s2, s3⟩, ⟨idx, g, g1, g2⟩, _, fa, fk⟩ := hq
    have hc : ((Plan.merge m args kwargs).fill f).config W.env = .ok (some c) := by
      rw [Plan.fill, fillL_map, fillK_map]
      obtain ⟨cs, c1, c2⟩ := configL_ok (E := W.env) (P := fun x => x = none ∨ x = some c) (l := args.map (Plan.fill f)) (by
        intro v hv
        obtain ⟨a, h1, rfl⟩ := List.mem_map.1 hv
        rcases (ha a h1 (fa a h1) (he.1 a h1)).1 with h | h
        · exact ⟨_, h, .inl rfl⟩
        · exact ⟨_, h, .inr rfl⟩)
      obtain ⟨ds, d1, d2⟩ := configK_ok (E := W.env) (P := fun x => x = none ∨ x = some c) (l := kwargs.map fun p => (p.1, p.2.fill f)) (by
        intro v hv
        obtain ⟨a, h1, rfl⟩ := List.mem_map.1 hv
        rcases (hk a h1 (fk a h1) (he.2 a h1)).1 with h | h
        · exact ⟨_, h, .inl rfl⟩
        · exact ⟨_, h, .inr rfl⟩)
      have hlen : cs.length = args.length := by rw [← c2.length_eq, List.length_map]
      rw [Val.config, s1]
      show (do
        let x ← configL W.env (args.map (Plan.fill f))
        let y ← configK W.env (kwargs.map fun p : Str × Plan F => (p.1, p.2.fill f))
        sig.returnConfig x y) = _
      rw [c1, d1]
      show configLoop _ sig.retConfig _ = _
      rw [s2, hlen]
      have d3 := forall_flip (R := fun (v : Val F) x => v.config W.env = .ok x ∧ (x = none ∨ x = some c)) d2
      refine configLoop_free ?_ ?_ (.inl rfl) (.inr ?_)
      · rintro ⟨j, x⟩ hx
        obtain ⟨v, _, h⟩ := at_forall c2.flip d3 (argIdx_mem.1 hx)
        exact h.2
      · rintro ⟨j, x⟩ hx
        obtain ⟨v, h, _⟩ := at_forall c2.flip d3 (argIdx_mem.1 hx)
        obtain ⟨a, h, _⟩ := (at_map _).1 h
        exact s3 j a h
      · obtain ⟨x, h1, h2⟩ := at_forall c2 d2 ((at_map (Plan.fill f)).2 ⟨g, g1, rfl⟩)
        refine ⟨(idx, x), argIdx_mem.2 h1, ?_⟩
        have h3 : (g.fill f).config W.env = .ok (some c) := by
          rcases at_mem g1 with hm | ⟨p, hp, rfl⟩
          · exact (ha g hm (fa g hm) (he.1 g hm)).2 g2
          · exact (hk p hp (fk p hp) (he.2 p hp)).2 g2
        rw [h3] at h2
        exact (Except.ok.inj h2.1).symm
    exact ⟨.inr hc, fun _ => hc⟩

/-! ### Merging one key -/

theorem argAt_iff {args : List (Val F)} {kwargs : Dict Str (Val F)} (hn : kwargs.keys.Nodup) {idx : Idx} {v : Val F} :
    ArgAt args kwargs idx v ↔ At args kwargs idx v := by
  cases idx with
  | pos i => exact Iff.rfl
  | name k => exact Dict.get?_eq_some_iff hn

theorem keys_fill (f g : ℕ → Val F) (kwargs : List (Str × Plan F)) : Dict.keys (fillK f kwargs) = Dict.keys (fillK g kwargs) := by
  rw [fillK_map, fillK_map]
  simp [Dict.keys, Function.comp_def]

theorem length_fill (f g : ℕ → Val F) (args : List (Plan F)) : (fillL f args).length = (fillL g args).length := by
  rw [fillL_map, fillL_map, List.length_map, List.length_map]

theorem at_fill {f : ℕ → Val F} {args : List (Plan F)} {kwargs : List (Str × Plan F)} {idx : Idx} {v : Val F} :
    At (fillL f args) (fillK f kwargs) idx v ↔ ∃ a, At args kwargs idx a ∧ a.fill f = v := by
  rw [fillL_map, fillK_map]
  exact at_map _

theorem proper_fill {f g : ℕ → Val F} (q : Plan F) : Proper (q.fill g) → q.Every (fun i => Proper (f i)) → Proper (q.fill f) := by
  induction q using plan_induct with
  | hh i => intro _ h; simpa [Plan.Every, Plan.fill] using h
  | hf v => intro h _; simpa [Plan.fill] using h
  | hm m args kwargs ha hk =>
    simp only [Plan.Every, everyL_iff, everyK_iff, Plan.fill, Proper, properL_iff, properK_iff, fillL_map, fillK_map]
    rintro ⟨h1, h2, h3⟩ ⟨e1, e2⟩
    refine ⟨by simpa using h1, ?_, ?_⟩
    · intro v hv
      obtain ⟨a, hm, rfl⟩ := List.mem_map.1 hv
      exact ha a hm (h2 _ (List.mem_map.2 ⟨a, hm, rfl⟩)) (e1 a hm)
    · intro v hv
      obtain ⟨a, hm, rfl⟩ := List.mem_map.1 hv
      exact hk a hm (h3 _ (List.mem_map.2 ⟨a, hm, rfl⟩)) (e2 a hm)

/-- What is asked of two things put in the same place: of the same value at `key` -/
structure Alike (W : World F T) (c key : Str) (v w : Val F) : Prop where
  left : Maybe W.env c v
  right : Maybe W.env c w
  proper : Proper v
  value : eval W v key = eval W w key

theorem eval_fill {W : World F T} {c key : Str} {f g : ℕ → Val F} (q : Plan F) : Fine W c q → q.Every (fun i => Alike W c key (f i) (g i)) →
    Calm W key (q.fill g) → eval W (q.fill f) key = eval W (q.fill g) key := by
  induction q using plan_induct with
  | hh i => intro _ h _; simp only [Plan.Every] at h; rw [Plan.fill, Plan.fill]; exact h.value
  | hf v => intros; rw [Plan.fill, Plan.fill]
  | hm m args kwargs ha hk =>
    intro hq he hcalm
    have hq0 := hq
    simp only [Fine, fineL_iff, fineK_iff] at hq
    obtain ⟨hloc, _, _, hpar, fa, fk⟩ := hq
    simp only [Plan.Every, everyL_iff, everyK_iff] at he
    rw [Plan.fill] at hcalm ⊢
    rw [Plan.fill]
    simp only [Calm, calmL_iff, calmK_iff] at hcalm
    obtain ⟨hcg, hfail, cl, ck⟩ := hcalm
    have hlen := length_fill f g args
    have hng : (Dict.keys (fillK g kwargs)).Nodup := hcg.names
    have hnf : (Dict.keys (fillK f kwargs)).Nodup := by rw [keys_fill f g]; exact hng
    -- every argument
    have each : ∀ idx a, At args kwargs idx a → Fine W c a ∧ a.Every (fun i => Alike W c key (f i) (g i)) ∧ eval W (a.fill f) key = eval W (a.fill g) key := by
      intro idx a h
      rcases at_mem h with hm | ⟨p, hp, rfl⟩
      · exact ⟨fa a hm, he.1 a hm, ha a hm (fa a hm) (he.1 a hm) (cl _ (by rw [fillL_map]; exact List.mem_map.2 ⟨a, hm, rfl⟩))⟩
      · exact ⟨fk p hp, he.2 p hp, hk p hp (fk p hp) (he.2 p hp) (ck (p.1, p.2.fill g) (by rw [fillK_map]; exact List.mem_map.2 ⟨p, hp, rfl⟩))⟩
    have cast : ∀ idx a t, At args kwargs idx a → castRun W.conv t (eval W (a.fill f)) key = castRun W.conv t (eval W (a.fill g)) key := by
      intro idx a t h
      unfold castRun
      rw [(each idx a h).2.2]
    have htype : ∀ idx, typeOf W m (fillL f args).length idx = typeOf W m (fillL g args).length idx := fun idx => by rw [hlen]
    have hcf : Call W m (fillL f args) (fillK f kwargs) := by
      refine ⟨hnf, ?_, ?_⟩
      · intro idx v hv
        obtain ⟨a, h1, rfl⟩ := at_fill.1 ((argAt_iff hnf).1 hv)
        refine proper_fill a (hcg.proper idx _ ((argAt_iff hng).2 (at_fill.2 ⟨a, h1, rfl⟩))) ?_
        exact every_mono (fun i h => h.proper) a (each idx a h1).2.1
      · intro idx v hv
        obtain ⟨a, h1, rfl⟩ := at_fill.1 ((argAt_iff hnf).1 hv)
        rw [htype]
        exact hcg.typed idx _ ((argAt_iff hng).2 (at_fill.2 ⟨a, h1, rfl⟩))
    have hff : ∀ e, Fails W m (fillL f args) (fillK f kwargs) key e ↔ Fails W m (fillL g args) (fillK g kwargs) key e := by
      intro e
      constructor
      · rintro ⟨idx, v, t, h1, h2, h3⟩
        obtain ⟨a, h4, rfl⟩ := at_fill.1 ((argAt_iff hnf).1 h1)
        exact ⟨idx, _, t, (argAt_iff hng).2 (at_fill.2 ⟨a, h4, rfl⟩), by rw [← htype]; exact h2, by rw [← cast idx a t h4]; exact h3⟩
      · rintro ⟨idx, v, t, h1, h2, h3⟩
        obtain ⟨a, h4, rfl⟩ := at_fill.1 ((argAt_iff hng).1 h1)
        exact ⟨idx, _, t, (argAt_iff hnf).2 (at_fill.2 ⟨a, h4, rfl⟩), by rw [htype]; exact h2, by rw [cast idx a t h4]; exact h3⟩
    by_cases hx : ∃ e, Fails W m (fillL g args) (fillK g kwargs) key e
    · obtain ⟨e1, h1, h2⟩ := eval_fails hcg hx
      obtain ⟨e0, h0⟩ := hx
      obtain ⟨e2, h3, h4⟩ := eval_fails hcf ⟨e0, (hff e0).2 h0⟩
      rw [h2, h4, hfail _ h1, hfail _ ((hff _).1 h3)]
    · have hx' : ¬ ∃ e, Fails W m (fillL f args) (fillK f kwargs) key e := fun ⟨e, h⟩ => hx ⟨e, (hff e).1 h⟩
      obtain ⟨⟨as, ks, l1, a1, k1, n1, r1⟩, _⟩ := C35_order m _ _ hcf key hx'
      obtain ⟨⟨as', ks', l2, a2, k2, n2, r2⟩, _⟩ := C35_order m _ _ hcg key hx
      rw [r1, r2]
      have agree : ∀ idx a p x y, At args kwargs idx a → typeOf W m (fillL g args).length idx = some p → Receives W key p (a.fill f) x →
          Receives W key p (a.fill g) y → AgreeAt key x y := by
        intro idx a p x y h ht hx hy
        cases p with
        | val t =>
          obtain ⟨u, u1, rfl⟩ := hx
          obtain ⟨w, w1, rfl⟩ := hy
          rw [cast idx a t h, w1] at u1
          cases u1
          exact .val _
        | sd t =>
          have hx : x = _ := hx
          have hy : y = _ := hy
          have hcfg : configOf W (a.fill f) = configOf W (a.fill g) := by
            cases a with
            | hole i =>
              obtain ⟨t', h'⟩ := hpar idx i h
              rw [fillL_map, List.length_map, h'] at ht
              cases ht
            | fixed v => rw [Plan.fill, Plan.fill]
            | merge m' as' ks' =>
              obtain ⟨h1, h2, _⟩ := each idx _ h
              have e1 := (config_fill (f := f) _ h1 (every_mono (fun i h => h.left) _ h2)).2 trivial
              have e2 := (config_fill (f := g) _ h1 (every_mono (fun i h => h.right) _ h2)).2 trivial
              unfold configOf
              rw [e1, e2]
          rw [hx, hy, hcfg]
          exact .sd (cast idx a t h)
      apply hloc
      · rw [List.forall₂_iff_get]
        refine ⟨by rw [l1, l2, hlen], ?_⟩
        intro i hi hi'
        obtain ⟨a, h1⟩ : ∃ a, args[i]? = some a := by
          rw [l1, fillL_map, List.length_map] at hi
          exact ⟨_, List.getElem?_eq_getElem hi⟩
        have h1 : At args kwargs (.pos i) a := h1
        obtain ⟨p, x, t1, g1, rc1⟩ := a1 i (a.fill f) (at_fill (kwargs := kwargs) (idx := .pos i).2 ⟨a, h1, rfl⟩)
        obtain ⟨p', y, t2, g2, rc2⟩ := a2 i (a.fill g) (at_fill (kwargs := kwargs) (idx := .pos i).2 ⟨a, h1, rfl⟩)
        rw [htype, t2] at t1
        cases t1
        have := agree (.pos i) a _ x y h1 t2 rc1 rc2
        rw [List.getElem?_eq_getElem hi] at g1
        rw [List.getElem?_eq_getElem hi'] at g2
        cases g1
        cases g2
        exact this
      · intro k
        cases hkf : Dict.get? (fillK f kwargs) k with
        | none =>
          have hkg : Dict.get? (fillK g kwargs) k = none := by
            rw [Dict.get?_eq_none_iff] at hkf ⊢
            rw [← keys_fill f g]; exact hkf
          rw [n1 k hkf, n2 k hkg]
          exact .none
        | some v =>
          obtain ⟨a, h1, h2⟩ := at_fill.1 ((argAt_iff (idx := .name k) hnf).1 hkf)
          have hkg : Dict.get? (fillK g kwargs) k = some (a.fill g) := (argAt_iff (idx := .name k) hng).2 (at_fill.2 ⟨a, h1, rfl⟩)
          obtain ⟨p, x, t1, g1, rc1⟩ := k1 k v hkf
          obtain ⟨p', y, t2, g2, rc2⟩ := k2 k _ hkg
          rw [htype, t2] at t1
          cases t1
          subst h2
          rw [g1, g2]
          exact .some (agree (.name k) a _ x y h1 t2 rc1 rc2)

end Verif.Blocks
