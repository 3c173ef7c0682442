import Verif.Proofs.Blocks

/-!
# Recipes with open parameters whose inputs are cast
-/
namespace Verif.Blocks
open Method Recipe Config Eval Eval.Spec Program Program.Spec Whole Spec
variable {F T : Type}

/-! ### Casting keeps configs -/

theorem knownL_iff : ∀ l : List (Val F), KnownL l ↔ ∀ a ∈ l, Known a
  | [] => by simp [KnownL]
  | a :: l => by rw [KnownL, knownL_iff l]; simp

theorem knownK_iff : ∀ l : List (Str × Val F), KnownK l ↔ ∀ q ∈ l, Known q.2
  | [] => by simp [KnownK]
  | (k, a) :: l => by rw [KnownK, knownK_iff l]; simp

theorem known_opt (o : Option Str) (c : Option Str) (s : Str) : Known (.lit (optVal o) c s : Val F) := by
  cases o <;> simp [optVal, Known]

theorem known_castNode {a : Val F} (h : Known a) (d t : Option Str) : Known (castNode a d t) := by
  unfold castNode
  rw [Known, KnownL, KnownL, KnownL, KnownL, KnownK]
  exact ⟨⟨h, known_opt _ _ _, known_opt _ _ _, trivial⟩, trivial⟩

theorem castInputsL_ok {E : Env F} {d t : Option Str} : ∀ {l l' : List (Val F)}, castInputsL E d t l = .ok l' →
    List.Forall₂ (fun a b => castInputs E d t a = .ok b) l l'
  | [], l', h => by rw [castInputsL] at h; cases h; exact .nil
  | v :: l, l', h => by
    rw [castInputsL] at h
    cases hv : castInputs E d t v with
    | error e => rw [hv] at h; cases h
    | ok v' =>
      cases hl : castInputsL E d t l with
      | error e => rw [hv, hl] at h; cases h
      | ok l'' =>
        rw [hv, hl] at h
        obtain rfl := Except.ok.inj h
        exact .cons hv (castInputsL_ok hl)

theorem castInputsK_ok {E : Env F} {d t : Option Str} : ∀ {l l' : List (Str × Val F)}, castInputsK E d t l = .ok l' →
    List.Forall₂ (fun p q => p.1 = q.1 ∧ castInputs E d t p.2 = .ok q.2) l l'
  | [], l', h => by rw [castInputsK] at h; cases h; exact .nil
  | (k, v) :: l, l', h => by
    rw [castInputsK] at h
    cases hv : castInputs E d t v with
    | error e => rw [hv] at h; cases h
    | ok v' =>
      cases hl : castInputsK E d t l with
      | error e => rw [hv, hl] at h; cases h
      | ok l'' =>
        rw [hv, hl] at h
        obtain rfl := Except.ok.inj h
        exact .cons ⟨rfl, hv⟩ (castInputsK_ok hl)

theorem castInputs_merge {E : Env F} {d t : Option Str} {m : Str} {args : List (Val F)} {kwargs : List (Str × Val F)} {r : Val F}
    (h : castInputs E d t (.merge m args kwargs) = .ok r) :
    ∃ as ks, castInputsL E d t args = .ok as ∧ castInputsK E d t kwargs = .ok ks ∧ r = .merge m as ks := by
  rw [castInputs] at h
  cases hl : castInputsL E d t args with
  | error e => rw [hl] at h; cases h
  | ok as =>
    cases hk : castInputsK E d t kwargs with
    | error e => rw [hl, hk] at h; cases h
    | ok ks =>
      rw [hl, hk] at h
      simp only at h
      split at h
      · cases h
      · exact ⟨as, ks, rfl, rfl, (Except.ok.inj h).symm⟩

theorem configL_same {E : Env F} : ∀ {l l' : List (Val F)}, List.Forall₂ (fun a b => Val.config E b = Val.config E a) l l' → configL E l' = configL E l
  | _, _, .nil => rfl
  | _, _, .cons h hl => by rw [configL, configL, h, configL_same hl]

theorem configK_same {E : Env F} : ∀ {l l' : List (Str × Val F)}, List.Forall₂ (fun p q => p.1 = q.1 ∧ Val.config E q.2 = Val.config E p.2) l l' →
    configK E l' = configK E l
  | _, _, .nil => rfl
  | (k, a) :: l, (k', b) :: l', .cons h hl => by
    obtain ⟨h1, h2⟩ := h
    simp only at h1 h2
    rw [configK, configK, h2, configK_same hl, h1]

theorem mkLit_known {E : Env F} {es : List (Str × Val F)} {c : Str} {s : Str} {r : Val F} (h : mkLit E (.dict es) (some c) (some s) = .ok r) :
    r = .lit (.dict es) (some c) s := by
  unfold mkLit at h
  split at h
  · rename_i k first es' he
    cases he
    split_ifs at h with h1
    · simp only [Bind.bind, Except.bind] at h
      repeat' (split at h)
      all_goals first | (cases h; done) | exact (Except.ok.inj h).symm | skip
    · exact (Except.ok.inj h).symm
  · exact (Except.ok.inj h).symm

theorem lit_config {W : World F T} {move} (hW : Builtin W move) {d t : Option Str} {v r : Val F} {c : Option Str} {s : Str} (hk : Known (.lit v c s))
    (hv : ∀ es, v ≠ .dict es) (h : castInputs W.env d t (.lit v c s) = .ok r) : r.config W.env = (Val.lit v c s).config W.env ∧ Known r := by
  rw [castInputs] at h
  · split_ifs at h
    · rw [toNode_shape hW rfl h]
      exact ⟨config_castNode hW _ _ _, known_castNode hk _ _⟩
    · cases h; exact ⟨rfl, hk⟩
  · exact hv _
  · exact fun _ _ _ => hv _

mutual
theorem castInputs_config {W : World F T} {move} (hW : Builtin W move) {d t : Option Str} : ∀ (v r : Val F), Known v → castInputs W.env d t v = .ok r →
    r.config W.env = v.config W.env ∧ Known r
  | .lit (.dict []) c s, r => fun _ h => by rw [castInputs] at h; cases h
  | .lit (.dict ((k, v) :: es)) c s, r => fun hv h => by
    rw [castInputs] at h
    split_ifs at h with h1 h2
    · rw [toNode_shape hW rfl h]
      exact ⟨config_castNode hW _ _ _, known_castNode hv _ _⟩
    · cases hk : castInputsK W.env d t ((k, v) :: es) with
      | error e => rw [hk] at h; cases h
      | ok es' =>
        rw [hk] at h
        simp only [Known] at hv
        obtain ⟨c', rfl⟩ := Option.isSome_iff_exists.1 hv.1
        rw [mkLit_known h]
        refine ⟨by simp only [Val.config], ?_⟩
        simp only [Known]
        exact ⟨rfl, (castInputsK_config hW _ _ hv.2 hk).2⟩
    · cases h; exact ⟨rfl, hv⟩
  | .model p c s, r => fun hv h => by
    rw [castInputs] at h
    rw [toNode_shape hW rfl h]
    exact ⟨config_castNode hW _ _ _, known_castNode hv _ _⟩
  | .merge m args kwargs, r => fun hv h => by
    obtain ⟨as, ks, h1, h2, rfl⟩ := castInputs_merge h
    simp only [Known] at hv ⊢
    obtain ⟨a1, a2⟩ := castInputsL_config hW _ _ hv.1 h1
    obtain ⟨k1, k2⟩ := castInputsK_config hW _ _ hv.2 h2
    refine ⟨?_, a2, k2⟩
    rw [Val.config, Val.config, a1, k1]
  | .lit (.str x) c s, r => fun hv h => lit_config hW hv (fun es h => nomatch h) h
  | .lit (.int x) c s, r => fun hv h => lit_config hW hv (fun es h => nomatch h) h
  | .lit (.float x) c s, r => fun hv h => lit_config hW hv (fun es h => nomatch h) h
  | .lit (.bool x) c s, r => fun hv h => lit_config hW hv (fun es h => nomatch h) h
  | .lit .none c s, r => fun hv h => lit_config hW hv (fun es h => nomatch h) h
  | .lit (.tensor x) c s, r => fun hv h => lit_config hW hv (fun es h => nomatch h) h
  | .lit (.lit x c' s') c s, r => fun hv h => lit_config hW hv (fun es h => nomatch h) h
  | .lit (.model x c' s') c s, r => fun hv h => lit_config hW hv (fun es h => nomatch h) h
  | .lit (.merge m as ks) c s, r => fun hv h => lit_config hW hv (fun es h => nomatch h) h
  | .str x, r => fun hv h => by rw [castInputs] at h <;> first | cases h | simp
  | .int x, r => fun hv h => by rw [castInputs] at h <;> first | cases h | simp
  | .float x, r => fun hv h => by rw [castInputs] at h <;> first | cases h | simp
  | .bool x, r => fun hv h => by rw [castInputs] at h <;> first | cases h | simp
  | .none, r => fun hv h => by rw [castInputs] at h <;> first | cases h | simp
  | .tensor x, r => fun hv h => by rw [castInputs] at h <;> first | cases h | simp
  | .dict x, r => fun hv h => by rw [castInputs] at h <;> first | cases h | simp
theorem castInputsL_config {W : World F T} {move} (hW : Builtin W move) {d t : Option Str} : ∀ (l l' : List (Val F)), KnownL l → castInputsL W.env d t l = .ok l' →
    configL W.env l' = configL W.env l ∧ KnownL l'
  | [], l', _, h => by rw [castInputsL] at h; cases h; exact ⟨rfl, trivial⟩
  | v :: l, l', hv, h => by
    rw [castInputsL] at h
    rw [KnownL] at hv
    cases hv1 : castInputs W.env d t v with
    | error e => rw [hv1] at h; cases h
    | ok v' =>
      cases hl : castInputsL W.env d t l with
      | error e => rw [hv1, hl] at h; cases h
      | ok l'' =>
        rw [hv1, hl] at h
        obtain rfl := Except.ok.inj h
        obtain ⟨a1, a2⟩ := castInputs_config hW v v' hv.1 hv1
        obtain ⟨b1, b2⟩ := castInputsL_config hW l l'' hv.2 hl
        rw [configL, configL, a1, b1, KnownL]
        exact ⟨rfl, a2, b2⟩
theorem castInputsK_config {W : World F T} {move} (hW : Builtin W move) {d t : Option Str} : ∀ (l l' : List (Str × Val F)), KnownK l → castInputsK W.env d t l = .ok l' →
    configK W.env l' = configK W.env l ∧ KnownK l'
  | [], l', _, h => by rw [castInputsK] at h; cases h; exact ⟨rfl, trivial⟩
  | (k, v) :: l, l', hv, h => by
    rw [castInputsK] at h
    rw [KnownK] at hv
    cases hv1 : castInputs W.env d t v with
    | error e => rw [hv1] at h; cases h
    | ok v' =>
      cases hl : castInputsK W.env d t l with
      | error e => rw [hv1, hl] at h; cases h
      | ok l'' =>
        rw [hv1, hl] at h
        obtain rfl := Except.ok.inj h
        obtain ⟨a1, a2⟩ := castInputs_config hW v v' hv.1 hv1
        obtain ⟨b1, b2⟩ := castInputsK_config hW l l'' hv.2 hl
        rw [configK, configK, a1, b1, KnownK]
        exact ⟨rfl, a2, b2⟩
end

/-! ### Casting recipes with open parameters -/

mutual
def castPlan (E : Env F) (d t : Option Str) : Plan F → Except Err (Plan F)
  | .hole i => .ok (.hole i)
  | .fixed v => (castInputs E d t v).map .fixed
  | .merge m args kwargs =>
    match castPlanL E d t args, castPlanK E d t kwargs with
    | .ok as, .ok ks => .ok (.merge m as ks)
    | _, _ => .error .value
def castPlanL (E : Env F) (d t : Option Str) : List (Plan F) → Except Err (List (Plan F))
  | [] => .ok []
  | a :: l =>
    match castPlan E d t a, castPlanL E d t l with
    | .ok a, .ok l => .ok (a :: l)
    | _, _ => .error .value
def castPlanK (E : Env F) (d t : Option Str) : List (Str × Plan F) → Except Err (List (Str × Plan F))
  | [] => .ok []
  | (k, a) :: l =>
    match castPlan E d t a, castPlanK E d t l with
    | .ok a, .ok l => .ok ((k, a) :: l)
    | _, _ => .error .value
end

/-- What is put in the open parameters, cast -/
def castF (E : Env F) (d t : Option Str) (f : ℕ → Val F) (i : ℕ) : Val F :=
  match castInputs E d t (f i) with
  | .ok v => v
  | .error _ => f i

mutual
theorem castInputs_fill {E : Env F} {d t : Option Str} {f : ℕ → Val F} : ∀ (q : Plan F) (r : Val F), castInputs E d t (q.fill f) = .ok r →
    ∃ q', castPlan E d t q = .ok q' ∧ r = q'.fill (castF E d t f) ∧ q'.Every (fun i => castInputs E d t (f i) = .ok (castF E d t f i))
  | .hole i, r => fun h => by
    rw [Plan.fill] at h
    have e : castF E d t f i = r := by unfold castF; rw [h]
    refine ⟨.hole i, by rw [castPlan], by rw [Plan.fill, e], ?_⟩
    rw [Plan.Every, e, h]
  | .fixed v, r => fun h => by
    rw [Plan.fill] at h
    exact ⟨.fixed r, by rw [castPlan, h]; rfl, by rw [Plan.fill], by rw [Plan.Every]; trivial⟩
  | .merge m args kwargs, r => fun h => by
    rw [Plan.fill] at h
    obtain ⟨as, ks, h1, h2, rfl⟩ := castInputs_merge h
    obtain ⟨as', a1, a2, a3⟩ := castInputsL_fill args as h1
    obtain ⟨ks', k1, k2, k3⟩ := castInputsK_fill kwargs ks h2
    exact ⟨.merge m as' ks', by rw [castPlan, a1, k1], by rw [Plan.fill, a2, k2], by rw [Plan.Every]; exact ⟨a3, k3⟩⟩
theorem castInputsL_fill {E : Env F} {d t : Option Str} {f : ℕ → Val F} : ∀ (l : List (Plan F)) (l' : List (Val F)), castInputsL E d t (fillL f l) = .ok l' →
    ∃ q', castPlanL E d t l = .ok q' ∧ l' = fillL (castF E d t f) q' ∧ EveryL (fun i => castInputs E d t (f i) = .ok (castF E d t f i)) q'
  | [], l' => fun h => by
    rw [fillL, castInputsL] at h
    cases h
    exact ⟨[], by rw [castPlanL], by rw [fillL], by rw [EveryL]; trivial⟩
  | a :: l, l' => fun h => by
    rw [fillL] at h
    cases castInputsL_ok h with
    | cons h1 h2 =>
      rename_i b l''
      have h3 : castInputsL E d t (fillL f l) = .ok l'' := by
        rw [castInputsL, h1] at h
        cases hl : castInputsL E d t (fillL f l) with
        | error e => rw [hl] at h; cases h
        | ok x => rw [hl] at h; cases h; rfl
      obtain ⟨a', a1, a2, a3⟩ := castInputs_fill a b h1
      obtain ⟨k', k1, k2, k3⟩ := castInputsL_fill l l'' h3
      exact ⟨a' :: k', by rw [castPlanL, a1, k1], by rw [fillL, a2, k2], by rw [EveryL]; exact ⟨a3, k3⟩⟩
theorem castInputsK_fill {E : Env F} {d t : Option Str} {f : ℕ → Val F} : ∀ (l : List (Str × Plan F)) (l' : List (Str × Val F)),
    castInputsK E d t (fillK f l) = .ok l' →
    ∃ q', castPlanK E d t l = .ok q' ∧ l' = fillK (castF E d t f) q' ∧ EveryK (fun i => castInputs E d t (f i) = .ok (castF E d t f i)) q'
  | [], l' => fun h => by
    rw [fillK, castInputsK] at h
    cases h
    exact ⟨[], by rw [castPlanK], by rw [fillK], by rw [EveryK]; trivial⟩
  | (k, a) :: l, l' => fun h => by
    rw [fillK] at h
    rw [castInputsK] at h
    cases h1 : castInputs E d t (a.fill f) with
    | error e => rw [h1] at h; cases h
    | ok b =>
      cases h3 : castInputsK E d t (fillK f l) with
      | error e => rw [h1, h3] at h; cases h
      | ok l'' =>
        rw [h1, h3] at h
        obtain rfl := Except.ok.inj h
        obtain ⟨a', a1, a2, a3⟩ := castInputs_fill a b h1
        obtain ⟨k', k1, k2, k3⟩ := castInputsK_fill l l'' h3
        exact ⟨(k, a') :: k', by rw [castPlanK, a1, k1], by rw [fillK, a2, k2], by rw [EveryK]; exact ⟨a3, k3⟩⟩
end

theorem castPlan_merge {E : Env F} {d t : Option Str} {m : Str} {args : List (Plan F)} {kwargs : List (Str × Plan F)} {q : Plan F}
    (h : castPlan E d t (.merge m args kwargs) = .ok q) :
    ∃ as ks, castPlanL E d t args = .ok as ∧ castPlanK E d t kwargs = .ok ks ∧ q = .merge m as ks := by
  rw [castPlan] at h
  cases hl : castPlanL E d t args with
  | error e => rw [hl] at h; cases h
  | ok as =>
    cases hk : castPlanK E d t kwargs with
    | error e => rw [hl, hk] at h; cases h
    | ok ks =>
      rw [hl, hk] at h
      exact ⟨as, ks, rfl, rfl, (Except.ok.inj h).symm⟩

theorem castPlanL_ok {E : Env F} {d t : Option Str} : ∀ {l l' : List (Plan F)}, castPlanL E d t l = .ok l' →
    List.Forall₂ (fun a b => castPlan E d t a = .ok b) l l'
  | [], l', h => by rw [castPlanL] at h; cases h; exact .nil
  | v :: l, l', h => by
    rw [castPlanL] at h
    cases hv : castPlan E d t v with
    | error e => rw [hv] at h; cases h
    | ok v' =>
      cases hl : castPlanL E d t l with
      | error e => rw [hv, hl] at h; cases h
      | ok l'' =>
        rw [hv, hl] at h
        obtain rfl := Except.ok.inj h
        exact .cons hv (castPlanL_ok hl)

theorem castPlanK_ok {E : Env F} {d t : Option Str} : ∀ {l l' : List (Str × Plan F)}, castPlanK E d t l = .ok l' →
    List.Forall₂ (fun p q => p.1 = q.1 ∧ castPlan E d t p.2 = .ok q.2) l l'
  | [], l', h => by rw [castPlanK] at h; cases h; exact .nil
  | (k, v) :: l, l', h => by
    rw [castPlanK] at h
    cases hv : castPlan E d t v with
    | error e => rw [hv] at h; cases h
    | ok v' =>
      cases hl : castPlanK E d t l with
      | error e => rw [hv, hl] at h; cases h
      | ok l'' =>
        rw [hv, hl] at h
        obtain rfl := Except.ok.inj h
        exact .cons ⟨rfl, hv⟩ (castPlanK_ok hl)

theorem given_cast {W : World F T} {move} (hW : Builtin W move) {d t : Option Str} {c : Str} {q q' : Plan F} (hq : Fine W c q) (h : castPlan W.env d t q = .ok q')
    (hg : Given W.env c q) : Given W.env c q' := by
  cases q with
  | hole i => exact hg.elim
  | fixed v =>
    rw [castPlan] at h
    cases hv : castInputs W.env d t v with
    | error e => rw [hv] at h; cases h
    | ok r =>
      rw [hv] at h
      obtain rfl := Except.ok.inj h
      simp only [Fine] at hq
      show r.config W.env = _
      rw [(castInputs_config hW v r hq.1 hv).1]
      exact hg
  | merge m args kwargs =>
    obtain ⟨_, _, _, _, rfl⟩ := castPlan_merge h
    exact trivial

theorem hole_cast {E : Env F} {d t : Option Str} {q : Plan F} {i : ℕ} (h : castPlan E d t q = .ok (.hole i)) : q = .hole i := by
  cases q with
  | hole j => rw [castPlan] at h; cases h; rfl
  | fixed v =>
    rw [castPlan] at h
    cases hv : castInputs E d t v with
    | error e => rw [hv] at h; cases h
    | ok r => rw [hv] at h; cases h
  | merge m args kwargs =>
    obtain ⟨_, _, _, _, h⟩ := castPlan_merge h
    cases h

theorem forall₂_mem_right {A B : Type} {R : A → B → Prop} {l : List A} {l' : List B} (h : List.Forall₂ R l l') {b : B} (hb : b ∈ l') : ∃ a ∈ l, R a b := by
  induction h with
  | nil => simp at hb
  | cons h _ ih =>
    rcases List.mem_cons.1 hb with rfl | hb
    · exact ⟨_, by simp, h⟩
    · obtain ⟨a, h1, h2⟩ := ih hb
      exact ⟨a, by simp [h1], h2⟩

theorem fine_cast {W : World F T} {move} (hW : Builtin W move) {d t : Option Str} {c : Str} (q : Plan F) : ∀ q', Fine W c q → castPlan W.env d t q = .ok q' →
    Fine W c q' := by
  induction q using plan_induct with
  | hh i => intro q' _ h; rw [castPlan] at h; cases h; rw [Fine]; trivial
  | hf v =>
    intro q' hq h
    rw [castPlan] at h
    cases hv : castInputs W.env d t v with
    | error e => rw [hv] at h; cases h
    | ok r =>
      rw [hv] at h
      obtain rfl := Except.ok.inj h
      simp only [Fine] at hq ⊢
      obtain ⟨h1, h2⟩ := castInputs_config hW v r hq.1 hv
      rw [h1]
      exact ⟨h2, hq.2⟩
  | hm m args kwargs ha hk =>
    intro q' hq h
    obtain ⟨as, ks, h1, h2, rfl⟩ := castPlan_merge h
    have f1 := castPlanL_ok h1
    have f2 := castPlanK_ok h2
    have b1 := f1.flip
    have b2 := forall_flip (R := fun a b => castPlan W.env d t a = .ok b) f2
    simp only [Fine, fineL_iff, fineK_iff] at hq ⊢
    obtain ⟨q1, ⟨sig, s1, s2, s3⟩, ⟨idx, g, g1, g2⟩, q4, q5, q6⟩ := hq
    have hlen : as.length = args.length := f1.length_eq.symm
    have sub : ∀ idx a, At args kwargs idx a → Fine W c a := by
      intro idx a h
      rcases at_mem h with hm | ⟨p, hp, rfl⟩
      · exact q5 a hm
      · exact q6 p hp
    refine ⟨q1, ⟨sig, s1, s2, ?_⟩, ?_, ?_, ?_, ?_⟩
    · intro idx b hb
      obtain ⟨a, h, _⟩ := at_forall b1 b2 hb
      rw [hlen]
      exact s3 idx a h
    · obtain ⟨b, h3, h4⟩ := at_forall f1 f2 g1
      exact ⟨idx, b, h3, given_cast hW (sub idx g g1) h4 g2⟩
    · intro idx i hb
      obtain ⟨a, h3, h4⟩ := at_forall b1 b2 hb
      rw [hole_cast h4] at h3
      rw [hlen]
      exact q4 idx i h3
    · intro b hb
      obtain ⟨a, h3, h4⟩ := forall₂_mem_right f1 hb
      exact ha a h3 b (q5 a h3) h4
    · intro b hb
      obtain ⟨a, h3, h4⟩ := forall₂_mem_right f2 hb
      exact hk a h3 b.2 (q6 a h3) h4.2

end Verif.Blocks
