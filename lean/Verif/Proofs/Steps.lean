import Verif.Spec.Steps
import Verif.Proofs.BlocksLocal
import Verif.Proofs.Returned

/-!
# Replacing a part of a recipe by one of the same value
-/
namespace Verif.Steps
open Method Recipe Config Eval Eval.Spec Program Program.Spec Whole Blocks Blocks.Spec Spec
variable {F T : Type}

/-! ### Worlds that agree on the models of a recipe -/

mutual
theorem eval_read (W : World F T) (read : Str → Str → Except Err T) : ∀ v : Val F, Models (fun p _ => W.read p = read p) v → eval W v = eval (withRead W read) v
  | .lit (.dict es) c s => fun h => by
    rw [Models, Models] at h
    rw [eval, eval, evalD_read W read es h]
    rfl
  | .lit (.lit v c s) c' s' => fun h => by
    rw [Models] at h
    rw [eval_lit (v := .lit v c s) _ (by simp), eval_lit (v := .lit v c s) _ (by simp)]
    exact eval_read W read _ h
  | .lit (.model p c s) c' s' => fun h => by
    rw [Models] at h
    rw [eval_lit _ (by simp), eval_lit _ (by simp)]
    exact eval_read W read _ h
  | .lit (.merge m args kwargs) c' s' => fun h => by
    rw [Models] at h
    rw [eval_lit _ (by simp), eval_lit _ (by simp)]
    exact eval_read W read _ h
  | .lit (.str _) _ _ => fun _ => by simp [eval]
  | .lit (.int _) _ _ => fun _ => by simp [eval]
  | .lit (.float _) _ _ => fun _ => by simp [eval]
  | .lit (.bool _) _ _ => fun _ => by simp [eval]
  | .lit .none _ _ => fun _ => by simp [eval]
  | .lit (.tensor _) _ _ => fun _ => by simp [eval, withRead]
  | .model p c s => fun h => by
    rw [Models] at h
    rw [eval, eval, h]
    rfl
  | .merge m args kwargs => fun h => by
    rw [Models] at h
    rw [eval, eval, evalL_read W read args 0 h.1, evalK_read W read kwargs h.2]
    rfl
  | .str _ => fun _ => by simp [eval]
  | .int _ => fun _ => by simp [eval]
  | .float _ => fun _ => by simp [eval]
  | .bool _ => fun _ => by simp [eval]
  | .none => fun _ => by simp [eval]
  | .tensor _ => fun _ => by simp [eval, withRead]
  | .dict _ => fun _ => by simp [eval]
theorem evalD_read (W : World F T) (read : Str → Str → Except Err T) : ∀ l : List (Str × Val F), ModelsK (fun p _ => W.read p = read p) l →
    evalD W l = evalD (withRead W read) l
  | [], _ => by rw [evalD, evalD]
  | (k, v) :: l, h => by
    rw [ModelsK] at h
    rw [evalD, evalD, eval_read W read v h.1, evalD_read W read l h.2]
theorem evalL_read (W : World F T) (read : Str → Str → Except Err T) : ∀ (l : List (Val F)) (i : ℕ), ModelsL (fun p _ => W.read p = read p) l →
    evalL W i l = evalL (withRead W read) i l
  | [], _, _ => by rw [evalL, evalL]
  | v :: l, i, h => by
    rw [ModelsL] at h
    rw [evalL, evalL, eval_read W read v h.1, evalL_read W read l _ h.2]
    rfl
theorem evalK_read (W : World F T) (read : Str → Str → Except Err T) : ∀ l : List (Str × Val F), ModelsK (fun p _ => W.read p = read p) l →
    evalK W l = evalK (withRead W read) l
  | [], _ => by rw [evalK, evalK]
  | (k, v) :: l, h => by
    rw [ModelsK] at h
    rw [evalK, evalK, eval_read W read v h.1, evalK_read W read l h.2]
    rfl
end

mutual
theorem models_mono {p q : Str → Option Str → Prop} (h : ∀ path c, p path c → q path c) : ∀ v : Val F, Models p v → Models q v
  | .lit v c s => fun hv => by rw [Models] at hv ⊢; exact models_mono h v hv
  | .model path c s => fun hv => by rw [Models] at hv ⊢; exact h _ _ hv
  | .merge m args kwargs => fun hv => by rw [Models] at hv ⊢; exact ⟨modelsL_mono h args hv.1, modelsK_mono h kwargs hv.2⟩
  | .dict es => fun hv => by rw [Models] at hv ⊢; exact modelsK_mono h es hv
  | .str _ => fun _ => by simp [Models]
  | .int _ => fun _ => by simp [Models]
  | .float _ => fun _ => by simp [Models]
  | .bool _ => fun _ => by simp [Models]
  | .none => fun _ => by simp [Models]
  | .tensor _ => fun _ => by simp [Models]
theorem modelsL_mono {p q : Str → Option Str → Prop} (h : ∀ path c, p path c → q path c) : ∀ l : List (Val F), ModelsL p l → ModelsL q l
  | [], _ => by simp [ModelsL]
  | v :: l, hv => by rw [ModelsL] at hv ⊢; exact ⟨models_mono h v hv.1, modelsL_mono h l hv.2⟩
theorem modelsK_mono {p q : Str → Option Str → Prop} (h : ∀ path c, p path c → q path c) : ∀ l : List (Str × Val F), ModelsK p l → ModelsK q l
  | [], _ => by simp [ModelsK]
  | (k, v) :: l, hv => by rw [ModelsK] at hv ⊢; exact ⟨models_mono h v hv.1, modelsK_mono h l hv.2⟩
end

/-! ### Casting keeps the models -/

theorem models_castNode {p : Str → Option Str → Prop} {a : Val F} (h : Models p a) (d t : Option Str) : Models p (castNode a d t) := by
  unfold castNode
  rw [Models, ModelsL, ModelsL, ModelsL, ModelsL, ModelsK]
  refine ⟨⟨h, ?_, ?_, trivial⟩, trivial⟩
  · cases d <;> simp [optVal, Models]
  · cases t <;> simp [optVal, Models]

theorem mkLit_dict {E : Env F} {es : List (Str × Val F)} {c s : Option Str} {r : Val F} (h : mkLit E (.dict es) c s = .ok r) :
    ∃ c' s', r = .lit (.dict es) c' s' := by
  unfold mkLit at h
  split at h
  · rename_i k first es' he
    cases he
    split_ifs at h with h1
    · simp only [Bind.bind, Except.bind] at h
      repeat' (split at h)
      all_goals first | (cases h; done) | exact ⟨_, _, (Except.ok.inj h).symm⟩
    · exact ⟨_, _, (Except.ok.inj h).symm⟩
  · exact ⟨_, _, (Except.ok.inj h).symm⟩

theorem lit_models {W : World F T} {move} (hW : Builtin W move) {p : Str → Option Str → Prop} {d t : Option Str} {v r : Val F} {c : Option Str} {s : Str}
    (hk : Models p (.lit v c s)) (hv : ∀ es, v ≠ .dict es) (h : castInputs W.env d t (.lit v c s) = .ok r) : Models p r := by
  rw [castInputs] at h
  · split_ifs at h
    · rw [toNode_shape hW rfl h]
      exact models_castNode hk _ _
    · cases h; exact hk
  · exact hv _
  · exact fun _ _ _ => hv _

mutual
theorem castInputs_models {W : World F T} {move} (hW : Builtin W move) {p : Str → Option Str → Prop} {d t : Option Str} : ∀ (v r : Val F), Models p v →
    castInputs W.env d t v = .ok r → Models p r
  | .lit (.dict []) c s, r => fun _ h => by rw [castInputs] at h; cases h
  | .lit (.dict ((k, v) :: es)) c s, r => fun hv h => by
    rw [castInputs] at h
    split_ifs at h with h1 h2
    · rw [toNode_shape hW rfl h]
      exact models_castNode hv _ _
    · cases hk : castInputsK W.env d t ((k, v) :: es) with
      | error e => rw [hk] at h; cases h
      | ok es' =>
        rw [hk] at h
        rw [Models, Models] at hv
        obtain ⟨c', s', rfl⟩ := mkLit_dict h
        rw [Models, Models]
        exact castInputsK_models hW _ _ hv hk
    · cases h; exact hv
  | .model p c s, r => fun hv h => by
    rw [castInputs] at h
    rw [toNode_shape hW rfl h]
    exact models_castNode hv _ _
  | .merge m args kwargs, r => fun hv h => by
    obtain ⟨as, ks, h1, h2, rfl⟩ := castInputs_merge h
    rw [Models] at hv ⊢
    exact ⟨castInputsL_models hW _ _ hv.1 h1, castInputsK_models hW _ _ hv.2 h2⟩
  | .lit (.str x) c s, r => fun hv h => lit_models hW hv (fun es h => nomatch h) h
  | .lit (.int x) c s, r => fun hv h => lit_models hW hv (fun es h => nomatch h) h
  | .lit (.float x) c s, r => fun hv h => lit_models hW hv (fun es h => nomatch h) h
  | .lit (.bool x) c s, r => fun hv h => lit_models hW hv (fun es h => nomatch h) h
  | .lit .none c s, r => fun hv h => lit_models hW hv (fun es h => nomatch h) h
  | .lit (.tensor x) c s, r => fun hv h => lit_models hW hv (fun es h => nomatch h) h
  | .lit (.lit x c' s') c s, r => fun hv h => lit_models hW hv (fun es h => nomatch h) h
  | .lit (.model x c' s') c s, r => fun hv h => lit_models hW hv (fun es h => nomatch h) h
  | .lit (.merge m as ks) c s, r => fun hv h => lit_models hW hv (fun es h => nomatch h) h
  | .str x, r => fun hv h => by rw [castInputs] at h <;> first | cases h | simp
  | .int x, r => fun hv h => by rw [castInputs] at h <;> first | cases h | simp
  | .float x, r => fun hv h => by rw [castInputs] at h <;> first | cases h | simp
  | .bool x, r => fun hv h => by rw [castInputs] at h <;> first | cases h | simp
  | .none, r => fun hv h => by rw [castInputs] at h <;> first | cases h | simp
  | .tensor x, r => fun hv h => by rw [castInputs] at h <;> first | cases h | simp
  | .dict x, r => fun hv h => by rw [castInputs] at h <;> first | cases h | simp
theorem castInputsL_models {W : World F T} {move} (hW : Builtin W move) {p : Str → Option Str → Prop} {d t : Option Str} : ∀ (l l' : List (Val F)), ModelsL p l →
    castInputsL W.env d t l = .ok l' → ModelsL p l'
  | [], l', _, h => by rw [castInputsL] at h; cases h; rw [ModelsL]; trivial
  | v :: l, l', hv, h => by
    rw [castInputsL] at h
    rw [ModelsL] at hv
    cases hv1 : castInputs W.env d t v with
    | error e => rw [hv1] at h; cases h
    | ok v' =>
      cases hl : castInputsL W.env d t l with
      | error e => rw [hv1, hl] at h; cases h
      | ok l'' =>
        rw [hv1, hl] at h
        obtain rfl := Except.ok.inj h
        rw [ModelsL]
        exact ⟨castInputs_models hW v v' hv.1 hv1, castInputsL_models hW l l'' hv.2 hl⟩
theorem castInputsK_models {W : World F T} {move} (hW : Builtin W move) {p : Str → Option Str → Prop} {d t : Option Str} : ∀ (l l' : List (Str × Val F)), ModelsK p l →
    castInputsK W.env d t l = .ok l' → ModelsK p l'
  | [], l', _, h => by rw [castInputsK] at h; cases h; rw [ModelsK]; trivial
  | (k, v) :: l, l', hv, h => by
    rw [castInputsK] at h
    rw [ModelsK] at hv
    cases hv1 : castInputs W.env d t v with
    | error e => rw [hv1] at h; cases h
    | ok v' =>
      cases hl : castInputsK W.env d t l with
      | error e => rw [hv1, hl] at h; cases h
      | ok l'' =>
        rw [hv1, hl] at h
        obtain rfl := Except.ok.inj h
        rw [ModelsK]
        exact ⟨castInputs_models hW v v' hv.1 hv1, castInputsK_models hW l l'' hv.2 hl⟩
end

/-! ### Things of the same config in the same places -/

theorem hereL_iff {W : World F T} : ∀ l : List (Plan F), HereL W l ↔ ∀ a ∈ l, Here W a
  | [] => by simp [HereL]
  | a :: l => by rw [HereL, hereL_iff l]; simp

theorem hereK_iff {W : World F T} : ∀ l : List (Str × Plan F), HereK W l ↔ ∀ p ∈ l, Here W p.2
  | [] => by simp [HereK]
  | (k, a) :: l => by rw [HereK, hereK_iff l]; simp

theorem forall₂_maps {A B : Type} {R : B → B → Prop} {g h : A → B} : ∀ (l : List A), (∀ a ∈ l, R (g a) (h a)) → List.Forall₂ R (l.map g) (l.map h)
  | [], _ => .nil
  | a :: l, H => .cons (H a (by simp)) (forall₂_maps l fun b hb => H b (by simp [hb]))

theorem config_swap {E : Env F} {f g : ℕ → Val F} (q : Plan F) : q.Every (fun i => (f i).config E = (g i).config E) → (q.fill f).config E = (q.fill g).config E := by
  induction q using plan_induct with
  | hh i => intro h; simpa only [Plan.Every, Plan.fill] using h
  | hf v => intro _; rw [Plan.fill, Plan.fill]
  | hm m args kwargs ha hk =>
    intro he
    simp only [Plan.Every, everyL_iff, everyK_iff] at he
    rw [Plan.fill, Plan.fill, Val.config, Val.config]
    have h1 : configL E (fillL f args) = configL E (fillL g args) := by
      rw [fillL_map, fillL_map]
      exact configL_same (forall₂_maps args fun a h => ha a h (he.1 a h))
    have h2 : configK E (fillK f kwargs) = configK E (fillK g kwargs) := by
      rw [fillK_map, fillK_map]
      exact configK_same (forall₂_maps kwargs fun a h => ⟨rfl, hk a h (he.2 a h)⟩)
    rw [h1, h2]

/-- Two things of the same config and the same value at `key` -/
structure Same (W : World F T) (key : Str) (v w : Val F) : Prop where
  config : v.config W.env = w.config W.env
  proper : Proper v
  value : eval W v key = eval W w key

theorem eval_swap {W : World F T} {key : Str} {f g : ℕ → Val F} (q : Plan F) : Here W q → q.Every (fun i => Same W key (f i) (g i)) →
    Calm W key (q.fill g) → eval W (q.fill f) key = eval W (q.fill g) key := by
  induction q using plan_induct with
  | hh i => intro _ h _; simp only [Plan.Every] at h; rw [Plan.fill, Plan.fill]; exact h.value
  | hf v => intros; rw [Plan.fill, Plan.fill]
  | hm m args kwargs ha hk =>
    intro hq he hcalm
    simp only [Here, hereL_iff, hereK_iff] at hq
    obtain ⟨hloc, fa, fk⟩ := hq
    simp only [Plan.Every, everyL_iff, everyK_iff] at he
    rw [Plan.fill] at hcalm ⊢
    rw [Plan.fill]
    simp only [Calm, calmL_iff, calmK_iff] at hcalm
    obtain ⟨hcg, hfail, cl, ck⟩ := hcalm
    have hlen := length_fill f g args
    have hng : (Dict.keys (fillK g kwargs)).Nodup := hcg.names
    have hnf : (Dict.keys (fillK f kwargs)).Nodup := by rw [keys_fill f g]; exact hng
    have each : ∀ idx a, At args kwargs idx a → a.Every (fun i => Same W key (f i) (g i)) ∧ eval W (a.fill f) key = eval W (a.fill g) key := by
      intro idx a h
      rcases at_mem h with hm | ⟨p, hp, rfl⟩
      · exact ⟨he.1 a hm, ha a hm (fa a hm) (he.1 a hm) (cl _ (by rw [fillL_map]; exact List.mem_map.2 ⟨a, hm, rfl⟩))⟩
      · exact ⟨he.2 p hp, hk p hp (fk p hp) (he.2 p hp) (ck (p.1, p.2.fill g) (by rw [fillK_map]; exact List.mem_map.2 ⟨p, hp, rfl⟩))⟩
    have cast : ∀ idx a t, At args kwargs idx a → castRun W.conv t (eval W (a.fill f)) key = castRun W.conv t (eval W (a.fill g)) key := by
      intro idx a t h
      unfold castRun
      rw [(each idx a h).2]
    have htype : ∀ idx, typeOf W m (fillL f args).length idx = typeOf W m (fillL g args).length idx := fun idx => by rw [hlen]
    have hcf : Call W m (fillL f args) (fillK f kwargs) := by
      refine ⟨hnf, ?_, ?_⟩
      · intro idx v hv
        obtain ⟨a, h1, rfl⟩ := at_fill.1 ((argAt_iff hnf).1 hv)
        refine proper_fill a (hcg.proper idx _ ((argAt_iff hng).2 (at_fill.2 ⟨a, h1, rfl⟩))) ?_
        exact every_mono (fun i h => h.proper) a (each idx a h1).1
      · intro idx v hv
        obtain ⟨a, h1, rfl⟩ := at_fill.1 ((argAt_iff hnf).1 hv)
        rw [htype]
        exact hcg.typed idx _ ((argAt_iff hng).2 (at_fill.2 ⟨a, h1, rfl⟩))
    have hff : ∀ e, Fails W m (fillL f args) (fillK f kwargs) key e ↔ Fails W m (fillL g args) (fillK g kwargs) key e := by
      intro e
      constructor
      · rintro ⟨idx, v, t, h1, h2, h3⟩
        obtain ⟨a, h4, rfl⟩ := at_fill.1 ((argAt_iff hnf).1 h1)
        exact ⟨idx, _, t, (argAt_iff hng).2 (at_fill.2 ⟨a, h4, rfl⟩), by rw [← htype]; exact h2, by rw [← cast idx a t h4]; exact h3⟩
      · rintro ⟨idx, v, t, h1, h2, h3⟩
        obtain ⟨a, h4, rfl⟩ := at_fill.1 ((argAt_iff hng).1 h1)
        exact ⟨idx, _, t, (argAt_iff hnf).2 (at_fill.2 ⟨a, h4, rfl⟩), by rw [htype]; exact h2, by rw [cast idx a t h4]; exact h3⟩
    by_cases hx : ∃ e, Fails W m (fillL g args) (fillK g kwargs) key e
    · obtain ⟨e1, h1, h2⟩ := eval_fails hcg hx
      obtain ⟨e0, h0⟩ := hx
      obtain ⟨e2, h3, h4⟩ := eval_fails hcf ⟨e0, (hff e0).2 h0⟩
      rw [h2, h4, hfail _ h1, hfail _ ((hff _).1 h3)]
    · have hx' : ¬ ∃ e, Fails W m (fillL f args) (fillK f kwargs) key e := fun ⟨e, h⟩ => hx ⟨e, (hff e).1 h⟩
      obtain ⟨⟨as, ks, l1, a1, k1, n1, r1⟩, _⟩ := C35_order m _ _ hcf key hx'
      obtain ⟨⟨as', ks', l2, a2, k2, n2, r2⟩, _⟩ := C35_order m _ _ hcg key hx
      rw [r1, r2]
      have agree : ∀ idx a p x y, At args kwargs idx a → typeOf W m (fillL g args).length idx = some p → Receives W key p (a.fill f) x →
          Receives W key p (a.fill g) y → AgreeAt key x y := by
        intro idx a p x y h ht hx hy
        cases p with
        | val t =>
          obtain ⟨u, u1, rfl⟩ := hx
          obtain ⟨w, w1, rfl⟩ := hy
          rw [cast idx a t h, w1] at u1
          cases u1
          exact .val _
        | sd t =>
          have hx : x = _ := hx
          have hy : y = _ := hy
          have hcfg : configOf W (a.fill f) = configOf W (a.fill g) := by
            unfold configOf
            rw [config_swap a (every_mono (fun i h => h.config) a (each idx a h).1)]
          rw [hx, hy, hcfg]
          exact .sd (cast idx a t h)
      apply hloc
      · rw [List.forall₂_iff_get]
        refine ⟨by rw [l1, l2, hlen], ?_⟩
        intro i hi hi'
        obtain ⟨a, h1⟩ : ∃ a, args[i]? = some a := by
          rw [l1, fillL_map, List.length_map] at hi
          exact ⟨_, List.getElem?_eq_getElem hi⟩
        have h1 : At args kwargs (.pos i) a := h1
        obtain ⟨p, x, t1, g1, rc1⟩ := a1 i (a.fill f) (at_fill (kwargs := kwargs) (idx := .pos i).2 ⟨a, h1, rfl⟩)
        obtain ⟨p', y, t2, g2, rc2⟩ := a2 i (a.fill g) (at_fill (kwargs := kwargs) (idx := .pos i).2 ⟨a, h1, rfl⟩)
        rw [htype, t2] at t1
        cases t1
        have := agree (.pos i) a _ x y h1 t2 rc1 rc2
        rw [List.getElem?_eq_getElem hi] at g1
        rw [List.getElem?_eq_getElem hi'] at g2
        cases g1
        cases g2
        exact this
      · intro k
        cases hkf : Dict.get? (fillK f kwargs) k with
        | none =>
          have hkg : Dict.get? (fillK g kwargs) k = none := by
            rw [Dict.get?_eq_none_iff] at hkf ⊢
            rw [← keys_fill f g]; exact hkf
          rw [n1 k hkf, n2 k hkg]
          exact .none
        | some v =>
          obtain ⟨a, h1, h2⟩ := at_fill.1 ((argAt_iff (idx := .name k) hnf).1 hkf)
          have hkg : Dict.get? (fillK g kwargs) k = some (a.fill g) := (argAt_iff (idx := .name k) hng).2 (at_fill.2 ⟨a, h1, rfl⟩)
          obtain ⟨p, x, t1, g1, rc1⟩ := k1 k v hkf
          obtain ⟨p', y, t2, g2, rc2⟩ := k2 k _ hkg
          rw [htype, t2] at t1
          cases t1
          subst h2
          rw [g1, g2]
          exact .some (agree (.name k) a _ x y h1 t2 rc1 rc2)

/-! ### The recipe that is merged -/

theorem here_cast {W : World F T} {E : Env F} {d t : Option Str} (q : Plan F) : ∀ q', Here W q → castPlan E d t q = .ok q' → Here W q' := by
  induction q using plan_induct with
  | hh i => intro q' _ h; rw [castPlan] at h; cases h; rw [Here]; trivial
  | hf v =>
    intro q' _ h
    rw [castPlan] at h
    cases hv : castInputs E d t v with
    | error e => rw [hv] at h; cases h
    | ok r =>
      rw [hv] at h
      obtain rfl := Except.ok.inj h
      rw [Here]; trivial
  | hm m args kwargs ha hk =>
    intro q' hq h
    obtain ⟨as, ks, h1, h2, rfl⟩ := castPlan_merge h
    have f1 := castPlanL_ok h1
    have f2 := castPlanK_ok h2
    simp only [Here, hereL_iff, hereK_iff] at hq ⊢
    refine ⟨hq.1, ?_, ?_⟩
    · intro b hb
      obtain ⟨a, h3, h4⟩ := forall₂_mem_right f1 hb
      exact ha a h3 b (hq.2.1 a h3) h4
    · intro b hb
      obtain ⟨a, h3, h4⟩ := forall₂_mem_right f2 hb
      exact hk a h3 b.2 (hq.2.2 a h3) h4.2

theorem every_true (q : Plan F) : q.Every fun _ => True := by
  induction q using plan_induct with
  | hh i => simp only [Plan.Every]
  | hf v => simp only [Plan.Every]
  | hm m args kwargs ha hk => simp only [Plan.Every, everyL_iff, everyK_iff]; exact ⟨ha, hk⟩

/-- The parts of `prepare` -/
theorem prepare_ok {E : Env F} {o : Options F} {recipe original p : Val F} (h : prepare E o recipe = .ok (original, p)) :
    ∃ r1 r2, valueToNode E recipe = .ok original ∧ withFallback E o original = .ok r1 ∧ withInputs E o r1 = .ok r2 ∧ withOutput E o r2 = .ok p := by
  unfold prepare at h
  cases h0 : valueToNode E recipe with
  | error e => rw [h0] at h; cases h
  | ok r =>
    rw [h0] at h
    have h : (withFallback E o r).bind _ = _ := h
    cases h1 : withFallback E o r with
    | error e => rw [h1] at h; cases h
    | ok r1 =>
      rw [h1] at h
      have h : (withInputs E o r1).bind _ = _ := h
      cases h2 : withInputs E o r1 with
      | error e => rw [h2] at h; cases h
      | ok r2 =>
        rw [h2] at h
        have h : (withOutput E o r2).bind _ = _ := h
        cases h3 : withOutput E o r2 with
        | error e => rw [h3] at h; cases h
        | ok r3 =>
          rw [h3] at h
          obtain ⟨rfl, rfl⟩ := Prod.mk.inj (Except.ok.inj h)
          exact ⟨r1, r2, rfl, h1, h2, h3⟩

def isMerge : Plan F → Prop
  | .merge .. => True
  | _ => False

theorem node_merge {q : Plan F} (h : isMerge q) (f : ℕ → Val F) : (q.fill f).isNode = true := by
  cases q with
  | hole i => exact h.elim
  | fixed v => exact h.elim
  | merge m args kwargs => rw [Plan.fill]; rfl

theorem isMerge_cast {E : Env F} {d t : Option Str} {q q' : Plan F} (h : castPlan E d t q = .ok q') (hq : isMerge q) : isMerge q' := by
  cases q with
  | hole i => exact hq.elim
  | fixed v => exact hq.elim
  | merge m args kwargs =>
    obtain ⟨_, _, _, _, rfl⟩ := castPlan_merge h
    exact trivial

theorem prepare_swap {W : World F T} {move} (hW : Builtin W move) {o : Options F} {q : Plan F} (hm : isMerge q) (hq : Here W q) {f : ℕ → Val F} {r p : Val F}
    (h : prepare W.env o (q.fill f) = .ok (r, p)) :
    ∃ Q, prepPlan W.env o q = .ok Q ∧ Here W Q ∧ p = Q.fill (prepF W.env o f) ∧
      (Q.Every fun i => o.castsInputs = true → castInputs W.env o.mergeDevice o.mergeDtype (f i) = .ok (prepF W.env o f i)) := by
  obtain ⟨r1, r2, h0, h1, h2, h3⟩ := prepare_ok h
  rw [Serialize.valueToNode_node (node_merge hm f)] at h0
  obtain rfl := Except.ok.inj h0
  obtain ⟨q1, a1, a2, a3, a4⟩ : ∃ q1, planFallback W.env o q = .ok q1 ∧ Here W q1 ∧ isMerge q1 ∧ r1 = q1.fill f := by
    unfold withFallback at h1
    unfold planFallback
    cases hf : o.fallback with
    | none => rw [hf] at h1; exact ⟨q, rfl, hq, hm, (Except.ok.inj h1).symm⟩
    | some b =>
      rw [hf] at h1
      obtain ⟨b', b1, b2⟩ := orNode_shape hW (node_merge hm f) h1
      refine ⟨.merge nFallback [q, .fixed b'] [], by simp only [b1]; rfl, ?_, trivial, ?_⟩
      · simp only [Here, HereL, HereK, and_true]
        exact ⟨by rw [hW.implFallback]; exact fallback_local, hq⟩
      · rw [b2, Plan.fill, fillL, fillL, fillL, fillK, Plan.fill]
  obtain ⟨q2, c1, c2, c3, c4, c5⟩ : ∃ q2, planInputs W.env o q1 = .ok q2 ∧ Here W q2 ∧ isMerge q2 ∧ r2 = q2.fill (prepF W.env o f) ∧
      (q2.Every fun i => o.castsInputs = true → castInputs W.env o.mergeDevice o.mergeDtype (f i) = .ok (prepF W.env o f i)) := by
    unfold withInputs at h2
    unfold planInputs
    unfold prepF
    cases ho : o.castsInputs with
    | false =>
      rw [ho] at h2
      exact ⟨q1, rfl, a2, a3, (Except.ok.inj h2).symm.trans a4, every_mono (fun i _ h => by cases h) _ (every_true q1)⟩
    | true =>
      rw [ho] at h2
      rw [a4] at h2
      obtain ⟨q2, d1, d2, d3⟩ := castInputs_fill q1 r2 h2
      exact ⟨q2, d1, here_cast _ _ a2 d1, isMerge_cast d1 a3, d2, every_mono (fun i h _ => h) _ d3⟩
  unfold withOutput at h3
  cases ho : o.castsOutput with
  | false =>
    rw [ho] at h3
    obtain rfl := Except.ok.inj h3
    refine ⟨q2, ?_, c2, c4, c5⟩
    unfold prepPlan
    simp only [a1, c1, planOutput, ho]
    rfl
  | true =>
    rw [ho] at h3
    have hn : r2.isNode = true := by rw [c4]; exact node_merge c3 _
    have e := toNode_shape hW hn h3
    refine ⟨.merge nCast [q2, .fixed (.lit (optVal o.outputDevice) none paramSpace), .fixed (.lit (optVal o.outputDtype) none paramSpace)] [], ?_, ?_, ?_, ?_⟩
    · unfold prepPlan
      simp only [a1, c1, planOutput, ho]
      rfl
    · simp only [Here, HereL, HereK, and_true]
      exact ⟨by rw [hW.implCast]; exact cast_local move, c2⟩
    · rw [e, c4, Plan.fill, fillL, fillL, fillL, fillL, fillK, Plan.fill, Plan.fill]
      rfl
    · simp only [Plan.Every, EveryL, EveryK, and_true]
      exact c5

end Verif.Steps
