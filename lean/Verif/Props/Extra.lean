import Verif.Spec.Extra
import Verif.Props.Eval
import Mathlib.Data.List.Perm.Subperm

/-!
# C46
-/
namespace Verif.Extra
open Method Recipe Config Eval Eval.Spec Spec

/-! ## Proofs -/
section
variable {F T : Type} {I : Inputs F}

theorem dictMeta_spec : ∀ {es : Dict Str (Val F)} {d : Dict Str TensorMeta}, dictMeta I es = .ok d →
    d.keys = es.keys ∧ ∀ p ∈ es, ∃ i, p.2 = .tensor i
  | [], d, h => by cases h; exact ⟨rfl, by simp⟩
  | (k, v) :: es, d, h => by
    unfold dictMeta at h
    split at h
    · rename_i heq; cases heq
    · rename_i k' i es' heq
      simp only [List.cons.injEq, Prod.mk.injEq] at heq
      obtain ⟨⟨rfl, rfl⟩, rfl⟩ := heq
      cases hd : dictMeta I es with
      | error e => rw [hd] at h; cases h
      | ok d' =>
        rw [hd] at h
        have := Except.ok.inj h
        subst this
        obtain ⟨h1, h2⟩ := dictMeta_spec hd
        refine ⟨?_, ?_⟩
        · show k :: Dict.keys d' = k :: Dict.keys es
          rw [h1]
        · intro p hp
          rcases List.mem_cons.1 hp with rfl | hp
          · exact ⟨i, rfl⟩
          · exact h2 p hp
    · cases h

theorem dictEqLoop_keys {b : Dict Str (Val F)} : ∀ {a : Dict Str (Val F)}, dictEqLoop I b a = .ok true → ∀ k ∈ a.keys, k ∈ b.keys
  | [], _ => by simp [Dict.keys]
  | (k, v) :: a, h => by
    rw [dictEqLoop] at h
    intro k' hk'
    cases hb : b.get? k with
    | none => rw [hb] at h; cases h
    | some v' =>
      rw [hb] at h
      simp only at h
      cases hv : valueEq I v v' with
      | error e => rw [hv] at h; cases h
      | ok x =>
        rw [hv] at h
        cases x with
        | false => cases h
        | true =>
          have hk'' : k' = k ∨ k' ∈ Dict.keys a := by simpa [Dict.keys] using hk'
          rcases hk'' with rfl | hk''
          · exact (Dict.get?_isSome_iff b k').1 (by rw [hb]; rfl)
          · exact dictEqLoop_keys h k' hk''

theorem dictEq_keys {a b : Dict Str (Val F)} (ha : a.keys.Nodup) (h : dictEq I a b = .ok true) : ∀ k, k ∈ a.keys ↔ k ∈ b.keys := by
  unfold dictEq at h
  by_cases hl : a.length = b.length
  swap
  · rw [if_neg hl] at h; cases h
  rw [if_pos hl] at h
  have hsub := dictEqLoop_keys h
  have hperm : a.keys.Perm b.keys := by
    refine (List.subperm_of_subset ha hsub).perm_of_length_le ?_
    simp [Dict.keys, hl]
  exact fun k => hperm.mem_iff

/-- No dict of tensors in the recipe has a key twice.  (This holds of every python dict, but not of every list of pairs.) -/
def Distinct (r : Val F) (c : Str) (space : Option Str) : Prop :=
  ∀ (es : Dict Str (Val F)) s, Source r c space (.lit (.dict es) (some c) s) → es.keys.Nodup

/-- The two inputs have the same keys and, if one has a value for a key, so has the other. -/
structure Twin (W : World F T) (I : Inputs F) (n n' : Val F) : Prop where
  keys : ∀ k, KeyOf I n k → KeyOf I n' k
  value : ∀ key v, eval W n key = .ok v → ∃ v', eval W n' key = .ok v'

theorem Twin.refl (W : World F T) (n : Val F) : Twin W I n n := ⟨fun _ h => h, fun _ v h => ⟨v, h⟩⟩

theorem first_in {α : Type} {p : α → Prop} : ∀ {l : List α}, (∃ x ∈ l, p x) → ∃ pre x post, l = pre ++ x :: post ∧ p x ∧ ∀ y ∈ pre, ¬ p y
  | [], h => by obtain ⟨x, hx, _⟩ := h; cases hx
  | a :: l, h => by
    by_cases ha : p a
    · exact ⟨[], a, l, rfl, ha, by simp⟩
    · have : ∃ x ∈ l, p x := by
        obtain ⟨x, hx, hp⟩ := h
        rcases List.mem_cons.1 hx with rfl | hx
        · exact absurd hp ha
        · exact ⟨x, hx, hp⟩
      obtain ⟨pre, x, post, rfl, h1, h2⟩ := first_in this
      refine ⟨a :: pre, x, post, rfl, h1, ?_⟩
      intro y hy
      rcases List.mem_cons.1 hy with rfl | hy
      · exact ha
      · exact h2 y hy

theorem eval_tensors {W : World F T} {es : Dict Str (Val F)} {c : Str} {s : Str} {cfg : ModelConfig} (hcfg : W.configs c = some cfg)
    (ht : ∀ p ∈ es, ∃ i, p.2 = .tensor i) (key : Str) :
    ((∃ k ∈ key :: (cfg.aliases.get? key).getD [], k ∈ es.keys) → ∃ t, eval W (.lit (.dict es) (some c) s) key = .ok (.tensor t)) ∧
    ((¬ ∃ k ∈ key :: (cfg.aliases.get? key).getD [], k ∈ es.keys) → eval W (.lit (.dict es) (some c) s) key = .error .stateDictKey) := by
  obtain ⟨h1, h2⟩ := C33_dict (W := W) es c s cfg hcfg key
  constructor
  · intro h
    obtain ⟨pre, k, post, hl, hk, hpre⟩ := first_in h
    cases hv : Dict.get? es k with
    | none => exact absurd hk ((Dict.get?_eq_none_iff _ _).1 hv)
    | some v =>
      obtain ⟨i, hi⟩ := ht (k, v) (Dict.mem_of_get? hv)
      simp only at hi
      subst hi
      exact ⟨_, h1 pre k post _ hl hpre hv⟩
  · intro h
    push Not at h
    exact h2 h

/-- `n` counts as seen: some node found is its twin. -/
def Seen (W : World F T) (I : Inputs F) (acc : Found F) (n : Val F) : Prop := ∃ m ∈ acc, Twin W I n m.1

theorem isIn_twin {W : World F T} {c : Str} {cfg : ModelConfig} (hcfg : W.configs c = some cfg) {space : Option Str} {r n m : Val F} (hd : Distinct r c space)
    (hn : Source r c space n) (hm : Source r c space m) (h : isIn I n m = .ok true) : Twin W I n m := by
  cases hm with
  | file h1 =>
    cases hn with
    | file h2 =>
      simp only [isIn, Except.ok.injEq, decide_eq_true_eq] at h
      subst h
      refine ⟨?_, ?_⟩
      · intro k hk
        cases hk with
        | file ha hb => exact .file ha hb
      · intro key v hv
        refine ⟨v, ?_⟩
        rw [eval] at hv ⊢
        exact hv
    | dict h2 hs hne ht => simp [isIn] at h
  | @dict es s h1 hs hne ht =>
    cases hn with
    | file h2 => simp [isIn] at h
    | @dict es' s' h2 hs' hne' ht' =>
      simp only [isIn] at h
      have hk := dictEq_keys (hd _ _ (.dict h1 hs hne ht)) h
      refine ⟨?_, ?_⟩
      · intro k hk'
        cases hk' with
        | dict hb => exact .dict ((hk k).2 hb)
      · intro key v hv
        by_cases hex : ∃ k ∈ key :: (cfg.aliases.get? key).getD [], k ∈ Dict.keys es'
        · obtain ⟨k, hk1, hk2⟩ := hex
          obtain ⟨t, ht⟩ := (eval_tensors (s := s) hcfg ht key).1 ⟨k, hk1, (hk k).2 hk2⟩
          exact ⟨_, ht⟩
        · rw [(eval_tensors (s := s') hcfg ht' key).2 hex] at hv; cases hv

/-- What holds of the nodes found -/
def Good (I : Inputs F) (r : Val F) (c : Str) (space : Option Str) (acc : Found F) : Prop :=
  ∀ m ∈ acc, Source r c space m.1 ∧ ∀ k, KeyOf I m.1 k ↔ k ∈ m.2.keys

theorem anyIn_true {node : Val F} : ∀ {acc : Found F}, anyIn I node acc = .ok true → ∃ m ∈ acc, isIn I node m.1 = .ok true
  | [], h => by cases h
  | m :: acc, h => by
    rw [anyIn] at h
    cases hm : isIn I node m.1 with
    | error e => rw [hm] at h; cases h
    | ok x =>
      rw [hm] at h
      cases x with
      | true => exact ⟨m, by simp, hm⟩
      | false =>
        obtain ⟨m', h1, h2⟩ := anyIn_true h
        exact ⟨m', by simp [h1], h2⟩

theorem addNew_spec {W : World F T} {c : Str} {cfg : ModelConfig} (hcfg : W.configs c = some cfg) {space : Option Str} {r n : Val F} (hd : Distinct r c space)
    {md : Except Err (Dict Str TensorMeta)} {acc acc' : Found F} (hg : Good I r c space acc) (hn : ∀ d, md = .ok d → Source r c space n ∧ ∀ k, KeyOf I n k ↔ k ∈ d.keys)
    (h : addNew I n md acc = .ok acc') :
    (∃ l, acc' = acc ++ l) ∧ Good I r c space acc' ∧ (Source r c space n → Seen W I acc' n) := by
  unfold addNew at h
  cases ha : anyIn I n acc with
  | error e => rw [ha] at h; cases h
  | ok x =>
    rw [ha] at h
    cases x with
    | true =>
      have := Except.ok.inj h
      subst this
      refine ⟨⟨[], by simp⟩, hg, fun hs => ?_⟩
      obtain ⟨m, hm, hi⟩ := anyIn_true ha
      exact ⟨m, hm, isIn_twin hcfg hd hs (hg m hm).1 hi⟩
    | false =>
      cases md with
      | error e => cases h
      | ok d =>
        have := Except.ok.inj h
        subst this
        refine ⟨⟨_, rfl⟩, ?_, fun _ => ⟨(n, d), by simp, Twin.refl W n⟩⟩
        intro m hm
        rcases List.mem_append.1 hm with hm | hm
        · exact hg m hm
        · simp only [List.mem_singleton] at hm
          subst hm
          exact hn d rfl

theorem Seen.mono {W : World F T} {acc l : Found F} {n : Val F} (h : Seen W I acc n) : Seen W I (acc ++ l) n := by
  obtain ⟨m, hm, ht⟩ := h
  exact ⟨m, by simp [hm], ht⟩

/-- What a visit achieves: `P` are the nodes it has to see. -/
structure Done (W : World F T) (I : Inputs F) (r : Val F) (c : Str) (space : Option Str) (P : Val F → Prop) (acc acc' : Found F) : Prop where
  more : ∃ l, acc' = acc ++ l
  good : Good I r c space acc'
  seen : ∀ n, P n → Source r c space n → Seen W I acc' n

theorem Done.then {W : World F T} {r : Val F} {c : Str} {space : Option Str} {P Q : Val F → Prop} {a1 a2 a3 : Found F}
    (h1 : Done W I r c space P a1 a2) (h2 : Done W I r c space Q a2 a3) : Done W I r c space (fun n => P n ∨ Q n) a1 a3 := by
  obtain ⟨l1, e1⟩ := h1.more
  obtain ⟨l2, e2⟩ := h2.more
  refine ⟨⟨l1 ++ l2, by rw [e2, e1, List.append_assoc]⟩, h2.good, ?_⟩
  rintro n (hp | hq) hs
  · rw [e2]; exact (h1.seen n hp hs).mono
  · exact h2.seen n hq hs

theorem Done.weaken {W : World F T} {r : Val F} {c : Str} {space : Option Str} {P Q : Val F → Prop} {a1 a2 : Found F}
    (h : Done W I r c space P a1 a2) (hpq : ∀ n, Q n → Source r c space n → P n) : Done W I r c space Q a1 a2 :=
  ⟨h.more, h.good, fun n hq hs => h.seen n (hpq n hq hs) hs⟩

theorem Done.skip {W : World F T} {r : Val F} {c : Str} {space : Option Str} {a : Found F} (hg : Good I r c space a) :
    Done W I r c space (fun _ => False) a a := ⟨⟨[], by simp⟩, hg, fun _ h => h.elim⟩

theorem occurs_lit {v n : Val F} {c : Option Str} {s : Str} (h : Occurs (.lit v c s) n) :
    n = .lit v c s ∨ ∃ es k w, v = .dict es ∧ (∀ p ∈ es, p.2.isNode = true) ∧ (k, w) ∈ es ∧ Occurs w n := by
  cases h with
  | self => exact .inl rfl
  | entry hes hv h => exact .inr ⟨_, _, _, rfl, hes, hv, h⟩

theorem visitK_notNode {c : Str} {space : Option Str} : ∀ {l : List (Str × Val F)}, (¬ ∀ p ∈ l, p.2.isNode = true) → ∀ acc acc',
    visitK I c space l acc ≠ .ok acc'
  | [], hn, acc, acc' => by simp at hn
  | (k, v) :: l, hn, acc, acc' => by
    rw [visitK]
    by_cases hv : v.isNode = true
    · cases visit I c space v acc with
      | error e => simp
      | ok acc1 =>
        refine visitK_notNode (fun h => hn ?_) acc1 acc'
        intro p hp
        rcases List.mem_cons.1 hp with rfl | hp
        · exact hv
        · exact h p hp
    · cases v <;> first | (exfalso; exact hv rfl) | (rw [visit] <;> simp)

theorem visit_other {W : World F T} {c : Str} {space : Option Str} {r v : Val F} {c' : Option Str} {s' : Str} {acc acc' : Found F} (hg : Good I r c space acc)
    (h : (.ok acc : Except Err (Found F)) = .ok acc') (hv : ∀ es, v ≠ .dict es) (_ : True) : Done W I r c space (Occurs (.lit v c' s')) acc acc' := by
  have := Except.ok.inj h
  subst this
  refine (Done.skip hg).weaken ?_
  intro n hn hs
  rcases occurs_lit hn with rfl | ⟨es, k, w, he, _, _, _⟩
  · cases hs
    exact hv _ rfl
  · exact hv _ he

mutual
theorem visit_done {W : World F T} {c : Str} {cfg : ModelConfig} (hcfg : W.configs c = some cfg) {space : Option Str} {r : Val F} (hd : Distinct r c space) :
    ∀ (v : Val F) (acc acc' : Found F), (∀ n, Occurs v n → Occurs r n) → Good I r c space acc → visit I c space v acc = .ok acc' →
      Done W I r c space (Occurs v) acc acc'
  | .lit (.dict []) c' s', acc, acc', _, hg, h => by
    rw [visit] at h
    have := Except.ok.inj h
    subst this
    refine (Done.skip hg).weaken ?_
    intro n hn hs
    rcases occurs_lit hn with rfl | ⟨es, k, w, he, _, hm, _⟩
    · cases hs with
      | dict _ _ hne _ => exact hne rfl
    · cases he; cases hm
  | .lit (.dict ((k, first) :: es)) c' s', acc, acc', hocc, hg, h => by
    rw [visit] at h
    by_cases hnode : first.isNode = true
    · rw [if_pos hnode] at h
      have hself : ∀ n, Occurs (.lit (.dict ((k, first) :: es)) c' s') n → Source r c space n →
          (∀ p ∈ (k, first) :: es, p.2.isNode = true) ∧ ∃ k' w, (k', w) ∈ (k, first) :: es ∧ Occurs w n := by
        intro n hn hs
        rcases occurs_lit hn with rfl | ⟨es', k', w, he, hall, hm, ho⟩
        · cases hs with
          | dict _ _ _ ht =>
            obtain ⟨i, hi⟩ := ht (k, first) (by simp)
            simp only at hi
            rw [hi] at hnode; cases hnode
        · cases he; exact ⟨hall, k', w, hm, ho⟩
      by_cases hall : ∀ p ∈ (k, first) :: es, p.2.isNode = true
      · have := visitK_done hcfg hd ((k, first) :: es) acc acc' (fun k' w hm n hn => hocc n (.entry hall hm hn)) hg h
        exact this.weaken fun n hn hs => (hself n hn hs).2
      · -- some entry is not a node: nothing to see, and the visit fails
        exfalso
        exact absurd h (visitK_notNode hall acc acc')
    · rw [if_neg hnode] at h
      have hself : ∀ n, Occurs (.lit (.dict ((k, first) :: es)) c' s') n → n = .lit (.dict ((k, first) :: es)) c' s' := by
        intro n hn
        rcases occurs_lit hn with rfl | ⟨es', k', w, he, hall, hm, ho⟩
        · rfl
        · cases he
          exact absurd (hall (k, first) (by simp)) hnode
      by_cases hcond : first.isTensor ∧ c' = some c ∧ some s' = space
      · rw [if_pos hcond] at h
        obtain ⟨_, rfl, hsp⟩ := hcond
        obtain ⟨h1, h2, h3⟩ := addNew_spec (W := W) hcfg hd hg (fun d hdm => by
          obtain ⟨hk, ht⟩ := dictMeta_spec hdm
          refine ⟨.dict (hocc _ (.self _)) hsp (by simp) ht, fun k' => ?_⟩
          rw [hk]
          constructor
          · rintro (_ | hb); exact hb
          · intro hb; exact .dict hb) h
        exact ⟨h1, h2, fun n hn hs => by rw [hself n hn] at hs ⊢; exact h3 hs⟩
      · rw [if_neg hcond] at h
        have := Except.ok.inj h
        subst this
        refine (Done.skip hg).weaken ?_
        intro n hn hs
        rw [hself n hn] at hs
        cases hs with
        | dict _ hsp _ ht =>
          obtain ⟨i, hi⟩ := ht (k, first) (by simp)
          simp only at hi
          exact hcond ⟨by rw [hi]; rfl, rfl, hsp⟩
  | .lit (.str x) c' s', acc, acc', _, hg, h => visit_other hg (by rw [visit] at h <;> first | exact h | simp) (by simp) trivial
  | .lit (.int x) c' s', acc, acc', _, hg, h => visit_other hg (by rw [visit] at h <;> first | exact h | simp) (by simp) trivial
  | .lit (.float x) c' s', acc, acc', _, hg, h => visit_other hg (by rw [visit] at h <;> first | exact h | simp) (by simp) trivial
  | .lit (.bool x) c' s', acc, acc', _, hg, h => visit_other hg (by rw [visit] at h <;> first | exact h | simp) (by simp) trivial
  | .lit .none c' s', acc, acc', _, hg, h => visit_other hg (by rw [visit] at h <;> first | exact h | simp) (by simp) trivial
  | .lit (.tensor x) c' s', acc, acc', _, hg, h => visit_other hg (by rw [visit] at h <;> first | exact h | simp) (by simp) trivial
  | .lit (.lit x y z) c' s', acc, acc', _, hg, h => visit_other hg (by rw [visit] at h <;> first | exact h | simp) (by simp) trivial
  | .lit (.model x y z) c' s', acc, acc', _, hg, h => visit_other hg (by rw [visit] at h <;> first | exact h | simp) (by simp) trivial
  | .lit (.merge x y z) c' s', acc, acc', _, hg, h => visit_other hg (by rw [visit] at h <;> first | exact h | simp) (by simp) trivial
  | .model path c' s', acc, acc', hocc, hg, h => by
    rw [visit] at h
    by_cases hc : c' = some c
    · rw [if_pos hc] at h
      subst hc
      obtain ⟨h1, h2, h3⟩ := addNew_spec (W := W) hcfg hd hg (fun d hdm => by
        refine ⟨.file (hocc _ (.self _)), fun k' => ?_⟩
        constructor
        · intro hk
          cases hk with
          | file ha hb => rw [hdm] at ha; cases ha; exact hb
        · intro hb; exact .file hdm hb) h
      refine ⟨h1, h2, fun n hn hs => ?_⟩
      cases hn
      exact h3 hs
    · rw [if_neg hc] at h
      have := Except.ok.inj h
      subst this
      refine (Done.skip hg).weaken ?_
      intro n hn hs
      cases hn
      cases hs
      exact hc rfl
  | .merge m args kwargs, acc, acc', hocc, hg, h => by
    rw [visit] at h
    cases hl : visitL I c space args acc with
    | error e => rw [hl] at h; cases h
    | ok acc1 =>
      rw [hl] at h
      have h1 := visitL_done hcfg hd args acc acc1 (fun v hv n hn => hocc n (.arg hv hn)) hg hl
      have h2 := visitK_done hcfg hd kwargs acc1 acc' (fun k v hv n hn => hocc n (.kwarg hv hn)) h1.good h
      refine (h1.then h2).weaken ?_
      intro n hn hs
      cases hn with
      | self => cases hs
      | arg hv hn => exact .inl ⟨_, hv, hn⟩
      | kwarg hv hn => exact .inr ⟨_, _, hv, hn⟩
  | .str _, acc, acc', _, _, h => by rw [visit] at h <;> cases h
  | .int _, acc, acc', _, _, h => by rw [visit] at h <;> cases h
  | .float _, acc, acc', _, _, h => by rw [visit] at h <;> cases h
  | .bool _, acc, acc', _, _, h => by rw [visit] at h <;> cases h
  | .none, acc, acc', _, _, h => by rw [visit] at h <;> cases h
  | .tensor _, acc, acc', _, _, h => by rw [visit] at h <;> cases h
  | .dict _, acc, acc', _, _, h => by rw [visit] at h <;> cases h
theorem visitL_done {W : World F T} {c : Str} {cfg : ModelConfig} (hcfg : W.configs c = some cfg) {space : Option Str} {r : Val F} (hd : Distinct r c space) :
    ∀ (l : List (Val F)) (acc acc' : Found F), (∀ v ∈ l, ∀ n, Occurs v n → Occurs r n) → Good I r c space acc → visitL I c space l acc = .ok acc' →
      Done W I r c space (fun n => ∃ v ∈ l, Occurs v n) acc acc'
  | [], acc, acc', _, hg, h => by
    rw [visitL] at h
    have := Except.ok.inj h
    subst this
    exact (Done.skip hg).weaken (by simp)
  | v :: l, acc, acc', hocc, hg, h => by
    rw [visitL] at h
    cases hv : visit I c space v acc with
    | error e => rw [hv] at h; cases h
    | ok acc1 =>
      rw [hv] at h
      have h1 := visit_done hcfg hd v acc acc1 (hocc v (by simp)) hg hv
      have h2 := visitL_done hcfg hd l acc1 acc' (fun w hw => hocc w (by simp [hw])) h1.good h
      refine (h1.then h2).weaken ?_
      rintro n ⟨w, hw, hn⟩ _
      rcases List.mem_cons.1 hw with rfl | hw
      · exact .inl hn
      · exact .inr ⟨w, hw, hn⟩
theorem visitK_done {W : World F T} {c : Str} {cfg : ModelConfig} (hcfg : W.configs c = some cfg) {space : Option Str} {r : Val F} (hd : Distinct r c space) :
    ∀ (l : List (Str × Val F)) (acc acc' : Found F), (∀ k v, (k, v) ∈ l → ∀ n, Occurs v n → Occurs r n) → Good I r c space acc →
      visitK I c space l acc = .ok acc' → Done W I r c space (fun n => ∃ k v, (k, v) ∈ l ∧ Occurs v n) acc acc'
  | [], acc, acc', _, hg, h => by
    rw [visitK] at h
    have := Except.ok.inj h
    subst this
    exact (Done.skip hg).weaken (by simp)
  | (k, v) :: l, acc, acc', hocc, hg, h => by
    rw [visitK] at h
    cases hv : visit I c space v acc with
    | error e => rw [hv] at h; cases h
    | ok acc1 =>
      rw [hv] at h
      have h1 := visit_done hcfg hd v acc acc1 (hocc k v (by simp)) hg hv
      have h2 := visitK_done hcfg hd l acc1 acc' (fun k' w hw => hocc k' w (by simp [hw])) h1.good h
      refine (h1.then h2).weaken ?_
      rintro n ⟨k', w, hw, hn⟩ _
      rcases List.mem_cons.1 hw with hw | hw
      · cases hw; exact .inl hn
      · exact .inr ⟨k', w, hw, hn⟩
end

theorem aliasMap_name (cfg : ModelConfig) (k' : Str) : Name cfg k' (((aliasMap cfg).get? k').getD k') := by
  have hn : Dict.keys cfg.aliases |>.Nodup := Dict.nodup_ofList _
  unfold Name
  cases h : (aliasMap cfg).get? k' with
  | some k =>
    left
    have hm := Dict.mem_ofList (Dict.mem_of_get? h)
    obtain ⟨p, hp, hm⟩ := List.mem_flatMap.1 hm
    obtain ⟨a, ha, he⟩ := List.mem_map.1 hm
    simp only [Prod.mk.injEq] at he
    obtain ⟨rfl, rfl⟩ := he
    exact ⟨p.2, Dict.get?_of_mem hn hp, ha⟩
  | none =>
    right
    refine ⟨rfl, fun k0 as hk0 hk' => ?_⟩
    have hnot := (Dict.get?_eq_none_iff _ _).1 h
    refine hnot ?_
    unfold aliasMap
    rw [Dict.mem_keys_ofList]
    exact List.mem_map.2 ⟨(k', k0), List.mem_flatMap.2 ⟨(k0, as), Dict.mem_of_get? hk0, List.mem_map.2 ⟨k', hk', rfl⟩⟩, rfl⟩

theorem orAll_eval {W : World F T} {move : Option Str → Option Str → T → Except Err T} (hW : Builtin W move) : ∀ (ns : List (Val F)) (r r' : Val F),
    Proper r → (∀ n ∈ ns, Proper n) → orAll W.env r ns = .ok r' → eval W r' = ns.foldl (fun f n => orElse f (eval W n)) (eval W r)
  | [], r, r', _, _, h => by cases h; rfl
  | n :: ns, r, r', hr, hns, h => by
    rw [orAll] at h
    cases ho : orNode W.env r n with
    | error e => rw [ho] at h; cases h
    | ok r1 =>
      rw [ho] at h
      have hn := hns n (by simp)
      obtain ⟨b', e1, rfl⟩ := orNode_shape hW hr.isNode ho
      rw [Serialize.valueToNode_node hn.isNode] at e1; cases e1
      rw [orAll_eval hW ns _ r' (proper_fallback hr hn) (fun m hm => hns m (by simp [hm])) h, List.foldl_cons, eval_fallback hW hr hn]

theorem Spec.Source.proper {r n : Val F} {c : Str} {space : Option Str} (h : Source r c space n) : Proper n := by
  cases h <;> trivial

/-- The steps of `copy_extra_keys` -/
theorem copyExtra_ok {W : World F T} {recipe new : Val F} {md : Dict Str TensorMeta} {c : Str} {cfg : ModelConfig} {space : Option Str}
    (hd : Distinct recipe c space) (hc : recipe.config W.env = .ok (some c)) (hcfg : W.configs c = some cfg) (hsp : recipe.space W.env = .ok space)
    (h : copyExtra W I recipe = .ok (new, md)) :
    ∃ found, Done W I recipe c space (Occurs recipe) [] found ∧ orAll W.env recipe (found.map (·.1)) = .ok new ∧
      md = Dict.update (Dict.ofList (found.flatMap fun n => n.2.map fun p => (((aliasMap cfg).get? p.1).getD p.1, p.2))) cfg.metadata := by
  unfold copyExtra at h
  simp only [hc, hcfg, hsp] at h
  cases hv : visit I c space recipe [] with
  | error e => rw [hv] at h; cases h
  | ok found =>
    rw [hv] at h
    simp only at h
    cases ho : orAll W.env recipe (found.map (·.1)) with
    | error e => rw [ho] at h; cases h
    | ok r =>
      rw [ho] at h
      simp only [Except.ok.injEq, Prod.mk.injEq] at h
      obtain ⟨rfl, h⟩ := h
      exact ⟨found, visit_done hcfg hd recipe [] found (fun _ h => h) (by intro m hm; cases hm) hv, ho, h.symm⟩

/-! ## C46 -/

/-- **C46** (partial: the merge can fail, see the negations below).  With `omit_extra_keys=False`, if the merge starts at all, the keys considered are those of the config and, under their name in the config,
all keys of all inputs of the config; and no others. -/
theorem C46_keys_partial {W : World F T} {recipe new : Val F} {md : Dict Str TensorMeta} {c : Str} {cfg : ModelConfig} {space : Option Str}
    (hd : Distinct recipe c space) (hc : recipe.config W.env = .ok (some c)) (hcfg : W.configs c = some cfg) (hsp : recipe.space W.env = .ok space)
    (h : copyExtra W I recipe = .ok (new, md)) :
    (∀ k ∈ cfg.metadata.keys, k ∈ md.keys) ∧
    (∀ n k', Source recipe c space n → KeyOf I n k' → ∃ k ∈ md.keys, Name cfg k' k) ∧
    ∀ k ∈ md.keys, k ∈ cfg.metadata.keys ∨ ∃ n k', Source recipe c space n ∧ KeyOf I n k' ∧ Name cfg k' k := by
  obtain ⟨found, hdone, _, rfl⟩ := copyExtra_ok hd hc hcfg hsp h
  have hmem : ∀ k, k ∈ Dict.keys (Dict.ofList (found.flatMap fun n => n.2.map fun p => (((aliasMap cfg).get? p.1).getD p.1, p.2))) ↔
      ∃ m ∈ found, ∃ k' ∈ m.2.keys, k = ((aliasMap cfg).get? k').getD k' := by
    intro k
    rw [Dict.mem_keys_ofList]
    simp only [List.mem_map, List.mem_flatMap, Dict.keys]
    constructor
    · rintro ⟨q, ⟨m, hm, p, hp, rfl⟩, rfl⟩
      exact ⟨m, hm, p.1, ⟨p, hp, rfl⟩, rfl⟩
    · rintro ⟨m, hm, k', ⟨p, hp, rfl⟩, rfl⟩
      exact ⟨_, ⟨m, hm, p, hp, rfl⟩, rfl⟩
  refine ⟨fun k hk => (Dict.mem_keys_update _ _ _).2 (.inr hk), ?_, ?_⟩
  · intro n k' hn hk'
    obtain ⟨m, hm, ht⟩ := hdone.seen n (by cases hn <;> assumption) hn
    have hk2 := ((hdone.good m hm).2 k').1 (ht.keys k' hk')
    exact ⟨_, (Dict.mem_keys_update _ _ _).2 (.inl ((hmem _).2 ⟨m, hm, k', hk2, rfl⟩)), aliasMap_name cfg k'⟩
  · intro k hk
    rcases (Dict.mem_keys_update _ _ _).1 hk with hk | hk
    · right
      obtain ⟨m, hm, k', hk', rfl⟩ := (hmem k).1 hk
      exact ⟨m.1, k', (hdone.good m hm).1, ((hdone.good m hm).2 k').2 hk', aliasMap_name cfg k'⟩
    · exact .inl hk

theorem fold_orElse (fs : List (Str → Res F T)) (f : Str → Res F T) (key : Str) :
    (f key ≠ .error .stateDictKey → fs.foldl orElse f key = f key) ∧
    (f key = .error .stateDictKey →
      ((∀ g ∈ fs, g key = .error .stateDictKey) → fs.foldl orElse f key = .error .stateDictKey) ∧
      (∀ g ∈ fs, g key ≠ .error .stateDictKey → ∃ g' ∈ fs, g' key ≠ .error .stateDictKey ∧ fs.foldl orElse f key = g' key)) := by
  induction fs generalizing f with
  | nil => exact ⟨fun _ => rfl, fun h => ⟨fun _ => h, by simp⟩⟩
  | cons g fs ih =>
    rw [List.foldl_cons]
    obtain ⟨h1, h2⟩ := ih (orElse f g)
    constructor
    · intro h
      have : orElse f g key = f key := by
        unfold orElse
        split
        · rename_i he; exact absurd he h
        · rfl
      rw [h1 (by rw [this]; exact h), this]
    · intro h
      have ho : orElse f g key = g key := by unfold orElse; rw [h]
      constructor
      · intro hall
        rw [ho] at h2
        exact (h2 (hall g (by simp))).1 fun g' hg' => hall g' (by simp [hg'])
      · intro g' hg' hne
        by_cases hg : g key = .error .stateDictKey
        · rcases List.mem_cons.1 hg' with rfl | hg'
          · exact absurd hg hne
          · rw [ho] at h2
            obtain ⟨g'', hm, hx, hy⟩ := (h2 hg).2 g' hg' hne
            exact ⟨g'', by simp [hm], hx, hy⟩
        · refine ⟨g, by simp, hg, ?_⟩
          rw [h1 (by rw [ho]; exact hg), ho]

/-- **C46.**  The recipe's own values and errors stay.  Where the recipe lacks a key, the result is that of an input of the config that has the key, if
there is one. -/
theorem C46_values_partial {W : World F T} {move : Option Str → Option Str → T → Except Err T} (hW : Builtin W move) {recipe new : Val F} {md : Dict Str TensorMeta}
    {c : Str} {cfg : ModelConfig} {space : Option Str} (hp : Proper recipe) (hd : Distinct recipe c space) (hc : recipe.config W.env = .ok (some c))
    (hcfg : W.configs c = some cfg) (hsp : recipe.space W.env = .ok space) (h : copyExtra W I recipe = .ok (new, md)) (key : Str) :
    (eval W recipe key ≠ .error .stateDictKey → eval W new key = eval W recipe key) ∧
    (eval W recipe key = .error .stateDictKey →
      ((∀ n, Source recipe c space n → eval W n key = .error .stateDictKey) → eval W new key = .error .stateDictKey) ∧
      ∀ n v, Source recipe c space n → eval W n key = .ok v →
        ∃ n', Source recipe c space n' ∧ eval W n' key ≠ .error .stateDictKey ∧ eval W new key = eval W n' key) := by
  obtain ⟨found, hdone, ho, _⟩ := copyExtra_ok hd hc hcfg hsp h
  have hnew := orAll_eval hW _ recipe new hp (fun n hn => by
    obtain ⟨m, hm, rfl⟩ := List.mem_map.1 hn
    exact (hdone.good m hm).1.proper) ho
  have hnew' : eval W new = ((found.map (·.1)).map (eval W)).foldl orElse (eval W recipe) := by
    rw [hnew, List.foldl_map, List.foldl_map, List.foldl_map]
  obtain ⟨h1, h2⟩ := fold_orElse ((found.map (·.1)).map (eval W)) (eval W recipe) key
  rw [← hnew'] at h1 h2
  refine ⟨h1, fun hr => ⟨fun hall => (h2 hr).1 ?_, ?_⟩⟩
  · intro g hg
    obtain ⟨n, hn, rfl⟩ := List.mem_map.1 hg
    obtain ⟨m, hm, rfl⟩ := List.mem_map.1 hn
    exact hall m.1 (hdone.good m hm).1
  · intro n v hn hv
    obtain ⟨m, hm, ht⟩ := hdone.seen n (by cases hn <;> assumption) hn
    obtain ⟨v', hv'⟩ := ht.value key v hv
    obtain ⟨g', hg', hx, hy⟩ := (h2 hr).2 (eval W m.1) (List.mem_map.2 ⟨m.1, List.mem_map.2 ⟨m, hm, rfl⟩, rfl⟩) (by rw [hv']; simp)
    obtain ⟨n', hn', rfl⟩ := List.mem_map.1 hg'
    obtain ⟨m', hm', rfl⟩ := List.mem_map.1 hn'
    exact ⟨m'.1, (hdone.good m' hm').1, hx, hy⟩

end

/-! ### Examples -/
namespace Ex
open Eval.Ex

/-- Inputs for the world of the examples: a tensor equals another one of the same number; comparing different ones raises. -/
def I : Inputs ℕ where
  file p := match files.get? p with | some d => .ok (d.map fun q => (q.1, ⟨some [q.2], none⟩)) | none => .error .os
  tensor i := ⟨some [i], none⟩
  eq _ _ := .error .runtime

def h : Val ℕ := .model "g".toList (some "t-c".toList) (some "delta".toList)
def d1 : Val ℕ := .lit (.dict [("k2".toList, .tensor 5), ("x".toList, .tensor 6)]) (some "t-c".toList) "weight".toList
def d2 : Val ℕ := .lit (.dict [("k2".toList, .tensor 7), ("x".toList, .tensor 8)]) (some "t-c".toList) "weight".toList
def picked : Val ℕ := .merge nPick [f, .lit (.str "ema".toList) none paramSpace] []
def r : Val ℕ := .merge nFallback [picked, d1] []

end Ex

example : (copyExtra Eval.Ex.W Ex.I Ex.r).map (fun p => (p.2.keys, ["k1", "k2", "k3", "x"].map fun k => eval Eval.Ex.W p.1 k.toList)) =
    .ok (["k1".toList, "k2".toList, "x".toList, "k3".toList], [.ok (.tensor 10), .ok (.tensor 5), .error .stateDictKey, .ok (.tensor 6)]) := by
  decide +kernel
example : Proper Ex.r ∧ (Ex.r : Val ℕ).config Eval.Ex.W.env = .ok (some "t-c".toList) ∧ Ex.r.space Eval.Ex.W.env = .ok (some "weight".toList) := by
  refine ⟨?_, by decide +kernel, by decide +kernel⟩
  simp [Ex.r, Ex.picked, Proper, ProperL, ProperK, Eval.Ex.f, Ex.d1]

/-- A model of the config in another merge space makes the merge fail. -/
theorem C46_space_false : ∃ (W : World ℕ ℕ) (I : Inputs ℕ) (r : Val ℕ) (e : Err), Builtin W Eval.Ex.move ∧ Proper r ∧
    r.space W.env = .ok (some "weight".toList) ∧ r.config W.env = .ok (some "t-c".toList) ∧ copyExtra W I r = .error e :=
  ⟨{ Eval.Ex.W with env := { Eval.Ex.W.env with methods := Eval.Ex.W.env.methods ++ [("add_difference".toList,
      ⟨[("a".toList, ⟨some (.set ["weight".toList]), none, false⟩), ("b".toList, ⟨some (.set ["delta".toList]), none, false⟩)], none, [], [], [],
        .space "weight".toList, none⟩)] } },
    Ex.I, .merge "add_difference".toList [Eval.Ex.f, Ex.h] [], .type, by constructor <;> rfl, by simp [Proper, ProperL, ProperK, Eval.Ex.f, Ex.h],
    by decide +kernel, by decide +kernel, by decide +kernel⟩

/-- Two different state dicts in memory with the same keys and more than one element make the merge fail. -/
theorem C46_dicts_false : ∃ (W : World ℕ ℕ) (I : Inputs ℕ) (r : Val ℕ), Builtin W Eval.Ex.move ∧ Proper r ∧
    (∀ i v, I.eq i v = .error .runtime) ∧ r.space W.env = .ok (some "weight".toList) ∧ r.config W.env = .ok (some "t-c".toList) ∧
    copyExtra W I r = .error .runtime :=
  ⟨Eval.Ex.W, Ex.I, .merge "sum".toList [Ex.d1, Ex.d2] [], Eval.Ex.builtin, by simp [Proper, ProperL, ProperK, Ex.d1, Ex.d2], fun _ _ => rfl,
    by decide +kernel, by decide +kernel, by decide +kernel⟩

/-- Forwarded values do not get the output dtype. -/
theorem C46_dtype_false : ∃ (W : World ℕ ℕ) (I : Inputs ℕ) (r cast new : Val ℕ) (md : Dict Str TensorMeta) (key : Str) (x y : ℕ),
    Builtin W Eval.Ex.move ∧ Proper r ∧ toNode W.env r none (some "float16".toList) = .ok cast ∧ copyExtra W I cast = .ok (new, md) ∧ key ∈ md.keys ∧
    eval W new key = .ok (.tensor x) ∧ Eval.Ex.move none (some "float16".toList) x = .ok y ∧ x ≠ y :=
  ⟨Eval.Ex.W, Ex.I, Ex.picked, .merge nCast [Ex.picked, .lit .none none paramSpace, .lit (.str "float16".toList) none paramSpace] [],
    .merge nFallback [.merge nCast [Ex.picked, .lit .none none paramSpace, .lit (.str "float16".toList) none paramSpace] [], Eval.Ex.f] [],
    [("k1".toList, ⟨none, none⟩), ("k2".toList, ⟨none, none⟩), ("k3".toList, ⟨none, none⟩)], "k2".toList, 20, 4, Eval.Ex.builtin, by simp [Ex.picked, Proper, ProperL, ProperK, Eval.Ex.f], by decide +kernel, by decide +kernel, by decide +kernel,
    by decide +kernel, by decide +kernel, by decide +kernel⟩

end Verif.Extra
