import Verif.Spec.Cached
import Verif.Proofs.Mem

/-!
# Evaluation with caches gives what evaluation without gives
-/
namespace Verif.Cached
open Method Recipe Config Eval Eval.Spec Program Program.Spec Spec
variable {F T V α β : Type}

/-- In any caches whose entries satisfy `I`, also if others store in them meanwhile, the computation ends in `R`, and stores only what satisfies `I`. -/
def Safe (I : ℕ → Str → V → Prop) (R : α → Prop) : CProg V α → Prop
  | .ret a => R a
  | .get c n next => Safe I R (next none) ∧ ∀ v, I c n v → Safe I R (next (some v))
  | .put c n v next => I c n v ∧ Safe I R next

variable {I : ℕ → Str → V → Prop}

theorem Safe.bind {R : α → Prop} {Q : β → Prop} {p : CProg V α} {f : α → CProg V β} (hp : Safe I R p) (hf : ∀ a, R a → Safe I Q (f a)) :
    Safe I Q (p.bind f) := by
  induction p with
  | ret a => exact hf a hp
  | get c n next ih => exact ⟨ih none hp.1, fun v hv => ih (some v) (hp.2 v hv)⟩
  | put c n v next ih => exact ⟨hp.1, ih hp.2⟩

theorem Safe.mono {R Q : α → Prop} {p : CProg V α} (hp : Safe I R p) (h : ∀ a, R a → Q a) : Safe I Q p := by
  induction p with
  | ret a => exact h a hp
  | get c n next ih => exact ⟨ih none hp.1, fun v hv => ih (some v) (hp.2 v hv)⟩
  | put c n v next ih => exact ⟨hp.1, ih hp.2⟩

/-! ### Threads -/

theorem Safe.step {R : α → Prop} {p : CProg V α} (hp : Safe I R p) {σ : Store V} (hσ : Holds I σ) : Holds I (p.step σ).1 ∧ Safe I R (p.step σ).2 := by
  cases p with
  | ret a => exact ⟨hσ, hp⟩
  | get c n next =>
    refine ⟨hσ, ?_⟩
    show Safe I R (next (σ c n))
    cases h : σ c n with
    | none => exact hp.1
    | some v => exact hp.2 v (hσ c n v h)
  | put c n v next =>
    refine ⟨fun c' n' v' h => ?_, hp.2⟩
    simp only [CProg.step, Store.put] at h
    split_ifs at h with hc
    · obtain ⟨rfl, rfl⟩ := hc
      cases h
      exact hp.1
    · exact hσ c' n' v' h

theorem runPool_length (schedule : List ℕ) : ∀ (σ : Store V) (ps : List (CProg V α)), (runPool schedule σ ps).2.length = ps.length := by
  induction schedule with
  | nil => intro σ ps; rfl
  | cons i is ih =>
    intro σ ps
    unfold runPool
    cases ps[i]? with
    | none => exact ih σ ps
    | some p => simp only; rw [ih, List.length_set]

theorem runPool_safe (schedule : List ℕ) (R : ℕ → α → Prop) : ∀ (σ : Store V) (ps : List (CProg V α)), Holds I σ →
    (∀ i p, ps[i]? = some p → Safe I (R i) p) → Holds I (runPool schedule σ ps).1 ∧ ∀ i p, (runPool schedule σ ps).2[i]? = some p → Safe I (R i) p := by
  induction schedule with
  | nil => intro σ ps hσ h; exact ⟨hσ, h⟩
  | cons i is ih =>
    intro σ ps hσ h
    unfold runPool
    cases hp : ps[i]? with
    | none => exact ih σ ps hσ h
    | some p =>
      obtain ⟨h1, h2⟩ := (h i p hp).step hσ
      refine ih _ _ h1 fun j q hj => ?_
      rw [List.getElem?_set] at hj
      split_ifs at hj with hij hlt
      · subst hij
        cases hj
        exact h2
      · exact h j q hj

theorem runPool_none {i : ℕ} {is : List ℕ} {σ : Store V} {ps : List (CProg V α)} (h : ps[i]? = none) : runPool (i :: is) σ ps = runPool is σ ps := by
  rw [runPool, h]

theorem runPool_some {i : ℕ} {is : List ℕ} {σ : Store V} {ps : List (CProg V α)} {p : CProg V α} (h : ps[i]? = some p) :
    runPool (i :: is) σ ps = runPool is (p.step σ).1 (ps.set i (p.step σ).2) := by
  rw [runPool, h]

theorem runPool_append (a b : List ℕ) : ∀ (σ : Store V) (ps : List (CProg V α)),
    runPool (a ++ b) σ ps = runPool b (runPool a σ ps).1 (runPool a σ ps).2 := by
  induction a with
  | nil => intro σ ps; rfl
  | cons i is ih =>
    intro σ ps
    rw [List.cons_append]
    cases h : ps[i]? with
    | none => rw [runPool_none h, runPool_none h]; exact ih σ ps
    | some p => rw [runPool_some h, runPool_some h]; exact ih _ _

/-- A thread left alone ends; the others stay as they are. -/
theorem finish_one (i : ℕ) (p : CProg V α) : ∀ (σ : Store V) (ps : List (CProg V α)), ps[i]? = some p →
    ∃ more a, (runPool more σ ps).2 = ps.set i (.ret a) := by
  induction p with
  | ret a =>
    intro σ ps h
    refine ⟨[], a, ?_⟩
    show ps = _
    obtain ⟨hi, h⟩ := List.getElem?_eq_some_iff.1 h
    rw [← h, List.set_getElem_self]
  | get c n next ih =>
    intro σ ps h
    have hi := (List.getElem?_eq_some_iff.1 h).1
    obtain ⟨more, a, hm⟩ := ih (σ c n) σ (ps.set i (next (σ c n))) (by rw [List.getElem?_set_self hi])
    refine ⟨i :: more, a, ?_⟩
    unfold runPool
    rw [h]
    simp only [CProg.step]
    rw [hm, List.set_set]
  | put c n v next ih =>
    intro σ ps h
    have hi := (List.getElem?_eq_some_iff.1 h).1
    obtain ⟨more, a, hm⟩ := ih (σ.put c n v) (ps.set i next) (by rw [List.getElem?_set_self hi])
    refine ⟨i :: more, a, ?_⟩
    unfold runPool
    rw [h]
    simp only [CProg.step]
    rw [hm, List.set_set]

theorem finish_all (m : ℕ) : ∀ (σ : Store V) (ps : List (CProg V α)), m ≤ ps.length →
    ∃ more, (runPool more σ ps).2.length = ps.length ∧ ∀ i, i < m → ∃ a, (runPool more σ ps).2[i]? = some (.ret a) := by
  induction m with
  | zero => intro σ ps _; exact ⟨[], rfl, fun i hi => absurd hi (Nat.not_lt_zero i)⟩
  | succ m ih =>
    intro σ ps hm
    obtain ⟨more, h1, h2⟩ := ih σ ps (by omega)
    have hlt : m < (runPool more σ ps).2.length := by omega
    obtain ⟨more', a, h3⟩ := finish_one m _ (runPool more σ ps).1 (runPool more σ ps).2 (List.getElem?_eq_getElem hlt)
    refine ⟨more ++ more', ?_, fun i hi => ?_⟩
    · rw [runPool_append, h3, List.length_set, h1]
    · rw [runPool_append, h3]
      by_cases him : i = m
      · subst him; exact ⟨a, List.getElem?_set_self hlt⟩
      · rw [List.getElem?_set_ne (Ne.symm him)]
        exact h2 i (by omega)

/-! ### Evaluation -/

variable {I : ℕ → Str → RVal F T → Prop}

/-- The computation ends with `y`. -/
abbrev Ends (I : ℕ → Str → RVal F T → Prop) (p : CProg (RVal F T) (Res F T)) (y : Res F T) : Prop := Safe I (fun x => x = y) p

theorem castRunC_ends (C : Conv F T) (t : Ty) {run : Str → CProg (RVal F T) (Res F T)} {runP : Str → Res F T} {k : Str} (h : Ends I (run k) (runP k)) :
    Ends I (castRunC C t run k) (castRun C t runP k) := by
  unfold castRunC castRun
  refine Safe.bind h fun a ha => ?_
  subst ha
  cases runP k <;> rfl

theorem runPlain_ends {get : Idx → Str → CProg (RVal F T) (Res F T)} {getP : Idx → Str → Res F T} (hg : ∀ i k, Ends I (get i k) (getP i k)) (f : Fn F T) :
    Ends I (runPlain get f) (result getP f) := by
  induction f with
  | done r => rfl
  | ask i k next ih =>
    refine Safe.bind (hg i k) fun a ha => ?_
    subst ha
    exact ih _

theorem run_ends {get : Idx → Str → CProg (RVal F T) (Res F T)} {getP : Idx → Str → Res F T} (hg : ∀ i k, Ends I (get i k) (getP i k)) {c : ℕ} (f : CFn F T)
    {r : Res F T} (h : Harmless (I c) getP f r) : Ends I (f.run c get) r := by
  induction f with
  | done x => exact h
  | ask i k next ih =>
    refine Safe.bind (hg i k) fun a ha => ?_
    subst ha
    exact ih _ h
  | get n next ih => exact ⟨ih _ h.1, fun v hv => ih _ (h.2 v hv)⟩
  | put n v next ih => exact ⟨h.1, ih h.2⟩

inductive RelArg (I : ℕ → Str → RVal F T → Prop) : CArg F T → Arg F T → Prop
  | val (x) : RelArg I (.val x) (.val x)
  | sd {g gP} (c) (hg : ∀ k, Ends I (g k) (gP k)) : RelArg I (.sd g c) (.sd gP c)

structure RelMerged (I : ℕ → Str → RVal F T → Prop) (s : CMerged F T) (p : Merged F T) : Prop where
  holder : s.holder = p.holder
  rel : ∀ i, Option.Rel (RelArg I) (s.merged.get? i) (p.merged.get? i)

theorem RelMerged.set {s : CMerged F T} {p : Merged F T} (h : RelMerged I s p) (i : Idx) {a : CArg F T} {b : Arg F T} (ha : RelArg I a b) (e : Option Err) :
    RelMerged I ⟨e, s.merged.set i a⟩ ⟨e, p.merged.set i b⟩ := by
  refine ⟨rfl, fun j => ?_⟩
  simp only [Dict.get?_set]
  split_ifs
  · exact .some ha
  · exact h.rel j

structure RelChild (I : ℕ → Str → RVal F T → Prop) (c : CChild F T) (p : Child F T) : Prop where
  idx : c.idx = p.idx
  depth : c.depth = p.depth
  config : c.config = p.config
  run : ∀ k, Ends I (c.run k) (p.run k)

def RelExc {A B : Type} (R : A → B → Prop) : Except Err A → Except Err B → Prop
  | .ok a, .ok b => R a b
  | .error e, .error e' => e = e'
  | _, _ => False

theorem stepChildC_safe (C : Conv F T) (types : Dict Idx PTy) (key : Str) {s : CMerged F T} {p : Merged F T} (h : RelMerged I s p) {c : CChild F T} {d : Child F T}
    (hc : RelChild I c d) : Safe I (fun x => RelExc (RelMerged I) x (stepChild C types key p d)) (stepChildC C types key s c) := by
  unfold stepChildC stepChild
  rw [hc.idx]
  cases types.get? d.idx with
  | none => rfl
  | some ty =>
    cases ty with
    | sd t =>
      show RelMerged I _ _
      rw [← h.holder]
      refine h.set d.idx (a := .sd (castRunC C t c.run) c.config) (b := .sd (castRun C t d.run) d.config) ?_ s.holder
      rw [hc.config]
      exact .sd _ fun k => castRunC_ends C t (hc.run k)
    | val t =>
      refine Safe.bind (hc.run key) fun a ha => ?_
      subst ha
      cases hr : d.run key with
      | error e => exact h.set d.idx (.val .none) (some e)
      | ok v =>
        simp only
        cases castTo C t v with
        | error e => rfl
        | ok v' =>
          show RelMerged I _ _
          rw [← h.holder]
          exact h.set d.idx (.val v') s.holder

theorem stepAllC_safe (C : Conv F T) (types : Dict Idx PTy) (key : Str) {l : List (CChild F T)} {l' : List (Child F T)} (hl : List.Forall₂ (RelChild I) l l') :
    ∀ {s : CMerged F T} {p : Merged F T}, RelMerged I s p →
    Safe I (fun x => RelExc (RelMerged I) x (stepAll C types key p l')) (stepAllC C types key s l) := by
  induction hl with
  | nil => intro s p h; exact h
  | cons hc _ ih =>
    intro s p h
    unfold stepAllC stepAll
    refine Safe.bind (stepChildC_safe C types key h hc) fun a ha => ?_
    cases a with
    | error e =>
      cases hp : stepChild C types key p _ with
      | error e' => rw [hp] at ha; exact ha
      | ok p' => rw [hp] at ha; exact ha.elim
    | ok s' =>
      cases hp : stepChild C types key p _ with
      | error e' => rw [hp] at ha; exact ha.elim
      | ok p' => rw [hp] at ha; exact ih ha

theorem insertDeepC_rel {c : CChild F T} {d : Child F T} (hc : RelChild I c d) {l : List (CChild F T)} {l' : List (Child F T)}
    (hl : List.Forall₂ (RelChild I) l l') : List.Forall₂ (RelChild I) (insertDeepC c l) (insertDeep d l') := by
  induction hl with
  | nil => exact .cons hc .nil
  | cons h t ih =>
    unfold insertDeepC insertDeep
    rw [hc.depth, h.depth]
    split_ifs
    · exact .cons hc (.cons h t)
    · exact .cons h ih

theorem deeperFirstC_rel {l : List (CChild F T)} {l' : List (Child F T)} (hl : List.Forall₂ (RelChild I) l l') :
    List.Forall₂ (RelChild I) (deeperFirstC l) (deeperFirst l') := by
  unfold deeperFirstC deeperFirst
  have : ∀ {acc : List (CChild F T)} {acc' : List (Child F T)}, List.Forall₂ (RelChild I) acc acc' →
      List.Forall₂ (RelChild I) (l.foldl (fun acc c => insertDeepC c acc) acc) (l'.foldl (fun acc c => insertDeep c acc) acc') := by
    induction hl with
    | nil => exact fun h => h
    | cons hc _ ih => exact fun h => ih (insertDeepC_rel hc h)
  exact this .nil

/-! ### The call -/

theorem shape_rel {a : CArg F T} {b : Arg F T} (h : RelArg I a b) : a.shape = shape b := by cases h <;> rfl

theorem get_rel {a : Option (CArg F T)} {b : Option (Arg F T)} (h : Option.Rel (RelArg I) a b) (k : Str) : Ends I (CArg.get a k) (look b k) := by
  cases h with
  | none => rfl
  | some h => cases h with
    | val x => rfl
    | sd c hg => exact hg k

def nth (n : ℕ) (s : CMerged F T) : List (CArg F T) := (List.range n).map fun i => (s.merged.get? (.pos i)).getD (.val .none)

theorem nth_rel {s : CMerged F T} {p : Merged F T} (h : RelMerged I s p) (n : ℕ) : List.Forall₂ (RelArg I) (nth n s) (splitArgs n p.merged).1 := by
  unfold nth splitArgs
  rw [List.forall₂_map_left_iff, List.forall₂_map_right_iff, List.forall₂_same]
  intro j _
  have := h.rel (.pos j)
  generalize s.merged.get? (.pos j) = x at this ⊢
  generalize p.merged.get? (.pos j) = y at this ⊢
  cases this with
  | none => exact .val _
  | some h => exact h

theorem shapes_rel {l : List (CArg F T)} {l' : List (Arg F T)} (h : List.Forall₂ (RelArg I) l l') : l.map CArg.shape = l'.map shape := by
  induction h with
  | nil => rfl
  | cons h _ ih => rw [List.map_cons, List.map_cons, shape_rel h, ih]

theorem forall₂_get {A B : Type} {R : A → B → Prop} {l : List A} {l' : List B} (h : List.Forall₂ R l l') (i : ℕ) : Option.Rel R l[i]? l'[i]? := by
  induction h generalizing i with
  | nil => simp
  | cons h _ ih =>
    cases i with
    | zero => exact .some h
    | succ i => simpa using ih i

theorem argAt_rel {s : CMerged F T} {p : Merged F T} (h : RelMerged I s p) (n : ℕ) (i : Idx) :
    Option.Rel (RelArg I) (argAt (nth n s) (fun k => s.merged.get? (.name k)) i) (argAt (splitArgs n p.merged).1 (splitArgs n p.merged).2 i) := by
  cases i with
  | name k => exact h.rel _
  | pos i => exact forall₂_get (nth_rel h n) i

theorem kshapes_rel {s : CMerged F T} {p : Merged F T} (h : RelMerged I s p) (n : ℕ) :
    (fun k => (s.merged.get? (.name k)).map CArg.shape) = fun k => ((splitArgs n p.merged).2 k).map shape := by
  funext k
  show _ = (p.merged.get? (.name k)).map shape
  have := h.rel (.name k)
  generalize s.merged.get? (.name k) = x at this ⊢
  generalize p.merged.get? (.name k) = y at this ⊢
  cases this with
  | none => rfl
  | some h => exact congrArg some (shape_rel h)

theorem finishC_none {src : Source F T} {body : Option (Body F T)} {cache : Option ℕ} {n : ℕ} {key : Str} {s : CMerged F T} (h : s.holder = none) :
    finishC src body cache n key s = match cache, body with
      | some c, some f => (f ((nth n s).map CArg.shape) (fun k => (s.merged.get? (.name k)).map CArg.shape) key).run c
          fun i => CArg.get (argAt (nth n s) (fun k => s.merged.get? (.name k)) i)
      | _, _ => runPlain (fun i => CArg.get (argAt (nth n s) (fun k => s.merged.get? (.name k)) i))
          (src.body ((nth n s).map CArg.shape) (fun k => (s.merged.get? (.name k)).map CArg.shape) key) := by
  unfold finishC
  rw [h]
  rfl

theorem finishC_ends {src : Source F T} {body : Option (Body F T)} {cache : Option ℕ} {n : ℕ} {key : Str} {s : CMerged F T} {p : Merged F T} (h : RelMerged I s p)
    (hb : ∀ c f, cache = some c → body = some f → p.holder = none → Harmless (I c) (fun i => look (argAt (splitArgs n p.merged).1 (splitArgs n p.merged).2 i))
      (f ((splitArgs n p.merged).1.map shape) (fun k => ((splitArgs n p.merged).2 k).map shape) key)
      ((impl src).run (splitArgs n p.merged).1 (splitArgs n p.merged).2 key)) :
    Ends I (finishC src body cache n key s) (finish (impl src) n key p) := by
  cases hh : p.holder with
  | some e =>
    unfold finishC finish
    rw [h.holder, hh]
    rfl
  | none =>
    rw [finishC_none (h.holder.trans hh)]
    unfold finish
    rw [hh, shapes_rel (nth_rel h n), kshapes_rel h n]
    have hg := fun i k => get_rel (argAt_rel h n i) k
    have plain : Ends I (runPlain (fun i => CArg.get (argAt (nth n s) (fun k => s.merged.get? (.name k)) i))
        (src.body ((splitArgs n p.merged).1.map shape) (fun k => ((splitArgs n p.merged).2 k).map shape) key))
        ((impl src).run (splitArgs n p.merged).1 (splitArgs n p.merged).2 key) := runPlain_ends hg _
    cases hc : cache with
    | none => exact plain
    | some c =>
      cases hf : body with
      | none => exact plain
      | some f => exact run_ends hg _ (hb c f hc hf hh)

theorem plainL_length (l : List (CVal F)) : (plainL l).length = l.length := by
  induction l with
  | nil => rw [plainL]; rfl
  | cons v l ih => rw [plainL, List.length_cons, ih, List.length_cons]

/-- What the loop leaves, if no argument fails, is what the function is called with. -/
theorem receiving_of {W : World F T} {m : Str} {args : List (Val F)} {kwargs : Dict Str (Val F)} (hn : kwargs.keys.Nodup) {key : Str} {s : Merged F T}
    (h : stepAll W.conv ((W.impl m).types.asDict (some args.length)) key ⟨none, []⟩ (deeperFirst (evalL W 0 args ++ evalK W kwargs)) = .ok s)
    (hh : s.holder = none) : Receiving W m args kwargs key (splitArgs args.length s.merged).1 (splitArgs args.length s.merged).2 := by
  have hp := deeperFirst_perm (evalL W 0 args ++ evalK W kwargs)
  have hnd : ((deeperFirst (evalL W 0 args ++ evalK W kwargs)).map (·.idx)).Nodup := (hp.map _).nodup_iff.2 (children_nodup W args kwargs hn)
  obtain ⟨_, h2, h3⟩ := Mem.stepAll_ok h hh hnd
  have get : ∀ idx v, ArgAt args kwargs idx v → ∃ a p, s.merged.get? idx = some a ∧ typeOf W m args.length idx = some p ∧ Receives W key p v a := by
    intro idx v hv
    obtain ⟨p, a, q1, q2, q3⟩ := h3 (childOf W idx v) (hp.mem_iff.2 ((mem_children hn).2 ⟨idx, v, hv, rfl⟩))
    refine ⟨a, p, q2, q1, ?_⟩
    cases p with
    | sd t => exact q3
    | val t => exact q3
  refine ⟨by simp [splitArgs], fun idx v hv => ?_, fun k hk => ?_⟩
  · obtain ⟨a, p, q1, q2, q3⟩ := get idx v hv
    refine ⟨a, p, ?_, q2, q3⟩
    cases idx with
    | name k => exact q1
    | pos i =>
      have hi : i < args.length := (List.getElem?_eq_some_iff.1 (hv : args[i]? = some v)).1
      simp only [argAt, splitArgs, List.getElem?_map, List.getElem?_range hi, Option.map_some, q1, Option.getD_some]
  · show s.merged.get? (.name k) = none
    rw [h2 (.name k)]
    · rfl
    · intro hm
      obtain ⟨c, hc, he⟩ := List.mem_map.1 hm
      obtain ⟨idx, v, hv, rfl⟩ := (mem_children hn).1 (hp.mem_iff.1 hc)
      obtain rfl : idx = .name k := he
      have hv : kwargs.get? k = some v := hv
      rw [hk] at hv
      cases hv

theorem any_rel {l : List (CChild F T)} {l' : List (Child F T)} (h : List.Forall₂ (RelChild I) l l') :
    l.any (fun c => c.depth.isNone) = l'.any (fun c => c.depth.isNone) := by
  induction h with
  | nil => rfl
  | cons h _ ih => rw [List.any_cons, List.any_cons, h.depth, ih]

variable {W : CWorld F T}

theorem visitKeys_rel {A B : Type} {R : A → B → Prop} {f : Str → Except Err A} {g : Str → Except Err B} (h : ∀ k, RelExc R (f k) (g k)) :
    ∀ ks : List Str, RelExc R (visitKeys f ks) (visitKeys g ks)
  | [] => rfl
  | [k] => by
    unfold visitKeys
    have := h k
    cases hf : f k <;> cases hg : g k <;> rw [hf, hg] at this
    · obtain rfl := this
      simp only
      split_ifs <;> rfl
    · exact this.elim
    · exact this.elim
    · exact this
  | k :: k' :: ks => by
    rw [visitKeys_two, visitKeys_two]
    have := h k
    cases hf : f k <;> cases hg : g k <;> rw [hf, hg] at this
    · obtain rfl := this
      simp only
      split_ifs
      · exact visitKeys_rel h (k' :: ks)
      · rfl
    · exact this.elim
    · exact this.elim
    · exact this

mutual
theorem evalC_ends (hA : Agrees W) : ∀ (r : CVal F), Fits W I r → ∀ key, Ends I (evalC W r key) (eval W.base r.plain key)
  | .leaf v, _, key => by
    rw [evalC, CVal.plain]
    rfl
  | .dict es c s, hf, key => by
    rw [evalC, CVal.plain, eval]
    have hr : ∀ k, RelExc (fun (a : Str → CProg (RVal F T) (Res F T)) (b : Str → Res F T) => ∀ k, Ends I (a k) (b k))
        (match Dict.get? (evalDC W es) k with | some f => .ok f | none => .error .key)
        (match Dict.get? (evalD W.base (plainK es)) k with | some f => .ok f | none => .error .key) := by
      intro k
      have := evalDC_ends hA es (by rw [Fits] at hf; exact hf) k
      generalize Dict.get? (evalDC W es) k = x at this ⊢
      generalize Dict.get? (evalD W.base (plainK es)) k = y at this ⊢
      cases this with
      | none => rfl
      | some h => exact h
    have hv : RelExc (fun (a : Str → CProg (RVal F T) (Res F T)) (b : Str → Res F T) => ∀ k, Ends I (a k) (b k))
        (visitSd W.base (fun k => match Dict.get? (evalDC W es) k with | some f => .ok f | none => .error .key) c key)
        (visitSd W.base (fun k => match Dict.get? (evalD W.base (plainK es)) k with | some f => .ok f | none => .error .key) c key) := by
      unfold visitSd
      cases c with
      | none => rfl
      | some c =>
        simp only
        cases W.base.configs c with
        | none => rfl
        | some cfg => exact visitKeys_rel hr _
    beta_reduce
    generalize visitSd W.base (fun k => match Dict.get? (evalDC W es) k with | some f => Except.ok f | none => .error .key) c key = x at hv ⊢
    generalize visitSd W.base (fun k => match Dict.get? (evalD W.base (plainK es)) k with | some f => Except.ok f | none => .error .key) c key = y at hv ⊢
    cases x <;> cases y
    · obtain rfl := hv
      rfl
    · exact hv.elim
    · exact hv.elim
    · exact hv key
  | .merge m args kwargs cache, hf, key => by
    rw [Fits] at hf
    obtain ⟨hn, hfa, hfk, hb⟩ := hf
    rw [evalC, CVal.plain, eval]
    unfold applyC applyMerge
    have hl : List.Forall₂ (RelChild I) (evalLC W 0 args ++ evalKC W kwargs) (evalL W.base 0 (plainL args) ++ evalK W.base (plainK kwargs)) :=
      List.rel_append (evalLC_ends hA args hfa 0) (evalKC_ends hA kwargs hfk)
    rw [any_rel hl, plainL_length]
    split_ifs
    · rfl
    · unfold applyOrdered
      have ht : (W.source m).types = (W.base.impl m).types := by rw [hA m]; rfl
      rw [ht]
      refine Safe.bind (stepAllC_safe _ _ key (deeperFirstC_rel hl) (s := ⟨none, []⟩) (p := ⟨none, []⟩) ⟨rfl, fun i => .none⟩) fun a ha => ?_
      cases hs : stepAll W.base.conv ((W.base.impl m).types.asDict (some args.length)) key ⟨none, []⟩
          (deeperFirst (evalL W.base 0 (plainL args) ++ evalK W.base (plainK kwargs))) with
      | error e =>
        rw [hs] at ha
        cases a with
        | error e' => exact congrArg Except.error ha
        | ok s => exact ha.elim
      | ok p =>
        rw [hs] at ha
        cases a with
        | error e' => exact ha.elim
        | ok s =>
          have hi : W.base.impl m = impl (W.source m) := hA m
          simp only
          rw [hi]
          refine finishC_ends ha fun c f hc hfm hh => ?_
          rw [← hi]
          have hs' := hs
          rw [← plainL_length args] at hs' ⊢
          exact hb c f hc hfm key _ _ (receiving_of hn hs' hh)
theorem evalDC_ends (hA : Agrees W) : ∀ (es : List (Str × CVal F)), FitsK W I es → ∀ k,
    Option.Rel (fun (a : Str → CProg (RVal F T) (Res F T)) (b : Str → Res F T) => ∀ k, Ends I (a k) (b k)) (Dict.get? (evalDC W es) k) (Dict.get? (evalD W.base (plainK es)) k)
  | [], _, k => by rw [evalDC, plainK, evalD]; exact .none
  | (k', v) :: es, hf, k => by
    rw [FitsK] at hf
    rw [evalDC, plainK, evalD, Dict.get?, Dict.get?]
    split_ifs
    · exact .some fun key => evalC_ends hA v hf.1 key
    · exact evalDC_ends hA es hf.2 k
theorem evalLC_ends (hA : Agrees W) : ∀ (l : List (CVal F)), FitsL W I l → ∀ i, List.Forall₂ (RelChild I) (evalLC W i l) (evalL W.base i (plainL l))
  | [], _, i => by rw [evalLC, plainL, evalL]; exact .nil
  | v :: l, hf, i => by
    rw [FitsL] at hf
    rw [evalLC, plainL, evalL]
    exact .cons ⟨rfl, rfl, rfl, fun k => evalC_ends hA v hf.1 k⟩ (evalLC_ends hA l hf.2 (i + 1))
theorem evalKC_ends (hA : Agrees W) : ∀ (l : List (Str × CVal F)), FitsK W I l → List.Forall₂ (RelChild I) (evalKC W l) (evalK W.base (plainK l))
  | [], _ => by rw [evalKC, plainK, evalK]; exact .nil
  | (k, v) :: l, hf => by
    rw [FitsK] at hf
    rw [evalKC, plainK, evalK]
    exact .cons ⟨rfl, rfl, rfl, fun key => evalC_ends hA v hf.1 key⟩ (evalKC_ends hA l hf.2)
end

theorem session_right (s : Session F T) (hA : Agrees s.world) (hf : Fits s.world I s.recipe) {σ : Store (RVal F T)} (hσ : Holds I σ) :
    Holds I (s.run σ).1 ∧ Right s (s.run σ).2 := by
  have hlen : (s.run σ).2.length = s.keys.length := by
    unfold Session.run
    rw [runPool_length, List.length_map]
  obtain ⟨h1, h2⟩ := runPool_safe (I := I) s.schedule (fun i x => ∀ key, s.keys[i]? = some key → x = eval s.world.base s.recipe.plain key) σ
    (s.keys.map (evalC s.world s.recipe)) hσ (by
      intro i p hp
      rw [List.getElem?_map] at hp
      obtain ⟨key, hk, rfl⟩ := Option.map_eq_some_iff.1 hp
      refine (evalC_ends hA s.recipe hf key).mono fun x hx key' hk' => ?_
      rw [hk] at hk'
      cases hk'
      exact hx)
  refine ⟨h1, hlen, fun i key x hk hx => ?_⟩
  exact h2 i _ hx key hk

theorem runAll_right (l : List (Session F T)) (h : ∀ s ∈ l, Agrees s.world ∧ Fits s.world I s.recipe) : ∀ {σ : Store (RVal F T)}, Holds I σ →
    Holds I (runAll l σ).1 ∧ List.Forall₂ Right l (runAll l σ).2 := by
  induction l with
  | nil => intro σ hσ; exact ⟨hσ, .nil⟩
  | cons s l ih =>
    intro σ hσ
    obtain ⟨h1, h2⟩ := session_right s (h s (by simp)).1 (h s (by simp)).2 hσ
    obtain ⟨h3, h4⟩ := ih (fun t ht => h t (by simp [ht])) h1
    exact ⟨h3, .cons h2 h4⟩

end Verif.Cached
