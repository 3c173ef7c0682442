import Verif.Spec.Cast
import Verif.Proofs.EvalArgs

/-!
# Casting inputs
-/
namespace Verif.Eval
open Method Recipe Config Spec
variable {F T : Type}

/-! ### The node made by `to` -/

def optVal (o : Option Str) : Val F := match o with | none => .none | some s => .str s

/-- `a.to(device=d, dtype=t)` -/
def castNode (a : Val F) (d t : Option Str) : Val F :=
  .merge nCast [a, .lit (optVal d) none paramSpace, .lit (optVal t) none paramSpace] []

theorem valueToNode_opt (E : Env F) (o : Option Str) : valueToNode E (optVal o) = .ok (.lit (optVal o) none paramSpace) := by
  cases o <;> rfl

theorem toNode_shape {W : World F T} {move} (hW : Builtin W move) {a r : Val F} (ha : a.isNode = true) {d t : Option Str}
    (h : toNode W.env a d t = .ok r) : r = castNode a d t := by
  have h' : createRecipe W.env nCast [a] [("device".toList, optVal d), ("dtype".toList, optVal t)] = .ok r := h
  obtain ⟨sig', bd, as, ks, sp, h1, h2, h3, h4, h5, rfl⟩ := Serialize.createRecipe_ok.1 h'
  rw [hW.sigCast] at h1
  cases h1
  rw [bind_cast] at h2
  cases h2
  have h3' : valuesToNodes W.env [a, optVal d, optVal t] = .ok [a, .lit (optVal d) none paramSpace, .lit (optVal t) none paramSpace] := by
    unfold valuesToNodes valuesToNodes valuesToNodes valuesToNodes
    rw [Serialize.valueToNode_node ha, valueToNode_opt, valueToNode_opt]
    rfl
  rw [h3'] at h3
  cases h3
  have h4' : valuesToNodesK W.env ([] : List (Str × Val F)) = .ok [] := rfl
  rw [h4'] at h4
  cases h4
  rfl

/-- What `cast` makes of the value of its first argument -/
def castLeaf (C : Conv F T) (move : T → Except Err T) (r : Res F T) : Res F T :=
  match r with
  | .error e => .error e
  | .ok v =>
    match castTo C .tensor v with
    | .error e => .error e
    | .ok (.tensor x) => (move x).map RVal.tensor
    | .ok _ => .error .attribute

theorem arg3 {a b c v : Val F} {idx : Idx} (h : ArgAt [a, b, c] [] idx v) :
    (idx = .pos 0 ∧ v = a) ∨ (idx = .pos 1 ∧ v = b) ∨ (idx = .pos 2 ∧ v = c) := by
  cases idx with
  | name k => cases h
  | pos i =>
    have h' : [a, b, c][i]? = some v := h
    match i, h' with
    | 0, h' => left; simp at h'; exact ⟨rfl, h'.symm⟩
    | 1, h' => right; left; simp at h'; exact ⟨rfl, h'.symm⟩
    | 2, h' => right; right; simp at h'; exact ⟨rfl, h'.symm⟩
    | i + 3, h' => simp at h'

def optR (o : Option Str) : RVal F T := match o with | none => .none | some s => .str s

theorem eval_opt (W : World F T) (o : Option Str) (c : Option Str) (s : Str) (key : Str) :
    eval W (.lit (optVal o) c s) key = .ok (optR o) := by
  cases o <;> simp [optVal, optR, eval]

theorem castRun_opt (W : World F T) (o : Option Str) (c : Option Str) (s : Str) (key : Str) :
    castRun W.conv .str (eval W (.lit (optVal o) c s)) key = .ok (optR o) := by
  unfold castRun
  rw [eval_opt]
  cases o <;> simp [optR, castTo, RVal.isInstance]

theorem typeOf_cast {W : World F T} {move} (hW : Builtin W move) :
    typeOf W nCast 3 (.pos 0) = some (.val .tensor) ∧ typeOf W nCast 3 (.pos 1) = some (.val .str) ∧
      typeOf W nCast 3 (.pos 2) = some (.val .str) := by
  unfold typeOf
  rw [hW.implCast]
  exact ⟨rfl, rfl, rfl⟩

theorem call_cast {W : World F T} {move} (hW : Builtin W move) {a : Val F} (ha : Proper a) (d t : Option Str) :
    Call W nCast [a, .lit (optVal d) none paramSpace, .lit (optVal t) none paramSpace] [] := by
  obtain ⟨t0, t1, t2⟩ := typeOf_cast hW
  refine ⟨by simp [Dict.keys], ?_, ?_⟩
  · intro idx v h
    rcases arg3 h with ⟨_, rfl⟩ | ⟨_, rfl⟩ | ⟨_, rfl⟩
    · exact ha
    · simp [Proper]
    · simp [Proper]
  · intro idx v h
    rcases arg3 h with ⟨rfl, _⟩ | ⟨rfl, _⟩ | ⟨rfl, _⟩
    · simp only [List.length_cons, List.length_nil]; rw [t0]; rfl
    · simp only [List.length_cons, List.length_nil]; rw [t1]; rfl
    · simp only [List.length_cons, List.length_nil]; rw [t2]; rfl

theorem eval_castNode {W : World F T} {move} (hW : Builtin W move) {a : Val F} (ha : Proper a) {d t : Option Str}
    (ht : ∀ s, t = some s → s ∈ dtypeNames) (key : Str) :
    eval W (castNode a d t) key = castLeaf W.conv (move d t) (eval W a key) := by
  have hc := call_cast hW ha d t
  obtain ⟨t0, t1, t2⟩ := typeOf_cast hW
  unfold castNode
  have hleaf : castLeaf W.conv (move d t) (eval W a key) =
      match castRun W.conv .tensor (eval W a) key with
      | .error e => .error e
      | .ok (.tensor x) => (move d t x).map RVal.tensor
      | .ok _ => .error .attribute := by
    unfold castLeaf castRun
    cases eval W a key <;> rfl
  rw [hleaf]
  cases hr : castRun W.conv .tensor (eval W a) key with
  | error e =>
    obtain ⟨e', ⟨idx, v, ty, h1, h2, h3⟩, h4⟩ := eval_fails (key := key) hc ⟨e, .pos 0, a, .tensor, rfl, t0, hr⟩
    rw [h4]
    rcases arg3 h1 with ⟨rfl, rfl⟩ | ⟨rfl, rfl⟩ | ⟨rfl, rfl⟩
    · have h2' : typeOf W nCast 3 (.pos 0) = some (.val ty) := h2
      rw [t0] at h2'; cases h2'
      rw [hr] at h3; cases h3; rfl
    · have h2' : typeOf W nCast 3 (.pos 1) = some (.val ty) := h2
      rw [t1] at h2'; cases h2'
      rw [castRun_opt] at h3; cases h3
    · have h2' : typeOf W nCast 3 (.pos 2) = some (.val ty) := h2
      rw [t2] at h2'; cases h2'
      rw [castRun_opt] at h3; cases h3
  | ok x =>
    have hok : ¬ ∃ e, Fails W nCast [a, .lit (optVal d) none paramSpace, .lit (optVal t) none paramSpace] [] key e := by
      rintro ⟨e, idx, v, ty, h1, h2, h3⟩
      rcases arg3 h1 with ⟨rfl, rfl⟩ | ⟨rfl, rfl⟩ | ⟨rfl, rfl⟩
      · have h2' : typeOf W nCast 3 (.pos 0) = some (.val ty) := h2
        rw [t0] at h2'; cases h2'
        rw [hr] at h3; cases h3
      · have h2' : typeOf W nCast 3 (.pos 1) = some (.val ty) := h2
        rw [t1] at h2'; cases h2'
        rw [castRun_opt] at h3; cases h3
      · have h2' : typeOf W nCast 3 (.pos 2) = some (.val ty) := h2
        rw [t2] at h2'; cases h2'
        rw [castRun_opt] at h3; cases h3
    obtain ⟨as, ks, hl, ha1, _, _, happ⟩ := apply_ok hc hok (deeperFirst_perm _)
    rw [applyMerge_eq hc, happ, hW.implCast]
    obtain ⟨p0, a0, h1, h2, h3⟩ := ha1 0 a rfl
    obtain ⟨p1, a1, h4, h5, h6⟩ := ha1 1 _ rfl
    obtain ⟨p2, a2, h7, h8, h9⟩ := ha1 2 _ rfl
    have h1' : typeOf W nCast 3 (.pos 0) = some p0 := h1
    have h4' : typeOf W nCast 3 (.pos 1) = some p1 := h4
    have h7' : typeOf W nCast 3 (.pos 2) = some p2 := h7
    rw [t0] at h1'; cases h1'
    rw [t1] at h4'; cases h4'
    rw [t2] at h7'; cases h7'
    obtain ⟨x0, h3, rfl⟩ := h3
    obtain ⟨x1, h6, rfl⟩ := h6
    obtain ⟨x2, h9, rfl⟩ := h9
    rw [castRun_opt] at h6 h9
    rw [hr] at h3
    cases h3
    cases h6
    cases h9
    have has : as = [.val x, .val (optR d), .val (optR t)] := by
      match as, hl, h2, h5, h8 with
      | [b0, b1, b2], _, h2, h5, h8 =>
        simp only [List.getElem?_cons_zero, List.getElem?_cons_succ, Option.some.injEq] at h2 h5 h8
        rw [h2, h5, h8]
    rw [has]
    have hd : deviceArg (optR (F := F) (T := T) d) = .ok d := by cases d <;> rfl
    have htt : dtypeArg (optR (F := F) (T := T) t) = .ok t := by
      cases t with
      | none => rfl
      | some s => simp only [optR, dtypeArg, ht s rfl, if_true]
    simp only [castImpl, hd, htt]
    cases x <;> rfl

theorem config_castNode {W : World F T} {move} (hW : Builtin W move) (a : Val F) (d t : Option Str) :
    (castNode a d t).config W.env = a.config W.env := by
  unfold castNode
  rw [Val.config, hW.sigCast]
  simp only [configL, configK, Val.config]
  cases h : a.config W.env with
  | error e => rfl
  | ok c => cases c <;> rfl

theorem proper_castNode {a : Val F} (ha : Proper a) (d t : Option Str) : Proper (castNode a d t) := by
  unfold castNode
  simp [Proper, ProperL, ProperK, ha]

/-! ### Merge nodes with equivalent arguments -/

/-- `v` in `W` behaves as `w` in `W'`. -/
structure Same (W W' : World F T) (v w : Val F) : Prop where
  run : ∀ key, eval W v key = eval W' w key
  config : configOf W v = configOf W' w
  proper : Proper w → Proper v

structure SameWorld (W W' : World F T) : Prop where
  conv : W.conv = W'.conv
  impl : W.impl = W'.impl

variable {W W' : World F T}

theorem sameK_get {kwargs kwargs' : List (Str × Val F)} (h : List.Forall₂ (fun p q => p.1 = q.1 ∧ Same W W' p.2 q.2) kwargs kwargs') (k : Str) :
    (Dict.get? kwargs k = none ∧ Dict.get? kwargs' k = none) ∨
      ∃ v w, Dict.get? kwargs k = some v ∧ Dict.get? kwargs' k = some w ∧ Same W W' v w := by
  induction h with
  | nil => left; exact ⟨rfl, rfl⟩
  | @cons p q l l' h _ ih =>
    obtain ⟨k1, v⟩ := p
    obtain ⟨k2, w⟩ := q
    obtain ⟨h1, h2⟩ := h
    simp only at h1 h2
    subst h1
    by_cases hk : k1 = k
    · right
      exact ⟨v, w, by simp [Dict.get?, hk], by simp [Dict.get?, hk], h2⟩
    · simp only [Dict.get?, hk, if_false]
      exact ih

theorem sameK_keys {kwargs kwargs' : List (Str × Val F)} (h : List.Forall₂ (fun p q => p.1 = q.1 ∧ Same W W' p.2 q.2) kwargs kwargs') :
    Dict.keys kwargs = Dict.keys kwargs' := by
  induction h with
  | nil => rfl
  | cons h _ ih => unfold Dict.keys at *; simp [h.1, ih]

theorem sameL_get {args args' : List (Val F)} (h : List.Forall₂ (Same W W') args args') (i : ℕ) :
    (args[i]? = none ∧ args'[i]? = none) ∨ ∃ v w, args[i]? = some v ∧ args'[i]? = some w ∧ Same W W' v w := by
  induction h generalizing i with
  | nil => left; simp
  | cons h _ ih =>
    cases i with
    | zero => right; exact ⟨_, _, rfl, rfl, h⟩
    | succ i => simpa using ih i

theorem same_arg {args args' : List (Val F)} {kwargs kwargs' : Dict Str (Val F)} (h : List.Forall₂ (Same W W') args args')
    (hk : List.Forall₂ (fun p q => p.1 = q.1 ∧ Same W W' p.2 q.2) kwargs kwargs') {idx : Idx} {v : Val F} (hv : ArgAt args kwargs idx v) :
    ∃ w, ArgAt args' kwargs' idx w ∧ Same W W' v w := by
  cases idx with
  | pos i =>
    have hv : args[i]? = some v := hv
    rcases sameL_get h i with ⟨h1, _⟩ | ⟨v', w, h1, h2, h3⟩
    · rw [hv] at h1; cases h1
    · rw [hv] at h1; cases h1
      exact ⟨w, h2, h3⟩
  | name k =>
    have hv : kwargs.get? k = some v := hv
    rcases sameK_get hk k with ⟨h1, _⟩ | ⟨v', w, h1, h2, h3⟩
    · rw [hv] at h1; cases h1
    · rw [hv] at h1; cases h1
      exact ⟨w, h2, h3⟩

theorem same_arg' {args args' : List (Val F)} {kwargs kwargs' : Dict Str (Val F)} (h : List.Forall₂ (Same W W') args args')
    (hk : List.Forall₂ (fun p q => p.1 = q.1 ∧ Same W W' p.2 q.2) kwargs kwargs') {idx : Idx} {w : Val F} (hw : ArgAt args' kwargs' idx w) :
    ∃ v, ArgAt args kwargs idx v ∧ Same W W' v w := by
  cases idx with
  | pos i =>
    have hw : args'[i]? = some w := hw
    rcases sameL_get h i with ⟨_, h1⟩ | ⟨v', w, h1, h2, h3⟩
    · rw [hw] at h1; cases h1
    · rw [hw] at h2; cases h2
      exact ⟨v', h1, h3⟩
  | name k =>
    have hw : kwargs'.get? k = some w := hw
    rcases sameK_get hk k with ⟨_, h1⟩ | ⟨v', w, h1, h2, h3⟩
    · rw [hw] at h1; cases h1
    · rw [hw] at h2; cases h2
      exact ⟨v', h1, h3⟩

theorem same_castRun (hw : SameWorld W W') {v w : Val F} (h : Same W W' v w) (t : Ty) (key : Str) :
    castRun W.conv t (eval W v) key = castRun W'.conv t (eval W' w) key := by
  unfold castRun
  rw [h.run key, hw.conv]

theorem receives_unique (hw : SameWorld W W') {v w : Val F} (h : Same W W' v w) {p : PTy} {key : Str} {a b : Arg F T}
    (ha : Receives W key p v a) (hb : Receives W' key p w b) : a = b := by
  cases p with
  | sd t =>
    have ha : a = _ := ha
    have hb : b = _ := hb
    rw [ha, hb, h.config]
    congr 1
    funext k
    exact same_castRun hw h t k
  | val t =>
    obtain ⟨x, h1, rfl⟩ := ha
    obtain ⟨y, h2, rfl⟩ := hb
    rw [same_castRun hw h, h2] at h1
    cases h1
    rfl

theorem eval_same (hw : SameWorld W W') {m : Str} {args args' : List (Val F)} {kwargs kwargs' : Dict Str (Val F)} (h : List.Forall₂ (Same W W') args args')
    (hk : List.Forall₂ (fun p q => p.1 = q.1 ∧ Same W W' p.2 q.2) kwargs kwargs') (hc : Call W' m args' kwargs')
    (ho : OneError W' m args' kwargs') (key : Str) :
    eval W (.merge m args kwargs) key = eval W' (.merge m args' kwargs') key := by
  have hlen := h.length_eq
  have htype : ∀ idx, typeOf W m args.length idx = typeOf W' m args'.length idx := by
    intro idx; unfold typeOf; rw [hw.impl, hlen]
  have hcW : Call W m args kwargs := by
    refine ⟨by rw [sameK_keys hk]; exact hc.names, ?_, ?_⟩
    · intro idx v hv
      obtain ⟨w, h1, h2⟩ := same_arg h hk hv
      exact h2.proper (hc.proper idx w h1)
    · intro idx v hv
      obtain ⟨w, h1, h2⟩ := same_arg h hk hv
      rw [htype]
      exact hc.typed idx w h1
  have hfail : ∀ e, Fails W m args kwargs key e ↔ Fails W' m args' kwargs' key e := by
    intro e
    constructor
    · rintro ⟨idx, v, t, h1, h2, h3⟩
      obtain ⟨w, h4, h5⟩ := same_arg h hk h1
      exact ⟨idx, w, t, h4, by rw [← htype]; exact h2, by rw [← same_castRun hw h5]; exact h3⟩
    · rintro ⟨idx, w, t, h1, h2, h3⟩
      obtain ⟨v, h4, h5⟩ := same_arg' h hk h1
      exact ⟨idx, v, t, h4, by rw [htype]; exact h2, by rw [same_castRun hw h5]; exact h3⟩
  by_cases hf : ∃ e, Fails W m args kwargs key e
  · obtain ⟨e1, h1, h2⟩ := eval_fails hcW hf
    obtain ⟨e0, h0⟩ := hf
    obtain ⟨e2, h3, h4⟩ := eval_fails hc ⟨e0, (hfail e0).1 h0⟩
    rw [h2, h4, ho key e1 e2 ((hfail e1).1 h1) h3]
  · have hf' : ¬ ∃ e, Fails W' m args' kwargs' key e := by
      rintro ⟨e, he⟩; exact hf ⟨e, (hfail e).2 he⟩
    obtain ⟨as, ks, l1, a1, k1, n1, r1⟩ := apply_ok hcW hf (deeperFirst_perm _)
    obtain ⟨as', ks', l2, a2, k2, n2, r2⟩ := apply_ok hc hf' (deeperFirst_perm _)
    rw [applyMerge_eq hcW, applyMerge_eq hc, r1, r2, hw.impl]
    have has : as = as' := by
      apply List.ext_getElem?
      intro i
      rcases sameL_get h i with ⟨h1, h2⟩ | ⟨v, w, h1, h2, h3⟩
      · have e1 : as[i]? = none := by rw [List.getElem?_eq_none_iff] at h1 ⊢; omega
        have e2 : as'[i]? = none := by rw [List.getElem?_eq_none_iff] at h2 ⊢; omega
        rw [e1, e2]
      · obtain ⟨p, a, t1, g1, rc1⟩ := a1 i v h1
        obtain ⟨q, b, t2, g2, rc2⟩ := a2 i w h2
        rw [htype, t2] at t1
        cases t1
        rw [g1, g2, receives_unique hw h3 rc1 rc2]
    have hks : ks = ks' := by
      funext k
      rcases sameK_get hk k with ⟨h1, h2⟩ | ⟨v, w, h1, h2, h3⟩
      · rw [n1 k h1, n2 k h2]
      · obtain ⟨p, a, t1, g1, rc1⟩ := k1 k v h1
        obtain ⟨q, b, t2, g2, rc2⟩ := k2 k w h2
        rw [htype, t2] at t1
        cases t1
        rw [g1, g2, receives_unique hw h3 rc1 rc2]
    rw [has, hks]

end Verif.Eval
