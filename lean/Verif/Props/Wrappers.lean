import Verif.Proofs.Wrappers
import Verif.Props.Eval
import Mathlib.Algebra.Ring.Basic

/-!
# Properties of recipe operators and wrapper functions (C62, C64)
-/
namespace Verif.Wrappers
open Method Recipe Eval Eval.Spec
variable {F : Type} {E : Env F} {fl : Floats F}

/-- What `o` stands for is the node `n` in merge space `s`. -/
structure Stands (E : Env F) (o : Operand F) (n : Val F) (s : Str) : Prop where
  node : operand E o = .ok n
  has : Has E n s

theorem Has.stands {n : Val F} {s : Str} (h : Has E n s) : Stands E (.value n) n s := ⟨operand_node h, h⟩

/-- The literal `1.0` as a node -/
def one (fl : Floats F) : Val F := .lit (.float (fl "1.0")) none paramSpace

theorem weight_ne_delta : weight ≠ delta := by decide

/-! ## C64 -/

/-- **C64.**  `a + b` succeeds exactly if one of the two is a weight and the other a delta; it adds the delta to the weight, on
whichever side it stands, and gives a weight. -/
theorem C64_add (R : Registered E fl) {a n : Val F} {b : Operand F} {sa sb : Str} (ha : Has E a sa) (hb : Stands E b n sb) :
    (sa = weight → sb = delta → addNode E a b = .ok (.merge nAdd [a, n, one fl] []) ∧ Has E (.merge nAdd [a, n, one fl] []) weight) ∧
    (sa = delta → sb = weight → addNode E a b = .ok (.merge nAdd [n, a, one fl] []) ∧ Has E (.merge nAdd [n, a, one fl] []) weight) ∧
    (¬ (sa = weight ∧ sb = delta) → ¬ (sa = delta ∧ sb = weight) → addNode E a b = .error .type) := by
  have hadd : addNode E a b = if sb = weight then createRecipe E nAdd [n, a] [] else createRecipe E nAdd [a, n] [] := by
    unfold addNode
    rw [hb.node]
    simp only [Bind.bind, Except.bind, hb.has.space, Option.some.injEq]
  rw [hadd]
  refine ⟨?_, ?_, ?_⟩
  · rintro rfl rfl
    rw [if_neg weight_ne_delta.symm, add_eq R ha.gives hb.has.gives]
    exact ⟨if_pos ⟨rfl, rfl⟩, add_has R ha hb.has (gives_scalar rfl).has⟩
  · rintro rfl rfl
    rw [if_pos rfl, add_eq R hb.has.gives ha.gives]
    exact ⟨if_pos ⟨rfl, rfl⟩, add_has R hb.has ha (gives_scalar rfl).has⟩
  · intro h1 h2
    split
    · rename_i h
      rw [add_eq R hb.has.gives ha.gives]
      exact if_neg fun h' => h2 ⟨h'.2, h⟩
    · rw [add_eq R ha.gives hb.has.gives]
      exact if_neg h1

/-- **C64.**  `+` is commutative, errors included; so is adding a value from the left (`__radd__`). -/
theorem C64_commutative (R : Registered E fl) {a b : Val F} {sa sb : Str} (ha : Has E a sa) (hb : Has E b sb) :
    addNode E a (.value b) = addNode E b (.value a) ∧ raddNode E a (.value b) = addNode E a (.value b) := by
  obtain ⟨h1, h2, h3⟩ := C64_add R ha hb.stands
  obtain ⟨h1', h2', h3'⟩ := C64_add R hb ha.stands
  have hc : addNode E a (.value b) = addNode E b (.value a) := by
    by_cases c1 : sa = weight ∧ sb = delta
    · rw [(h1 c1.1 c1.2).1, (h2' c1.2 c1.1).1]
    · by_cases c2 : sa = delta ∧ sb = weight
      · rw [(h2 c2.1 c2.2).1, (h1' c2.2 c2.1).1]
      · rw [h3 c1 c2, h3' (fun h => c2 ⟨h.2, h.1⟩) (fun h => c1 ⟨h.2, h.1⟩)]
  refine ⟨hc, ?_⟩
  unfold raddNode
  rw [operand_node hb, hc]; rfl

/-- **C64.**  `a - b` succeeds exactly if both are weights and gives a delta; so does subtracting from a value (`__rsub__`). -/
theorem C64_sub (R : Registered E fl) {a n : Val F} {b : Operand F} {sa sb : Str} (ha : Has E a sa) (hb : Stands E b n sb) :
    (sa = weight → sb = weight → subNode E a b = .ok (.merge nSub [a, n] []) ∧ Has E (.merge nSub [a, n] []) delta ∧
      rsubNode E a b = .ok (.merge nSub [n, a] []) ∧ Has E (.merge nSub [n, a] []) delta) ∧
    (¬ (sa = weight ∧ sb = weight) → subNode E a b = .error .type ∧ rsubNode E a b = .error .type) := by
  have hsub : subNode E a b = typed (sa = weight ∧ sb = weight) (.merge nSub [a, n] []) := by
    unfold subNode
    rw [hb.node]
    exact sub_eq R ha.gives hb.has.gives
  have hrsub : rsubNode E a b = typed (sb = weight ∧ sa = weight) (.merge nSub [n, a] []) := by
    unfold rsubNode
    rw [hb.node]
    show subNode E n (.value a) = _
    unfold subNode
    rw [operand_node ha]
    exact sub_eq R hb.has.gives ha.gives
  rw [hsub, hrsub]
  refine ⟨?_, fun h => ⟨if_neg h, if_neg fun h' => h ⟨h'.2, h'.1⟩⟩⟩
  rintro rfl rfl
  exact ⟨if_pos ⟨rfl, rfl⟩, sub_has R ha hb.has, if_pos ⟨rfl, rfl⟩, sub_has R hb.has ha⟩

/-- **C64, where operators fail.**  A path or an empty mapping is never accepted as an operand, although the annotations allow it. -/
theorem C64_path_false (a : Val F) (p : Str) :
    addNode E a (.path p) = .error .type ∧ raddNode E a (.path p) = .error .type ∧ subNode E a (.path p) = .error .type ∧
    rsubNode E a (.path p) = .error .type ∧ addNode E a (.value (.dict [])) = .error .stopIteration ∧
    subNode E a (.value (.dict [])) = .error .stopIteration := ⟨rfl, rfl, rfl, rfl, rfl, rfl⟩

/-! ### Values -/

/-- The methods behind the operators compute with tensors of one shape, on which `+`, `-` and `*` act entry by entry. -/
structure Computes {T : Type} [Ring T] (W : World F T) (fl : Floats F) : Prop where
  reg : Registered W.env fl
  add : W.impl nAdd = addDifferenceImpl fun x y t => x + y * t
  sub : W.impl nSub = subtractImpl fun x y => x - y
  one : W.conv.toTensor (.float (fl "1.0")) = .ok 1

variable {T : Type} [Ring T] {W : World F T}

theorem call_nodup_nil : (Dict.keys ([] : Dict Str (Val F))).Nodup := by simp [Dict.keys]

theorem eval_sub (hW : Computes W fl) {a b : Val F} (ha : Proper a) (hb : Proper b) {key : Str} {x y : T}
    (hx : eval W a key = .ok (.tensor x)) (hy : eval W b key = .ok (.tensor y)) :
    eval W (.merge nSub [a, b] []) key = .ok (.tensor (x - y)) := by
  have ht : ∀ i, typeOf W nSub 2 (.pos i) = [PTy.val .tensor, .val .tensor][i]? := by
    intro i
    unfold typeOf; rw [hW.sub]
    match i with
    | 0 => rfl
    | 1 => rfl
    | i + 2 => simp [subtractImpl, FunctionArgs.asDict, FunctionArgs.argsVarargs, List.mapIdx_cons, Dict.get?]
  have hcast : ∀ v, eval W v key = .ok (.tensor x) ∨ eval W v key = .ok (.tensor y) →
      castRun W.conv .tensor (eval W v) key = eval W v key := by
    rintro v (h | h) <;> · unfold castRun; rw [h]; rfl
  have hc : Call W nSub [a, b] [] := call_of_two hW.sub rfl ha hb
  obtain ⟨⟨as, ks, hl, hpos, _, _, he⟩, _⟩ := C35_order nSub [a, b] [] hc key (by
    rintro ⟨e, idx, v, t, hat, hty, hf⟩
    cases idx with
    | name k => cases hat
    | pos i =>
      have hty' : [PTy.val Ty.tensor, .val .tensor][i]? = some (.val t) := by rw [← ht]; exact hty
      have hat' : [a, b][i]? = some v := hat
      match i, hty', hat' with
      | 0, h1, h2 => cases h1; cases h2; rw [hcast _ (.inl hx), hx] at hf; cases hf
      | 1, h1, h2 => cases h1; cases h2; rw [hcast _ (.inr hy), hy] at hf; cases hf)
  rw [he, hW.sub]
  match as, hl with
  | [u, v], _ =>
    obtain ⟨p, a', h1, h2, h3⟩ := hpos 0 a rfl
    obtain ⟨p', a'', h1', h2', h3'⟩ := hpos 1 b rfl
    rw [show [a, b].length = 2 from rfl, ht] at h1 h1'
    cases h1; cases h1'; cases h2; cases h2'
    obtain ⟨z, hz, rfl⟩ := h3
    obtain ⟨z', hz', rfl⟩ := h3'
    rw [hcast _ (.inl hx), hx] at hz
    rw [hcast _ (.inr hy), hy] at hz'
    cases hz; cases hz'
    rfl

theorem eval_add (hW : Computes W fl) {a b : Val F} (ha : Proper a) (hb : Proper b) (key : Str) :
    (∀ e, eval W b key = .error e → eval W (.merge nAdd [a, b, one fl] []) key = .error e) ∧
    (∀ y, eval W b key = .ok (.tensor y) → (∀ e, eval W a key = .error e → eval W (.merge nAdd [a, b, one fl] []) key = .error e) ∧
      ∀ x, eval W a key = .ok (.tensor x) → eval W (.merge nAdd [a, b, one fl] []) key = .ok (.tensor (x + y))) := by
  have ht : ∀ i, typeOf W nAdd 3 (.pos i) = [PTy.sd .tensor, .sd .tensor, .val .tensor][i]? := by
    intro i
    unfold typeOf; rw [hW.add]
    match i with
    | 0 => rfl
    | 1 => rfl
    | 2 => rfl
    | i + 3 => simp [addDifferenceImpl, FunctionArgs.asDict, FunctionArgs.argsVarargs, List.mapIdx_cons, Dict.get?]
  have hone : castRun W.conv .tensor (eval W (one fl)) key = .ok (.tensor 1) := by
    have e1 : eval W (one fl) key = .ok (.float (fl "1.0")) := by unfold one; simp [eval]
    unfold castRun; rw [e1]
    show castTo W.conv .tensor (.float (fl "1.0")) = _
    unfold castTo
    simp [RVal.isInstance, hW.one, Except.map]
  have hc : Call W nAdd [a, b, one fl] [] := by
    refine ⟨call_nodup_nil, ?_, ?_⟩
    · intro idx v h
      cases idx with
      | name k => cases h
      | pos i =>
        have h' : [a, b, one fl][i]? = some v := h
        match i, h' with
        | 0, h => cases h; exact ha
        | 1, h => cases h; exact hb
        | 2, h => cases h; trivial
    · intro idx v h
      cases idx with
      | name k => cases h
      | pos i =>
        have h' : [a, b, one fl][i]? = some v := h
        show (typeOf W nAdd 3 (.pos i)).isSome
        rw [ht]
        match i, h' with
        | 0, h => rfl
        | 1, h => rfl
        | 2, h => rfl
  obtain ⟨⟨as, ks, hl, hpos, _, _, he⟩, _⟩ := C35_order nAdd [a, b, one fl] [] hc key (by
    rintro ⟨e, idx, v, t, hat, hty, hf⟩
    cases idx with
    | name k => cases hat
    | pos i =>
      have hty' : [PTy.sd Ty.tensor, .sd .tensor, .val .tensor][i]? = some (.val t) := by rw [← ht]; exact hty
      have hat' : [a, b, one fl][i]? = some v := hat
      match i, hty', hat' with
      | 0, h1, _ => cases h1
      | 1, h1, _ => cases h1
      | 2, h1, h2 => cases h1; cases h2; rw [hone] at hf; cases hf)
  rw [he, hW.add]
  match as, hl with
  | [u, v, w], _ =>
    obtain ⟨p, a', h1, h2, h3⟩ := hpos 0 a rfl
    obtain ⟨p', a'', h1', h2', h3'⟩ := hpos 1 b rfl
    obtain ⟨p'', a''', h1'', h2'', h3''⟩ := hpos 2 (one fl) rfl
    rw [show [a, b, one fl].length = 3 from rfl, ht] at h1 h1' h1''
    cases h1; cases h1'; cases h1''; cases h2; cases h2'; cases h2''
    obtain ⟨z, hz, rfl⟩ := h3''
    rw [hone] at hz
    cases hz
    have e3 : u = .sd (castRun W.conv .tensor (eval W a)) (configOf W a) := h3
    have e4 : v = .sd (castRun W.conv .tensor (eval W b)) (configOf W b) := h3'
    subst e3; subst e4
    have hcast : ∀ (v : Val F) (r : Res F T), (∀ z, r = .ok z → ∃ t, z = .tensor t) → eval W v key = r →
        castRun W.conv .tensor (eval W v) key = r := by
      intro v r hr h
      unfold castRun
      rw [h]
      cases r with
      | error e => rfl
      | ok z => obtain ⟨t, rfl⟩ := hr z rfl; rfl
    simp only [addDifferenceImpl]
    refine ⟨?_, ?_⟩
    · intro e hb
      rw [hcast b _ (by simp) hb]
    · intro y hy
      rw [hcast b _ (fun z hz => ⟨y, (Except.ok.inj hz).symm⟩) hy]
      refine ⟨?_, ?_⟩
      · intro e ha
        simp only
        rw [hcast a _ (by simp) ha]
      · intro x hx
        simp only
        rw [hcast a _ (fun z hz => ⟨x, (Except.ok.inj hz).symm⟩) hx]
        simp

/-- **C64.**  The value of `a + b` is the sum of the values, whichever side the delta stands on; where one of the two lacks a key or
fails, so does the sum. -/
theorem C64_add_value (hW : Computes W fl) {a b r : Val F} {sa sb : Str} (ha : Has W.env a sa) (hb : Has W.env b sb) (pa : Proper a)
    (pb : Proper b) (hr : addNode W.env a (.value b) = .ok r) (key : Str) :
    (∀ x y, eval W a key = .ok (.tensor x) → eval W b key = .ok (.tensor y) → eval W r key = .ok (.tensor (x + y))) ∧
    (∀ e, eval W b key = .error e → (∃ e', eval W a key = .error e') ∨ (∃ x, eval W a key = .ok (.tensor x)) → ∃ e', eval W r key = .error e' ∧
      (eval W a key = .error e' ∨ eval W b key = .error e')) ∧
    (∀ e y, eval W b key = .ok (.tensor y) → eval W a key = .error e → eval W r key = .error e) := by
  obtain ⟨h1, h2, h3⟩ := C64_add hW.reg ha hb.stands
  by_cases c1 : sa = weight ∧ sb = delta
  · rw [(h1 c1.1 c1.2).1] at hr
    cases hr
    obtain ⟨v1, v2⟩ := eval_add hW pa pb key
    exact ⟨fun x y hx hy => (v2 y hy).2 x hx, fun e he _ => ⟨e, v1 e he, .inr he⟩, fun e y hy he => (v2 y hy).1 e he⟩
  · by_cases c2 : sa = delta ∧ sb = weight
    · rw [(h2 c2.1 c2.2).1] at hr
      cases hr
      obtain ⟨v1, v2⟩ := eval_add hW pb pa key
      refine ⟨fun x y hx hy => by rw [(v2 x hx).2 y hy, add_comm], ?_, fun e y hy he => v1 e he⟩
      rintro e he (⟨e', ha'⟩ | ⟨x, ha'⟩)
      · exact ⟨e', v1 e' ha', .inl ha'⟩
      · exact ⟨e, (v2 x ha').1 e he, .inr he⟩
    · rw [h3 c1 c2] at hr; cases hr

/-- **C64.**  `b + (a - b)` is `a`: the task vector of `a` relative to `b`, added to `b`. -/
theorem C64_task_vector (hW : Computes W fl) {a b d r : Val F} (ha : Has W.env a weight) (hb : Has W.env b weight) (pa : Proper a)
    (pb : Proper b) (hd : subNode W.env a (.value b) = .ok d) (hr : addNode W.env b (.value d) = .ok r) (key : Str) (x y : T)
    (hx : eval W a key = .ok (.tensor x)) (hy : eval W b key = .ok (.tensor y)) :
    eval W d key = .ok (.tensor (x - y)) ∧ eval W r key = .ok (.tensor x) := by
  obtain ⟨e1, hh, _⟩ := (C64_sub hW.reg ha hb.stands).1 rfl rfl
  rw [e1] at hd
  cases hd
  have hs := eval_sub hW pa pb hx hy
  refine ⟨hs, ?_⟩
  have pd : Proper (.merge nSub [a, b] []) := by simp [Proper, ProperL, ProperK, pa, pb]
  rw [(C64_add_value hW hb hh pb pd hr key).1 y (x - y) hy hs]
  simp

/-! ## C62 -/

section C62
variable {a b c : Operand F} {na nb nc v nv : Val F} {sa sb sc sv : Str}

theorem bind_ok {α β : Type} (x : α) (f : α → Except Err β) : (Except.ok x >>= f) = f x := rfl
theorem bind_error {α β : Type} (e : Err) (f : α → Except Err β) : (Except.error e >>= f) = .error e := rfl
theorem typed_pos {p : Prop} [Decidable p] (h : p) (n : Val F) : typed p n = .ok n := if_pos h
theorem typed_neg {p : Prop} [Decidable p] (h : ¬ p) (n : Val F) : typed p n = .error .type := if_neg h

theorem operand?_some (h : Stands E c nc sc) : operand? E (some c) = .ok (some nc) := by
  show some <$> operand E c = _
  rw [h.node]; rfl

/-- **C62, `add_difference(a, b)`.**  Without `c`: exactly for a weight `a`, a delta `b` and a parameter `alpha`, and not when asked to
clamp (the merge spaces of `a` and `b` differ). -/
theorem C62_add_difference (R : Registered E fl) (ha : Stands E a na sa) (hb : Stands E b nb sb) (hv : Gives E v nv sv) :
    wAddDifference E a b none v false = typed (sa = weight ∧ sb = delta ∧ sv = paramSpace) (.merge nAdd [na, nb, nv] []) ∧
    wAddDifference E a b none v true = .error .type := by
  have h : ∀ cl, wAddDifference E a b none v cl = typed (sa = weight ∧ sb = delta ∧ sv = paramSpace) (.merge nAdd [na, nb, nv] []) >>= fun res =>
      if cl then (if sa ≠ sb then .error .type else createRecipe E nClamp [res, na, nb] []) else .ok res := by
    intro cl
    unfold wAddDifference
    rw [ha.node, bind_ok, hb.node, bind_ok]
    show (createRecipe E nAdd [na, nb] [opt "alpha" v] >>= _) = _
    rw [add_alpha_eq R ha.has.gives hb.has.gives hv]
    congr 1
    funext res
    rw [ha.has.space, bind_ok, hb.has.space, bind_ok]
    simp only [ite_self]
    rw [hb.has.space, bind_ok]
    simp only [ne_eq, Option.some.injEq]
  rw [h, h]
  by_cases hc : sa = weight ∧ sb = delta ∧ sv = paramSpace
  · rw [typed_pos hc]
    refine ⟨rfl, ?_⟩
    obtain ⟨rfl, rfl, _⟩ := hc
    rfl
  · rw [typed_neg hc]; exact ⟨rfl, rfl⟩

theorem clamp_has (R : Registered E fl) {n1 n2 n3 : Val F} (h1 : Has E n1 weight) (h2 : Has E n2 weight) (h3 : Has E n3 weight) :
    createRecipe E nClamp [n1, n2, n3] [] = .ok (.merge nClamp [n1, n2, n3] [opt "stiffness" (.lit (.float (fl "0.0")) none paramSpace)]) ∧
    Has E (.merge nClamp [n1, n2, n3] [opt "stiffness" (.lit (.float (fl "0.0")) none paramSpace)]) weight :=
  (call_clamp R h1.gives h2.gives h3.gives).ok rfl

/-- **C62, `add_difference(a, b, c)`.**  Exactly for three weights and a parameter `alpha`: the delta `b - c` is added to `a`, and clamped
between `a` and `b` when asked to; the result is a weight. -/
theorem C62_add_difference3 (R : Registered E fl) (ha : Stands E a na sa) (hb : Stands E b nb sb) (hc : Stands E c nc sc)
    (hv : Gives E v nv sv) :
    (sa = weight → sb = weight → sc = weight → sv = paramSpace →
      wAddDifference E a b (some c) v false = .ok (.merge nAdd [na, .merge nSub [nb, nc] [], nv] []) ∧
      Has E (.merge nAdd [na, .merge nSub [nb, nc] [], nv] []) weight ∧
      wAddDifference E a b (some c) v true = .ok (.merge nClamp [.merge nAdd [na, .merge nSub [nb, nc] [], nv] [], na, nb]
        [opt "stiffness" (.lit (.float (fl "0.0")) none paramSpace)])) ∧
    (¬ (sa = weight ∧ sb = weight ∧ sc = weight ∧ sv = paramSpace) → ∀ cl, wAddDifference E a b (some c) v cl = .error .type) := by
  have h : ∀ cl, wAddDifference E a b (some c) v cl = (typed (sb = weight ∧ sc = weight) (.merge nSub [nb, nc] []) >>= fun d =>
      createRecipe E nAdd [na, d] [opt "alpha" v] >>= fun res => if sa = sb then
        (if cl then createRecipe E nClamp [res, na, nb] [] else .ok res) else
        (if cl then (d.space E >>= fun s => if some sa ≠ s then .error .type else createRecipe E nClamp [res, na, d] []) else .ok res)) := by
    intro cl
    unfold wAddDifference
    rw [ha.node, bind_ok, hb.node, bind_ok, operand?_some hc, bind_ok]
    show (createRecipe E nSub [nb, nc] [] >>= _) = _
    rw [sub_eq R hb.has.gives hc.has.gives]
    congr 1
    funext d
    congr 1
    funext res
    rw [ha.has.space, bind_ok, hb.has.space, bind_ok]
    by_cases he : sa = sb
    · subst he
      simp only [if_true]
      cases cl with
      | false => rfl
      | true =>
        simp only [if_true]
        rw [hb.has.space, bind_ok, if_neg (by simp)]
    · rw [if_neg he]
      have he' : ¬ some sa = some sb := by simpa using he
      simp only [he', if_false]
  refine ⟨?_, ?_⟩
  · rintro rfl rfl rfl rfl
    have hd := sub_has R hb.has hc.has
    have hr := add_has R ha.has hd hv.has
    have e : ∀ cl, wAddDifference E a b (some c) v cl =
        if cl then createRecipe E nClamp [.merge nAdd [na, .merge nSub [nb, nc] [], nv] [], na, nb] []
        else .ok (.merge nAdd [na, .merge nSub [nb, nc] [], nv] []) := by
      intro cl
      rw [h, typed_pos ⟨rfl, rfl⟩, bind_ok, add_alpha_eq R ha.has.gives hd.gives hv, typed_pos ⟨rfl, rfl, rfl⟩, bind_ok, if_pos rfl]
    exact ⟨by rw [e]; rfl, hr, by rw [e]; exact (clamp_has R hr ha.has hb.has).1⟩
  · intro hn cl
    rw [h]
    by_cases h1 : sb = weight ∧ sc = weight
    · obtain ⟨rfl, rfl⟩ := h1
      rw [typed_pos ⟨rfl, rfl⟩, bind_ok, add_alpha_eq R ha.has.gives (sub_has R hb.has hc.has).gives hv,
        typed_neg (fun h' => hn ⟨h'.1, rfl, rfl, h'.2.2⟩), bind_error]
    · rw [typed_neg h1, bind_error]

/-- **C62, `add_perpendicular`.** -/
theorem C62_add_perpendicular (R : Registered E fl) (ha : Stands E a na sa) (hb : Stands E b nb sb) (hc : Stands E c nc sc)
    (hv : Gives E v nv sv) :
    (sa = weight → sb = weight → sc = weight → sv = paramSpace →
      wAddPerpendicular E a b c v = .ok (.merge nAdd [na, .merge nPerp [.merge nSub [na, nc] [], .merge nSub [nb, nc] []] [], nv] []) ∧
      Has E (.merge nAdd [na, .merge nPerp [.merge nSub [na, nc] [], .merge nSub [nb, nc] []] [], nv] []) weight) ∧
    (¬ (sa = weight ∧ sb = weight ∧ sc = weight ∧ sv = paramSpace) → wAddPerpendicular E a b c v = .error .type) := by
  have h : wAddPerpendicular E a b c v = (typed (sa = weight ∧ sc = weight) (.merge nSub [na, nc] []) >>= fun ad =>
      typed (sb = weight ∧ sc = weight) (.merge nSub [nb, nc] []) >>= fun bd => createRecipe E nPerp [ad, bd] [] >>= fun p =>
      createRecipe E nAdd [na, p] [opt "alpha" v]) := by
    unfold wAddPerpendicular
    rw [ha.node, bind_ok, hb.node, bind_ok, hc.node, bind_ok, sub_eq R ha.has.gives hc.has.gives, sub_eq R hb.has.gives hc.has.gives]
  have h2 : sa = weight → sb = weight → sc = weight → wAddPerpendicular E a b c v = typed (sv = paramSpace)
      (.merge nAdd [na, .merge nPerp [.merge nSub [na, nc] [], .merge nSub [nb, nc] []] [], nv] []) ∧
      Has E (.merge nPerp [.merge nSub [na, nc] [], .merge nSub [nb, nc] []] []) delta := by
    rintro rfl rfl rfl
    obtain ⟨e, hp⟩ := (call_perp R (sub_has R ha.has hc.has).gives (sub_has R hb.has hc.has).gives).ok (r := delta) rfl
    rw [h, typed_pos ⟨rfl, rfl⟩, bind_ok, typed_pos ⟨rfl, rfl⟩, bind_ok, e, bind_ok, add_alpha_eq R ha.has.gives hp.gives hv]
    exact ⟨by simp [typed], hp⟩
  refine ⟨?_, ?_⟩
  · rintro rfl rfl rfl rfl
    obtain ⟨e, hp⟩ := h2 rfl rfl rfl
    exact ⟨by rw [e, typed_pos rfl], add_has R ha.has hp hv.has⟩
  · intro hn
    by_cases c1 : sa = weight ∧ sc = weight
    · by_cases c2 : sb = weight
      · rw [(h2 c1.1 c2 c1.2).1, typed_neg fun h' => hn ⟨c1.1, c2, c1.2, h'⟩]
      · rw [h, typed_pos c1, bind_ok, typed_neg fun h' => c2 h'.1, bind_error]
    · rw [h, typed_neg c1, bind_error]

/-- The method `copy_region` uses -/
def regionMethod (topK : Bool) : Str := if topK then nTopK else nTensorSum

theorem region_call (R : Registered E fl) (topK : Bool) {v1 v2 v3 v4 n1 n2 n3 n4 : Val F} {s1 s2 s3 s4 : Str} (g1 : Gives E v1 n1 s1)
    (g2 : Gives E v2 n2 s2) (g3 : Gives E v3 n3 s3) (g4 : Gives E v4 n4 s4) (h1 : s1 ∈ allSpaces) :
    createRecipe E (regionMethod topK) [v1, v2] [opt "width" v3, opt "offset" v4] =
      typed (s1 = s2 ∧ s3 = paramSpace ∧ s4 = paramSpace) (.merge (regionMethod topK) [n1, n2, n3, n4] []) ∧
    (s1 = s2 ∧ s3 = paramSpace ∧ s4 = paramSpace → Has E (.merge (regionMethod topK) [n1, n2, n3, n4] []) s1) := by
  cases topK with
  | false =>
    have hc := call_tensorSum R g1 g2 g3 g4
    refine ⟨?_, fun h => (hc.ok (by rw [region_space _ _ _ _ _ h1, if_pos h])).2⟩
    refine hc.eq.trans ?_
    rw [region_space _ _ _ _ _ h1]; unfold typed; split <;> rfl
  | true =>
    have hc := call_topK R g1 g2 g3 g4
    refine ⟨?_, fun h => (hc.ok (by rw [region_space _ _ _ _ _ h1, if_pos h])).2⟩
    refine hc.eq.trans ?_
    rw [region_space _ _ _ _ _ h1]; unfold typed; split <;> rfl

variable {w o nw no : Val F} {sw so : Str}

/-- **C62, `copy_region` (`tensor_sum`).**  Without `c`: exactly for two values of one merge space, which is that of the result. -/
theorem C62_copy_region (R : Registered E fl) (topK : Bool) (ha : Stands E a na sa) (hb : Stands E b nb sb) (hw : Gives E w nw sw)
    (ho : Gives E o no so) (hs : sa ∈ allSpaces) :
    wCopyRegion E fl a b none w o topK = typed (sa = sb ∧ sw = paramSpace ∧ so = paramSpace) (.merge (regionMethod topK) [na, nb, nw, no] []) ∧
    (sa = sb ∧ sw = paramSpace ∧ so = paramSpace → Has E (.merge (regionMethod topK) [na, nb, nw, no] []) sa) := by
  obtain ⟨h1, h2⟩ := region_call R topK ha.has.gives hb.has.gives hw ho hs
  refine ⟨?_, h2⟩
  unfold wCopyRegion
  rw [ha.node, bind_ok, hb.node, bind_ok]
  show (createRecipe E (regionMethod topK) [na, nb] [opt "width" w, opt "offset" o] >>= _) = _
  rw [h1]
  unfold typed; split <;> rfl

/-- **C62, `copy_region` with `c`.**  Exactly for three weights: the region is copied between the deltas relative to `c`, and added to `c`. -/
theorem C62_copy_region3 (R : Registered E fl) (topK : Bool) (ha : Stands E a na sa) (hb : Stands E b nb sb) (hc : Stands E c nc sc)
    (hw : Gives E w nw sw) (ho : Gives E o no so) :
    (sa = weight → sb = weight → sc = weight → sw = paramSpace → so = paramSpace →
      wCopyRegion E fl a b (some c) w o topK =
        .ok (.merge nAdd [nc, .merge (regionMethod topK) [.merge nSub [na, nc] [], .merge nSub [nb, nc] [], nw, no] [], one fl] []) ∧
      Has E (.merge nAdd [nc, .merge (regionMethod topK) [.merge nSub [na, nc] [], .merge nSub [nb, nc] [], nw, no] [], one fl] []) weight) ∧
    (¬ (sa = weight ∧ sb = weight ∧ sc = weight ∧ sw = paramSpace ∧ so = paramSpace) →
      wCopyRegion E fl a b (some c) w o topK = .error .type) := by
  have h : wCopyRegion E fl a b (some c) w o topK = (typed (sa = weight ∧ sc = weight) (.merge nSub [na, nc] []) >>= fun ad =>
      typed (sb = weight ∧ sc = weight) (.merge nSub [nb, nc] []) >>= fun bd =>
      createRecipe E (regionMethod topK) [ad, bd] [opt "width" w, opt "offset" o] >>= fun res =>
      createRecipe E nAdd [nc, res] [opt "alpha" (.float (fl "1.0"))]) := by
    unfold wCopyRegion
    rw [ha.node, bind_ok, hb.node, bind_ok, operand?_some hc, bind_ok]
    show (createRecipe E nSub [na, nc] [] >>= fun _ => createRecipe E nSub [nb, nc] [] >>= _) = _
    rw [sub_eq R ha.has.gives hc.has.gives, sub_eq R hb.has.gives hc.has.gives]
    rfl
  rw [h]
  by_cases c1 : sa = weight ∧ sc = weight
  · by_cases c2 : sb = weight
    · obtain ⟨rfl, rfl⟩ := c1
      subst c2
      obtain ⟨e1, e2⟩ := region_call R topK (sub_has R ha.has hc.has).gives (sub_has R hb.has hc.has).gives hw ho (by decide)
      rw [typed_pos ⟨rfl, rfl⟩, bind_ok, typed_pos ⟨rfl, rfl⟩, bind_ok, e1]
      by_cases c3 : sw = paramSpace ∧ so = paramSpace
      · have hh := e2 ⟨rfl, c3⟩
        rw [typed_pos ⟨rfl, c3⟩, bind_ok, add_alpha_eq R hc.has.gives hh.gives (gives_scalar rfl), typed_pos ⟨rfl, rfl, rfl⟩]
        exact ⟨fun _ _ _ _ _ => ⟨rfl, add_has R hc.has hh (gives_scalar rfl).has⟩, fun hn => absurd ⟨rfl, rfl, rfl, c3⟩ hn⟩
      · rw [typed_neg fun h' => c3 h'.2, bind_error]
        exact ⟨fun _ _ _ h1 h2 => absurd ⟨h1, h2⟩ c3, fun _ => rfl⟩
    · rw [typed_pos c1, bind_ok, typed_neg fun h' => c2 h'.1, bind_error]
      exact ⟨fun _ h' => absurd h' c2, fun _ => rfl⟩
  · rw [typed_neg c1, bind_error]
    exact ⟨fun h1 _ h2 => absurd ⟨h1, h2⟩ c1, fun _ => rfl⟩

/-- **C62, `rotate`.** -/
theorem C62_rotate (R : Registered E fl) (ha : Stands E a na sa) (hb : Stands E b nb sb) (hw : Gives E w nw sw)
    (ho : Gives E o no so) (hs : sa ∈ allSpaces) :
    wRotate E fl a b none w o = typed (sa = sb ∧ sw = paramSpace ∧ so = paramSpace) (.merge nRotate [na, nb, nw, no] []) := by
  have hc := call_rotate R ha.has.gives hb.has.gives hw ho
  unfold wRotate
  rw [ha.node, bind_ok, hb.node, bind_ok]
  show (createRecipe E nRotate [na, nb] [opt "alignment" w, opt "alpha" o] >>= _) = _
  rw [hc.eq, rotate_space _ _ _ _ hs]
  unfold typed; split <;> rfl

/-- **C62, `rotate` with `c`.** -/
theorem C62_rotate3 (R : Registered E fl) (ha : Stands E a na weight) (hb : Stands E b nb weight) (hc : Stands E c nc weight)
    (hw : Gives E w nw paramSpace) (ho : Gives E o no paramSpace) :
    wRotate E fl a b (some c) w o = .ok (.merge nAdd [nc, .merge nRotate [.merge nSub [na, nc] [], .merge nSub [nb, nc] [], nw, no] [], one fl] []) ∧
    Has E (.merge nAdd [nc, .merge nRotate [.merge nSub [na, nc] [], .merge nSub [nb, nc] [], nw, no] [], one fl] []) weight := by
  obtain ⟨e1, hh⟩ := (call_rotate R (sub_has R ha.has hc.has).gives (sub_has R hb.has hc.has).gives hw ho).ok (r := delta) rfl
  refine ⟨?_, add_has R hc.has hh (gives_scalar rfl).has⟩
  unfold wRotate
  rw [ha.node, bind_ok, hb.node, bind_ok, operand?_some hc, bind_ok]
  show (createRecipe E nSub [na, nc] [] >>= fun _ => createRecipe E nSub [nb, nc] [] >>= _) = _
  rw [sub_eq R ha.has.gives hc.has.gives, sub_eq R hb.has.gives hc.has.gives, typed_pos ⟨rfl, rfl⟩, typed_pos ⟨rfl, rfl⟩, bind_ok, bind_ok, e1,
    bind_ok]
  show createRecipe E nAdd [nc, _] [opt "alpha" (.float (fl "1.0"))] = _
  rw [add_alpha_eq R hc.has.gives hh.gives (gives_scalar rfl), typed_pos ⟨rfl, rfl, rfl⟩]
  rfl

/-! ### Any number of models -/

/-- The task vector of a model relative to `base`: the difference for a weight, the model itself for a delta. -/
def task (base : Val F) (m : Val F × Str) : Val F := if m.2 = weight then .merge nSub [m.1, base] [] else m.1

/-- `os` stand for the nodes `ms` with their merge spaces. -/
def AllStand (E : Env F) (os : List (Operand F)) (ms : List (Val F × Str)) : Prop :=
  List.Forall₂ (fun o m => Stands E o m.1 m.2) os ms

theorem operands_ok {os : List (Operand F)} {ms : List (Val F × Str)} (h : AllStand E os ms) : operands E os = .ok (ms.map (·.1)) := by
  induction h with
  | nil => rfl
  | cons h _ ih => unfold operands; rw [h.node, bind_ok, ih, bind_ok]; rfl

theorem AllStand.has {os : List (Operand F)} {ms : List (Val F × Str)} (h : AllStand E os ms) : ∀ m ∈ ms, Has E m.1 m.2 := by
  induction h with
  | nil => simp
  | cons h _ ih =>
    intro m hm
    rcases List.mem_cons.1 hm with rfl | hm
    · exact h.has
    · exact ih m hm

theorem taskVectors_ok (R : Registered E fl) {base : Val F} (hb : Has E base weight) :
    ∀ {ms : List (Val F × Str)}, (∀ m ∈ ms, Has E m.1 m.2) → taskVectors E base (ms.map (·.1)) = .ok (ms.map (task base)) ∧
      List.Forall₂ (Has E) (ms.map (task base)) (ms.map fun m => if m.2 = weight then delta else m.2)
  | [], _ => ⟨rfl, .nil⟩
  | m :: ms, h => by
    obtain ⟨i1, i2⟩ := taskVectors_ok R hb (ms := ms) fun m hm => h m (List.mem_cons_of_mem _ hm)
    have hm := h m List.mem_cons_self
    by_cases c : m.2 = weight
    · rw [c] at hm
      have e : task base m = .merge nSub [m.1, base] [] := if_pos c
      refine ⟨?_, ?_⟩
      · rw [List.map_cons, List.map_cons, e]
        unfold taskVectors
        rw [hm.space, bind_ok, if_pos rfl, sub_eq R hm.gives hb.gives, typed_pos ⟨rfl, rfl⟩, bind_ok, i1]; rfl
      · rw [List.map_cons, List.map_cons, e, if_pos c]
        exact .cons (sub_has R hm hb) i2
    · have e : task base m = m.1 := if_neg c
      refine ⟨?_, ?_⟩
      · rw [List.map_cons, List.map_cons, e]
        unfold taskVectors
        rw [hm.space, bind_ok, if_neg (by simpa using c), bind_ok, i1]; rfl
      · rw [List.map_cons, List.map_cons, e, if_neg c]
        exact .cons hm i2

theorem valuesToNodes_has {ns : List (Val F)} {sps : List Str} (h : List.Forall₂ (Has E) ns sps) : valuesToNodes E ns = .ok ns := by
  induction h with
  | nil => rfl
  | cons h _ ih => exact nodes_cons h.gives ih

theorem deltas_call {m : Str} {var : String} {options : Dict Str (Val F)} (hm : E.resolve m = .ok (deltasSig var options)) {ds : List (Val F)}
    {sps : List Str} (hd : List.Forall₂ (Has E) ds sps) {kwargs : Dict Str (Val F)} (hk : ∀ k ∈ kwargs.keys, k ∈ options.keys)
    {ks : List (Str × Val F)} (hks : valuesToNodesK E (options.update kwargs) = .ok ks) (hkp : ∀ k ∈ ks, k.1 ∈ options.keys ∧ Has E k.2 paramSpace) :
    createRecipe E m ds kwargs = typed (∀ s ∈ sps, s = delta) (.merge m ds ks) ∧
    ((∀ s ∈ sps, s = delta) → Has E (.merge m ds ks) delta) := by
  have hf : List.Forall₂ (fun k p => k.1 = p.1 ∧ Has E k.2 p.2) ks (ks.map fun k => (k.1, paramSpace)) := by
    clear hks
    induction ks with
    | nil => exact .nil
    | cons k ks ih =>
      exact .cons ⟨rfl, (hkp k List.mem_cons_self).2⟩ (ih fun k hk => hkp k (List.mem_cons_of_mem _ hk))
  have hc : CallOf E m (deltasSig var options) ds kwargs ds ks sps (ks.map fun k => (k.1, paramSpace)) :=
    ⟨hm, ⟨_, bind_deltas var options ds kwargs hk, valuesToNodes_has hd, hks⟩, hd, hf⟩
  have hsp := deltas_space var options sps (ks.map fun k => (k.1, paramSpace)) (by
    intro k hk
    simp only [Dict.keys, List.map_map, List.mem_map, Function.comp_apply] at hk
    obtain ⟨q, hq, rfl⟩ := hk
    exact (hkp q hq).1)
  have hpar : ∀ p ∈ ks.map fun k => (k.1, paramSpace), p.2 = paramSpace := by
    intro p hp
    obtain ⟨q, _, rfl⟩ := List.mem_map.1 hp
    rfl
  refine ⟨?_, fun h => (hc.ok (hsp.trans (if_pos ⟨h, hpar⟩))).2⟩
  rw [hc.eq, hsp]
  by_cases h : ∀ s ∈ sps, s = delta
  · rw [if_pos ⟨h, hpar⟩, typed_pos h]; rfl
  · rw [if_neg fun h' => h h'.1, typed_neg h]; rfl

theorem all_delta {ms : List (Val F × Str)} : (∀ s ∈ ms.map fun m => if m.2 = weight then delta else m.2, s = delta) ↔
    ∀ m ∈ ms, m.2 = weight ∨ m.2 = delta := by
  constructor
  · intro h m hm
    have := h _ (List.mem_map_of_mem hm)
    by_cases c : m.2 = weight
    · exact .inl c
    · rw [if_neg c] at this; exact .inr this
  · intro h s hs
    obtain ⟨m, hm, rfl⟩ := List.mem_map.1 hs
    split
    · rfl
    · rename_i c
      exact (h m hm).resolve_left c

/-- A literal given as option, as a node -/
def asLit (v : Val F) : Val F := .lit v none paramSpace

variable {base : Operand F} {models : List (Operand F)} {nbase : Val F} {ms : List (Val F × Str)}

/-- **C62, `add_difference_ties`.**  For a weight `base` and models that are weights or deltas the TIES sum of the task vectors is added to
`base`; a model in another merge space is a `TypeError`. -/
theorem C62_ties (R : Registered E fl) (hb : Stands E base nbase weight) (hm : AllStand E models ms) {alpha k : Val F}
    (hal : IsScalar alpha = true) (hk : IsScalar k = true) :
    ((∀ m ∈ ms, m.2 = weight ∨ m.2 = delta) →
      wTies E base models alpha k = .ok (.merge nAdd [nbase, .merge nTies (ms.map (task nbase)) [opt "k" (asLit k),
        opt "vote_sgn" (asLit (.bool false))], asLit alpha] []) ∧
      Has E (.merge nAdd [nbase, .merge nTies (ms.map (task nbase)) [opt "k" (asLit k), opt "vote_sgn" (asLit (.bool false))],
        asLit alpha] []) weight) ∧
    (¬ (∀ m ∈ ms, m.2 = weight ∨ m.2 = delta) → wTies E base models alpha k = .error .type) := by
  obtain ⟨e1, e2⟩ := taskVectors_ok R hb.has hm.has
  obtain ⟨c1, c2⟩ := deltas_call (kwargs := [opt "k" k]) (ks := [opt "k" (asLit k), opt "vote_sgn" (asLit (.bool false))]) R.ties e2
    (by simp [opt, Dict.keys]) (nodesK_cons (gives_scalar hk) (nodesK_cons (gives_scalar rfl) rfl))
    (by simp only [List.mem_cons, List.not_mem_nil, or_false, forall_eq_or_imp, forall_eq]
        exact ⟨⟨by simp [opt, Dict.keys], (gives_scalar hk).has⟩, ⟨by simp [opt, Dict.keys], (gives_scalar rfl).has⟩⟩)
  have h : wTies E base models alpha k = (createRecipe E nTies (ms.map (task nbase)) [opt "k" k] >>= fun res =>
      wAddDifference E (.value nbase) (.value res) none alpha false) := by
    unfold wTies
    rw [hb.node, bind_ok, operands_ok hm, bind_ok, e1, bind_ok]
  rw [h, c1]
  refine ⟨fun hall => ?_, fun hn => ?_⟩
  · have hd := c2 (all_delta.2 hall)
    rw [typed_pos (all_delta.2 hall), bind_ok, (C62_add_difference R hb.has.stands hd.stands (gives_scalar hal)).1, typed_pos ⟨rfl, rfl, rfl⟩]
    exact ⟨rfl, add_has R hb.has hd (gives_scalar hal).has⟩
  · rw [typed_neg fun h => hn (all_delta.1 h), bind_error]

/-- **C62, `n_model_stock`.** -/
theorem C62_model_stock (R : Registered E fl) (hb : Stands E base nbase weight) (hm : AllStand E models ms) {cosEps : Val F}
    (hk : IsScalar cosEps = true) :
    ((∀ m ∈ ms, m.2 = weight ∨ m.2 = delta) →
      wModelStock E fl base models cosEps = .ok (.merge nAdd [nbase, .merge nStock (ms.map (task nbase)) [opt "cos_eps" (asLit cosEps)],
        one fl] []) ∧
      Has E (.merge nAdd [nbase, .merge nStock (ms.map (task nbase)) [opt "cos_eps" (asLit cosEps)], one fl] []) weight) ∧
    (¬ (∀ m ∈ ms, m.2 = weight ∨ m.2 = delta) → wModelStock E fl base models cosEps = .error .type) := by
  obtain ⟨e1, e2⟩ := taskVectors_ok R hb.has hm.has
  obtain ⟨c1, c2⟩ := deltas_call (kwargs := [opt "cos_eps" cosEps]) (ks := [opt "cos_eps" (asLit cosEps)]) R.stock e2
    (by simp [opt, Dict.keys]) (nodesK_cons (gives_scalar hk) rfl)
    (by simp only [List.mem_cons, List.not_mem_nil, or_false, forall_eq]
        exact ⟨by simp [opt, Dict.keys], (gives_scalar hk).has⟩)
  have h : wModelStock E fl base models cosEps = (createRecipe E nStock (ms.map (task nbase)) [opt "cos_eps" cosEps] >>= fun res =>
      createRecipe E nAdd [nbase, res] [opt "alpha" (.float (fl "1.0"))]) := by
    unfold wModelStock
    rw [hb.node, bind_ok, operands_ok hm, bind_ok, e1, bind_ok]
  rw [h, c1]
  refine ⟨fun hall => ?_, fun hn => ?_⟩
  · have hd := c2 (all_delta.2 hall)
    rw [typed_pos (all_delta.2 hall), bind_ok, add_alpha_eq R hb.has.gives hd.gives (gives_scalar rfl), typed_pos ⟨rfl, rfl, rfl⟩]
    exact ⟨rfl, add_has R hb.has hd (gives_scalar rfl).has⟩
  · rw [typed_neg fun h => hn (all_delta.1 h), bind_error]

/-- The options of `add_difference_ties_extended` as the recipe holds them -/
def tiesOptions (k voteSgn applyStock cosEps applyMedian eps maxiter ftol : Val F) : Dict Str (Val F) :=
  [opt "k" k, opt "vote_sgn" voteSgn, opt "apply_stock" applyStock, opt "apply_median" applyMedian, opt "cos_eps" cosEps, opt "eps" eps,
    opt "maxiter" maxiter, opt "ftol" ftol].map fun p => (p.1, asLit p.2)

/-- **C62, `add_difference_ties_extended`.**  All options reach the method under their names. -/
theorem C62_ties_extended (R : Registered E fl) (hb : Stands E base nbase weight) (hm : AllStand E models ms)
    {alpha k voteSgn applyStock cosEps applyMedian eps maxiter ftol : Val F} (hal : IsScalar alpha = true)
    (hs : ∀ v ∈ [k, voteSgn, applyStock, cosEps, applyMedian, eps, maxiter, ftol], IsScalar v = true) :
    ((∀ m ∈ ms, m.2 = weight ∨ m.2 = delta) →
      wTiesExtended E base models alpha k voteSgn applyStock cosEps applyMedian eps maxiter ftol =
        .ok (.merge nAdd [nbase, .merge nTiesExt (ms.map (task nbase))
          (tiesOptions k voteSgn applyStock cosEps applyMedian eps maxiter ftol), asLit alpha] []) ∧
      Has E (.merge nAdd [nbase, .merge nTiesExt (ms.map (task nbase))
          (tiesOptions k voteSgn applyStock cosEps applyMedian eps maxiter ftol), asLit alpha] []) weight) ∧
    (¬ (∀ m ∈ ms, m.2 = weight ∨ m.2 = delta) →
      wTiesExtended E base models alpha k voteSgn applyStock cosEps applyMedian eps maxiter ftol = .error .type) := by
  simp only [List.mem_cons, List.not_mem_nil, or_false, forall_eq_or_imp, forall_eq] at hs
  obtain ⟨h1, h2, h3, h4, h5, h6, h7, h8⟩ := hs
  obtain ⟨e1, e2⟩ := taskVectors_ok R hb.has hm.has
  obtain ⟨c1, c2⟩ := deltas_call (kwargs := [opt "k" k, opt "vote_sgn" voteSgn, opt "apply_stock" applyStock, opt "cos_eps" cosEps,
    opt "apply_median" applyMedian, opt "eps" eps, opt "maxiter" maxiter, opt "ftol" ftol])
    (ks := tiesOptions k voteSgn applyStock cosEps applyMedian eps maxiter ftol) R.tiesExt e2
    (by simp [opt, Dict.keys])
    (nodesK_cons (gives_scalar h1) (nodesK_cons (gives_scalar h2) (nodesK_cons (gives_scalar h3) (nodesK_cons (gives_scalar h5)
      (nodesK_cons (gives_scalar h4) (nodesK_cons (gives_scalar h6) (nodesK_cons (gives_scalar h7) (nodesK_cons (gives_scalar h8) rfl))))))))
    (by
      intro q hq
      obtain ⟨p, hp, rfl⟩ := List.mem_map.1 hq
      refine ⟨?_, rfl, by simp [asLit, Val.space]⟩
      simp only [List.mem_cons, List.not_mem_nil, or_false] at hp
      rcases hp with rfl | rfl | rfl | rfl | rfl | rfl | rfl | rfl <;> simp [opt, Dict.keys])
  have h : wTiesExtended E base models alpha k voteSgn applyStock cosEps applyMedian eps maxiter ftol =
      (createRecipe E nTiesExt (ms.map (task nbase)) [opt "k" k, opt "vote_sgn" voteSgn, opt "apply_stock" applyStock, opt "cos_eps" cosEps,
        opt "apply_median" applyMedian, opt "eps" eps, opt "maxiter" maxiter, opt "ftol" ftol] >>= fun res =>
      wAddDifference E (.value nbase) (.value res) none alpha false) := by
    unfold wTiesExtended
    rw [hb.node, bind_ok, operands_ok hm, bind_ok, e1, bind_ok]
  rw [h, c1]
  refine ⟨fun hall => ?_, fun hn => ?_⟩
  · have hd := c2 (all_delta.2 hall)
    rw [typed_pos (all_delta.2 hall), bind_ok, (C62_add_difference R hb.has.stands hd.stands (gives_scalar hal)).1, typed_pos ⟨rfl, rfl, rfl⟩]
    exact ⟨rfl, add_has R hb.has hd (gives_scalar hal).has⟩
  · rw [typed_neg fun h => hn (all_delta.1 h), bind_error]

theorem create_unknown {m : Str} {var : String} {options : Dict Str (Val F)} (hm : E.resolve m = .ok (deltasSig var options)) (ds : List (Val F))
    (kwargs : Dict Str (Val F)) (k : Str) (hk : k ∈ kwargs.keys) (h : k ∉ options.keys) : createRecipe E m ds kwargs = .error .type := by
  unfold createRecipe
  rw [hm, bind_ok, bind_deltas_unknown var options ds kwargs k hk h, bind_error]

/-- **C62, `dropout`: false.**  The wrapper never builds a recipe: it passes a keyword the method does not have.  For a weight and weights it
is a `TypeError`. -/
theorem C62_dropout_false (R : Registered E fl) (a : Val F) (models : List (Val F)) (probability alpha overlap overlapEmphasis seed : Val F) :
    (∀ r, wDropout E a models probability alpha overlap overlapEmphasis seed ≠ .ok r) ∧
    (Has E a weight → (∀ m ∈ models, Has E m weight) → wDropout E a models probability alpha overlap overlapEmphasis seed = .error .type) := by
  have hu : ∀ ds, createRecipe E nDropout ds [opt "probability" probability, opt "overlap" overlap, opt "overlap_skew" overlapEmphasis,
      opt "seed" seed] = .error .type := fun ds =>
    create_unknown R.dropout ds _ "overlap_skew".toList (by simp [opt, Dict.keys]) (by simp [opt, Dict.keys])
  have hw : wDropout E a models probability alpha overlap overlapEmphasis seed = (differences E a models >>= fun _ => .error .type) := by
    unfold wDropout
    simp only [hu, bind_error]
  refine ⟨?_, ?_⟩
  · intro r h
    rw [hw] at h
    cases hd : differences E a models with
    | error e => rw [hd] at h; cases h
    | ok ds => rw [hd] at h; cases h
  · intro ha hall
    rw [hw]
    have : ∃ ds, differences E a models = .ok ds := by
      clear hw
      induction models with
      | nil => exact ⟨_, rfl⟩
      | cons m l ih =>
        obtain ⟨ds, hds⟩ := ih fun m hm => hall m (List.mem_cons_of_mem _ hm)
        refine ⟨.merge nSub [m, a] [] :: ds, ?_⟩
        unfold differences
        rw [sub_eq R (hall m List.mem_cons_self).gives ha.gives, typed_pos ⟨rfl, rfl⟩, bind_ok, hds, bind_ok]
    obtain ⟨ds, hds⟩ := this
    rw [hds]; rfl

/-- **C62, `ties_with_dare`: false.**  The wrapper never builds a recipe, for the same reason. -/
theorem C62_ties_with_dare_false (R : Registered E fl) (base : Operand F) (models : List (Operand F))
    (probability rescale alpha seed k voteSgn applyStock cosEps applyMedian eps maxiter ftol : Val F) :
    (∀ r, wTiesWithDare E base models probability rescale alpha seed k voteSgn applyStock cosEps applyMedian eps maxiter ftol ≠ .ok r) ∧
    ∀ nbase ms, Stands E base nbase weight → AllStand E models ms →
      wTiesWithDare E base models probability rescale alpha seed k voteSgn applyStock cosEps applyMedian eps maxiter ftol = .error .type := by
  have hu : ∀ ds, createRecipe E nTiesDropout ds [opt "probability" probability, opt "rescale" rescale, opt "k" k, opt "vote_sgn" voteSgn,
      opt "seed" seed, opt "apply_stock" applyStock, opt "cos_eps" cosEps, opt "apply_median" applyMedian, opt "eps" eps,
      opt "maxiter" maxiter, opt "ftol" ftol] = .error .type := fun ds =>
    create_unknown R.tiesDropout ds _ "rescale".toList (by simp [opt, Dict.keys]) (by simp [opt, Dict.keys])
  have hw : wTiesWithDare E base models probability rescale alpha seed k voteSgn applyStock cosEps applyMedian eps maxiter ftol =
      (operand E base >>= fun b => operands E models >>= fun l => taskVectors E b l >>= fun _ => .error .type) := by
    unfold wTiesWithDare
    simp only [hu, bind_error]
  refine ⟨?_, ?_⟩
  · intro r h
    rw [hw] at h
    cases h1 : operand E base with
    | error e => rw [h1] at h; cases h
    | ok b =>
      rw [h1, bind_ok] at h
      cases h2 : operands E models with
      | error e => rw [h2] at h; cases h
      | ok l =>
        rw [h2, bind_ok] at h
        cases h3 : taskVectors E b l with
        | error e => rw [h3] at h; cases h
        | ok ds => rw [h3] at h; cases h
  · intro nbase ms hb hm
    rw [hw, hb.node, bind_ok, operands_ok hm, bind_ok, (taskVectors_ok R hb.has hm.has).1]; rfl

end C62

end Verif.Wrappers

/-! ## An environment -/

namespace Verif.Wrappers.Ex
open Method Recipe Eval Eval.Spec

/-- Floats are integers, `1.0` is 1 and all other constants 0. -/
def fl : Floats Int := fun s => if s = "1.0" then 1 else 0

def env : Env Int where
  methods := [(nAdd, addDifferenceSig fl), (nSub, subtractSig), (nPerp, perpendicularSig), (nTensorSum, regionSig fl "0.5"),
    (nTopK, regionSig fl "1.0"), (nRotate, rotateSig fl), (nClamp, clampSig fl), (nTies, tiesSumSig fl), (nTiesExt, tiesExtendedSig fl),
    (nDropout, dropoutSig fl), (nTiesDropout, tiesDropoutSig fl), (nStock, modelStockSig fl)]
  configs := ["t-c".toList]
  spaces := allSpaces
  norm := id

theorem registered : Registered env fl := by constructor <;> rfl

/-- Two files with one key -/
def W : World Int Int where
  env := env
  conv := ⟨fun _ => .error .value, fun _ => .error .value, fun v => match v with | .float f => .ok f | _ => .error .type⟩
  tensors := fun n => n
  read p k := if k = "k".toList then .ok (if p = "a".toList then 10 else 3) else .error .key
  configs _ := some ⟨"t-c".toList, [("m".toList, [("k".toList, ⟨none, none, [], false⟩)])]⟩
  impl m := if m = nAdd then addDifferenceImpl fun x y t => x + y * t else subtractImpl fun x y => x - y

theorem computes : Computes W fl := ⟨registered, rfl, rfl, rfl⟩

def a : Val Int := .model "a".toList (some "t-c".toList) (some weight)
def b : Val Int := .model "b".toList (some "t-c".toList) (some weight)
def d : Val Int := .model "d".toList (some "t-c".toList) (some delta)

theorem has_a : Has env a weight := ⟨rfl, rfl⟩
theorem has_b : Has env b weight := ⟨rfl, rfl⟩
theorem has_d : Has env d delta := ⟨rfl, rfl⟩

/-- `d + a` and `a + d` -/
example : addNode env d (.value a) = .ok (.merge nAdd [a, d, one fl] []) := ((C64_add registered has_d has_a.stands).2.1 rfl rfl).1
example : addNode env a (.value d) = .ok (.merge nAdd [a, d, one fl] []) := ((C64_add registered has_a has_d.stands).1 rfl rfl).1
example : addNode env a (.value b) = .error .type := (C64_add registered has_a has_b.stands).2.2 (by decide) (by decide)
example : raddNode env d (.value a) = addNode env d (.value a) := (C64_commutative registered has_d has_a).2
example : subNode env a (.value b) = .ok (.merge nSub [a, b] []) := ((C64_sub registered has_a has_b.stands).1 rfl rfl).1

/-- The hypotheses of the value theorems hold: `b + (a - b)` is 10 where `a` is 10 and `b` is 3. -/
example : subNode W.env a (.value b) = .ok (.merge nSub [a, b] []) ∧
    addNode W.env b (.value (.merge nSub [a, b] [])) = .ok (.merge nAdd [b, .merge nSub [a, b] [], one fl] []) ∧
    eval W a "k".toList = .ok (.tensor 10) ∧ eval W b "k".toList = .ok (.tensor 3) ∧
    eval W (.merge nAdd [b, .merge nSub [a, b] [], one fl] []) "k".toList = .ok (.tensor 10) := by decide +kernel

example : wAddDifference env (.value a) (.value b) (some (.value b)) (.float 2) true =
    .ok (.merge nClamp [.merge nAdd [a, .merge nSub [b, b] [], asLit (.float 2)] [], a, b] [opt "stiffness" (asLit (.float 0))]) :=
  ((C62_add_difference3 registered has_a.stands has_b.stands has_b.stands (gives_scalar rfl)).1 rfl rfl rfl rfl).2.2
example : wAddDifference env (.value a) (.value d) none (.float 2) false = .ok (.merge nAdd [a, d, asLit (.float 2)] []) :=
  (C62_add_difference registered has_a.stands has_d.stands (gives_scalar rfl)).1
example : wAddPerpendicular env (.value a) (.value b) (.value b) (.float 2) =
    .ok (.merge nAdd [a, .merge nPerp [.merge nSub [a, b] [], .merge nSub [b, b] []] [], asLit (.float 2)] []) :=
  ((C62_add_perpendicular registered has_a.stands has_b.stands has_b.stands (gives_scalar rfl)).1 rfl rfl rfl rfl).1
example : wCopyRegion env fl (.value d) (.value d) none (.float 1) (.float 0) true =
    .ok (.merge nTopK [d, d, asLit (.float 1), asLit (.float 0)] []) :=
  (C62_copy_region registered true has_d.stands has_d.stands (gives_scalar rfl) (gives_scalar rfl) (by decide)).1
example : wTies env (.value a) [.value b, .value d] (.float 1) (.float 0) =
    .ok (.merge nAdd [a, .merge nTies [.merge nSub [b, a] [], d] [opt "k" (asLit (.float 0)), opt "vote_sgn" (asLit (.bool false))],
      asLit (.float 1)] []) :=
  ((C62_ties (ms := [(b, weight), (d, delta)]) registered has_a.stands (.cons has_b.stands (.cons has_d.stands .nil)) rfl rfl).1 (by simp)).1
example : wDropout env a [b] (.float 0) (.float 1) (.float 1) (.float 0) .none = .error .type :=
  (C62_dropout_false registered a [b] _ _ _ _ _).2 has_a (by simpa using has_b)

end Verif.Wrappers.Ex
