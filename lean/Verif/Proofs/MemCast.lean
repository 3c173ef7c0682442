import Verif.Proofs.Mem
import Verif.Proofs.Cast

/-!
# Methods in memory, and recipes whose inputs were cast
-/
namespace Verif.Mem
open Method Recipe Config Eval Eval.Spec Program Program.Spec Spec
variable {F V : Type}

/-! ### Methods -/

theorem put_self (σ : Known V) (r : ℕ) (v : V) : (σ.put r v) r = some v := by simp [Known.put]

theorem put_ne (σ : Known V) {r q : ℕ} (h : q ≠ r) (v : V) : (σ.put r v) q = σ q := by simp [Known.put, h]

theorem deviceArg_is {σ : Known V} {x : RVal F ℕ} {y : RVal F V} (h : Is σ x y) : deviceArg x = deviceArg y := by cases h <;> rfl

theorem dtypeArg_is {σ : Known V} {x : RVal F ℕ} {y : RVal F V} (h : Is σ x y) : dtypeArg x = dtypeArg y := by cases h <;> rfl

theorem computes_error (w : Bool) (fresh : Prop) (σ : Known V) (mine : ℕ → Prop) (e : Err) : Computes (F := F) w fresh (.done (.error e)) σ mine (.done (.error e)) :=
  ⟨_, rfl, rfl⟩

theorem computes_new (w : Bool) (fresh : Prop) (σ : Known V) (mine : ℕ → Prop) (v : V) :
    Computes (F := F) w fresh (.new v fun q => .done (.ok (.tensor q))) σ mine (.done (.ok (.tensor v))) :=
  fun r _ => ⟨_, rfl, _, rfl, .tensor (put_self _ _ _), fun _ q hq => by cases hq; exact .inl rfl⟩

/-- A method that returns what a state dict gives -/
theorem computes_ask (w : Bool) (σ : Known V) (mine : ℕ → Prop) (i : Idx) (k : Str) : Computes (F := F) w False (.ask i k .done) σ mine (.ask i k .done) :=
  ⟨_, rfl, fun e => ⟨_, rfl, rfl⟩, fun r v _ => ⟨_, rfl, _, rfl, .tensor (put_self _ _ _), fun h => h.elim⟩,
    fun x y _ h => ⟨_, rfl, _, rfl, h, fun h => h.elim⟩⟩

theorem cast_implements {same : Option Str → Option Str → V → Bool} {move : Option Str → Option Str → V → Except Err V}
    (hs : ∀ d t x, same d t x = true → move d t x = .ok x) :
    Implements (castSourceH (F := F) same move) (Whole.castSource move) false (castFresh same) := by
  refine ⟨rfl, fun σ args kwargs argsP kwargsP key ha hk _ => ?_⟩
  have other : ∀ (args : List (Shape F ℕ)) (argsP : List (Shape F V)), List.Forall₂ (IsShape σ) args argsP → (¬ ∃ a b c, argsP = [.val a, .val b, .val c]) →
      (castSourceH same move).body args kwargs key = .done (.error .type) ∧ (Whole.castSource move).body argsP kwargsP key = .done (.error .type) := by
    intro args argsP h hn
    rcases h with _ | ⟨_ | _, _ | ⟨_ | _, _ | ⟨_ | _, _ | _⟩⟩⟩ <;> first | exact ⟨rfl, rfl⟩ | exact absurd ⟨_, _, _, rfl⟩ hn
  by_cases hn : ∃ a b c, argsP = [.val a, .val b, .val c]
  · obtain ⟨a, b, c, rfl⟩ := hn
    match args, ha with
    | [_, _, _], .cons (.val (x := a') h1) (.cons (.val (x := b') h2) (.cons (.val (x := c') h3) .nil)) =>
      unfold castSourceH Whole.castSource
      simp only [deviceArg_is h2, dtypeArg_is h3]
      cases hd : deviceArg b with
      | error e => exact computes_error ..
      | ok d =>
        cases ht : dtypeArg c with
        | error e => exact computes_error ..
        | ok t =>
          simp only
          cases h1 with
          | @tensor r x hr =>
            refine ⟨x, hr, ?_⟩
            simp only
            by_cases hx : same d t x = true
            · rw [if_pos hx, hs d t x hx]
              refine ⟨_, rfl, _, rfl, .tensor hr, fun hf => ?_⟩
              have := hf x b c d t rfl hd ht
              rw [hx] at this
              cases this
            · rw [if_neg hx]
              cases move d t x with
              | error e => exact computes_error ..
              | ok y => exact computes_new (F := F) false _ σ _ y
          | str s => exact computes_error ..
          | int s => exact computes_error ..
          | float s => exact computes_error ..
          | bool s => exact computes_error ..
          | none => exact computes_error ..
  · obtain ⟨h1, h2⟩ := other args argsP ha hn
    rw [h1, h2]
    exact computes_error ..

theorem fallback_implements : Implements (fallbackSourceH (F := F) (V := V)) Whole.fallbackSource false fun _ _ => False := by
  refine ⟨rfl, fun σ args kwargs argsP kwargsP key ha hk _ => ?_⟩
  rcases ha with _ | ⟨_ | _, _ | ⟨_ | _, _ | _⟩⟩ <;> try exact computes_error ..
  refine ⟨_, rfl, fun e => ?_, fun r v _ => ⟨_, rfl, _, rfl, .tensor (put_self _ _ _), fun h => h.elim⟩,
    fun x y _ h => ⟨_, rfl, _, rfl, h, fun h => h.elim⟩⟩
  cases e <;> first | exact computes_ask .. | exact computes_error ..

theorem weighted_implements (T : Readme.Torch) : Implements (weightedSourceH (F := F) T) (Readme.weightedSource T) false fun _ _ => False := by
  refine ⟨rfl, fun σ args kwargs argsP kwargsP key ha hk _ => ?_⟩
  rcases ha with _ | ⟨_ | _, _ | ⟨_ | _, _ | ⟨h3 | _, _ | _⟩⟩⟩ <;> try exact computes_error ..
  case cons.sd.cons.sd.cons.val.cons => cases h3 <;> exact computes_error ..
  cases h3 with
  | @tensor r alpha hr =>
    refine ⟨alpha, hr, ?_⟩
    simp only [Readme.weightedSource]
    cases Readme.allClose T Readme.zero alpha with
    | error e => exact computes_error ..
    | ok z =>
      cases z with
      | true => exact computes_ask ..
      | false =>
        simp only
        cases Readme.allClose T Ieee.one alpha with
        | error e => exact computes_error ..
        | ok z =>
          cases z with
          | true => exact computes_ask ..
          | false =>
            refine ⟨_, rfl, fun e => computes_error .., fun a x h1 => ?_, fun x y hn h => ?_⟩
            · refine ⟨_, rfl, fun e => computes_error .., fun b y h2 => ?_, fun x y hn h => ?_⟩
              · have hax : (Known.put (σ.put a x) b y) a = some x := by
                  by_cases hab : a = b
                  · subst hab
                    rcases h2 with h2 | h2
                    · rw [put_self] at h2; cases h2
                    · rw [put_self] at h2 ⊢; exact h2.2.symm
                  · rw [put_ne _ hab, put_self]
                refine ⟨x, hax, y, put_self _ _ _, ?_⟩
                simp only
                cases Readme.mix T x y alpha with
                | error e => exact computes_error ..
                | ok z => exact computes_new (F := F) false _ _ _ z
              · cases h <;> first | exact absurd rfl (hn _) | exact computes_error ..
            · cases h <;> first | exact absurd rfl (hn _) | exact computes_error ..
  | str s => exact computes_error ..
  | int s => exact computes_error ..
  | float s => exact computes_error ..
  | bool s => exact computes_error ..
  | none => exact computes_error ..

theorem tensorL {σ : Known V} {r : ℕ} {b : Shape F V} (h : IsShape σ (.val (.tensor r)) b) : ∃ v, b = .val (.tensor v) ∧ σ r = some v := by
  cases h with
  | val h => cases h with
    | tensor h => exact ⟨_, rfl, h⟩

theorem tensorR {σ : Known V} {v : V} {a : Shape F ℕ} (h : IsShape σ a (.val (.tensor v))) : ∃ r, a = .val (.tensor r) := by
  cases h with
  | val h => cases h with
    | tensor h => exact ⟨_, rfl⟩

theorem floatL {σ : Known V} {f : F} {b : Shape F V} (h : IsShape σ (.val (.float f)) b) : b = .val (.float f) := by
  cases h with
  | val h => cases h with
    | float => rfl

theorem floatR {σ : Known V} {f : F} {a : Shape F ℕ} (h : IsShape σ a (.val (.float f))) : a = .val (.float f) := by
  cases h with
  | val h => cases h with
    | float => rfl

theorem multiply_implements (scaled power : V → V → V → V → Except Err V) :
    Implements (multiplySourceH (F := F) scaled power) (multiplySource scaled power) true fun _ _ => True := by
  refine ⟨rfl, fun σ args kwargs argsP kwargsP key ha hk hdist => ?_⟩
  have hdist := hdist rfl
  simp only [multiplySourceH]
  split
  · rename_i a b c alpha _
    rw [List.forall₂_cons_left_iff] at ha
    obtain ⟨b1, _, q1, ha, rfl⟩ := ha
    rw [List.forall₂_cons_left_iff] at ha
    obtain ⟨b2, _, q2, ha, rfl⟩ := ha
    rw [List.forall₂_cons_left_iff] at ha
    obtain ⟨b3, _, q3, ha, rfl⟩ := ha
    rw [List.forall₂_cons_left_iff] at ha
    obtain ⟨b4, _, q4, ha, rfl⟩ := ha
    cases ha
    obtain ⟨x, rfl, h1⟩ := tensorL q1
    obtain ⟨y, rfl, h2⟩ := tensorL q2
    obtain ⟨z, rfl, h3⟩ := tensorL q3
    obtain ⟨u, rfl, h4⟩ := tensorL q4
    · simp only [multiplySource]
      refine ⟨x, h1, y, h2, z, h3, u, h4, ?_⟩
      simp only
      cases scaled x y z u with
      | error e => exact computes_error ..
      | ok u' =>
        refine ⟨rfl, by rw [h4]; rfl, u', put_self _ _ _, ?_⟩
        simp only
        cases power x y z u' with
        | error e => exact computes_error ..
        | ok v => exact computes_new (F := F) true _ _ _ v
  · rename_i hn
    simp only [multiplySource]
    split
    · exfalso
      rw [List.forall₂_cons_right_iff] at ha
      obtain ⟨b1, _, q1, ha, rfl⟩ := ha
      rw [List.forall₂_cons_right_iff] at ha
      obtain ⟨b2, _, q2, ha, rfl⟩ := ha
      rw [List.forall₂_cons_right_iff] at ha
      obtain ⟨b3, _, q3, ha, rfl⟩ := ha
      rw [List.forall₂_cons_right_iff] at ha
      obtain ⟨b4, _, q4, ha, rfl⟩ := ha
      cases ha
      obtain ⟨_, rfl⟩ := tensorR q1
      obtain ⟨_, rfl⟩ := tensorR q2
      obtain ⟨_, rfl⟩ := tensorR q3
      obtain ⟨_, rfl⟩ := tensorR q4
      exact hn _ _ _ _ rfl
    · exact computes_error ..

theorem tensorSum_implements {R : Type} : Implements (tensorSumSourceH (R := R)) tensorSumSource true fun _ _ => False := by
  refine ⟨rfl, fun σ args kwargs argsP kwargsP key ha hk hdist => ?_⟩
  have hdist := hdist rfl
  simp only [tensorSumSourceH]
  split
  · rename_i a b w o _
    rw [List.forall₂_cons_left_iff] at ha
    obtain ⟨b1, _, q1, ha, rfl⟩ := ha
    rw [List.forall₂_cons_left_iff] at ha
    obtain ⟨b2, _, q2, ha, rfl⟩ := ha
    rw [List.forall₂_cons_left_iff] at ha
    obtain ⟨b3, _, q3, ha, rfl⟩ := ha
    rw [List.forall₂_cons_left_iff] at ha
    obtain ⟨b4, _, q4, ha, rfl⟩ := ha
    cases ha
    obtain ⟨x, rfl, h1⟩ := tensorL q1
    obtain ⟨y, rfl, h2⟩ := tensorL q2
    obtain rfl := floatL q3
    obtain rfl := floatL q4
    · have hab : a ≠ b := by
        intro hab
        subst hab
        have := hdist (.pos 0) (.pos 1) a rfl rfl
        cases this
      simp only [tensorSumSource]
      refine ⟨x, h1, y, h2, ?_⟩
      simp only [Region.tensorSum]
      cases x with
      | scalar x =>
        cases y with
        | rows ys => exact computes_error ..
        | scalar y =>
          simp only [if_pos, if_neg (by decide : ¬ (1 : ℕ) = 0)]
          by_cases hw : 1 / 2 < w
          · rw [if_pos hw, if_pos hw]
            exact ⟨_, rfl, _, rfl, .tensor (by simpa using h2), fun h => h.elim⟩
          · rw [if_neg hw, if_neg hw]
            exact ⟨_, rfl, _, rfl, .tensor (by simpa using h1), fun h => h.elim⟩
      | rows xs =>
        cases y with
        | scalar y => exact computes_error ..
        | rows ys =>
          simp only [if_pos, if_neg (by decide : ¬ (1 : ℕ) = 0)]
          by_cases hl : xs.length = ys.length
          · rw [if_pos hl, if_pos hl]
            rcases hr : Region.ratioToRegion w o xs.length with ⟨s, e, inv⟩
            cases inv with
            | true => exact ⟨rfl, by rw [h2]; rfl, _, rfl, _, rfl, .tensor (by simp [put_self, Region.Store.put]), fun h => h.elim⟩
            | false => exact ⟨rfl, by rw [h1]; rfl, _, rfl, _, rfl, .tensor (by simp [put_self, Region.Store.put]), fun h => h.elim⟩
          · rw [if_neg hl, if_neg hl]
            exact computes_error ..
  · rename_i hn
    simp only [tensorSumSource]
    split
    · exfalso
      rw [List.forall₂_cons_right_iff] at ha
      obtain ⟨b1, _, q1, ha, rfl⟩ := ha
      rw [List.forall₂_cons_right_iff] at ha
      obtain ⟨b2, _, q2, ha, rfl⟩ := ha
      rw [List.forall₂_cons_right_iff] at ha
      obtain ⟨b3, _, q3, ha, rfl⟩ := ha
      rw [List.forall₂_cons_right_iff] at ha
      obtain ⟨b4, _, q4, ha, rfl⟩ := ha
      cases ha
      obtain ⟨_, rfl⟩ := tensorR q1
      obtain ⟨_, rfl⟩ := tensorR q2
      obtain rfl := floatR q3
      obtain rfl := floatR q4
      exact hn _ _ _ _ rfl
    · exact computes_error ..

/-! ### Casts of inputs -/

theorem toNode_sig {E : Env F} (hE : E.resolve nCast = .ok castSig) {a r : Val F} (ha : a.isNode = true) {d t : Option Str} (h : toNode E a d t = .ok r) :
    r = castNode a d t := by
  have h' : createRecipe E nCast [a] [("device".toList, optVal d), ("dtype".toList, optVal t)] = .ok r := h
  obtain ⟨sig', bd, as, ks, sp, h1, h2, h3, h4, h5, rfl⟩ := Serialize.createRecipe_ok.1 h'
  rw [hE] at h1
  cases h1
  rw [bind_cast] at h2
  cases h2
  have h3' : valuesToNodes E [a, optVal d, optVal t] = .ok [a, .lit (optVal d) none paramSpace, .lit (optVal t) none paramSpace] := by
    unfold valuesToNodes valuesToNodes valuesToNodes valuesToNodes
    rw [Serialize.valueToNode_node ha, valueToNode_opt, valueToNode_opt]
    rfl
  rw [h3'] at h3
  cases h3
  have h4' : valuesToNodesK E ([] : List (Str × Val F)) = .ok [] := rfl
  rw [h4'] at h4
  cases h4
  rfl

theorem cast_copies {X : Traits F V} {W : World F V} {same move} (hX : HasCast X W same move) {a : Val F} {d t : Option Str}
    (ha : ∀ key x, castRun W.conv .tensor (eval W a) key = .ok (.tensor x) → same d t x = false) :
    Copies X W nCast [a, .lit (optVal d) none paramSpace, .lit (optVal t) none paramSpace] [] := by
  intro key as ks hl harg
  rw [hX.fresh]
  have t0 : typeOf W nCast 3 (.pos 0) = some (.val .tensor) := by unfold typeOf; rw [hX.impl]; rfl
  have t1 : typeOf W nCast 3 (.pos 1) = some (.val .str) := by unfold typeOf; rw [hX.impl]; rfl
  have t2 : typeOf W nCast 3 (.pos 2) = some (.val .str) := by unfold typeOf; rw [hX.impl]; rfl
  obtain ⟨a0, p0, h1, h2, h3⟩ := harg (.pos 0) a rfl
  obtain ⟨a1, p1, h4, h5, h6⟩ := harg (.pos 1) _ rfl
  obtain ⟨a2, p2, h7, h8, h9⟩ := harg (.pos 2) _ rfl
  have h2' : typeOf W nCast 3 (.pos 0) = some p0 := h2
  have h5' : typeOf W nCast 3 (.pos 1) = some p1 := h5
  have h8' : typeOf W nCast 3 (.pos 2) = some p2 := h8
  rw [t0] at h2'; cases h2'
  rw [t1] at h5'; cases h5'
  rw [t2] at h8'; cases h8'
  obtain ⟨x0, h3, rfl⟩ := h3
  obtain ⟨x1, h6, rfl⟩ := h6
  obtain ⟨x2, h9, rfl⟩ := h9
  rw [castRun_opt] at h6 h9
  cases h6
  cases h9
  match as, hl, h1, h4, h7 with
  | [b0, b1, b2], _, h1, h4, h7 =>
    simp only [argAt, List.getElem?_cons_zero, List.getElem?_cons_succ, Option.some.injEq] at h1 h4 h7
    subst h1 h4 h7
    intro x device dtype d' t' hargs hd ht
    simp only [List.map_cons, List.map_nil, shape, List.cons.injEq, Shape.val.injEq, and_true] at hargs
    obtain ⟨rfl, rfl, rfl⟩ := hargs
    have hd' : d' = d := by cases d <;> · simp only [optR, deviceArg, Except.ok.injEq] at hd; exact hd.symm
    have ht' : t' = t := by
      cases t with
      | none => simp only [optR, dtypeArg, Except.ok.injEq] at ht; exact ht.symm
      | some s =>
        simp only [optR, dtypeArg] at ht
        split_ifs at ht
        exact (Except.ok.inj ht).symm
    subst hd' ht'
    exact ha key x h3

theorem owned_cast {X : Traits F V} {W : World F V} {same move} (hX : HasCast X W same move) {a : Val F} {d t : Option Str}
    (ha : Owned X W a ∨ ∀ key x, castRun W.conv .tensor (eval W a) key = .ok (.tensor x) → same d t x = false) (hs : Safe X W a) :
    Owned X W (castNode a d t) ∧ Safe X W (castNode a d t) := by
  have ho : ∀ o : Option Str, Owned X W (.lit (optVal o) none paramSpace) ∧ Safe X W (.lit (optVal o) none paramSpace) := by
    intro o
    cases o <;> simp [optVal, Owned, Safe]
  unfold castNode
  constructor
  · rw [Owned]
    rcases ha with ha | ha
    · left
      simp only [OwnedL, OwnedK, ha, (ho d).1, (ho t).1, and_self]
    · exact .inr (cast_copies hX ha)
  · rw [Safe]
    refine ⟨fun h => ?_, by simp [Dict.keys], ?_, by rw [SafeK]; trivial⟩
    · rw [hX.reads] at h; cases h
    · simp only [SafeL, hs, (ho d).2, (ho t).2, and_self]

theorem castRun_tensor {C : Conv F V} {run : Str → Res F V} {key : Str} {x y : V} (h : castRun C .tensor run key = .ok (.tensor x)) (hy : run key = .ok (.tensor y)) : x = y := by
  unfold castRun at h
  rw [hy] at h
  simp [castTo, RVal.isInstance] at h
  exact h.symm

theorem visitKeys_ok {α : Type} {get : Str → Except Err α} {a : α} : ∀ {ks : List Str}, visitKeys get ks = .ok a → ∃ k, get k = .ok a
  | [], h => by cases h
  | [k], h => by
    simp only [visitKeys] at h
    cases hk : get k with
    | ok v => rw [hk] at h; exact ⟨k, hk.trans h⟩
    | error e => rw [hk] at h; simp only at h; split_ifs at h
  | k :: k' :: ks, h => by
    rw [visitKeys_two] at h
    cases hk : get k with
    | ok v => rw [hk] at h; exact ⟨k, hk.trans h⟩
    | error e =>
      rw [hk] at h
      simp only at h
      split_ifs at h
      exact visitKeys_ok h

theorem visitSd_ok {α : Type} {W : World F V} {get : Str → Except Err α} {c : Option Str} {key : Str} {a : α} (h : visitSd W get c key = .ok a) : ∃ k, get k = .ok a := by
  unfold visitSd at h
  cases c with
  | none => cases h
  | some c =>
    simp only at h
    cases hc : W.configs c with
    | none => rw [hc] at h; cases h
    | some cfg => rw [hc] at h; exact visitKeys_ok h

theorem model_moved {W : World F V} {same : V → Bool} (hR : ∀ p k x, W.read p k = .ok x → same x = false) {p : Str} {c s : Option Str} {key : Str} {x : V}
    (h : castRun W.conv .tensor (eval W (.model p c s)) key = .ok (.tensor x)) : same x = false := by
  have he : eval W (.model p c s) key = match visitSd W (W.read p) c key with | .ok t => .ok (.tensor t) | .error e => .error e := by rw [eval]; rfl
  cases hv : visitSd W (W.read p) c key with
  | error e =>
    rw [hv] at he
    unfold castRun at h
    rw [he] at h
    cases h
  | ok y =>
    rw [hv] at he
    obtain rfl := castRun_tensor h he
    obtain ⟨k, hk⟩ := visitSd_ok hv
    exact hR p k x hk

theorem get?_mem {α : Type} {es : List (Str × α)} {k : Str} {v : α} (h : Dict.get? es k = some v) : ∃ k', (k', v) ∈ es := by
  induction es with
  | nil => cases h
  | cons p es ih =>
    obtain ⟨k', v'⟩ := p
    unfold Dict.get? at h
    split_ifs at h
    · cases h; exact ⟨k', by simp⟩
    · obtain ⟨k'', hk⟩ := ih h
      exact ⟨k'', List.mem_cons_of_mem _ hk⟩

theorem dict_moved {W : World F V} {same : V → Bool} (hT : ∀ i, same (W.tensors i) = false) {es : List (Str × Val F)} (hes : ∀ p ∈ es, isTensor p.2)
    {c : Option Str} {s : Str} {key : Str} {x : V} (h : castRun W.conv .tensor (eval W (.lit (.dict es) c s)) key = .ok (.tensor x)) : same x = false := by
  obtain ⟨get, hget⟩ : ∃ get : Str → Except Err (Str → Res F V), get = fun k =>
      match Dict.get? (evalD W es) k with | some f => .ok f | none => .error .key := ⟨_, rfl⟩
  have heval : eval W (.lit (.dict es) c s) key =
      match visitSd W get c key with | .ok f => f key | .error e => .error e := by rw [eval, hget]; rfl
  cases hv : visitSd W get c key with
  | error e =>
    rw [hv] at heval
    unfold castRun at h
    rw [heval] at h
    cases h
  | ok f =>
    rw [hv] at heval
    obtain ⟨k, hk⟩ := visitSd_ok hv
    rw [hget] at hk
    simp only [get?_evalD] at hk
    cases hd : Dict.get? es k with
    | none => rw [hd] at hk; cases hk
    | some v =>
      rw [hd] at hk
      simp only [Option.map_some, Except.ok.injEq] at hk
      subst hk
      obtain ⟨k', hm⟩ := get?_mem hd
      have hv := hes _ hm
      cases v with
      | tensor i =>
        simp only [eval] at heval
        obtain rfl := castRun_tensor h heval
        exact hT i
      | _ => exact hv.elim

theorem ownedK_of {X : Traits F V} {W : World F V} : ∀ {es : List (Str × Val F)}, (∀ p ∈ es, isNumber p.2 ∨ isText p.2) → OwnedK X W es ∧ SafeK X W es
  | [], _ => by simp [OwnedK, SafeK]
  | (k, v) :: es, h => by
    obtain ⟨h1, h2⟩ := ownedK_of (X := X) (W := W) (es := es) fun p hp => h p (List.mem_cons_of_mem _ hp)
    have hv := h (k, v) (by simp)
    rw [OwnedK, SafeK]
    cases v <;> simp_all [isNumber, isText, Owned, Safe]

theorem safeK_of {X : Traits F V} {W : World F V} : ∀ {es : List (Str × Val F)}, (∀ p ∈ es, isTensor p.2) → SafeK X W es
  | [], _ => by simp [SafeK]
  | (k, v) :: es, h => by
    have h1 := safeK_of (X := X) (W := W) (es := es) fun p hp => h p (List.mem_cons_of_mem _ hp)
    have hv := h (k, v) (by simp)
    rw [SafeK]
    cases v <;> simp_all [isTensor, Safe]

theorem keys_castInputsK {E : Env F} {d t : Option Str} : ∀ {l l' : List (Str × Val F)}, castInputsK E d t l = .ok l' → Dict.keys l' = Dict.keys l
  | [], l', h => by simp only [castInputsK, Except.ok.injEq] at h; subst h; rfl
  | (k, v) :: l, l', h => by
    simp only [castInputsK] at h
    cases h1 : castInputs E d t v with
    | error e => rw [h1] at h; cases h
    | ok v' =>
      cases h2 : castInputsK E d t l with
      | error e => rw [h1, h2] at h; cases h
      | ok l2 =>
        rw [h1, h2] at h
        cases h
        have := keys_castInputsK h2
        simp only [Dict.keys, List.map_cons] at this ⊢
        rw [this]

theorem mkLit_shape {E : Env F} {v r : Val F} {c s : Option Str} (h : mkLit E v c s = .ok r) : ∃ c' s', r = .lit v c' s' := by
  simp only [mkLit, Bind.bind, Except.bind] at h
  repeat' split at h
  all_goals first | exact ⟨_, _, (Except.ok.inj h).symm⟩ | cases h

section
variable {X : Traits F V} {W : World F V} {same : Option Str → Option Str → V → Bool} {move : Option Str → Option Str → V → Except Err V} (hX : HasCast X W same move)
  {d t : Option Str} (hT : ∀ i, same d t (W.tensors i) = false) (hR : ∀ p k x, W.read p k = .ok x → same d t x = false)
include hX hT hR

mutual
theorem cast_owned : ∀ (r r' : Val F), Built r → castInputs W.env d t r = .ok r' → Owned X W r' ∧ Safe X W r'
  | .lit (.dict []) c s, r', hb, h => by simp [castInputs] at h
  | .lit (.dict ((k, v) :: es)) c s, r', hb, h => by
    rw [Built] at hb
    simp only [castInputs] at h
    by_cases hsc : isScalar v = true
    · rw [if_pos hsc] at h
      obtain rfl := toNode_sig hX.sig rfl h
      rcases hb with hb | hb | hb | hb
      · obtain ⟨h1, h2⟩ := ownedK_of (X := X) (W := W) fun p hp => .inl (hb p hp)
        exact owned_cast hX (.inl (by rw [Owned, Owned]; exact h1)) (by rw [Safe, Safe]; exact h2)
      · exact owned_cast hX (.inr fun key x hx => dict_moved hT hb hx) (by rw [Safe, Safe]; exact safeK_of hb)
      · have := hb (k, v) (by simp)
        cases v <;> simp_all [isScalar, isText]
      · have := hb.1 (k, v) (by simp)
        cases v <;> simp_all [isScalar, Val.isNode]
    · rw [if_neg hsc] at h
      by_cases hn : v.isNode = true
      · rw [if_pos hn] at h
        have hbk : BuiltK ((k, v) :: es) := by
          rcases hb with hb | hb | hb | hb
          · have := hb (k, v) (by simp)
            cases v <;> simp_all [isNumber, Val.isNode]
          · have := hb (k, v) (by simp)
            cases v <;> simp_all [isTensor, Val.isNode]
          · have := hb (k, v) (by simp)
            cases v <;> simp_all [isText, Val.isNode]
          · exact hb.2
        cases hk : castInputsK W.env d t ((k, v) :: es) with
        | error e => rw [hk] at h; cases h
        | ok es' =>
          rw [hk] at h
          obtain ⟨c', s', rfl⟩ := mkLit_shape h
          obtain ⟨h1, h2⟩ := cast_ownedK ((k, v) :: es) es' hbk hk
          exact ⟨by rw [Owned, Owned]; exact h1, by rw [Safe, Safe]; exact h2⟩
      · rw [if_neg hn] at h
        cases h
        have htx : ∀ p ∈ (k, v) :: es, isText p.2 := by
          rcases hb with hb | hb | hb | hb
          · have := hb (k, v) (by simp)
            cases v <;> simp_all [isNumber, isScalar]
          · have := hb (k, v) (by simp)
            cases v <;> simp_all [isTensor, isScalar]
          · exact hb
          · exact absurd (hb.1 (k, v) (by simp)) hn
        obtain ⟨h1, h2⟩ := ownedK_of (X := X) (W := W) fun p hp => .inr (htx p hp)
        exact ⟨by rw [Owned, Owned]; exact h1, by rw [Safe, Safe]; exact h2⟩
  | .lit (.int i) c s, r', hb, h => by
    obtain rfl := toNode_sig hX.sig rfl (by simpa [castInputs, isScalar] using h)
    exact owned_cast hX (.inl (by simp [Owned])) (by simp [Safe])
  | .lit (.float i) c s, r', hb, h => by
    obtain rfl := toNode_sig hX.sig rfl (by simpa [castInputs, isScalar] using h)
    exact owned_cast hX (.inl (by simp [Owned])) (by simp [Safe])
  | .lit (.bool i) c s, r', hb, h => by
    obtain rfl := toNode_sig hX.sig rfl (by simpa [castInputs, isScalar] using h)
    exact owned_cast hX (.inl (by simp [Owned])) (by simp [Safe])
  | .lit (.tensor i) c s, r', hb, h => by
    obtain rfl := toNode_sig hX.sig rfl (by simpa [castInputs, isScalar] using h)
    refine owned_cast hX (.inr fun key x hx => ?_) (by simp [Safe])
    obtain rfl := castRun_tensor (y := W.tensors i) hx (by simp [eval])
    exact hT i
  | .lit (.str i) c s, r', hb, h => by
    simp [castInputs, isScalar] at h
    subst h
    simp [Owned, Safe]
  | .lit .none c s, r', hb, h => by
    simp [castInputs, isScalar] at h
    subst h
    simp [Owned, Safe]
  | .lit (.lit ..) c s, r', hb, h => by simp [Built, isNumber, isTensor, isText] at hb
  | .lit (.model ..) c s, r', hb, h => by simp [Built, isNumber, isTensor, isText] at hb
  | .lit (.merge ..) c s, r', hb, h => by simp [Built, isNumber, isTensor, isText] at hb
  | .model p c s, r', hb, h => by
    obtain rfl := toNode_sig hX.sig rfl (by simpa [castInputs] using h)
    exact owned_cast hX (.inr fun key x hx => model_moved (fun p k x h => hR p k x h) hx) (by simp [Safe])
  | .merge m args kwargs, r', hb, h => by
    rw [Built] at hb
    simp only [castInputs] at h
    cases h1 : castInputsL W.env d t args with
    | error e => rw [h1] at h; cases h
    | ok as =>
      cases h2 : castInputsK W.env d t kwargs with
      | error e => rw [h1, h2] at h; cases h
      | ok ks =>
        rw [h1, h2] at h
        simp only at h
        cases h3 : (Val.merge m as ks).space W.env with
        | error e => rw [h3] at h; cases h
        | ok sp =>
          rw [h3] at h
          cases h
          obtain ⟨o1, s1⟩ := cast_ownedL args as hb.2.1 h1
          obtain ⟨o2, s2⟩ := cast_ownedK kwargs ks hb.2.2 h2
          refine ⟨by rw [Owned]; exact .inl ⟨o1, o2⟩, ?_⟩
          rw [Safe]
          refine ⟨fun _ => ⟨o1, o2⟩, ?_, s1, s2⟩
          rw [keys_castInputsK h2]
          exact hb.1
  | .str _, r', hb, h => by simp [castInputs] at h
  | .int _, r', hb, h => by simp [castInputs] at h
  | .float _, r', hb, h => by simp [castInputs] at h
  | .bool _, r', hb, h => by simp [castInputs] at h
  | .none, r', hb, h => by simp [castInputs] at h
  | .tensor _, r', hb, h => by simp [castInputs] at h
  | .dict _, r', hb, h => by simp [castInputs] at h
theorem cast_ownedL : ∀ (l l' : List (Val F)), BuiltL l → castInputsL W.env d t l = .ok l' → OwnedL X W l' ∧ SafeL X W l'
  | [], l', hb, h => by simp only [castInputsL, Except.ok.injEq] at h; subst h; simp [OwnedL, SafeL]
  | v :: l, l', hb, h => by
    rw [BuiltL] at hb
    simp only [castInputsL] at h
    cases h1 : castInputs W.env d t v with
    | error e => rw [h1] at h; cases h
    | ok v' =>
      cases h2 : castInputsL W.env d t l with
      | error e => rw [h1, h2] at h; cases h
      | ok l2 =>
        rw [h1, h2] at h
        cases h
        obtain ⟨o1, s1⟩ := cast_owned v v' hb.1 h1
        obtain ⟨o2, s2⟩ := cast_ownedL l l2 hb.2 h2
        rw [OwnedL, SafeL]
        exact ⟨⟨o1, o2⟩, s1, s2⟩
theorem cast_ownedK : ∀ (l l' : List (Str × Val F)), BuiltK l → castInputsK W.env d t l = .ok l' → OwnedK X W l' ∧ SafeK X W l'
  | [], l', hb, h => by simp only [castInputsK, Except.ok.injEq] at h; subst h; simp [OwnedK, SafeK]
  | (k, v) :: l, l', hb, h => by
    rw [BuiltK] at hb
    simp only [castInputsK] at h
    cases h1 : castInputs W.env d t v with
    | error e => rw [h1] at h; cases h
    | ok v' =>
      cases h2 : castInputsK W.env d t l with
      | error e => rw [h1, h2] at h; cases h
      | ok l2 =>
        rw [h1, h2] at h
        cases h
        obtain ⟨o1, s1⟩ := cast_owned v v' hb.1 h1
        obtain ⟨o2, s2⟩ := cast_ownedK l l2 hb.2 h2
        rw [OwnedK, SafeK]
        exact ⟨⟨o1, o2⟩, s1, s2⟩
end

end

theorem castInputs_isNode {E : Env F} (hE : E.resolve nCast = .ok castSig) {d t : Option Str} {r r' : Val F} (h : castInputs E d t r = .ok r') : r'.isNode = true := by
  have hc : ∀ {a : Val F}, a.isNode = true → toNode E a d t = .ok r' → r'.isNode = true := fun ha h => by
    rw [toNode_sig hE ha h]; rfl
  cases r with
  | lit v c s =>
    cases v with
    | dict es =>
      cases es with
      | nil => simp [castInputs] at h
      | cons p es =>
        obtain ⟨k, v⟩ := p
        simp only [castInputs] at h
        split_ifs at h
        · exact hc rfl h
        · cases hk : castInputsK E d t ((k, v) :: es) with
          | error e => rw [hk] at h; cases h
          | ok es' =>
            rw [hk] at h
            obtain ⟨c', s', rfl⟩ := mkLit_shape h
            rfl
        · cases h; rfl
    | _ => simp only [castInputs] at h; split_ifs at h <;> first | exact hc rfl h | (cases h; rfl)
  | model p c s => simp only [castInputs] at h; exact hc rfl h
  | merge m args kwargs =>
    simp only [castInputs] at h
    cases h1 : castInputsL E d t args with
    | error e => rw [h1] at h; cases h
    | ok as =>
      cases h2 : castInputsK E d t kwargs with
      | error e => rw [h1, h2] at h; cases h
      | ok ks =>
        rw [h1, h2] at h
        simp only at h
        split at h
        · cases h
        · cases h; rfl
  | _ => simp [castInputs] at h

mutual
theorem reads_safe {X : Traits F V} {W : World F V} : ∀ (r : Val F), Reads X r → Safe X W r
  | .lit v _ _, h => by rw [Reads] at h; rw [Safe]; exact reads_safe v h
  | .dict es, h => by rw [Reads] at h; rw [Safe]; exact reads_safeK es h
  | .merge m args kwargs, h => by
    rw [Reads] at h
    rw [Safe]
    exact ⟨fun hw => by (rw [h.1] at hw; cases hw), h.2.1, reads_safeL args h.2.2.1, reads_safeK kwargs h.2.2.2⟩
  | .model .., _ => by simp [Safe]
  | .str _, _ => by simp [Safe]
  | .int _, _ => by simp [Safe]
  | .float _, _ => by simp [Safe]
  | .bool _, _ => by simp [Safe]
  | .none, _ => by simp [Safe]
  | .tensor _, _ => by simp [Safe]
theorem reads_safeL {X : Traits F V} {W : World F V} : ∀ (l : List (Val F)), ReadsL X l → SafeL X W l
  | [], _ => by simp [SafeL]
  | v :: l, h => by rw [ReadsL] at h; rw [SafeL]; exact ⟨reads_safe v h.1, reads_safeL l h.2⟩
theorem reads_safeK {X : Traits F V} {W : World F V} : ∀ (l : List (Str × Val F)), ReadsK X l → SafeK X W l
  | [], _ => by simp [SafeK]
  | (k, v) :: l, h => by rw [ReadsK] at h; rw [SafeK]; exact ⟨reads_safe v h.1, reads_safeK l h.2⟩
end

end Verif.Mem
