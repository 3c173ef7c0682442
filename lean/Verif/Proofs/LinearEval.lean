import Verif.Proofs.LinearOps
import Verif.Proofs.ReadmeEval
import Verif.Proofs.Lora
import Verif.Props.Eval

/-!
# What the methods make of what their arguments are
-/
namespace Verif.Linear
open Method Recipe Config Eval Eval.Spec Program Program.Spec Whole Whole.Spec Ieee Ieee.Spec Spec Readme
open Threads.Spec (stored)
open StreamOut (Tensor)
variable {F V : Type}

/-- A method with two mappings and a tensor -/
theorem eval_three (W : World F V) {m : Str} (src : Source F V) (h : W.impl m = impl src) (hty : src.types = ⟨[.sd .tensor, .sd .tensor, .val .tensor], none, []⟩)
    {a b : Val F} (ha : Proper a) (hb : Proper b) (i : ℕ) (cc : Option Str) (s : Str) (key : Str) :
    eval W (.merge m [a, b, .lit (.tensor i) cc s] []) key =
      (impl src).run [.sd (castRun W.conv .tensor (eval W a)) (configOf W a), .sd (castRun W.conv .tensor (eval W b)) (configOf W b),
        .val (.tensor (W.tensors i))] (fun _ => none) key := by
  rw [eval_merge, h]
  have he : eval W (.lit (.tensor i) cc s) = fun _ => .ok (.tensor (W.tensors i)) := by
    rw [eval] <;> simp [eval]
  have hch : evalL W 0 [a, b, .lit (.tensor i) cc s] ++ evalK W [] =
      [childOf W (.pos 0) a, childOf W (.pos 1) b, childOf W (.pos 2) (.lit (.tensor i) cc s)] := by
    rw [evalL, evalL, evalL, evalL, evalK]
    rfl
  rw [hch]
  have hl : [a, b, Val.lit (.tensor i) cc s].length = 3 := rfl
  rw [hl]
  have hT : (impl src).types = ⟨[.sd .tensor, .sd .tensor, .val .tensor], none, []⟩ := hty
  rw [applyMerge_good (f := fun c => if c.idx = .pos 2 then .val (.tensor (W.tensors i)) else .sd (castRun W.conv .tensor c.run) c.config)]
  · rfl
  · intro c hc
    simp only [List.mem_cons, List.not_mem_nil, or_false] at hc
    rcases hc with rfl | rfl | rfl
    · exact depth_isSome a ha
    · exact depth_isSome b hb
    · exact depth_isSome _ (by simp [Proper])
  · show [Idx.pos 0, .pos 1, .pos 2].Nodup
    decide
  · intro c hc
    simp only [List.mem_cons, List.not_mem_nil, or_false] at hc
    unfold good
    rw [hT]
    rcases hc with rfl | rfl | rfl
    · rfl
    · rfl
    · show (match castRun W.conv .tensor (eval W (.lit (.tensor i) cc s)) key with | .ok v => some (Arg.val v) | .error _ => none) = _
      rw [he]
      rfl

theorem eval_sum (T : Torch) (W : World F Tensor) (h : W.impl nWeighted = impl (weightedSource T)) {a b : Val F} (ha : Proper a) (hb : Proper b)
    (i : ℕ) (cc : Option Str) (s : Str) (key : Str) :
    eval W (.merge nWeighted [a, b, .lit (.tensor i) cc s] []) key =
      weighted T (castRun W.conv .tensor (eval W a) key) (castRun W.conv .tensor (eval W b) key) (W.tensors i) := by
  rw [eval_three W _ h rfl ha hb]
  generalize eval W a = fa
  generalize eval W b = fb
  generalize configOf W a = ga
  generalize configOf W b = gb
  show result _ ((weightedSource T).body [.sd ga, .sd gb, .val (.tensor (W.tensors i))] _ key) = _
  unfold weighted weightedSource
  simp only
  generalize W.tensors i = alpha
  cases allClose T zero alpha with
  | error e => rfl
  | ok b0 =>
    cases b0 with
    | true => rfl
    | false =>
      simp only
      cases allClose T one alpha with
      | error e => rfl
      | ok b1 =>
        cases b1 with
        | true => rfl
        | false =>
          simp only [result]
          change result _ (match castRun W.conv .tensor fa key with | .ok (.tensor a) => _ | .ok _ => _ | .error e => _) = _
          cases castRun W.conv .tensor fa key with
          | error e => rfl
          | ok va =>
            cases va <;> try rfl
            simp only [result]
            change result _ (match castRun W.conv .tensor fb key with | .ok (.tensor a) => _ | .ok _ => _ | .error e => _) = _
            cases castRun W.conv .tensor fb key with
            | error e => rfl
            | ok vb => cases vb <;> rfl

theorem eval_addDifference (add : V → V → V → Except Err V) (W : World F V) (h : W.impl Lora.nAdd = impl (Lora.addSource add)) {a b : Val F}
    (ha : Proper a) (hb : Proper b) (i : ℕ) (cc : Option Str) (s : Str) (key : Str) :
    eval W (.merge Lora.nAdd [a, b, .lit (.tensor i) cc s] []) key =
      Lora.added add (castRun W.conv .tensor (eval W a) key) (castRun W.conv .tensor (eval W b) key) (W.tensors i) := by
  rw [eval_three W _ h rfl ha hb]
  generalize eval W a = fa
  generalize eval W b = fb
  generalize configOf W a = ga
  generalize configOf W b = gb
  show result _ ((Lora.addSource add).body [.sd ga, .sd gb, .val (.tensor (W.tensors i))] (fun _ => none) key) = _
  unfold Lora.added Lora.addSource
  simp only [result]
  generalize W.tensors i = alpha
  change result _ (match castRun W.conv .tensor fb key with | .error e => _ | .ok a => _) = _
  cases castRun W.conv .tensor fb key with
  | error e => rfl
  | ok vb =>
    simp only [result]
    change result _ (match castRun W.conv .tensor fa key with | .error e => _ | .ok a => _) = _
    cases castRun W.conv .tensor fa key with
    | error e => rfl
    | ok va =>
      cases va <;> try rfl
      cases vb <;> rfl

theorem eval_subtract (A : Arith) (W : World F Tensor) (h : W.impl Wrappers.nSub = impl (subSource A)) {a b : Val F} (ha : Proper a) (hb : Proper b)
    (key : Str) {x y : Tensor} (hx : eval W a key = .ok (.tensor x)) (hy : eval W b key = .ok (.tensor y)) :
    eval W (.merge Wrappers.nSub [a, b] []) key = (minus A x y).map RVal.tensor := by
  rw [eval_merge, h]
  have hch : evalL W 0 [a, b] ++ evalK W [] = [childOf W (.pos 0) a, childOf W (.pos 1) b] := by
    rw [evalL, evalL, evalL, evalK]
    rfl
  rw [hch]
  have hl : [a, b].length = 2 := rfl
  rw [hl]
  have hT : (impl (subSource (F := F) A)).types = ⟨[.val .tensor, .val .tensor], none, []⟩ := rfl
  rw [applyMerge_good (f := fun c => if c.idx = .pos 0 then .val (.tensor x) else .val (.tensor y))]
  · rfl
  · intro c hc
    simp only [List.mem_cons, List.not_mem_nil, or_false] at hc
    rcases hc with rfl | rfl
    · exact depth_isSome a ha
    · exact depth_isSome b hb
  · show [Idx.pos 0, .pos 1].Nodup
    decide
  · intro c hc
    simp only [List.mem_cons, List.not_mem_nil, or_false] at hc
    unfold good
    rw [hT]
    rcases hc with rfl | rfl
    · have e : castRun W.conv .tensor (eval W a) key = .ok (.tensor x) := by unfold castRun; rw [hx]; rfl
      have e2 : Dict.get? ((⟨[.val .tensor, .val .tensor], none, []⟩ : FunctionArgs PTy).asDict (some 2)) (childOf W (.pos 0) a).idx = some (.val .tensor) := rfl
      rw [e2]
      simp only [childOf, e]
      rfl
    · have e : castRun W.conv .tensor (eval W b) key = .ok (.tensor y) := by unfold castRun; rw [hy]; rfl
      have e2 : Dict.get? ((⟨[.val .tensor, .val .tensor], none, []⟩ : FunctionArgs PTy).asDict (some 2)) (childOf W (.pos 1) b).idx = some (.val .tensor) := rfl
      rw [e2]
      simp only [childOf, e]
      rfl

/-- What a linear recipe is for a key: a tensor or missing -/
theorem castRun_id {C : Conv F Tensor} {f : Str → Res F Tensor} {key : Str}
    (h : (∃ t, f key = .ok (.tensor t)) ∨ f key = .error .stateDictKey) : castRun C .tensor f key = f key := by
  unfold castRun
  rcases h with ⟨t, h⟩ | h
  · rw [h]; rfl
  · rw [h]

end Verif.Linear
