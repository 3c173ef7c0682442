import Verif.Proofs.Eval
import Verif.Proofs.Rebuild
import Verif.Spec.Eval

/-!
# The non-numeric builtin methods
-/
namespace Verif.Eval
open Method Recipe Config Spec
variable {F T : Type}

/-! ### Depth -/

theorem maxDepth_isSome {l : List (Option ℕ)} (hne : l ≠ []) (h : ∀ d ∈ l, d.isSome) : (maxDepth l).isSome := by
  induction l with
  | nil => exact absurd rfl hne
  | cons d l ih =>
    cases l with
    | nil => exact h d (by simp)
    | cons e l =>
      unfold maxDepth
      obtain ⟨a, ha⟩ := Option.isSome_iff_exists.1 (h d (by simp))
      obtain ⟨b, hb⟩ := Option.isSome_iff_exists.1 (ih (by simp) (fun x hx => h x (by simp [hx])))
      rw [ha, hb]
      rfl

mutual
theorem depth_isSome : ∀ (v : Val F), Proper v → (depth v).isSome
  | .lit .. => fun _ => rfl
  | .model .. => fun _ => rfl
  | .merge m args kwargs => fun h => by
    unfold Proper at h
    unfold depth
    have : (maxDepth (depthL args ++ depthK kwargs)).isSome := by
      apply maxDepth_isSome
      · rcases h.1 with h1 | h1
        · cases args with
          | nil => exact absurd rfl h1
          | cons a l => simp [depthL]
        · cases kwargs with
          | nil => exact absurd rfl h1
          | cons a l => obtain ⟨k, a⟩ := a; simp [depthK]
      · intro d hd
        rcases List.mem_append.1 hd with hd | hd
        · exact depthL_isSome args h.2.1 d hd
        · exact depthK_isSome kwargs h.2.2 d hd
    obtain ⟨a, ha⟩ := Option.isSome_iff_exists.1 this
    rw [ha]; rfl
  | .str _ => fun h => by simp [Proper] at h
  | .int _ => fun h => by simp [Proper] at h
  | .float _ => fun h => by simp [Proper] at h
  | .bool _ => fun h => by simp [Proper] at h
  | .none => fun h => by simp [Proper] at h
  | .tensor _ => fun h => by simp [Proper] at h
  | .dict _ => fun h => by simp [Proper] at h
theorem depthL_isSome : ∀ (l : List (Val F)), ProperL l → ∀ d ∈ depthL l, d.isSome
  | [] => fun _ d hd => by simp [depthL] at hd
  | v :: l => fun h d hd => by
    unfold ProperL at h
    unfold depthL at hd
    rcases List.mem_cons.1 hd with rfl | hd
    · exact depth_isSome v h.1
    · exact depthL_isSome l h.2 d hd
theorem depthK_isSome : ∀ (l : List (Str × Val F)), ProperK l → ∀ d ∈ depthK l, d.isSome
  | [] => fun _ d hd => by simp [depthK] at hd
  | (k, v) :: l => fun h d hd => by
    unfold ProperK at h
    unfold depthK at hd
    rcases List.mem_cons.1 hd with rfl | hd
    · exact depth_isSome v h.1
    · exact depthK_isSome l h.2 d hd
end

theorem Spec.Proper.isNode {v : Val F} (h : Proper v) : v.isNode = true := by
  cases v <;> first | rfl | (simp [Proper] at h)

/-! ### Building -/

theorem create_two {E : Env F} {m : Str} {sig : Sig (Val F)} (hsig : E.resolve m = .ok sig) {a b r : Val F}
    (hbind : ∀ x y : Val F, Method.bind sig [x, y] [] = .ok ⟨[x, y], []⟩) (ha : a.isNode = true)
    (h : createRecipe E m [a, b] [] = .ok r) : ∃ b', valueToNode E b = .ok b' ∧ r = .merge m [a, b'] [] := by
  obtain ⟨sig', bd, as, ks, sp, h1, h2, h3, h4, h5, rfl⟩ := Serialize.createRecipe_ok.1 h
  rw [hsig] at h1
  cases h1
  rw [hbind] at h2
  cases h2
  unfold valuesToNodes at h3
  rw [Serialize.valueToNode_node ha] at h3
  unfold valuesToNodes at h3
  cases hb : valueToNode E b with
  | error e => rw [hb] at h3; cases h3
  | ok b' =>
    rw [hb] at h3
    have e1 : as = [a, b'] := by
      have : valuesToNodes E ([] : List (Val F)) = .ok [] := rfl
      rw [this] at h3
      exact (Except.ok.inj h3).symm
    have e2 : ks = [] := (Except.ok.inj h4).symm
    exact ⟨b', rfl, by rw [e1, e2]⟩

theorem bind_fallback (x y : Val F) : Method.bind (fallbackSig (F := F)) [x, y] [] = .ok ⟨[x, y], []⟩ := rfl
theorem bind_component (x y : Val F) : Method.bind (componentSig (F := F)) [x, y] [] = .ok ⟨[x, y], []⟩ := rfl
theorem bind_cast (x y z : Val F) :
    Method.bind (castSig (F := F)) [x] [("device".toList, y), ("dtype".toList, z)] = .ok ⟨[x, y, z], []⟩ := rfl

theorem valueToNode_isNode {E : Env F} {v n : Val F} (h : valueToNode E v = .ok n) : n.isNode = true := by
  by_cases hv : v.isNode = true
  · rw [Serialize.valueToNode_node hv] at h; cases h; exact hv
  · obtain ⟨c, s, rfl⟩ := Serialize.valueToNode_lit (by simpa using hv) h
    rfl

theorem orNode_shape {W : World F T} {move} (hW : Builtin W move) {a b r : Val F} (ha : a.isNode = true)
    (h : orNode W.env a b = .ok r) : ∃ b', valueToNode W.env b = .ok b' ∧ r = .merge nFallback [a, b'] [] := by
  unfold orNode at h
  cases hb : valueToNode W.env b with
  | error e => rw [hb] at h; cases h
  | ok b' =>
    rw [hb] at h
    obtain ⟨b'', h1, h2⟩ := create_two hW.sigFallback bind_fallback ha h
    rw [Serialize.valueToNode_node (valueToNode_isNode hb)] at h1
    cases h1
    exact ⟨b', rfl, h2⟩

/-! ### Evaluating -/

theorem castTo_typeVar (C : Conv F T) (v : RVal F T) : castTo C .typeVar v = .ok v := by
  unfold castTo
  cases v <;> simp

theorem castRun_typeVar (C : Conv F T) (f : Str → Res F T) : castRun C .typeVar f = f := by
  funext k
  unfold castRun
  cases f k with
  | error e => rfl
  | ok v => exact castTo_typeVar C v

theorem eval_fallback {W : World F T} {move} (hW : Builtin W move) {a b : Val F} (ha : Proper a) (hb : Proper b) :
    eval W (.merge nFallback [a, b] []) = orElse (eval W a) (eval W b) := by
  funext key
  rw [eval_merge, hW.implFallback, evalL_cons, evalL_cons, evalL_nil, evalK_nil]
  simp only [List.append_nil, List.length_cons, List.length_nil]
  rw [applyMerge_good (f := fun c => .sd (castRun W.conv .typeVar c.run) c.config)]
  · simp only [castRun_typeVar]
    change (fallbackImpl (F := F) (T := T)).run [.sd (eval W a) (configOf W a), .sd (eval W b) (configOf W b)] (fun _ => none) key = _
    simp only [fallbackImpl]
    unfold orElse
    cases eval W a key with
    | ok v => rfl
    | error e => cases e <;> rfl
  · intro c hc
    simp only [List.mem_cons, List.not_mem_nil, or_false] at hc
    rcases hc with rfl | rfl
    · exact depth_isSome a ha
    · exact depth_isSome b hb
  · simp only [List.map_cons, List.map_nil]; decide
  · intro c hc
    simp only [List.mem_cons, List.not_mem_nil, or_false] at hc
    rcases hc with rfl | rfl <;> rfl

theorem eval_component {W : World F T} {m : Str} {impl : Impl F T} (himpl : W.impl m = impl)
    (htypes : impl.types = ⟨[.sd .typeVar, .val .str], none, []⟩) {a : Val F} (ha : Proper a) (c : Str) (cfg : Option Str) (sp : Str) (key : Str) :
    eval W (.merge m [a, .lit (.str c) cfg sp] []) key = impl.run [.sd (eval W a) (configOf W a), .val (.str c)] (fun _ => none) key := by
  rw [eval_merge, himpl, evalL_cons, evalL_cons, evalL_nil, evalK_nil]
  simp only [List.append_nil, List.length_cons, List.length_nil]
  have hl : eval W (.lit (.str c) cfg sp) = fun _ => .ok (.str c) := by simp [eval]
  rw [hl]
  rw [applyMerge_good (f := fun x => if x.idx = .pos 0 then .sd (castRun W.conv .typeVar x.run) x.config else .val (.str c))]
  · simp only [castRun_typeVar]
    rfl
  · intro x hx
    simp only [List.mem_cons, List.not_mem_nil, or_false] at hx
    rcases hx with rfl | rfl
    · exact depth_isSome a ha
    · rfl
  · simp only [List.map_cons, List.map_nil]; decide
  · rw [htypes]
    intro x hx
    simp only [List.mem_cons, List.not_mem_nil, or_false] at hx
    rcases hx with rfl | rfl <;> rfl

end Verif.Eval
