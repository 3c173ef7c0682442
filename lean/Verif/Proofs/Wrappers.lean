import Verif.Model.Wrappers
import Verif.Proofs.EvalArgs
import Verif.Props.Method

/-!
# Building recipes of known merge spaces
-/
namespace Verif.Wrappers
open Method Recipe Eval
variable {F : Type} {E : Env F} {fl : Floats F}

/-- A node in merge space `s` -/
structure Has (E : Env F) (v : Val F) (s : Str) : Prop where
  node : v.isNode = true
  space : v.space E = .ok (some s)

/-- What is given for `v` is a node in merge space `s` after conversion to `n`. -/
structure Gives (E : Env F) (v n : Val F) (s : Str) : Prop where
  node : valueToNode E v = .ok n
  has : Has E n s

theorem Has.gives {v : Val F} {s : Str} (h : Has E v s) : Gives E v v s := ⟨Serialize.valueToNode_node h.node, h⟩

/-- A python literal that is not a dict -/
def IsScalar : Val F → Bool
  | .str _ | .int _ | .float _ | .bool _ | .none | .tensor _ => true
  | _ => false

theorem gives_scalar {v : Val F} (h : IsScalar v = true) : Gives E v (.lit v none paramSpace) paramSpace := by
  cases v <;> simp [IsScalar] at h <;> exact ⟨rfl, rfl, by simp [Val.space]⟩

theorem operand_node {v : Val F} {s : Str} (h : Has E v s) : operand E (.value v) = .ok v := by
  have hn := h.node
  cases v <;> simp [Val.isNode] at hn <;> rfl

theorem space_lit (v : Val F) (c : Option Str) (s : Str) : (Val.lit v c s).space E = .ok (some s) := by simp [Val.space]

theorem someSpaces_map (l : List Str) : someSpaces (l.map some) = .ok l := by
  induction l with
  | nil => rfl
  | cons x l ih => simp only [List.map_cons, someSpaces, ih]; rfl

theorem spaceL_has {as : List (Val F)} {sps : List Str} (h : List.Forall₂ (Has E) as sps) :
    spaceL E as = .ok (sps.map some) := by
  induction h with
  | nil => rfl
  | cons h _ ih => unfold spaceL; rw [h.space, ih]; rfl

theorem spaceK_has {ks : List (Str × Val F)} {sps : List (Str × Str)}
    (h : List.Forall₂ (fun k p => k.1 = p.1 ∧ Has E k.2 p.2) ks sps) :
    spaceK E ks = .ok (sps.map fun p => (p.1, some p.2)) := by
  induction h with
  | nil => rfl
  | @cons a b _ _ h _ ih =>
    obtain ⟨k, v⟩ := a
    obtain ⟨k', s⟩ := b
    obtain ⟨h1, h2⟩ := h
    simp only at h1 h2
    subst h1
    unfold spaceK; rw [h2.space, ih]; rfl

theorem merge_space {m : Str} {sig : Sig (Val F)} (hsig : E.resolve m = .ok sig) {as : List (Val F)} {ks : List (Str × Val F)}
    {sps : List Str} {kps : Dict Str Str} (ha : List.Forall₂ (Has E) as sps)
    (hk : List.Forall₂ (fun k p => k.1 = p.1 ∧ Has E k.2 p.2) ks kps) :
    (Val.merge m as ks).space E = (sig.returnSpace sps kps).map some := by
  unfold Val.space
  rw [hsig, spaceL_has ha, spaceK_has hk]
  have e1 : (kps.map fun p => (p.1, some p.2)).map (·.2) = (kps.map (·.2)).map some := by simp [Function.comp_def]
  have e2 : ((kps.map fun p => (p.1, some p.2)).map (·.1)).zip (kps.map (·.2)) = kps := by
    clear hk e1
    rw [List.map_map]
    induction kps with
    | nil => rfl
    | cons p l ih => simpa [Function.comp_def] using ih
  simp only [Bind.bind, Except.bind, someSpaces_map, e1, e2]
  cases sig.returnSpace sps kps <;> rfl

theorem valuesToNodes_gives {vs ns : List (Val F)} {sps : List Str}
    (h : List.Forall₂ (fun v p => Gives E v p.1 p.2) vs (ns.zip sps)) (hl : ns.length = sps.length) :
    valuesToNodes E vs = .ok ns ∧ List.Forall₂ (Has E) ns sps := by
  induction ns generalizing vs sps with
  | nil =>
    cases sps with
    | nil => cases h; exact ⟨rfl, .nil⟩
    | cons _ _ => simp at hl
  | cons n ns ih =>
    cases sps with
    | nil => simp at hl
    | cons s sps =>
      rw [List.zip_cons_cons] at h
      cases h with
      | cons h1 h2 =>
        obtain ⟨i1, i2⟩ := ih h2 (by simpa using hl)
        refine ⟨?_, .cons h1.has i2⟩
        unfold valuesToNodes
        rw [h1.node, i1]; rfl

theorem valuesToNodesK_gives {ks : List (Str × Val F)} {ns : List (Str × Val F)} {kps : List (Str × Str)}
    (h : List.Forall₂ (fun v p => v.1 = p.1.1 ∧ p.1.1 = p.2.1 ∧ Gives E v.2 p.1.2 p.2.2) ks (ns.zip kps)) (hl : ns.length = kps.length) :
    valuesToNodesK E ks = .ok ns ∧ List.Forall₂ (fun k p => k.1 = p.1 ∧ Has E k.2 p.2) ns kps := by
  induction ns generalizing ks kps with
  | nil =>
    cases kps with
    | nil => cases h; exact ⟨rfl, .nil⟩
    | cons _ _ => simp at hl
  | cons n ns ih =>
    cases kps with
    | nil => simp at hl
    | cons s sps =>
      rw [List.zip_cons_cons] at h
      cases h with
      | @cons v _ _ _ h1 h2 =>
        obtain ⟨i1, i2⟩ := ih h2 (by simpa using hl)
        obtain ⟨k, v⟩ := v
        obtain ⟨k', n⟩ := n
        simp only at h1
        obtain ⟨rfl, h1b, h1c⟩ := h1
        refine ⟨?_, .cons ⟨h1b, h1c.has⟩ i2⟩
        unfold valuesToNodesK
        rw [h1c.node, i1]; rfl

/-- A call whose arguments convert to nodes of known spaces -/
structure CallOf (E : Env F) (m : Str) (sig : Sig (Val F)) (args : List (Val F)) (kwargs : List (Str × Val F))
    (as : List (Val F)) (ks : List (Str × Val F)) (sps : List Str) (kps : Dict Str Str) : Prop where
  resolved : E.resolve m = .ok sig
  bound : ∃ b, Method.bind sig args kwargs = .ok b ∧ valuesToNodes E b.args = .ok as ∧ valuesToNodesK E b.kwargs = .ok ks
  args : List.Forall₂ (Has E) as sps
  kwargs : List.Forall₂ (fun k p => k.1 = p.1 ∧ Has E k.2 p.2) ks kps

theorem CallOf.eq {m : Str} {sig : Sig (Val F)} {args : List (Val F)} {kwargs : List (Str × Val F)}
    {as : List (Val F)} {ks : List (Str × Val F)} {sps : List Str} {kps : Dict Str Str} (h : CallOf E m sig args kwargs as ks sps kps) :
    createRecipe E m args kwargs = (sig.returnSpace sps kps).map fun _ => .merge m as ks := by
  obtain ⟨b, h1, h2, h3⟩ := h.bound
  unfold createRecipe
  rw [h.resolved]
  simp only [Bind.bind, Except.bind]
  rw [h1]
  simp only [h2, h3]
  rw [merge_space h.resolved h.args h.kwargs]
  cases sig.returnSpace sps kps <;> rfl

theorem CallOf.ok {m : Str} {sig : Sig (Val F)} {args : List (Val F)} {kwargs : List (Str × Val F)}
    {as : List (Val F)} {ks : List (Str × Val F)} {sps : List Str} {kps : Dict Str Str} (h : CallOf E m sig args kwargs as ks sps kps)
    {r : Str} (hr : sig.returnSpace sps kps = .ok r) :
    createRecipe E m args kwargs = .ok (.merge m as ks) ∧ Has E (.merge m as ks) r := by
  refine ⟨by rw [h.eq, hr]; rfl, rfl, ?_⟩
  rw [merge_space h.resolved h.args h.kwargs, hr]; rfl

/-! ### Calls with a fixed number of arguments -/

theorem nodes1 {v n : Val F} {s : Str} (h : Gives E v n s) : valuesToNodes E [v] = .ok [n] := by
  unfold valuesToNodes valuesToNodes; rw [h.node]; rfl

theorem nodes_cons {v n : Val F} {s : Str} (h : Gives E v n s) {vs ns : List (Val F)} (ht : valuesToNodes E vs = .ok ns) :
    valuesToNodes E (v :: vs) = .ok (n :: ns) := by
  unfold valuesToNodes; rw [h.node, ht]; rfl

theorem nodesK_cons {v n : Val F} {s : Str} (h : Gives E v n s) {k : Str} {vs ns : List (Str × Val F)} (ht : valuesToNodesK E vs = .ok ns) :
    valuesToNodesK E ((k, v) :: vs) = .ok ((k, n) :: ns) := by
  unfold valuesToNodesK; rw [h.node, ht]; rfl

/-- Result of a call that needs `p` of the merge spaces and else raises a `TypeError`. -/
def typed (p : Prop) [Decidable p] (n : Val F) : Except Err (Val F) := if p then .ok n else .error .type

theorem call_sub (R : Registered E fl) {v1 v2 n1 n2 : Val F} {s1 s2 : Str} (g1 : Gives E v1 n1 s1) (g2 : Gives E v2 n2 s2) :
    CallOf E nSub subtractSig [v1, v2] [] [n1, n2] [] [s1, s2] [] :=
  ⟨R.sub, ⟨⟨[v1, v2], []⟩, rfl, nodes_cons g1 (nodes1 g2), rfl⟩, .cons g1.has (.cons g2.has .nil), .nil⟩

theorem sub_space (s1 s2 : Str) : (subtractSig : Sig (Val F)).returnSpace [s1, s2] [] =
    if s1 = weight ∧ s2 = weight then .ok delta else .error .type := by
  have hi : (subtractSig : Sig (Val F)).inputSpaces.asDict (some [s1, s2].length) = [(.pos 0, .set [weight]), (.pos 1, .set [weight])] := rfl
  unfold Sig.returnSpace
  simp only [hi]
  by_cases h1 : s1 = weight
  · subst h1
    by_cases h2 : s2 = weight
    · subst h2; rfl
    · simp [h2, argIdx, spaceLoop, spaceStep, Dict.get?, Space.allowed, List.mapIdx_cons]
  · simp [h1, argIdx, spaceLoop, spaceStep, Dict.get?, Space.allowed, List.mapIdx_cons]

theorem sub_eq (R : Registered E fl) {v1 v2 n1 n2 : Val F} {s1 s2 : Str} (g1 : Gives E v1 n1 s1) (g2 : Gives E v2 n2 s2) :
    createRecipe E nSub [v1, v2] [] = typed (s1 = weight ∧ s2 = weight) (.merge nSub [n1, n2] []) := by
  rw [(call_sub R g1 g2).eq, sub_space]; unfold typed; split <;> rfl

theorem sub_has (R : Registered E fl) {n1 n2 : Val F} (g1 : Has E n1 weight) (g2 : Has E n2 weight) :
    Has E (.merge nSub [n1, n2] []) delta :=
  ((call_sub R g1.gives g2.gives).ok (sub_space _ _)).2

theorem call_add (R : Registered E fl) {v1 v2 n1 n2 : Val F} {s1 s2 : Str} (g1 : Gives E v1 n1 s1) (g2 : Gives E v2 n2 s2) :
    CallOf E nAdd (addDifferenceSig fl) [v1, v2] [] [n1, n2, .lit (.float (fl "1.0")) none paramSpace] [] [s1, s2, paramSpace] [] :=
  ⟨R.add, ⟨⟨[v1, v2, .float (fl "1.0")], []⟩, rfl, nodes_cons g1 (nodes_cons g2 (nodes1 (gives_scalar rfl))), rfl⟩,
    .cons g1.has (.cons g2.has (.cons (gives_scalar rfl).has .nil)), .nil⟩

theorem call_add_alpha (R : Registered E fl) {v1 v2 v3 n1 n2 n3 : Val F} {s1 s2 s3 : Str} (g1 : Gives E v1 n1 s1) (g2 : Gives E v2 n2 s2)
    (g3 : Gives E v3 n3 s3) :
    CallOf E nAdd (addDifferenceSig fl) [v1, v2] [opt "alpha" v3] [n1, n2, n3] [] [s1, s2, s3] [] :=
  ⟨R.add, ⟨⟨[v1, v2, v3], []⟩, rfl, nodes_cons g1 (nodes_cons g2 (nodes1 g3)), rfl⟩, .cons g1.has (.cons g2.has (.cons g3.has .nil)), .nil⟩

theorem add_space (s1 s2 s3 : Str) : (addDifferenceSig fl).returnSpace [s1, s2, s3] [] =
    if s1 = weight ∧ s2 = delta ∧ s3 = paramSpace then .ok weight else .error .type := by
  have hi : (addDifferenceSig fl).inputSpaces.asDict (some [s1, s2, s3].length) =
    [(.pos 0, .set [weight]), (.pos 1, .set [delta]), (.pos 2, .set [paramSpace])] := rfl
  unfold Sig.returnSpace
  simp only [hi]
  by_cases h1 : s1 = weight
  · subst h1
    by_cases h2 : s2 = delta
    · subst h2
      by_cases h3 : s3 = paramSpace
      · subst h3; rfl
      · simp [h3, argIdx, spaceLoop, spaceStep, Dict.get?, Space.allowed, List.mapIdx_cons]
    · simp [h2, argIdx, spaceLoop, spaceStep, Dict.get?, Space.allowed, List.mapIdx_cons]
  · simp [h1, argIdx, spaceLoop, spaceStep, Dict.get?, Space.allowed, List.mapIdx_cons]

theorem add_eq (R : Registered E fl) {v1 v2 n1 n2 : Val F} {s1 s2 : Str} (g1 : Gives E v1 n1 s1) (g2 : Gives E v2 n2 s2) :
    createRecipe E nAdd [v1, v2] [] =
      typed (s1 = weight ∧ s2 = delta) (.merge nAdd [n1, n2, .lit (.float (fl "1.0")) none paramSpace] []) := by
  rw [(call_add R g1 g2).eq, add_space]; unfold typed; simp only [and_true]; split <;> rfl

theorem add_alpha_eq (R : Registered E fl) {v1 v2 v3 n1 n2 n3 : Val F} {s1 s2 s3 : Str} (g1 : Gives E v1 n1 s1) (g2 : Gives E v2 n2 s2)
    (g3 : Gives E v3 n3 s3) :
    createRecipe E nAdd [v1, v2] [opt "alpha" v3] =
      typed (s1 = weight ∧ s2 = delta ∧ s3 = paramSpace) (.merge nAdd [n1, n2, n3] []) := by
  rw [(call_add_alpha R g1 g2 g3).eq, add_space]; unfold typed; split <;> rfl

theorem add_has (R : Registered E fl) {n1 n2 n3 : Val F} (g1 : Has E n1 weight) (g2 : Has E n2 delta) (g3 : Has E n3 paramSpace) :
    Has E (.merge nAdd [n1, n2, n3] []) weight :=
  ((call_add_alpha R g1.gives g2.gives g3.gives).ok (add_space _ _ _)).2

/-! ### Methods of two values with literal options -/

theorem region_space (width : String) (s1 s2 s3 s4 : Str) (h1 : s1 ∈ allSpaces) :
    (regionSig fl width).returnSpace [s1, s2, s3, s4] [] =
      if s1 = s2 ∧ s3 = paramSpace ∧ s4 = paramSpace then .ok s1 else .error .type := by
  have hi : (regionSig fl width).inputSpaces.asDict (some [s1, s2, s3, s4].length) =
    [(.pos 0, .symbol .dflt allSpaces), (.pos 1, .symbol .dflt allSpaces), (.pos 2, .set [paramSpace]), (.pos 3, .set [paramSpace])] := rfl
  have hr : (regionSig fl width).retSpace = .none := rfl
  unfold Sig.returnSpace
  simp only [hi, hr]
  by_cases h2 : s1 = s2
  · subst h2
    by_cases h3 : s3 = paramSpace
    · subst h3
      by_cases h4 : s4 = paramSpace
      · subst h4
        simp [h1, argIdx, spaceLoop, spaceStep, Dict.get?, Dict.set, Space.allowed, List.mapIdx_cons]
      · simp [h1, h4, argIdx, spaceLoop, spaceStep, Dict.get?, Dict.set, Space.allowed, List.mapIdx_cons]
    · simp [h1, h3, argIdx, spaceLoop, spaceStep, Dict.get?, Dict.set, Space.allowed, List.mapIdx_cons]
  · by_cases h3 : s2 ∈ allSpaces
    · simp [h1, h2, h3, Ne.symm h2, argIdx, spaceLoop, spaceStep, Dict.get?, Dict.set, Space.allowed, List.mapIdx_cons]
    · simp [h1, h2, h3, argIdx, spaceLoop, spaceStep, Dict.get?, Dict.set, Space.allowed, List.mapIdx_cons]

theorem call_tensorSum (R : Registered E fl) {v1 v2 v3 v4 n1 n2 n3 n4 : Val F} {s1 s2 s3 s4 : Str} (g1 : Gives E v1 n1 s1)
    (g2 : Gives E v2 n2 s2) (g3 : Gives E v3 n3 s3) (g4 : Gives E v4 n4 s4) :
    CallOf E nTensorSum (regionSig fl "0.5") [v1, v2] [opt "width" v3, opt "offset" v4] [n1, n2, n3, n4] [] [s1, s2, s3, s4] [] :=
  ⟨R.tensorSum, ⟨⟨[v1, v2, v3, v4], []⟩, rfl, nodes_cons g1 (nodes_cons g2 (nodes_cons g3 (nodes1 g4))), rfl⟩,
    .cons g1.has (.cons g2.has (.cons g3.has (.cons g4.has .nil))), .nil⟩

theorem call_topK (R : Registered E fl) {v1 v2 v3 v4 n1 n2 n3 n4 : Val F} {s1 s2 s3 s4 : Str} (g1 : Gives E v1 n1 s1)
    (g2 : Gives E v2 n2 s2) (g3 : Gives E v3 n3 s3) (g4 : Gives E v4 n4 s4) :
    CallOf E nTopK (regionSig fl "1.0") [v1, v2] [opt "width" v3, opt "offset" v4] [n1, n2, n3, n4] [] [s1, s2, s3, s4] [] :=
  ⟨R.topK, ⟨⟨[v1, v2, v3, v4], []⟩, rfl, nodes_cons g1 (nodes_cons g2 (nodes_cons g3 (nodes1 g4))), rfl⟩,
    .cons g1.has (.cons g2.has (.cons g3.has (.cons g4.has .nil))), .nil⟩

theorem call_rotate (R : Registered E fl) {v1 v2 v3 v4 n1 n2 n3 n4 : Val F} {s1 s2 s3 s4 : Str} (g1 : Gives E v1 n1 s1)
    (g2 : Gives E v2 n2 s2) (g3 : Gives E v3 n3 s3) (g4 : Gives E v4 n4 s4) :
    CallOf E nRotate (rotateSig fl) [v1, v2] [opt "alignment" v3, opt "alpha" v4] [n1, n2, n3, n4] [] [s1, s2, s3, s4] [] :=
  ⟨R.rotate, ⟨⟨[v1, v2, v3, v4], []⟩, rfl, nodes_cons g1 (nodes_cons g2 (nodes_cons g3 (nodes1 g4))), rfl⟩,
    .cons g1.has (.cons g2.has (.cons g3.has (.cons g4.has .nil))), .nil⟩

theorem rotate_space (s1 s2 s3 s4 : Str) (h1 : s1 ∈ allSpaces) :
    (rotateSig fl).returnSpace [s1, s2, s3, s4] [] =
      if s1 = s2 ∧ s3 = paramSpace ∧ s4 = paramSpace then .ok s1 else .error .type :=
  region_space (fl := fl) "1.0" s1 s2 s3 s4 h1

theorem call_perp (R : Registered E fl) {v1 v2 n1 n2 : Val F} {s1 s2 : Str} (g1 : Gives E v1 n1 s1) (g2 : Gives E v2 n2 s2) :
    CallOf E nPerp perpendicularSig [v1, v2] [] [n1, n2] [] [s1, s2] [] :=
  ⟨R.perp, ⟨⟨[v1, v2], []⟩, rfl, nodes_cons g1 (nodes1 g2), rfl⟩, .cons g1.has (.cons g2.has .nil), .nil⟩

theorem call_clamp (R : Registered E fl) {v1 v2 v3 n1 n2 n3 : Val F} {s1 s2 s3 : Str} (g1 : Gives E v1 n1 s1) (g2 : Gives E v2 n2 s2)
    (g3 : Gives E v3 n3 s3) :
    CallOf E nClamp (clampSig fl) [v1, v2, v3] [] [n1, n2, n3] [opt "stiffness" (.lit (.float (fl "0.0")) none paramSpace)] [s1, s2, s3]
      [("stiffness".toList, paramSpace)] :=
  ⟨R.clamp, ⟨⟨[v1, v2, v3], [opt "stiffness" (.float (fl "0.0"))]⟩, rfl, nodes_cons g1 (nodes_cons g2 (nodes1 g3)),
    nodesK_cons (gives_scalar rfl) rfl⟩, .cons g1.has (.cons g2.has (.cons g3.has .nil)), .cons ⟨rfl, (gives_scalar rfl).has⟩ .nil⟩

/-! ### Methods of any number of deltas -/

theorem bind_deltas (var : String) (options : Dict Str (Val F)) (ds : List (Val F)) (kwargs : Dict Str (Val F))
    (h : ∀ k ∈ kwargs.keys, k ∈ options.keys) :
    Method.bind (deltasSig var options) ds kwargs = .ok ⟨ds, options.update kwargs⟩ := by
  have e1 : (kwargs.filter fun p => decide (p.1 ∉ ([] : List Str))) = kwargs := by simp
  have e2 : (kwargs.any fun p => decide (p.1 ∉ (deltasSig var options).kwonly.keys)) = false := by
    rw [List.any_eq_false]
    intro p hp
    have := h p.1 (List.mem_map_of_mem hp)
    have e : (deltasSig var options).kwonly.keys = options.keys := by simp [deltasSig, Dict.keys, Function.comp_def]
    simp [e, this]
  have e3 : ((deltasSig var options).kwonly.any fun p => decide (p.1 ∉ kwargs.keys ∧ p.1 ∉ (deltasSig var options).kwdefaults.keys)) = false := by
    rw [List.any_eq_false]
    intro p hp
    have : p.1 ∈ options.keys := by
      simp only [deltasSig, List.mem_map] at hp
      obtain ⟨q, hq, rfl⟩ := hp
      exact List.mem_map_of_mem hq
    have e : (deltasSig var options).kwdefaults = options := rfl
    simp [e, this]
  have e4 : (deltasSig var options).args = [] := rfl
  have e5 : (deltasSig var options).vararg = some (var.toList, inSpace delta) := rfl
  have e6 : (deltasSig var options).defaults = [] := rfl
  have e7 : (deltasSig var options).kwdefaults = options := rfl
  unfold Method.bind
  simp only [e4, e5, e6, e7, List.map_nil] at e1 e2 e3 ⊢
  rw [if_neg (by simp)]
  simp only [List.mapIdx_nil, List.mapM_nil, pure_bind, e1, e2, e3]
  simp [FunctionArgs.argsVarargs, FunctionArgs.varargsCount]

theorem bind_deltas_unknown (var : String) (options : Dict Str (Val F)) (ds : List (Val F)) (kwargs : Dict Str (Val F)) (k : Str)
    (hk : k ∈ kwargs.keys) (h : k ∉ options.keys) : Method.bind (deltasSig var options) ds kwargs = .error .type := by
  have e1 : (kwargs.filter fun p => decide (p.1 ∉ ([] : List Str))) = kwargs := by simp
  have e2 : (kwargs.any fun p => decide (p.1 ∉ (deltasSig var options).kwonly.keys)) = true := by
    rw [List.any_eq_true]
    obtain ⟨p, hp, rfl⟩ := List.mem_map.1 hk
    have e : (deltasSig var options).kwonly.keys = options.keys := by simp [deltasSig, Dict.keys, Function.comp_def]
    exact ⟨p, hp, by simp [e, h]⟩
  have e4 : (deltasSig var options).args = [] := rfl
  have e5 : (deltasSig var options).vararg = some (var.toList, inSpace delta) := rfl
  have e6 : (deltasSig var options).defaults = [] := rfl
  unfold Method.bind
  simp only [e4, e5, e6, List.map_nil] at e1 e2 ⊢
  rw [if_neg (by simp)]
  simp only [List.mapIdx_nil, List.mapM_nil, pure_bind, e1, e2]
  rfl

theorem spaceLoop_sets (input : Dict Idx Space) (l : List (Idx × Str)) (r : Dict Sym Str)
    (h : ∀ p ∈ l, ∃ s, input.get? p.1 = some (.set [s])) :
    ((∀ p ∈ l, input.get? p.1 = some (.set [p.2])) ∧ spaceLoop input r l = .ok r) ∨
    ((∃ p ∈ l, input.get? p.1 ≠ some (.set [p.2])) ∧ spaceLoop input r l = .error .type) := by
  induction l with
  | nil => exact .inl ⟨by simp, rfl⟩
  | cons p l ih =>
    obtain ⟨i, sp⟩ := p
    obtain ⟨s, hs⟩ := h _ List.mem_cons_self
    simp only at hs
    by_cases he : sp = s
    · subst he
      have hstep : spaceStep input r i sp = .ok r := by unfold spaceStep; rw [hs]; simp [Space.allowed]
      rcases ih fun p hp => h p (List.mem_cons_of_mem _ hp) with ⟨h1, h2⟩ | ⟨⟨p, hp, h1⟩, h2⟩
      · refine .inl ⟨?_, ?_⟩
        · intro p hp
          rcases List.mem_cons.1 hp with rfl | hp
          · exact hs
          · exact h1 p hp
        · unfold spaceLoop; rw [hstep]; exact h2
      · exact .inr ⟨⟨p, List.mem_cons_of_mem _ hp, h1⟩, by unfold spaceLoop; rw [hstep]; exact h2⟩
    · have hstep : spaceStep input r i sp = .error .type := by unfold spaceStep; rw [hs]; simp [Space.allowed, he]
      exact .inr ⟨⟨(i, sp), List.mem_cons_self, by rw [hs]; simpa using fun e => he e.symm⟩, by unfold spaceLoop; rw [hstep]⟩

theorem deltas_space (var : String) (options : Dict Str (Val F)) (sps : List Str) (kps : Dict Str Str)
    (h : ∀ k ∈ kps.keys, k ∈ options.keys) :
    (deltasSig var options).returnSpace sps kps =
      if (∀ s ∈ sps, s = delta) ∧ (∀ p ∈ kps, p.2 = paramSpace) then .ok delta else .error .type := by
  have hlook : ∀ p ∈ argIdx sps kps, ((deltasSig var options).inputSpaces.asDict (some sps.length)).get? p.1 =
      some (.set [match p.1 with | .pos _ => delta | .name _ => paramSpace]) := by
    rintro ⟨i, sp⟩ hp
    rw [FunctionArgs.asDict_get?]
    · cases i with
      | pos i => rfl
      | name k =>
        have hk : k ∈ options.keys := by
          apply h
          unfold argIdx at hp
          rw [List.mem_append] at hp
          rcases hp with hp | hp
          · rw [List.mem_mapIdx] at hp
            obtain ⟨_, _, he⟩ := hp
            simp at he
          · obtain ⟨q, hq, he⟩ := List.mem_map.1 hp
            simp only [Prod.mk.injEq, Idx.name.injEq] at he
            rw [← he.1]; exact List.mem_map_of_mem hq
        show Dict.get? ((options.map fun p => (p.1, number)).map fun p => (p.1, spaceOrDefault p.2 _)) k = _
        rw [List.map_map]
        have hh : ∀ (o : Dict Str (Val F)) (g : Str → Bool), k ∈ o.keys →
            Dict.get? (o.map ((fun p : Str × Param => (p.1, spaceOrDefault p.2 (g p.1))) ∘ fun p => (p.1, number))) k = some (.set [paramSpace]) := by
          intro o g
          induction o with
          | nil => simp [Dict.keys]
          | cons q o ih =>
            intro hk
            obtain ⟨q1, q2⟩ := q
            rw [List.map_cons]
            simp only [Function.comp_apply, Dict.get?]
            by_cases he : q1 = k
            · rw [if_pos he]; simp [spaceOrDefault, number]
            · rw [if_neg he]
              apply ih
              simp only [Dict.keys, List.map_cons, List.mem_cons] at hk
              rcases hk with hk | hk
              · exact absurd hk.symm he
              · exact hk
        exact hh options (fun k => ((deltasSig var options).kwdefaults.get? k).isSome) hk
    · rintro j rfl
      exact argIdx_pos_lt hp
  have hmem : (∀ p ∈ argIdx sps kps, ((deltasSig var options).inputSpaces.asDict (some sps.length)).get? p.1 = some (.set [p.2])) ↔
      (∀ s ∈ sps, s = delta) ∧ (∀ p ∈ kps, p.2 = paramSpace) := by
    constructor
    · intro hall
      constructor
      · intro s hs
        obtain ⟨i, hi, he⟩ := List.getElem_of_mem hs
        have hm : (Idx.pos i, s) ∈ argIdx sps kps := by
          unfold argIdx
          rw [List.mem_append, List.mem_mapIdx]
          exact .inl ⟨i, hi, by rw [he]⟩
        have h1 := hall _ hm
        rw [hlook _ hm] at h1
        simpa using h1.symm
      · intro p hp
        have hm : (Idx.name p.1, p.2) ∈ argIdx sps kps := by
          unfold argIdx
          rw [List.mem_append]
          exact .inr (List.mem_map.2 ⟨p, hp, rfl⟩)
        have h1 := hall _ hm
        rw [hlook _ hm] at h1
        simpa using h1.symm
    · rintro ⟨h1, h2⟩ ⟨i, sp⟩ hp
      rw [hlook _ hp]
      unfold argIdx at hp
      rw [List.mem_append, List.mem_mapIdx, List.mem_map] at hp
      rcases hp with ⟨j, hj, he⟩ | ⟨q, hq, he⟩
      · cases he
        simp [h1 _ (List.getElem_mem hj)]
      · cases he
        simp [h2 _ hq]
  unfold Sig.returnSpace
  rcases spaceLoop_sets ((deltasSig var options).inputSpaces.asDict (some sps.length)) (argIdx sps kps) [] (fun p hp => ⟨_, hlook p hp⟩) with
    ⟨h1, h2⟩ | ⟨⟨p, hp, h1⟩, h2⟩
  · rw [if_pos (hmem.1 h1)]
    simp only [h2]; rfl
  · rw [if_neg fun hn => h1 (hmem.2 hn p hp)]
    simp only [h2]

end Verif.Wrappers
