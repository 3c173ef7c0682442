import Verif.Proofs.EvalArgs

/-!
# Key locality
-/
namespace Verif.Eval
open Method Recipe Config Spec
variable {F T : Type}

/-- Same argument as far as `key` is concerned -/
structure RelChild (key : Str) (c c' : Child F T) : Prop where
  idx : c.idx = c'.idx
  depth : c.depth = c'.depth
  config : c.config = c'.config
  run : c.run key = c'.run key

theorem insertDeep_rel {key : Str} {c c' : Child F T} (h : RelChild key c c') {l l' : List (Child F T)}
    (hl : List.Forall₂ (RelChild key) l l') : List.Forall₂ (RelChild key) (insertDeep c l) (insertDeep c' l') := by
  induction hl with
  | nil => exact .cons h .nil
  | cons hd htl ih =>
    unfold insertDeep
    rw [hd.depth, h.depth]
    split
    · exact .cons h (.cons hd htl)
    · exact .cons hd ih

theorem deeperFirst_rel {key : Str} {l l' : List (Child F T)} (hl : List.Forall₂ (RelChild key) l l') :
    List.Forall₂ (RelChild key) (deeperFirst l) (deeperFirst l') := by
  unfold deeperFirst
  have : ∀ acc acc' : List (Child F T), List.Forall₂ (RelChild key) acc acc' → List.Forall₂ (RelChild key)
      (l.foldl (fun acc c => insertDeep c acc) acc) (l'.foldl (fun acc c => insertDeep c acc) acc') := by
    induction hl with
    | nil => intro acc acc' h; exact h
    | cons hd _ ih => intro acc acc' h; exact ih _ _ (insertDeep_rel hd h)
  exact this _ _ .nil

def RelEntry (key : Str) (p q : Idx × Arg F T) : Prop := p.1 = q.1 ∧ AgreeAt key p.2 q.2

theorem set_rel {key : Str} {d d' : Dict Idx (Arg F T)} (h : List.Forall₂ (RelEntry key) d d') {i : Idx} {a a' : Arg F T}
    (ha : AgreeAt key a a') : List.Forall₂ (RelEntry key) (d.set i a) (d'.set i a') := by
  induction h with
  | nil => exact .cons ⟨rfl, ha⟩ .nil
  | @cons p q _ _ hd htl ih =>
    obtain ⟨k, v⟩ := p
    obtain ⟨k', v'⟩ := q
    have hk : k = k' := hd.1
    subst hk
    unfold Dict.set
    split
    · exact .cons ⟨rfl, ha⟩ htl
    · exact .cons hd ih

theorem get?_rel {key : Str} {d d' : Dict Idx (Arg F T)} (h : List.Forall₂ (RelEntry key) d d') (i : Idx) :
    Option.Rel (AgreeAt key) (d.get? i) (d'.get? i) := by
  induction h with
  | nil => exact .none
  | @cons p q _ _ hd htl ih =>
    obtain ⟨k, v⟩ := p
    obtain ⟨k', v'⟩ := q
    have hk : k = k' := hd.1
    subst hk
    unfold Dict.get?
    split
    · exact .some hd.2
    · exact ih

theorem castRun_rel {C : Conv F T} {t : Ty} {key : Str} {f g : Str → Res F T} (h : f key = g key) : castRun C t f key = castRun C t g key := by
  unfold castRun; rw [h]

/-- Same state as far as `key` is concerned -/
structure RelMerged (key : Str) (s s' : Merged F T) : Prop where
  holder : s.holder = s'.holder
  merged : List.Forall₂ (RelEntry key) s.merged s'.merged

inductive RelExc {α : Type} (R : α → α → Prop) : Except Err α → Except Err α → Prop
  | ok {a b : α} (h : R a b) : RelExc R (.ok a) (.ok b)
  | error (e : Err) : RelExc R (.error e) (.error e)

theorem stepChild_rel {C : Conv F T} {types : Dict Idx PTy} {key : Str} {s s' : Merged F T} (hs : RelMerged key s s')
    {c c' : Child F T} (hc : RelChild key c c') : RelExc (RelMerged key) (stepChild C types key s c) (stepChild C types key s' c') := by
  unfold stepChild
  rw [hc.idx, hc.run]
  cases types.get? c'.idx with
  | none => exact .error _
  | some p =>
    cases p with
    | sd t =>
      refine .ok ⟨hs.holder, set_rel hs.merged ?_⟩
      rw [hc.config]
      exact .sd (castRun_rel hc.run)
    | val t =>
      simp only
      cases c'.run key with
      | error e => exact .ok ⟨rfl, set_rel hs.merged (.val _)⟩
      | ok v =>
        simp only
        cases castTo C t v with
        | error e => exact .error _
        | ok v' => exact .ok ⟨hs.holder, set_rel hs.merged (.val _)⟩

theorem stepAll_rel {C : Conv F T} {types : Dict Idx PTy} {key : Str} {l l' : List (Child F T)} (hl : List.Forall₂ (RelChild key) l l')
    {s s' : Merged F T} (hs : RelMerged key s s') : RelExc (RelMerged key) (stepAll C types key s l) (stepAll C types key s' l') := by
  induction hl generalizing s s' with
  | nil => exact .ok hs
  | cons hd _ ih =>
    unfold stepAll
    have := stepChild_rel (C := C) (types := types) hs hd
    generalize stepChild C types key s _ = x at this
    generalize stepChild C types key s' _ = y at this
    cases this with
    | ok h => exact ih h
    | error e => exact .error _

theorem any_depth_rel {key : Str} {l l' : List (Child F T)} (hl : List.Forall₂ (RelChild key) l l') :
    l.any (fun c => c.depth.isNone) = l'.any (fun c => c.depth.isNone) := by
  induction hl with
  | nil => rfl
  | cons hd _ ih => simp only [List.any_cons, hd.depth, ih]

theorem applyMerge_rel {C : Conv F T} {impl : Impl F T} (hloc : Local impl) {n : ℕ} {key : Str} {l l' : List (Child F T)}
    (hl : List.Forall₂ (RelChild key) l l') : applyMerge C impl n l key = applyMerge C impl n l' key := by
  unfold applyMerge
  rw [any_depth_rel hl]
  split
  · rfl
  · unfold applyOrdered
    have := stepAll_rel (C := C) (types := impl.types.asDict (some n)) (deeperFirst_rel hl)
      (s := ⟨none, []⟩) (s' := ⟨none, []⟩) ⟨rfl, .nil⟩
    generalize stepAll C _ key _ (deeperFirst l) = x at this
    generalize stepAll C _ key _ (deeperFirst l') = y at this
    cases this with
    | error e => rfl
    | @ok a b h =>
      simp only [finish]
      rw [h.holder]
      cases b.holder with
      | some e => rfl
      | none =>
        simp only
        apply hloc
        · unfold splitArgs
          simp only
          rw [List.forall₂_map_left_iff, List.forall₂_map_right_iff, List.forall₂_same]
          intro i _
          have := get?_rel h.merged (.pos i)
          generalize a.merged.get? (.pos i) = x at this
          generalize b.merged.get? (.pos i) = y at this
          cases this with
          | none => exact .val _
          | some h => exact h
        · intro s
          exact get?_rel h.merged (.name s)

theorem visitKeys_rel {α : Type} {R : α → α → Prop} {get get' : Str → Except Err α} {keys : List Str}
    (h : ∀ k ∈ keys, RelExc R (get k) (get' k)) : RelExc R (visitKeys get keys) (visitKeys get' keys) := by
  induction keys with
  | nil => exact .error _
  | cons k ks ih =>
    have hk := h k (by simp)
    have ih := ih (fun k' hk' => h k' (by simp [hk']))
    cases ks with
    | nil =>
      unfold visitKeys
      generalize get k = x at hk
      generalize get' k = y at hk
      cases hk with
      | ok h => exact .ok h
      | error e => simp only; split <;> exact .error _
    | cons k2 ks =>
      unfold visitKeys
      generalize get k = x at hk
      generalize get' k = y at hk
      cases hk with
      | ok h => exact .ok h
      | error e =>
        simp only
        split
        · exact ih
        · exact .error _

theorem visitSd_rel {α : Type} {R : α → α → Prop} {W W' : World F T} (hW : W'.configs = W.configs) {get get' : Str → Except Err α}
    {c : Option Str} {key : Str} (h : ∀ k ∈ names W c key, RelExc R (get k) (get' k)) :
    RelExc R (visitSd W get c key) (visitSd W' get' c key) := by
  unfold visitSd
  rw [hW]
  cases c with
  | none => exact .error _
  | some c =>
    simp only
    cases hcfg : W.configs c with
    | none => exact .error _
    | some cfg =>
      apply visitKeys_rel
      intro k hk
      apply h
      simp only [Spec.names, Option.bind_some, hcfg]
      exact hk

/-! ### Restriction keeps depth and config -/

mutual
theorem depth_restrict (W : World F T) (key : Str) : ∀ v : Val F, depth (restrict W key v) = depth v
  | .lit v c s => by cases v <;> simp [restrict, depth]
  | .merge m args kwargs => by
    simp only [restrict, depth, depthL_restrict W key args, depthK_restrict W key kwargs]
  | .model .. => by simp [restrict]
  | .str _ => by simp [restrict]
  | .int _ => by simp [restrict]
  | .float _ => by simp [restrict]
  | .bool _ => by simp [restrict]
  | .none => by simp [restrict]
  | .tensor _ => by simp [restrict]
  | .dict _ => by simp [restrict]
theorem depthL_restrict (W : World F T) (key : Str) : ∀ l : List (Val F), depthL (restrictL W key l) = depthL l
  | [] => by simp [restrictL]
  | v :: l => by simp [restrictL, depthL, depth_restrict W key v, depthL_restrict W key l]
theorem depthK_restrict (W : World F T) (key : Str) : ∀ l : List (Str × Val F), depthK (restrictK W key l) = depthK l
  | [] => by simp [restrictK]
  | (k, v) :: l => by simp [restrictK, depthK, depth_restrict W key v, depthK_restrict W key l]
end

mutual
theorem config_restrict (W : World F T) (key : Str) (E : Env F) : ∀ v : Val F, (restrict W key v).config E = v.config E
  | .lit v c s => by cases v <;> simp [restrict, Val.config]
  | .merge m args kwargs => by
    simp only [restrict, Val.config, configL_restrict W key E args, configK_restrict W key E kwargs]
  | .model .. => by simp [restrict]
  | .str _ => by simp [restrict]
  | .int _ => by simp [restrict]
  | .float _ => by simp [restrict]
  | .bool _ => by simp [restrict]
  | .none => by simp [restrict]
  | .tensor _ => by simp [restrict]
  | .dict _ => by simp [restrict]
theorem configL_restrict (W : World F T) (key : Str) (E : Env F) : ∀ l : List (Val F), configL E (restrictL W key l) = configL E l
  | [] => by simp [restrictL]
  | v :: l => by simp [restrictL, configL, config_restrict W key E v, configL_restrict W key E l]
theorem configK_restrict (W : World F T) (key : Str) (E : Env F) : ∀ l : List (Str × Val F), configK E (restrictK W key l) = configK E l
  | [] => by simp [restrictK]
  | (k, v) :: l => by simp [restrictK, configK, config_restrict W key E v, configK_restrict W key E l]
end

/-- The two worlds differ in what the input files hold. -/
def withRead (W : World F T) (read : Str → Str → Except Err T) : World F T := { W with read := read }

theorem configOf_restrict (W : World F T) (read) (key : Str) (v : Val F) :
    configOf (withRead W read) (restrict W key v) = configOf W v := by
  unfold configOf withRead
  simp only [config_restrict]

/-- Two ways to merge agree at `key` -/
def RelF (key : Str) (f g : Str → Res F T) : Prop := f key = g key

theorem length_restrictL (W : World F T) (key : Str) (l : List (Val F)) : (restrictL W key l).length = l.length := by
  induction l with
  | nil => simp [restrictL]
  | cons v l ih => simp [restrictL, ih]

theorem eval_lit (W : World F T) {v : Val F} (h : ∀ es, v ≠ .dict es) (c : Option Str) (s : Str) : eval W (.lit v c s) = eval W v := by
  cases v <;> first | exact absurd rfl (h _) | (rw [eval]; simp)

theorem restrict_lit (W : World F T) (key : Str) {v : Val F} (h : ∀ es, v ≠ .dict es) (c : Option Str) (s : Str) :
    restrict W key (.lit v c s) = .lit (restrict W key v) c s := by
  cases v <;> first | exact absurd rfl (h _) | (rw [restrict]; simp)

theorem restrict_ne_dict (W : World F T) (key : Str) {v : Val F} (h : ∀ es, v ≠ .dict es) : ∀ es, restrict W key v ≠ .dict es := by
  intro es
  cases v with
  | dict es => exact absurd rfl (h _)
  | lit v c s => cases v <;> simp [restrict]
  | _ => simp [restrict]

theorem get?_cons {κ ν : Type} [DecidableEq κ] (k k' : κ) (v : ν) (d : Dict κ ν) :
    Dict.get? ((k', v) :: d) k = if k' = k then some v else Dict.get? d k := rfl

mutual
theorem eval_restrict (W : World F T) (read : Str → Str → Except Err T) (key : Str) : ∀ v : Val F,
    Methods (fun m => Local (W.impl m)) v → Models (fun path c => ∀ k ∈ names W c key, W.read path k = read path k) v →
    eval W v key = eval (withRead W read) (restrict W key v) key
  | .lit (.dict es) c s => fun hm hr => by
    rw [restrict, eval, eval]
    unfold Methods Methods at hm
    unfold Models Models at hr
    have := visitSd_rel (W := W) (W' := withRead W read) rfl (c := c) (key := key) (R := RelF key)
      (get := fun k => match Dict.get? (evalD W es) k with | some f => .ok f | none => .error .key)
      (get' := fun k => match Dict.get? (evalD (withRead W read) (restrictD W key (names W c key) es)) k with | some f => .ok f | none => .error .key)
      (by
        intro k hk
        have := evalD_restrict W read key es (names W c key) hm hr k hk
        generalize Dict.get? (evalD W es) k = x at this
        generalize Dict.get? (evalD (withRead W read) (restrictD W key (names W c key) es)) k = y at this
        cases this with
        | none => exact .error _
        | some h => exact .ok h)
    simp only
    generalize visitSd W _ c key = x at this
    generalize visitSd (withRead W read) _ c key = y at this
    cases this with
    | error e => rfl
    | ok h => exact h
  | .lit (.lit v c s) c' s' => fun hm hr => by
    have := eval_restrict W read key (.lit v c s) (by rw [Methods] at hm; exact hm) (by rw [Models] at hr; exact hr)
    rw [restrict_lit _ _ (by simp), eval_lit _ (by simp), eval_lit _ (restrict_ne_dict _ _ (by simp))]
    exact this
  | .lit (.model p c s) c' s' => fun hm hr => by
    have := eval_restrict W read key (.model p c s) (by rw [Methods] at hm; exact hm) (by rw [Models] at hr; exact hr)
    rw [restrict_lit _ _ (by simp), eval_lit _ (by simp), eval_lit _ (restrict_ne_dict _ _ (by simp))]
    exact this
  | .lit (.merge m args kwargs) c' s' => fun hm hr => by
    have := eval_restrict W read key (.merge m args kwargs) (by rw [Methods] at hm; exact hm) (by rw [Models] at hr; exact hr)
    rw [restrict_lit _ _ (by simp), eval_lit _ (by simp), eval_lit _ (restrict_ne_dict _ _ (by simp))]
    exact this
  | .lit (.str _) _ _ => fun _ _ => by simp [restrict, eval]
  | .lit (.int _) _ _ => fun _ _ => by simp [restrict, eval]
  | .lit (.float _) _ _ => fun _ _ => by simp [restrict, eval]
  | .lit (.bool _) _ _ => fun _ _ => by simp [restrict, eval]
  | .lit .none _ _ => fun _ _ => by simp [restrict, eval]
  | .lit (.tensor _) _ _ => fun _ _ => by simp [restrict, eval, withRead]
  | .model path c s => fun _ hr => by
    rw [Models] at hr
    simp only [restrict, eval]
    have := visitSd_rel (W := W) (W' := withRead W read) rfl (c := c) (key := key) (R := Eq) (get := W.read path) (get' := read path) (by
      intro k hk
      rw [hr k hk]
      cases read path k with
      | ok t => exact .ok rfl
      | error e => exact .error _)
    have hread : (withRead W read).read = read := rfl
    rw [hread]
    generalize visitSd W _ c key = x at this
    generalize visitSd (withRead W read) _ c key = y at this
    cases this with
    | error e => rfl
    | ok h => rw [h]
  | .merge m args kwargs => fun hm hr => by
    rw [Methods] at hm
    rw [Models] at hr
    rw [restrict, eval_merge, eval_merge, length_restrictL]
    exact applyMerge_rel hm.1 (List.rel_append (evalL_restrict W read key args 0 hm.2.1 hr.1) (evalK_restrict W read key kwargs hm.2.2 hr.2))
  | .str _ => fun _ _ => by simp [restrict, eval]
  | .int _ => fun _ _ => by simp [restrict, eval]
  | .float _ => fun _ _ => by simp [restrict, eval]
  | .bool _ => fun _ _ => by simp [restrict, eval]
  | .none => fun _ _ => by simp [restrict, eval]
  | .tensor _ => fun _ _ => by simp [restrict, eval, withRead]
  | .dict _ => fun _ _ => by simp [restrict, eval]
theorem evalD_restrict (W : World F T) (read : Str → Str → Except Err T) (key : Str) : ∀ (es : List (Str × Val F)) (keep : List Str),
    MethodsK (fun m => Local (W.impl m)) es → ModelsK (fun path c => ∀ k ∈ names W c key, W.read path k = read path k) es →
    ∀ k ∈ keep, Option.Rel (RelF key) (Dict.get? (evalD W es) k) (Dict.get? (evalD (withRead W read) (restrictD W key keep es)) k)
  | [], keep => fun _ _ k _ => by simp only [restrictD, evalD]; exact .none
  | (k0, v) :: es, keep => fun hm hr k hk => by
    rw [MethodsK] at hm
    rw [ModelsK] at hr
    have ih := evalD_restrict W read key es keep hm.2 hr.2 k hk
    have ihv := eval_restrict W read key v hm.1 hr.1
    rw [evalD, restrictD, get?_cons]
    by_cases hk0 : k0 = k
    · subst hk0
      rw [if_pos rfl, if_pos hk, evalD, get?_cons, if_pos rfl]
      exact .some ihv
    · rw [if_neg hk0]
      by_cases hkeep : k0 ∈ keep
      · rw [if_pos hkeep, evalD, get?_cons, if_neg hk0]
        exact ih
      · rw [if_neg hkeep]
        exact ih
theorem evalL_restrict (W : World F T) (read : Str → Str → Except Err T) (key : Str) : ∀ (l : List (Val F)) (i : ℕ),
    MethodsL (fun m => Local (W.impl m)) l → ModelsL (fun path c => ∀ k ∈ names W c key, W.read path k = read path k) l →
    List.Forall₂ (RelChild key) (evalL W i l) (evalL (withRead W read) i (restrictL W key l))
  | [], i => fun _ _ => by simp only [restrictL, evalL]; exact .nil
  | v :: l, i => fun hm hr => by
    rw [MethodsL] at hm
    rw [ModelsL] at hr
    rw [restrictL, evalL_cons, evalL_cons]
    refine .cons ⟨rfl, (depth_restrict W key v).symm, (configOf_restrict W read key v).symm, eval_restrict W read key v hm.1 hr.1⟩ ?_
    exact evalL_restrict W read key l (i + 1) hm.2 hr.2
theorem evalK_restrict (W : World F T) (read : Str → Str → Except Err T) (key : Str) : ∀ (l : List (Str × Val F)),
    MethodsK (fun m => Local (W.impl m)) l → ModelsK (fun path c => ∀ k ∈ names W c key, W.read path k = read path k) l →
    List.Forall₂ (RelChild key) (evalK W l) (evalK (withRead W read) (restrictK W key l))
  | [] => fun _ _ => by simp only [restrictK, evalK]; exact .nil
  | (k, v) :: l => fun hm hr => by
    rw [MethodsK] at hm
    rw [ModelsK] at hr
    rw [restrictK, evalK_cons, evalK_cons]
    refine .cons ⟨rfl, (depth_restrict W key v).symm, (configOf_restrict W read key v).symm, eval_restrict W read key v hm.1 hr.1⟩ ?_
    exact evalK_restrict W read key l hm.2 hr.2
end

mutual
theorem models_all {p : Str → Option Str → Prop} (h : ∀ path c, p path c) : ∀ v : Val F, Models p v
  | .lit v c s => by rw [Models]; exact models_all h v
  | .model path c s => by rw [Models]; exact h path c
  | .merge m args kwargs => by rw [Models]; exact ⟨modelsL_all h args, modelsK_all h kwargs⟩
  | .dict es => by rw [Models]; exact modelsK_all h es
  | .str _ => by simp [Models]
  | .int _ => by simp [Models]
  | .float _ => by simp [Models]
  | .bool _ => by simp [Models]
  | .none => by simp [Models]
  | .tensor _ => by simp [Models]
theorem modelsL_all {p : Str → Option Str → Prop} (h : ∀ path c, p path c) : ∀ l : List (Val F), ModelsL p l
  | [] => by simp [ModelsL]
  | v :: l => by rw [ModelsL]; exact ⟨models_all h v, modelsL_all h l⟩
theorem modelsK_all {p : Str → Option Str → Prop} (h : ∀ path c, p path c) : ∀ l : List (Str × Val F), ModelsK p l
  | [] => by simp [ModelsK]
  | (k, v) :: l => by rw [ModelsK]; exact ⟨models_all h v, modelsK_all h l⟩
end

mutual
theorem restrict_withRead (W : World F T) (read : Str → Str → Except Err T) (key : Str) : ∀ v : Val F,
    restrict (withRead W read) key v = restrict W key v
  | .lit (.dict es) c s => by
    rw [restrict, restrict]
    have hn : Spec.names (withRead W read) c key = Spec.names W c key := rfl
    rw [hn, restrictD_withRead W read key es]
  | .lit (.lit v c s) c' s' => by
    have h1 : restrict (withRead W read) key (.lit (.lit v c s) c' s') = .lit (restrict (withRead W read) key (.lit v c s)) c' s' := restrict_lit _ _ (by simp) _ _
    have h2 : restrict W key (.lit (.lit v c s) c' s') = .lit (restrict W key (.lit v c s)) c' s' := restrict_lit _ _ (by simp) _ _
    rw [h1, h2, restrict_withRead W read key (.lit v c s)]
  | .lit (.merge m args kwargs) c' s' => by
    have h1 : restrict (withRead W read) key (.lit (.merge m args kwargs) c' s') = .lit (restrict (withRead W read) key (.merge m args kwargs)) c' s' := restrict_lit _ _ (by simp) _ _
    have h2 : restrict W key (.lit (.merge m args kwargs) c' s') = .lit (restrict W key (.merge m args kwargs)) c' s' := restrict_lit _ _ (by simp) _ _
    rw [h1, h2, restrict_withRead W read key (.merge m args kwargs)]
  | .lit (.model ..) _ _ => by simp [restrict]
  | .lit (.str _) _ _ => by simp [restrict]
  | .lit (.int _) _ _ => by simp [restrict]
  | .lit (.float _) _ _ => by simp [restrict]
  | .lit (.bool _) _ _ => by simp [restrict]
  | .lit .none _ _ => by simp [restrict]
  | .lit (.tensor _) _ _ => by simp [restrict]
  | .merge m args kwargs => by
    rw [restrict, restrict, restrictL_withRead W read key args, restrictK_withRead W read key kwargs]
  | .model .. => by simp [restrict]
  | .str _ => by simp [restrict]
  | .int _ => by simp [restrict]
  | .float _ => by simp [restrict]
  | .bool _ => by simp [restrict]
  | .none => by simp [restrict]
  | .tensor _ => by simp [restrict]
  | .dict _ => by simp [restrict]
theorem restrictD_withRead (W : World F T) (read : Str → Str → Except Err T) (key : Str) : ∀ (l : List (Str × Val F)) (keep : List Str),
    restrictD (withRead W read) key keep l = restrictD W key keep l
  | [], keep => by simp [restrictD]
  | (k, v) :: l, keep => by rw [restrictD, restrictD, restrict_withRead W read key v, restrictD_withRead W read key l keep]
theorem restrictL_withRead (W : World F T) (read : Str → Str → Except Err T) (key : Str) : ∀ l : List (Val F),
    restrictL (withRead W read) key l = restrictL W key l
  | [] => by simp [restrictL]
  | v :: l => by rw [restrictL, restrictL, restrict_withRead W read key v, restrictL_withRead W read key l]
theorem restrictK_withRead (W : World F T) (read : Str → Str → Except Err T) (key : Str) : ∀ l : List (Str × Val F),
    restrictK (withRead W read) key l = restrictK W key l
  | [] => by simp [restrictK]
  | (k, v) :: l => by rw [restrictK, restrictK, restrict_withRead W read key v, restrictK_withRead W read key l]
end

end Verif.Eval
