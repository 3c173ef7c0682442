import Verif.Spec.Program

/-!
# A program has the value that evaluation gives
-/
namespace Verif.Program
open Method Recipe Config Eval Spec
variable {F T α β : Type} (ρ : Str → Str → Except Err T)

theorem value_bind (p : Prog T α) (f : α → Prog T β) : value ρ (p.bind f) = value ρ (f (value ρ p)) := by
  induction p with
  | ret a => rfl
  | load p k next ih => exact ih (ρ p k)

/-- An argument when the files answer by `ρ` -/
def PArg.at_ : PArg F T → Arg F T
  | .val v => .val v
  | .sd get c => .sd (fun k => value ρ (get k)) c

def PChild.at_ (c : PChild F T) : Child F T := ⟨c.idx, fun k => value ρ (c.run k), c.depth, c.config⟩

def mapD {κ ν μ : Type} (f : ν → μ) (d : Dict κ ν) : Dict κ μ := d.map fun p => (p.1, f p.2)

theorem get?_mapD {κ ν μ : Type} [DecidableEq κ] (f : ν → μ) (d : Dict κ ν) (k : κ) : (mapD f d).get? k = (d.get? k).map f := by
  induction d with
  | nil => rfl
  | cons p d ih =>
    obtain ⟨k', v⟩ := p
    show Dict.get? ((k', f v) :: mapD f d) k = _
    unfold Dict.get?
    by_cases h : k' = k
    · simp [h]
    · simp only [h, if_false]; exact ih

theorem mapD_set {κ ν μ : Type} [DecidableEq κ] (f : ν → μ) (d : Dict κ ν) (k : κ) (v : ν) :
    mapD f (d.set k v) = (mapD f d).set k (f v) := by
  induction d with
  | nil => rfl
  | cons p d ih =>
    obtain ⟨k', v'⟩ := p
    show mapD f (Dict.set ((k', v') :: d) k v) = Dict.set ((k', f v') :: mapD f d) k (f v)
    by_cases h : k' = k
    · simp [Dict.set, h, mapD]
    · simp only [Dict.set, h, if_false, ← ih]; rfl

def PMerged.at_ (s : PMerged F T) : Merged F T := ⟨s.holder, mapD (PArg.at_ ρ) s.merged⟩

theorem shape_at (a : PArg F T) : shape (PArg.at_ ρ a) = a.shape := by cases a <;> rfl

theorem get_at (a : Option (PArg F T)) (k : Str) : value ρ (PArg.get a k) = look (a.map (PArg.at_ ρ)) k := by
  cases a with
  | none => rfl
  | some a => cases a <;> rfl

theorem Fn_run (get : Idx → Str → Prog T (Res F T)) (f : Fn F T) : value ρ (f.run get) = result (fun i k => value ρ (get i k)) f := by
  induction f with
  | done r => rfl
  | ask i k next ih => simp only [Fn.run, value_bind, result]; exact ih _

theorem loadFirst_value (path : Str) (ks : List Str) : value ρ (loadFirst path ks) = visitKeys (ρ path) ks := by
  induction ks with
  | nil => rfl
  | cons k ks ih =>
    cases ks with
    | nil =>
      simp only [loadFirst, value, visitKeys]
      cases ρ path k with
      | ok v => rfl
      | error e => simp only; split_ifs <;> rfl
    | cons k' ks =>
      simp only [loadFirst, value]
      rw [visitKeys]
      · cases ρ path k with
        | ok v => rfl
        | error e => simp only; split_ifs <;> first | exact ih | rfl
      · simp

theorem castRun_at (C : Conv F T) (t : Ty) (run : Str → Prog T (Res F T)) :
    (fun k => value ρ (castRunP C t run k)) = castRun C t fun k => value ρ (run k) := by
  funext k
  simp only [castRunP, castRun, value_bind]
  cases value ρ (run k) <;> rfl

theorem stepChild_at (C : Conv F T) (types : Dict Idx PTy) (key : Str) (s : PMerged F T) (c : PChild F T) :
    (value ρ (stepChildP C types key s c)).map (PMerged.at_ ρ) = stepChild C types key (s.at_ ρ) (c.at_ ρ) := by
  unfold stepChildP stepChild
  show _ = match types.get? c.idx with | none => _ | some (.sd t) => _ | some (.val t) => _
  cases types.get? c.idx with
  | none => rfl
  | some p =>
    cases p with
    | sd t =>
      simp only [value, Except.map, PMerged.at_, mapD_set, PArg.at_, castRun_at, PChild.at_]
    | val t =>
      simp only [value_bind, PChild.at_]
      cases value ρ (c.run key) with
      | error e => simp only [value, Except.map, PMerged.at_, mapD_set, PArg.at_]
      | ok v =>
        simp only
        cases castTo C t v with
        | error e => rfl
        | ok v' => simp only [value, Except.map, PMerged.at_, mapD_set, PArg.at_]

theorem stepAll_at (C : Conv F T) (types : Dict Idx PTy) (key : Str) (l : List (PChild F T)) (s : PMerged F T) :
    (value ρ (stepAllP C types key s l)).map (PMerged.at_ ρ) = stepAll C types key (s.at_ ρ) (l.map (PChild.at_ ρ)) := by
  induction l generalizing s with
  | nil => rfl
  | cons c l ih =>
    simp only [stepAllP, value_bind, List.map_cons, stepAll, ← stepChild_at]
    cases value ρ (stepChildP C types key s c) with
    | error e => rfl
    | ok s' => exact ih s'

theorem insertDeep_at (c : PChild F T) (l : List (PChild F T)) :
    (insertDeepP c l).map (PChild.at_ ρ) = insertDeep (c.at_ ρ) (l.map (PChild.at_ ρ)) := by
  induction l with
  | nil => rfl
  | cons d l ih =>
    simp only [insertDeepP, List.map_cons, insertDeep]
    show _ = if d.depth.getD 0 < c.depth.getD 0 then _ else _
    split_ifs
    · rfl
    · rw [List.map_cons, ih]

theorem deeperFirst_at (l : List (PChild F T)) : (deeperFirstP l).map (PChild.at_ ρ) = deeperFirst (l.map (PChild.at_ ρ)) := by
  unfold deeperFirstP deeperFirst
  have : ∀ (l : List (PChild F T)) (acc : List (PChild F T)), (l.foldl (fun acc c => insertDeepP c acc) acc).map (PChild.at_ ρ) =
      (l.map (PChild.at_ ρ)).foldl (fun acc c => insertDeep c acc) (acc.map (PChild.at_ ρ)) := by
    intro l
    induction l with
    | nil => intro acc; rfl
    | cons c l ih => intro acc; simp only [List.foldl_cons, List.map_cons, ih, insertDeep_at]
  exact this l []

theorem finish_at (src : Source F T) (n : ℕ) (key : Str) (s : PMerged F T) :
    value ρ (finishP src n key s) = finish (impl src) n key (s.at_ ρ) := by
  unfold finishP finish
  show _ = match s.holder with | some e => _ | none => _
  cases s.holder with
  | some e => rfl
  | none =>
    simp only [Fn_run, splitArgs, impl, PMerged.at_, get?_mapD, List.map_map]
    have h1 : ∀ i, ((s.merged.get? (.pos i)).map (PArg.at_ ρ)).getD (.val .none) =
        PArg.at_ ρ ((s.merged.get? (.pos i)).getD (.val .none)) := by
      intro i; cases s.merged.get? (.pos i) <;> rfl
    congr 1
    · funext i k
      rw [get_at]
      congr 1
      cases i with
      | pos i =>
        simp only [argAt, List.getElem?_map, h1]
        cases (List.range n)[i]? <;> rfl
      | name k => rfl
    · congr 1
      · apply List.map_congr_left
        intro i _
        simp only [Function.comp, h1, shape_at]
      · funext k
        cases s.merged.get? (.name k) with
        | none => rfl
        | some a => simp only [Option.map_some, shape_at]

theorem applyMerge_at (C : Conv F T) (src : Source F T) (n : ℕ) (children : List (PChild F T)) (key : Str) :
    value ρ (applyMergeP C src n children key) = applyMerge C (impl src) n (children.map (PChild.at_ ρ)) key := by
  unfold applyMergeP applyMerge
  have : (children.map (PChild.at_ ρ)).any (fun c => c.depth.isNone) = children.any fun c => c.depth.isNone := by
    rw [List.any_map]; rfl
  rw [this]
  split_ifs
  · rfl
  · rw [value_bind, applyOrdered, ← deeperFirst_at]
    have h := stepAll_at ρ C (src.types.asDict (some n)) key (deeperFirstP children) ⟨none, []⟩
    have h' : stepAll C ((impl src).types.asDict (some n)) key ⟨none, []⟩ ((deeperFirstP children).map (PChild.at_ ρ)) =
        (value ρ (stepAllP C (src.types.asDict (some n)) key ⟨none, []⟩ (deeperFirstP children))).map (PMerged.at_ ρ) := h.symm
    rw [h']
    cases value ρ (stepAllP C (src.types.asDict (some n)) key ⟨none, []⟩ (deeperFirstP children)) with
    | error e => rfl
    | ok s => exact finish_at ρ src n key s

theorem visitKeys_two {α : Type} (get : Str → Except Err α) (k k' : Str) (ks : List Str) :
    visitKeys get (k :: k' :: ks) =
      match get k with
      | .ok v => .ok v
      | .error e => if Err.isKeyError e then visitKeys get (k' :: ks) else .error e := by
  conv_lhs => unfold visitKeys
  rfl

theorem visitKeys_map {α β : Type} (f : α → β) (get : Str → Except Err α) (ks : List Str) :
    visitKeys (fun k => (get k).map f) ks = (visitKeys get ks).map f := by
  induction ks with
  | nil => rfl
  | cons k ks ih =>
    cases ks with
    | nil =>
      simp only [visitKeys]
      cases get k with
      | ok v => rfl
      | error e => simp only [Except.map]; split_ifs <;> rfl
    | cons k' ks =>
      rw [visitKeys_two, visitKeys_two]
      cases get k with
      | ok v => rfl
      | error e =>
        show (if Err.isKeyError e then _ else _) = Except.map f (if Err.isKeyError e then _ else _)
        split_ifs
        · exact ih
        · rfl

mutual
/-- Loading as a program or asking a function: the value is the same. -/
theorem program_value (P : PWorld F T) : ∀ (r : Val F) (key : Str), value ρ (program P r key) = eval (world P ρ) r key
  | .lit (.dict es) config sp, key => by
    have h := programD_value P es
    obtain ⟨get, hget⟩ : ∃ get : Str → Except Err (Str → Res F T), get = fun k =>
        match Dict.get? (evalD (world P ρ) es) k with | some f => .ok f | none => .error .key := ⟨_, rfl⟩
    have heval : eval (world P ρ) (.lit (.dict es) config sp) key =
        match visitSd (world P ρ) get config key with | .ok f => f key | .error e => .error e := by rw [eval, hget]; rfl
    rw [heval]
    simp only [program]
    have h2 : visitSd (world P ρ) get config key =
        (visitDict P (programD P es) config key).map fun f k => value ρ (f k) := by
      rw [hget]
      unfold visitSd visitDict
      cases config with
      | none => rfl
      | some c =>
        show (match P.configs c with | none => _ | some cfg => _) = _
        simp only
        cases P.configs c with
        | none => rfl
        | some cfg =>
          simp only
          rw [← visitKeys_map]
          congr 1
          funext k
          rw [h, get?_mapD]
          cases Dict.get? (programD P es) k <;> rfl
    rw [h2]
    cases visitDict P (programD P es) config key <;> rfl
  | .lit (.str s) _ _, key => rfl
  | .lit (.int s) _ _, key => rfl
  | .lit (.float s) _ _, key => rfl
  | .lit (.bool s) _ _, key => rfl
  | .lit .none _ _, key => rfl
  | .lit (.tensor s) _ _, key => rfl
  | .lit (.lit v c s) c' s', key => by
    simp only [program, eval]
    exact program_value P (.lit v c s) key
  | .lit (.model v c s) c' s', key => by
    simp only [program, eval]
    exact program_value P (.model v c s) key
  | .lit (.merge m a k) c' s', key => by
    simp only [program, eval]
    exact program_value P (.merge m a k) key
  | .model path config _, key => by
    simp only [program, eval, value_bind]
    have : value ρ (visitModel P path config key) = visitSd (world P ρ) ((world P ρ).read path) config key := by
      unfold visitModel visitSd
      cases config with
      | none => rfl
      | some c =>
        show _ = (match P.configs c with | none => _ | some cfg => _)
        simp only
        cases P.configs c with
        | none => rfl
        | some cfg => exact loadFirst_value ρ path _
    rw [this]
    cases visitSd (world P ρ) ((world P ρ).read path) config key <;> rfl
  | .merge m args kwargs, key => by
    simp only [program, eval]
    rw [applyMerge_at, List.map_append, programL_value P args, programK_value P kwargs]
    rfl
  | .str s, key => rfl
  | .int s, key => rfl
  | .float s, key => rfl
  | .bool s, key => rfl
  | .none, key => rfl
  | .tensor s, key => rfl
  | .dict _, key => by simp only [program, eval, value]
theorem programD_value (P : PWorld F T) : ∀ es : List (Str × Val F),
    evalD (world P ρ) es = mapD (fun f k => value ρ (f k)) (programD P es)
  | [] => rfl
  | (k, v) :: l => by
    simp only [evalD, programD, programD_value P l]
    show _ = (k, fun k => value ρ (program P v k)) :: _
    rw [show (fun k => value ρ (program P v k)) = eval (world P ρ) v from funext fun k => program_value P v k]
    rfl
theorem programL_value (P : PWorld F T) : ∀ (l : List (Val F)) {i : ℕ}, (programL P i l).map (PChild.at_ ρ) = evalL (world P ρ) i l
  | [], _ => rfl
  | v :: l, i => by
    simp only [programL, evalL, List.map_cons, programL_value P l, PChild.at_]
    rw [show (fun k => value ρ (program P v k)) = eval (world P ρ) v from funext fun k => program_value P v k]
    rfl
theorem programK_value (P : PWorld F T) : ∀ l : List (Str × Val F), (programK P l).map (PChild.at_ ρ) = evalK (world P ρ) l
  | [] => rfl
  | (k, v) :: l => by
    simp only [programK, evalK, List.map_cons, programK_value P l, PChild.at_]
    rw [show (fun k => value ρ (program P v k)) = eval (world P ρ) v from funext fun k => program_value P v k]
    rfl
end

end Verif.Program
