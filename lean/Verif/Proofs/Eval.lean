import Verif.Model.Builtin
import Mathlib.Data.List.Perm.Basic
import Mathlib.Data.List.Nodup

/-!
# Lemmas on merging one key
-/
namespace Verif.Eval
open Method Recipe Config
variable {F T : Type}

/-! ### Order -/

theorem insertDeep_perm (c : Child F T) (l : List (Child F T)) : (insertDeep c l).Perm (c :: l) := by
  induction l with
  | nil => exact .refl _
  | cons d l ih =>
    unfold insertDeep
    split
    · exact .refl _
    · exact (ih.cons d).trans (List.Perm.swap ..)

theorem deeperFirst_perm (l : List (Child F T)) : (deeperFirst l).Perm l := by
  unfold deeperFirst
  have : ∀ (l acc : List (Child F T)), (l.foldl (fun acc c => insertDeep c acc) acc).Perm (acc ++ l) := by
    intro l
    induction l with
    | nil => intro acc; simp
    | cons c l ih =>
      intro acc
      refine (ih _).trans ?_
      refine ((insertDeep_perm c acc).append_right l).trans ?_
      rw [List.cons_append]
      exact List.perm_middle.symm
  simpa using this l []

/-! ### Successful arguments -/

/-- The argument a child becomes, if nothing fails. -/
def good (C : Conv F T) (types : Dict Idx PTy) (key : Str) (c : Child F T) : Option (Arg F T) :=
  match types.get? c.idx with
  | none => none
  | some (.sd t) => some (.sd (castRun C t c.run) c.config)
  | some (.val t) =>
    match castRun C t c.run key with
    | .ok v => some (.val v)
    | .error _ => none

theorem stepChild_good {C : Conv F T} {types : Dict Idx PTy} {key : Str} {s : Merged F T} {c : Child F T} {a : Arg F T}
    (h : good C types key c = some a) : stepChild C types key s c = .ok { s with merged := s.merged.set c.idx a } := by
  unfold good at h
  unfold stepChild
  cases ht : types.get? c.idx with
  | none => rw [ht] at h; cases h
  | some p =>
    rw [ht] at h
    cases p with
    | sd t => simp only [Option.some.injEq] at h; subst h; rfl
    | val t =>
      unfold castRun at h
      simp only at h ⊢
      cases hr : c.run key with
      | error e => rw [hr] at h; cases h
      | ok v =>
        rw [hr] at h
        simp only at h ⊢
        cases hc : castTo C t v with
        | error e => rw [hc] at h; cases h
        | ok v' => rw [hc] at h; cases h; rfl

theorem stepAll_good {C : Conv F T} {types : Dict Idx PTy} {key : Str} {l : List (Child F T)} {f : Child F T → Arg F T}
    (h : ∀ c ∈ l, good C types key c = some (f c)) (s : Merged F T) :
    stepAll C types key s l = .ok ⟨s.holder, s.merged.update (l.map fun c => (c.idx, f c))⟩ := by
  induction l generalizing s with
  | nil => rfl
  | cons c l ih =>
    unfold stepAll
    rw [stepChild_good (h c (by simp))]
    simp only
    rw [ih (fun c hc => h c (by simp [hc]))]
    simp

theorem keys_perm {κ ν : Type} [DecidableEq κ] {d e : Dict κ ν} (hp : d.Perm e) : d.keys.Perm e.keys := hp.map _

theorem get?_perm {κ ν : Type} [DecidableEq κ] {d e : Dict κ ν} (hp : d.Perm e) (hd : d.keys.Nodup) (k : κ) :
    d.get? k = e.get? k := by
  have he : e.keys.Nodup := (keys_perm hp).nodup_iff.1 hd
  cases h : e.get? k with
  | some v => exact (Dict.get?_eq_some_iff hd).2 (hp.mem_iff.2 ((Dict.get?_eq_some_iff he).1 h))
  | none =>
    rw [Dict.get?_eq_none_iff] at h ⊢
    exact fun h' => h ((keys_perm hp).mem_iff.1 h')

/-- The arguments a python function gets from a table by index -/
def argsFrom (n : ℕ) (d : Dict Idx (Arg F T)) : List (Arg F T) := (List.range n).map fun i => (d.get? (.pos i)).getD (.val .none)
def kwargsFrom (d : Dict Idx (Arg F T)) : Str → Option (Arg F T) := fun s => d.get? (.name s)

theorem applyOrdered_good {C : Conv F T} {impl : Impl F T} {n : ℕ} {order children : List (Child F T)} {key : Str}
    {f : Child F T → Arg F T} (hp : order.Perm children) (hn : (children.map (·.idx)).Nodup)
    (h : ∀ c ∈ children, good C (impl.types.asDict (some n)) key c = some (f c)) :
    applyOrdered C impl n order key = impl.run (argsFrom n (children.map fun c => (c.idx, f c)))
      (kwargsFrom (children.map fun c => (c.idx, f c))) key := by
  have hk : (Dict.keys (children.map fun c => (c.idx, f c))).Nodup := by
    unfold Dict.keys; rw [List.map_map]; exact hn
  have hpo : (order.map fun c => (c.idx, f c)).Perm (children.map fun c => (c.idx, f c)) := hp.map _
  have hko : (Dict.keys (order.map fun c => (c.idx, f c))).Nodup := (keys_perm hpo).nodup_iff.2 hk
  unfold applyOrdered
  rw [stepAll_good (fun c hc => h c (hp.mem_iff.1 hc))]
  simp only
  unfold finish splitArgs
  simp only
  have hg : ∀ i, Dict.get? (Dict.update [] (order.map fun c => (c.idx, f c))) i = Dict.get? (children.map fun c => (c.idx, f c)) i := by
    intro i
    rw [Dict.get?_update _ hko]
    simp only [Dict.get?_nil, Option.or_none]
    exact get?_perm hpo hko i
  unfold argsFrom kwargsFrom
  simp only [hg]

theorem applyMerge_good {C : Conv F T} {impl : Impl F T} {n : ℕ} {children : List (Child F T)} {key : Str}
    {f : Child F T → Arg F T} (hd : ∀ c ∈ children, c.depth.isSome) (hn : (children.map (·.idx)).Nodup)
    (h : ∀ c ∈ children, good C (impl.types.asDict (some n)) key c = some (f c)) :
    applyMerge C impl n children key = impl.run (argsFrom n (children.map fun c => (c.idx, f c)))
      (kwargsFrom (children.map fun c => (c.idx, f c))) key := by
  unfold applyMerge
  rw [if_neg]
  · exact applyOrdered_good (deeperFirst_perm _) hn h
  · simp only [List.any_eq_true, not_exists, not_and, Bool.not_eq_true]
    intro c hc
    have := hd c hc
    cases hdc : c.depth with
    | none => rw [hdc] at this; cases this
    | some d => rfl

/-! ### Children -/

theorem eval_merge (W : World F T) (m : Str) (args : List (Val F)) (kwargs : List (Str × Val F)) :
    eval W (.merge m args kwargs) = applyMerge W.conv (W.impl m) args.length (evalL W 0 args ++ evalK W kwargs) := by
  rw [eval]

theorem evalL_cons (W : World F T) (i : ℕ) (v : Val F) (l : List (Val F)) :
    evalL W i (v :: l) = ⟨.pos i, eval W v, depth v, configOf W v⟩ :: evalL W (i + 1) l := by
  rw [evalL]

theorem evalL_nil (W : World F T) (i : ℕ) : evalL W i [] = [] := by rw [evalL]

theorem evalK_cons (W : World F T) (k : Str) (v : Val F) (l : List (Str × Val F)) :
    evalK W ((k, v) :: l) = ⟨.name k, eval W v, depth v, configOf W v⟩ :: evalK W l := by
  rw [evalK]

theorem evalK_nil (W : World F T) : evalK W [] = [] := by rw [evalK]


theorem evalL_idx (W : World F T) (l : List (Val F)) : ∀ i, (evalL W i l).map (·.idx) = (List.range l.length).map fun j => Idx.pos (i + j) := by
  induction l with
  | nil => intro i; simp [evalL]
  | cons v l ih =>
    intro i
    rw [evalL_cons, List.map_cons, ih, List.length_cons, List.range_succ_eq_map]
    simp only [List.map_cons, List.map_map, Nat.add_zero]
    congr 1
    apply List.map_congr_left
    intro j _
    simp only [Function.comp_apply, Nat.succ_eq_add_one]
    congr 1
    omega

theorem evalK_idx (W : World F T) (l : List (Str × Val F)) : (evalK W l).map (·.idx) = l.map fun p => Idx.name p.1 := by
  induction l with
  | nil => simp [evalK]
  | cons p l ih => obtain ⟨k, v⟩ := p; rw [evalK_cons, List.map_cons, ih]; rfl

theorem children_nodup (W : World F T) (args : List (Val F)) (kwargs : Dict Str (Val F)) (h : kwargs.keys.Nodup) :
    ((evalL W 0 args ++ evalK W kwargs).map (·.idx)).Nodup := by
  rw [List.map_append, evalL_idx, evalK_idx, List.nodup_append]
  refine ⟨?_, ?_, ?_⟩
  · refine List.Nodup.map ?_ List.nodup_range
    intro a b hab
    simpa using hab
  · have : (l : Dict Str (Val F)) → List.map (fun p => Idx.name p.1) l = (Dict.keys l).map Idx.name := by
      intro l; simp [Dict.keys]
    rw [this]
    refine List.Nodup.map ?_ h
    intro a b hab
    simpa using hab
  · intro a ha b hb
    obtain ⟨j, _, rfl⟩ := List.mem_map.1 ha
    obtain ⟨p, _, rfl⟩ := List.mem_map.1 hb
    simp

end Verif.Eval
