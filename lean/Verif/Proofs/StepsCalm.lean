import Verif.Proofs.StepsFile

/-!
# A check that an argument passed by value is computed

For the examples of C122: `calmB` decides `Calm` for recipes without keyword arguments.
-/
namespace Verif.Steps
open Method Recipe Config Eval Eval.Spec Whole Blocks Blocks.Spec
variable {F T : Type}

mutual
def properB : Val F → Bool
  | .lit .. => true
  | .model .. => true
  | .merge _ args kwargs => (!args.isEmpty) && properLB args && kwargs.isEmpty
  | _ => false
def properLB : List (Val F) → Bool
  | [] => true
  | v :: l => properB v && properLB l
end

mutual
theorem proper_of : ∀ {v : Val F}, properB v = true → Proper v
  | .lit .., _ => by simp [Proper]
  | .model .., _ => by simp [Proper]
  | .merge m args kwargs, h => by
    simp only [properB, Bool.and_eq_true] at h
    obtain ⟨⟨h1, h2⟩, h3⟩ := h
    rw [Proper]
    have : kwargs = [] := by cases kwargs with | nil => rfl | cons => cases h3
    subst this
    exact ⟨.inl (by rintro rfl; cases h1), properL_of h2, by rw [ProperK]; trivial⟩
  | .str _, h => by simp [properB] at h
  | .int _, h => by simp [properB] at h
  | .float _, h => by simp [properB] at h
  | .bool _, h => by simp [properB] at h
  | .none, h => by simp [properB] at h
  | .tensor _, h => by simp [properB] at h
  | .dict _, h => by simp [properB] at h
theorem properL_of : ∀ {l : List (Val F)}, properLB l = true → ProperL l
  | [], _ => by rw [ProperL]; trivial
  | v :: l, h => by
    simp only [properLB, Bool.and_eq_true] at h
    rw [ProperL]
    exact ⟨proper_of h.1, properL_of h.2⟩
end

/-- The argument `v` of type `ty` is as `Calm` says. -/
def argB (W : World F T) (key : Str) (v : Val F) (ty : Option PTy) : Bool :=
  properB v &&
    match ty with
    | none => false
    | some (.sd _) => true
    | some (.val t) =>
      match castRun W.conv t (eval W v) key with
      | .ok _ => true
      | .error .stateDictKey => true
      | .error _ => false

mutual
def calmB (W : World F T) (key : Str) : Val F → Bool
  | .merge m args kwargs => kwargs.isEmpty && (List.range args.length).all (fun i => argB W key (args[i]?.getD .none) (typeOf W m args.length (.pos i))) && calmLB W key args
  | _ => true
def calmLB (W : World F T) (key : Str) : List (Val F) → Bool
  | [] => true
  | v :: l => calmB W key v && calmLB W key l
end

mutual
theorem calm_of {W : World F T} {key : Str} : ∀ {v : Val F}, calmB W key v = true → Calm W key v
  | .merge m args kwargs, h => by
    simp only [calmB, Bool.and_eq_true] at h
    obtain ⟨⟨h1, h2⟩, h3⟩ := h
    have : kwargs = [] := by cases kwargs with | nil => rfl | cons => cases h1
    subst this
    have harg : ∀ idx v, ArgAt args [] idx v → argB W key v (typeOf W m args.length idx) = true := by
      intro idx v ha
      cases idx with
      | name k => cases ha
      | pos i =>
        have ha : args[i]? = some v := ha
        have := List.all_eq_true.1 h2 i (List.mem_range.2 (List.getElem?_eq_some_iff.1 ha).1)
        rw [ha] at this
        exact this
    rw [Calm, CalmK]
    refine ⟨⟨by simp [Dict.keys], fun idx v ha => ?_, fun idx v ha => ?_⟩, ?_, calmL_of h3, trivial⟩
    · have := harg idx v ha
      simp only [argB, Bool.and_eq_true] at this
      exact proper_of this.1
    · have := harg idx v ha
      cases hty : typeOf W m args.length idx with
      | none => rw [hty] at this; simp [argB] at this
      | some => rfl
    · rintro e ⟨idx, v, t, ha, ht, he⟩
      have := harg idx v ha
      rw [ht] at this
      simp only [argB, he, Bool.and_eq_true] at this
      cases e <;> first | rfl | cases this.2
  | .lit .., _ => by rw [Calm] <;> simp
  | .model .., _ => by rw [Calm] <;> simp
  | .str _, _ => by rw [Calm] <;> simp
  | .int _, _ => by rw [Calm] <;> simp
  | .float _, _ => by rw [Calm] <;> simp
  | .bool _, _ => by rw [Calm] <;> simp
  | .none, _ => by rw [Calm] <;> simp
  | .tensor _, _ => by rw [Calm] <;> simp
  | .dict _, _ => by rw [Calm] <;> simp
theorem calmL_of {W : World F T} {key : Str} : ∀ {l : List (Val F)}, calmLB W key l = true → CalmL W key l
  | [], _ => by rw [CalmL]; trivial
  | v :: l, h => by
    simp only [calmLB, Bool.and_eq_true] at h
    rw [CalmL]
    exact ⟨calm_of h.1, calmL_of h.2⟩
end

end Verif.Steps
