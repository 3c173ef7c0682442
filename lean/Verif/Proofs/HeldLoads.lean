import Verif.Proofs.Held
import Mathlib.Data.List.Perm.Basic

/-!
# Which loads merging a key makes
-/
namespace Verif.Held
open Method Recipe Config Eval Program Held.Spec
variable {F T : Type} (ρ : Str → Str → Except Err T)

theorem loads_append (a b : List Event) : loads (a ++ b) = loads a ++ loads b := by
  induction a with
  | nil => rfl
  | cons e a ih => cases e <;> simp only [List.cons_append, loads, ih]

theorem insertDeepL_perm (c : LChild F T) (l : List (LChild F T)) : (insertDeepL c l).Perm (c :: l) := by
  induction l with
  | nil => exact .refl _
  | cons d l ih =>
    simp only [insertDeepL]
    split_ifs
    · exact .refl _
    · exact (ih.cons d).trans (.swap c d l)

theorem deeperFirstL_perm (l : List (LChild F T)) : (deeperFirstL l).Perm l := by
  unfold deeperFirstL
  have : ∀ (l acc : List (LChild F T)), (l.foldl (fun acc c => insertDeepL c acc) acc).Perm (l ++ acc) := by
    intro l
    induction l with
    | nil => intro acc; exact .refl _
    | cons c l ih =>
      intro acc
      refine (ih _).trans (((insertDeepL_perm c acc).append_left l).trans ?_)
      exact List.perm_middle
  simpa using this l []

theorem stepAll_loads (C : Conv F T) (types : Dict Idx PTy) (hsd : ∀ i t, types.get? i ≠ some (.sd t)) (key : Str) : ∀ (l : List (LChild F T))
    {s s' : LMerged F T}, value ρ (stepAllL C types key s l) = .ok s' → s'.holder = none → AllVal s.merged →
    s.holder = none ∧ AllVal s'.merged ∧ (∀ c ∈ l, ∃ v, value ρ (c.run key) = .ok v) ∧
      loads (trace ρ (stepAllL C types key s l)) = l.flatMap fun c => loads (trace ρ (c.run key))
  | [], s, s', hv, hh, ha => by
    simp only [stepAllL, value] at hv
    injection hv with hv
    subst hv
    exact ⟨hh, ha, by simp, rfl⟩
  | c :: l, s, s', hv, hh, ha => by
    simp only [stepAllL, value_bind, trace_bind, loads_append] at hv ⊢
    obtain ⟨t, ht⟩ | hn : (∃ t, types.get? c.idx = some (.val t)) ∨ types.get? c.idx = none := by
      cases e : types.get? c.idx with
      | none => exact .inr rfl
      | some p =>
        cases p with
        | sd t => exact absurd e (hsd _ _)
        | val t => exact .inl ⟨t, rfl⟩
    · have hstep : stepChildL C types key s c = (c.run key).bind fun
          | .error e => .ret (.ok ⟨some e, s.merged.set c.idx (.val .none), s.held⟩)
          | .ok v =>
            match castTo C t v with
            | .error e => .ret (.error e)
            | .ok v' => .ret (.ok ⟨s.holder, s.merged.set c.idx (.val v'), s.held + weight c.isFresh⟩) := by
        unfold stepChildL; rw [ht]; rfl
      rw [hstep] at hv ⊢
      simp only [value_bind, trace_bind, loads_append] at hv ⊢
      cases hr : value ρ (c.run key) with
      | error e =>
        rw [hr] at hv
        simp only [value] at hv
        have := (stepAll_loads C types hsd key l (s := ⟨some e, s.merged.set c.idx (.val .none), s.held⟩) hv hh (ha.set _ _)).1
        exact absurd this (by simp)
      | ok v =>
        rw [hr] at hv
        cases hc : castTo C t v with
        | error e =>
          simp only [hc, value] at hv
          exact absurd hv (by simp)
        | ok v' =>
          simp only [hc, value] at hv
          obtain ⟨i1, i2, i3, i4⟩ := stepAll_loads C types hsd key l (s := ⟨s.holder, s.merged.set c.idx (.val v'), s.held + weight c.isFresh⟩)
            hv hh (ha.set _ _)
          simp only [hc, value, trace, loads, i4, List.append_nil, List.flatMap_cons]
          refine ⟨i1, i2, ?_, trivial⟩
          intro x hx
          rcases List.mem_cons.1 hx with rfl | hx
          · exact ⟨v, hr⟩
          · exact i3 x hx
    · have hstep : stepChildL C types key s c = .ret (.error .key) := by unfold stepChildL; rw [hn]
      rw [hstep] at hv
      simp only [value] at hv
      exact absurd hv (by simp)

theorem merge_loads (P : PWorld F T) {m : Str} {args : List (Val F)} {kwargs : List (Str × Val F)}
    (hsd : ∀ i t, ((P.source m).types.asDict (some args.length)).get? i ≠ some (.sd t)) {key : Str} {v : RVal F T}
    (hv : value ρ (live P (.merge m args kwargs) key) = .ok v) :
    (∀ c ∈ liveL P 0 args ++ liveK P kwargs, ∃ v, value ρ (c.run key) = .ok v) ∧
    (loads (trace ρ (live P (.merge m args kwargs) key))).Perm ((liveL P 0 args ++ liveK P kwargs).flatMap fun c => loads (trace ρ (c.run key))) := by
  simp only [live, applyMergeL] at hv ⊢
  by_cases hany : (liveL P 0 args ++ liveK P kwargs).any (fun c => c.depth.isNone) = true
  · rw [if_pos hany] at hv; simp [value] at hv
  · rw [if_neg hany] at hv ⊢
    simp only [value_bind, trace_bind, loads_append] at hv ⊢
    have hp := deeperFirstL_perm (liveL P 0 args ++ liveK P kwargs)
    cases hs : value ρ (stepAllL P.conv ((P.source m).types.asDict (some args.length)) key ⟨none, [], 0⟩ (deeperFirstL (liveL P 0 args ++ liveK P kwargs))) with
    | error e => rw [hs] at hv; simp [value] at hv
    | ok s =>
      rw [hs] at hv
      simp only at hv ⊢
      have hh : s.holder = none := by
        cases he : s.holder with
        | none => rfl
        | some e =>
          have : finishL (P.source m) args.length key s = .ret (.error e) := by unfold finishL; rw [he]
          rw [this] at hv
          simp [value] at hv
      obtain ⟨_, i2, i3, i4⟩ := stepAll_loads ρ P.conv _ hsd key _ hs hh (by intro i a ha; simp [Dict.get?] at ha)
      rw [i4, (finish_exact ρ i2 hv).2]
      simp only [loads, List.append_nil]
      exact ⟨fun c hc => i3 c (hp.symm.subset hc), hp.flatMap_right _⟩

mutual
/-- If the files answer under the key itself, the loads are those of the models, as often as they occur. -/
theorem live_loads (P : PWorld F T) {k : ℕ} {key : Str} : ∀ (v : Val F), Simple P k v → (∀ p ∈ paths v, ∃ t, ρ p key = .ok t) → ∀ {x : RVal F T},
    value ρ (live P v key) = .ok x → (loads (trace ρ (live P v key))).Perm ((paths v).map fun p => (p, key))
  | .lit v c s, h, _, x, hx => by
    rw [trace_lit ρ P c s (by simpa only [Simple] using h) key]
    exact .refl _
  | .model p c s, h, hp, x, hx => by
    simp only [live, value_bind, trace_bind, loads_append] at hx ⊢
    obtain ⟨t, ht⟩ := hp p (by simp [paths])
    have : loads (trace ρ (visitModelL P p c key)) = [(p, key)] ∧ value ρ (visitModelL P p c key) = .ok t := by
      unfold visitModelL at hx ⊢
      cases c with
      | none => simp [value] at hx
      | some c =>
        simp only at hx ⊢
        cases hc : P.configs c with
        | none => rw [hc] at hx; simp [value] at hx
        | some cfg =>
          simp only
          cases (cfg.aliases.get? key).getD [] with
          | nil => simp only [loadFirstL, trace, value, ht, loads]; exact ⟨trivial, trivial⟩
          | cons a as => simp only [loadFirstL, trace, value, ht, loads]; exact ⟨trivial, trivial⟩
    rw [this.1, this.2]
    exact .refl _
  | .merge m args kwargs, h, hp, x, hx => by
    simp only [Simple] at h
    obtain ⟨h1, h2⟩ := merge_loads ρ P h.1 hx
    refine h2.trans ?_
    rw [List.flatMap_append, paths, List.map_append]
    exact (liveL_loads P args 0 h.2.2.1 (fun p hp' => hp p (by rw [paths]; exact List.mem_append_left _ hp')) fun c hc =>
        h1 c (List.mem_append_left _ hc)).append
      (liveK_loads P kwargs h.2.2.2 (fun p hp' => hp p (by rw [paths]; exact List.mem_append_right _ hp')) fun c hc => h1 c (List.mem_append_right _ hc))
  | .str _, h, _, x, hx => .refl _
  | .int _, h, _, x, hx => .refl _
  | .float _, h, _, x, hx => .refl _
  | .bool _, h, _, x, hx => .refl _
  | .none, h, _, x, hx => .refl _
  | .tensor _, h, _, x, hx => .refl _
  | .dict _, h, _, x, hx => .refl _
theorem liveL_loads (P : PWorld F T) {k : ℕ} {key : Str} : ∀ (l : List (Val F)) (i : ℕ), SimpleL P k l → (∀ p ∈ pathsL l, ∃ t, ρ p key = .ok t) →
    (∀ c ∈ liveL P i l, ∃ v, value ρ (c.run key) = .ok v) →
    ((liveL P i l).flatMap fun c => loads (trace ρ (c.run key))).Perm ((pathsL l).map fun p => (p, key))
  | [], i, _, _, _ => .refl _
  | v :: l, i, h, hp, hv => by
    simp only [SimpleL] at h
    simp only [liveL, List.flatMap_cons, pathsL, List.map_append] at hv ⊢
    obtain ⟨x, hx⟩ := hv ⟨.pos i, live P v, depth v, configOfP P v, fresh v⟩ (by simp)
    exact (live_loads P v h.1 (fun p hp' => hp p (by rw [pathsL]; exact List.mem_append_left _ hp')) hx).append
      (liveL_loads P l (i + 1) h.2 (fun p hp' => hp p (by rw [pathsL]; exact List.mem_append_right _ hp')) fun c hc => hv c (by simp [hc]))
theorem liveK_loads (P : PWorld F T) {k : ℕ} {key : Str} : ∀ (l : List (Str × Val F)), SimpleK P k l → (∀ p ∈ pathsK l, ∃ t, ρ p key = .ok t) →
    (∀ c ∈ liveK P l, ∃ v, value ρ (c.run key) = .ok v) →
    ((liveK P l).flatMap fun c => loads (trace ρ (c.run key))).Perm ((pathsK l).map fun p => (p, key))
  | [], _, _, _ => .refl _
  | (n, v) :: l, h, hp, hv => by
    simp only [SimpleK] at h
    simp only [liveK, List.flatMap_cons, pathsK, List.map_append] at hv ⊢
    obtain ⟨x, hx⟩ := hv ⟨.name n, live P v, depth v, configOfP P v, fresh v⟩ (by simp)
    exact (live_loads P v h.1 (fun p hp' => hp p (by rw [pathsK]; exact List.mem_append_left _ hp')) hx).append
      (liveK_loads P l h.2 (fun p hp' => hp p (by rw [pathsK]; exact List.mem_append_right _ hp')) fun c hc => hv c (by simp [hc]))
end

end Verif.Held
