import Verif.Model.Serialize
import Mathlib.Data.List.Infix

/-!
# Serializing a recipe that is already in the text adds nothing
-/
namespace Verif.Held
open Method Recipe Serialize
variable {F : Type}

theorem addInstr_again {line a : Str} {st st1 : List Str} (h : addInstr line st = (a, st1)) :
    st <+: st1 ∧ st1.length ≤ st.length + 1 ∧ ∀ st2, st1 <+: st2 → addInstr line st2 = (a, st2) := by
  unfold addInstr at h
  cases hf : st.findIdx? fun l => decide (l = line) with
  | some i =>
    rw [hf] at h
    obtain ⟨rfl, rfl⟩ := Prod.mk.inj h
    refine ⟨List.prefix_rfl, by omega, ?_⟩
    rintro _ ⟨more, rfl⟩
    unfold addInstr
    rw [List.findIdx?_append, hf]
    rfl
  | none =>
    rw [hf] at h
    obtain ⟨rfl, rfl⟩ := Prod.mk.inj h
    refine ⟨List.prefix_append _ _, by simp, ?_⟩
    rintro _ ⟨more, rfl⟩
    unfold addInstr
    rw [List.findIdx?_append, List.findIdx?_append, hf]
    simp [List.findIdx?_cons]

mutual
theorem serVal_again (N : Num F) : ∀ (v : Val F) {a : Str} {st st1 : List Str}, serVal N v st = .ok (a, st1) →
    st <+: st1 ∧ ∀ st2, st1 <+: st2 → serVal N v st2 = .ok (a, st2)
  | .str s, a, st, st1, h => by
    rw [serVal] at h; obtain ⟨rfl, rfl⟩ := Prod.mk.inj (Except.ok.inj h); exact ⟨List.prefix_rfl, fun st2 _ => by rw [serVal]⟩
  | .int s, a, st, st1, h => by
    rw [serVal] at h; obtain ⟨rfl, rfl⟩ := Prod.mk.inj (Except.ok.inj h); exact ⟨List.prefix_rfl, fun st2 _ => by rw [serVal]⟩
  | .float s, a, st, st1, h => by
    rw [serVal] at h; obtain ⟨rfl, rfl⟩ := Prod.mk.inj (Except.ok.inj h); exact ⟨List.prefix_rfl, fun st2 _ => by rw [serVal]⟩
  | .bool s, a, st, st1, h => by
    rw [serVal] at h; obtain ⟨rfl, rfl⟩ := Prod.mk.inj (Except.ok.inj h); exact ⟨List.prefix_rfl, fun st2 _ => by rw [serVal]⟩
  | .none, a, st, st1, h => by
    rw [serVal] at h; obtain ⟨rfl, rfl⟩ := Prod.mk.inj (Except.ok.inj h); exact ⟨List.prefix_rfl, fun st2 _ => by rw [serVal]⟩
  | .tensor s, a, st, st1, h => by rw [serVal] at h; cases h
  | .dict es, a, st, st1, h => by
    rw [serVal] at h
    simp only [Bind.bind, Except.bind] at h
    cases hk : serK N es st with
    | error e => rw [hk] at h; cases h
    | ok p =>
      obtain ⟨parts, st'⟩ := p
      rw [hk] at h
      obtain ⟨i1, i2⟩ := serK_again N es hk
      obtain ⟨j1, _, j3⟩ := addInstr_again (Except.ok.inj h)
      refine ⟨i1.trans j1, fun st2 h2 => ?_⟩
      rw [serVal]
      simp only [Bind.bind, Except.bind, i2 st2 (j1.trans h2), j3 st2 h2]
  | .lit v c s, a, st, st1, h => by
    rw [serVal] at h
    simp only [Bind.bind, Except.bind] at h
    cases hv : serVal N v st with
    | error e => rw [hv] at h; cases h
    | ok p =>
      obtain ⟨x, st'⟩ := p
      rw [hv] at h
      obtain ⟨i1, i2⟩ := serVal_again N v hv
      cases c with
      | none =>
        obtain ⟨rfl, rfl⟩ := Prod.mk.inj (Except.ok.inj h)
        refine ⟨i1, fun st2 h2 => ?_⟩
        rw [serVal]
        simp only [Bind.bind, Except.bind, i2 st2 h2]
      | some c =>
        obtain ⟨j1, _, j3⟩ := addInstr_again (Except.ok.inj h)
        refine ⟨i1.trans j1, fun st2 h2 => ?_⟩
        rw [serVal]
        simp only [Bind.bind, Except.bind, i2 st2 (j1.trans h2), j3 st2 h2]
  | .model p c s, a, st, st1, h => by
    cases s with
    | none => simp only [serVal] at h; cases h
    | some s =>
      simp only [serVal] at h
      obtain ⟨j1, _, j3⟩ := addInstr_again (Except.ok.inj h)
      refine ⟨j1, fun st2 h2 => ?_⟩
      simp only [serVal, j3 st2 h2]
  | .merge m args kwargs, a, st, st1, h => by
    rw [serVal] at h
    simp only [Bind.bind, Except.bind] at h
    cases hl : serL N args st with
    | error e => rw [hl] at h; cases h
    | ok p =>
      obtain ⟨as, st'⟩ := p
      rw [hl] at h
      simp only at h
      cases hk : serK N kwargs st' with
      | error e => rw [hk] at h; cases h
      | ok p =>
        obtain ⟨ks, st''⟩ := p
        rw [hk] at h
        obtain ⟨i1, i2⟩ := serL_again N args hl
        obtain ⟨k1, k2⟩ := serK_again N kwargs hk
        obtain ⟨j1, _, j3⟩ := addInstr_again (Except.ok.inj h)
        refine ⟨i1.trans (k1.trans j1), fun st2 h2 => ?_⟩
        rw [serVal]
        simp only [Bind.bind, Except.bind, i2 st2 (k1.trans (j1.trans h2)), k2 st2 (j1.trans h2), j3 st2 h2]
theorem serL_again (N : Num F) : ∀ (l : List (Val F)) {a : List Str} {st st1 : List Str}, serL N l st = .ok (a, st1) →
    st <+: st1 ∧ ∀ st2, st1 <+: st2 → serL N l st2 = .ok (a, st2)
  | [], a, st, st1, h => by
    rw [serL] at h; obtain ⟨rfl, rfl⟩ := Prod.mk.inj (Except.ok.inj h); exact ⟨List.prefix_rfl, fun st2 _ => by rw [serL]⟩
  | v :: l, a, st, st1, h => by
    rw [serL] at h
    simp only [Bind.bind, Except.bind] at h
    cases hv : serVal N v st with
    | error e => rw [hv] at h; cases h
    | ok p =>
      obtain ⟨x, st'⟩ := p
      rw [hv] at h
      simp only at h
      cases hl : serL N l st' with
      | error e => rw [hl] at h; cases h
      | ok p =>
        obtain ⟨as, st''⟩ := p
        rw [hl] at h
        obtain ⟨rfl, rfl⟩ := Prod.mk.inj (Except.ok.inj h)
        obtain ⟨i1, i2⟩ := serVal_again N v hv
        obtain ⟨j1, j2⟩ := serL_again N l hl
        refine ⟨i1.trans j1, fun st2 h2 => ?_⟩
        rw [serL]
        simp only [Bind.bind, Except.bind, i2 st2 (j1.trans h2), j2 st2 h2]
theorem serK_again (N : Num F) : ∀ (l : List (Str × Val F)) {a : List Str} {st st1 : List Str}, serK N l st = .ok (a, st1) →
    st <+: st1 ∧ ∀ st2, st1 <+: st2 → serK N l st2 = .ok (a, st2)
  | [], a, st, st1, h => by
    rw [serK] at h; obtain ⟨rfl, rfl⟩ := Prod.mk.inj (Except.ok.inj h); exact ⟨List.prefix_rfl, fun st2 _ => by rw [serK]⟩
  | (k, v) :: l, a, st, st1, h => by
    rw [serK] at h
    simp only [Bind.bind, Except.bind] at h
    cases hv : serVal N v st with
    | error e => rw [hv] at h; cases h
    | ok p =>
      obtain ⟨x, st'⟩ := p
      rw [hv] at h
      simp only at h
      cases hl : serK N l st' with
      | error e => rw [hl] at h; cases h
      | ok p =>
        obtain ⟨as, st''⟩ := p
        rw [hl] at h
        obtain ⟨rfl, rfl⟩ := Prod.mk.inj (Except.ok.inj h)
        obtain ⟨i1, i2⟩ := serVal_again N v hv
        obtain ⟨j1, j2⟩ := serK_again N l hl
        refine ⟨i1.trans j1, fun st2 h2 => ?_⟩
        rw [serK]
        simp only [Bind.bind, Except.bind, i2 st2 (j1.trans h2), j2 st2 h2]
end

end Verif.Held
