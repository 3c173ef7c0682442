import Verif.Spec.Mem
import Verif.Proofs.EvalArgs
import Verif.Proofs.EvalLocal
import Verif.Proofs.Program

/-!
# Evaluation with tensors in memory gives the values that evaluation with values gives
-/
namespace Verif.Mem
open Method Recipe Config Eval Eval.Spec Program Program.Spec Spec
variable {F V : Type} {B : List V}

/-- All of a memory -/
def all (h : List V) : Known V := fun r => h[r]?

def Rel (h : List V) : Res F ℕ → Res F V → Prop
  | .ok x, .ok y => Is (all h) x y
  | .error e, .error e' => e = e'
  | _, _ => False

/-- From any memory that holds `B`: nothing that was there changes, the result is `y`, and new if `own`. -/
def Good (B : List V) (own : Prop) (m : M V (Res F ℕ)) (y : Res F V) : Prop :=
  ∀ h, B <+: h → h <+: (m h).1 ∧ Rel (m h).1 (m h).2 y ∧ (own → ∀ r, (m h).2 = .ok (.tensor r) → h.length ≤ r)

theorem get_prefix {h h' : List V} (hp : h <+: h') {r : ℕ} {v : V} (hr : h[r]? = some v) : h'[r]? = some v := by
  obtain ⟨t, rfl⟩ := hp
  rw [List.getElem?_append_left]
  · exact hr
  · by_contra hn
    rw [List.getElem?_eq_none (by omega)] at hr
    cases hr

theorem lt_of_get {h : List V} {r : ℕ} {v : V} (hr : h[r]? = some v) : r < h.length := by
  by_contra hn
  rw [List.getElem?_eq_none (by omega)] at hr
  cases hr

theorem Spec.Is.mono {σ τ : Known V} (hst : ∀ r v, σ r = some v → τ r = some v) {x : RVal F ℕ} {y : RVal F V} (h : Is σ x y) : Is τ x y := by
  cases h with
  | tensor h => exact .tensor (hst _ _ h)
  | str s => exact .str s
  | int s => exact .int s
  | float s => exact .float s
  | bool s => exact .bool s
  | none => exact .none

theorem Spec.Is.prefix {h h' : List V} (hp : h <+: h') {x : RVal F ℕ} {y : RVal F V} (hx : Is (all h) x y) : Is (all h') x y :=
  hx.mono fun _ _ => get_prefix hp

theorem Rel.prefix {h h' : List V} (hp : h <+: h') {x : Res F ℕ} {y : Res F V} (hx : Rel h x y) : Rel h' x y := by
  cases x <;> cases y <;> first | exact hx | exact Is.prefix hp hx

theorem Good.mono {own own' : Prop} (ho : own' → own) {m : M V (Res F ℕ)} {y : Res F V} (h : Good B own m y) : Good B own' m y :=
  fun g hg => ⟨(h g hg).1, (h g hg).2.1, fun o => (h g hg).2.2 (ho o)⟩

theorem prefix_set {h h' : List V} (hp : h <+: h') {r : ℕ} (hr : h.length ≤ r) (v : V) : h <+: h'.set r v := by
  obtain ⟨t, rfl⟩ := hp
  rw [List.set_append, if_neg (by omega)]
  exact List.prefix_append _ _

theorem is_instance {σ : Known V} {x : RVal F ℕ} {y : RVal F V} (h : Is σ x y) (t : Ty) : y.isInstance t = x.isInstance t := by
  cases h <;> cases t <;> rfl

theorem deref_is {h : List V} {x : RVal F ℕ} {y : RVal F V} (hx : Is (all h) x y) : deref h x = some y := by
  cases hx with
  | tensor hr => simp only [deref]; unfold all at hr; rw [hr]; rfl
  | str s => rfl
  | int s => rfl
  | float s => rfl
  | bool s => rfl
  | none => rfl

theorem castH_some (C : Conv F V) (t : Ty) {x : RVal F ℕ} (h : List V) (hn : x ≠ .none) : castH C t x h = if t = .typeVar ∨ x.isInstance t = true then (h, .ok x)
    else match deref h x with
      | none => (h, .error .runtime)
      | some x' =>
        match t with
        | .int | .bool => (h, (C.toInt x').map RVal.int)
        | .float => (h, (C.toFloat x').map RVal.float)
        | .tensor =>
          match C.toTensor x' with
          | .ok t => (h ++ [t], .ok (.tensor h.length))
          | .error e => (h, .error e)
        | _ => (h, .ok x) := by
  cases x <;> first | rfl | exact absurd rfl hn

theorem castTo_some (C : Conv F V) (t : Ty) {y : RVal F V} (hn : y ≠ .none) : castTo C t y = if t = .typeVar ∨ y.isInstance t = true then .ok y
    else match t with
    | .int | .bool => (C.toInt y).map RVal.int
    | .float => (C.toFloat y).map RVal.float
    | .tensor => (C.toTensor y).map RVal.tensor
    | _ => .ok y := by
  cases y <;> first | rfl | exact absurd rfl hn

/-- The conversion of a value -/
theorem castH_good (C : Conv F V) (t : Ty) {x : RVal F ℕ} {y : RVal F V} {h : List V} (hx : Is (all h) x y) :
    h <+: (castH C t x h).1 ∧ Rel (castH C t x h).1 (castH C t x h).2 (castTo C t y) ∧
      ∀ r, (castH C t x h).2 = .ok (.tensor r) → x = .tensor r ∨ h.length ≤ r := by
  by_cases hn : x = .none
  · subst hn
    cases hx
    exact ⟨List.prefix_refl _, by simp [castH, castTo, Rel]; exact .none, fun r hr => by simp [castH] at hr⟩
  · have hn' : y ≠ .none := by rintro rfl; cases hx; exact hn rfl
    rw [castH_some C t h hn, castTo_some C t hn', is_instance hx]
    by_cases hi : t = .typeVar ∨ x.isInstance t = true
    · rw [if_pos hi, if_pos hi]
      exact ⟨List.prefix_refl _, hx, fun r hr => .inl (Except.ok.inj hr)⟩
    · rw [if_neg hi, if_neg hi, deref_is hx]
      cases t with
      | int =>
        simp only
        cases C.toInt y with
        | error e => exact ⟨List.prefix_refl _, rfl, fun r hr => by cases hr⟩
        | ok i => exact ⟨List.prefix_refl _, Is.int i, fun r hr => by cases hr⟩
      | bool =>
        simp only
        cases C.toInt y with
        | error e => exact ⟨List.prefix_refl _, rfl, fun r hr => by cases hr⟩
        | ok i => exact ⟨List.prefix_refl _, Is.int i, fun r hr => by cases hr⟩
      | float =>
        simp only
        cases C.toFloat y with
        | error e => exact ⟨List.prefix_refl _, rfl, fun r hr => by cases hr⟩
        | ok i => exact ⟨List.prefix_refl _, Is.float i, fun r hr => by cases hr⟩
      | tensor =>
        simp only
        cases C.toTensor y with
        | error e => exact ⟨List.prefix_refl _, rfl, fun r hr => by cases hr⟩
        | ok v =>
          refine ⟨List.prefix_append _ _, Is.tensor ?_, fun r hr => .inr ?_⟩
          · simp [all]
          · have := Except.ok.inj hr
            cases this
            exact le_refl _
      | str => exact ⟨List.prefix_refl _, hx, fun r hr => .inl (Except.ok.inj hr)⟩
      | none => exact ⟨List.prefix_refl _, hx, fun r hr => .inl (Except.ok.inj hr)⟩
      | typeVar => exact absurd (.inl rfl) hi

theorem castRun_good {own : Prop} (C : Conv F V) (t : Ty) {run : Str → M V (Res F ℕ)} {runP : Str → Res F V} {k : Str} (h : Good B own (run k) (runP k)) :
    Good B own (castRunH C t run k) (castRun C t runP k) := by
  intro g hg
  obtain ⟨h1, h2, h3⟩ := h g hg
  unfold castRunH castRun
  rcases hm : run k g with ⟨g', x⟩
  rw [hm] at h1 h2 h3
  simp only at h1 h2 h3
  cases x with
  | error e =>
    cases hy : runP k with
    | error e' => rw [hy] at h2; exact ⟨h1, h2, fun _ r hr => by cases hr⟩
    | ok y => rw [hy] at h2; exact h2.elim
  | ok x =>
    cases hy : runP k with
    | error e' => rw [hy] at h2; exact h2.elim
    | ok y =>
      rw [hy] at h2
      obtain ⟨q1, q2, q3⟩ := castH_good C t (h2 : Is (all g') x y)
      refine ⟨h1.trans q1, q2, fun o r hr => ?_⟩
      rcases q3 r hr with rfl | hq
      · exact h3 o r rfl
      · exact h1.length_le.trans hq

/-! ### The function of a method -/

theorem run_good {w : Bool} {fresh own : Prop} {get : Idx → Str → M V (Res F ℕ)} {getP : Idx → Str → Res F V} (hget : ∀ i k, Good B own (get i k) (getP i k))
    (hw : w = true → own) (h0 : List V) (hB : B <+: h0) : ∀ (fn : HFn F V) (p : Fn F V) (σ : Known V) (mine : ℕ → Prop) (h : List V), h0 <+: h →
    Computes w fresh fn σ mine p → (∀ r v, σ r = some v → h[r]? = some v) → (own → ∀ r, (σ r).isSome → h0.length ≤ r) → (∀ q, mine q → h0.length ≤ q) →
    h0 <+: (fn.run get h).1 ∧ Rel (fn.run get h).1 (fn.run get h).2 (result getP p) ∧
      (own ∨ fresh → ∀ r, (fn.run get h).2 = .ok (.tensor r) → h0.length ≤ r) := by
  intro fn
  induction fn with
  | done r =>
    intro p σ mine h hp hc hσ ho hm
    obtain ⟨y, rfl, hc⟩ := hc
    refine ⟨hp, ?_⟩
    cases r with
    | error e =>
      obtain rfl : y = .error e := hc
      exact ⟨rfl, fun _ r hr => by cases hr⟩
    | ok x =>
      obtain ⟨z, rfl, hx, hf⟩ := hc
      refine ⟨hx.mono hσ, fun o r hr => ?_⟩
      obtain rfl : x = .tensor r := Except.ok.inj hr
      rcases o with o | o
      · cases hx with
        | tensor hx => exact ho o r (by rw [hx]; rfl)
      · exact hm r (hf o r rfl)
  | ask i k next ih =>
    intro p σ mine h hp hc hσ ho hm
    obtain ⟨nextP, rfl, hce, hct, hcs⟩ := hc
    obtain ⟨g1, g2, g3⟩ := hget i k h (hB.trans hp)
    show h0 <+: ((next (get i k h).2).run get (get i k h).1).1 ∧ _
    simp only [HFn.run, result]
    rcases hr : get i k h with ⟨h1, x⟩
    rw [hr] at g1 g2 g3
    simp only at g1 g2 g3 ⊢
    have hσ1 : ∀ r v, σ r = some v → h1[r]? = some v := fun r v hr => get_prefix g1 (hσ r v hr)
    cases x with
    | error e =>
      cases hy : getP i k with
      | ok y => rw [hy] at g2; exact g2.elim
      | error e' =>
        rw [hy] at g2
        obtain rfl : e = e' := g2
        exact ih _ _ σ mine h1 (hp.trans g1) (hce e) hσ1 ho hm
    | ok x =>
      cases hy : getP i k with
      | error e' => rw [hy] at g2; exact g2.elim
      | ok y =>
        rw [hy] at g2
        have g2 : Is (all h1) x y := g2
        have scalar : (∀ r, x ≠ .tensor r) → _ := fun hn => ih (.ok x) (nextP (.ok y)) σ mine h1 (hp.trans g1)
          (hcs x y hn (by cases g2 <;> first | exact absurd rfl (hn _) | constructor)) hσ1 ho hm
        cases g2 with
        | @tensor r v hv =>
          have hv : h1[r]? = some v := hv
          refine ih (.ok (.tensor r)) (nextP (.ok (.tensor v))) (σ.put r v) mine h1 (hp.trans g1) (hct r v ?_) ?_ ?_ hm
          · by_cases hs : σ r = none
            · exact .inl hs
            · obtain ⟨v', hv'⟩ := Option.ne_none_iff_exists'.1 hs
              right
              constructor
              · by_contra hww
                have hww : w = true := by simpa using hww
                have := g3 (hw hww) r rfl
                have := lt_of_get (hσ r v' hv')
                omega
              · rw [hv']
                rw [← hσ1 r v' hv', hv]
          · intro q u hq
            unfold Known.put at hq
            split_ifs at hq with hqr
            · subst hqr
              rw [← Option.some.inj hq]
              exact hv
            · exact hσ1 q u hq
          · intro o q hq
            unfold Known.put at hq
            split_ifs at hq with hqr
            · subst hqr
              exact hp.length_le.trans (g3 o q rfl)
            · exact ho o q hq
        | str s => exact scalar fun _ h => by cases h
        | int s => exact scalar fun _ h => by cases h
        | float s => exact scalar fun _ h => by cases h
        | bool s => exact scalar fun _ h => by cases h
        | none => exact scalar fun _ h => by cases h
  | read r next ih =>
    intro p σ mine h hp hc hσ ho hm
    obtain ⟨v, hv, hc⟩ := hc
    simp only [HFn.run, hσ r v hv]
    exact ih v p σ mine h hp hc hσ ho hm
  | write r v next ih =>
    intro p σ mine h hp hc hσ ho hm
    obtain ⟨hww, hr, hc⟩ := hc
    simp only [HFn.run]
    have hr0 := ho (hw hww) r hr
    obtain ⟨u, hu⟩ := Option.isSome_iff_exists.1 hr
    refine ih p (σ.put r v) mine (h.set r v) (prefix_set hp hr0 v) hc ?_ ?_ hm
    · intro q x hq
      unfold Known.put at hq
      split_ifs at hq with hqr
      · subst hqr
        rw [List.getElem?_set_self (lt_of_get (hσ q u hu))]
        exact hq
      · rw [List.getElem?_set_ne (Ne.symm hqr)]
        exact hσ q x hq
    · intro o q hq
      unfold Known.put at hq
      split_ifs at hq with hqr
      · subst hqr; exact hr0
      · exact ho o q hq
  | new v next ih =>
    intro p σ mine h hp hc hσ ho hm
    simp only [HFn.run]
    have hn : σ h.length = none := by
      by_contra hs
      obtain ⟨u, hu⟩ := Option.ne_none_iff_exists'.1 hs
      exact absurd (lt_of_get (hσ _ _ hu)) (lt_irrefl _)
    refine ih h.length p (σ.put h.length v) (fun q => q = h.length ∨ mine q) (h ++ [v]) (hp.trans (List.prefix_append _ _)) (hc _ hn) ?_ ?_ ?_
    · intro q x hq
      unfold Known.put at hq
      split_ifs at hq with hqr
      · subst hqr; rw [← hq]; simp
      · exact get_prefix (List.prefix_append _ _) (hσ q x hq)
    · intro o q hq
      unfold Known.put at hq
      split_ifs at hq with hqr
      · subst hqr; exact hp.length_le
      · exact ho o q hq
    · rintro q (rfl | hq)
      · exact hp.length_le
      · exact hm q hq

/-! ### Arguments -/

inductive RelArg (B : List V) (own : Prop) (h : List V) : HArg F V → Arg F V → Prop
  | val {x y} (hx : Is (all h) x y) : RelArg B own h (.val x) (.val y)
  | sd {g gP} (c) (hg : ∀ k, Good B own (g k) (gP k)) : RelArg B own h (.sd g c) (.sd gP c)

theorem RelArg.prefix {own : Prop} {h h' : List V} (hp : h <+: h') {a : HArg F V} {b : Arg F V} (r : RelArg B own h a b) : RelArg B own h' a b := by
  cases r with
  | val hx => exact .val (hx.prefix hp)
  | sd c hg => exact .sd c hg

structure Inv (B : List V) (own : Prop) (h0 h : List V) (s : HMerged F V) (p : Merged F V) : Prop where
  before : h0 <+: h
  holder : s.holder = p.holder
  rel : ∀ i, Option.Rel (RelArg B own h) (s.merged.get? i) (p.merged.get? i)
  floor : own → ∀ i r, s.merged.get? i = some (.val (.tensor r)) → h0.length ≤ r
  distinct : own → ∀ i j r, s.merged.get? i = some (.val (.tensor r)) → s.merged.get? j = some (.val (.tensor r)) → i = j

/-- The argument `a` is set, whose tensor is new. -/
theorem Inv.set {own : Prop} {h0 h h' : List V} {s : HMerged F V} {p : Merged F V} (hi : Inv B own h0 h s p) (hp : h <+: h') (i : Idx)
    {a : HArg F V} {b : Arg F V} (ha : RelArg B own h' a b) (ho : own → ∀ r, a = .val (.tensor r) → h.length ≤ r) (e : Option Err) :
    Inv B own h0 h' ⟨e, s.merged.set i a⟩ ⟨e, p.merged.set i b⟩ := by
  have old : ∀ j r, s.merged.get? j = some (.val (.tensor r)) → r < h.length := by
    intro j r hj
    have := hi.rel j
    rw [hj] at this
    cases hpj : p.merged.get? j with
    | none => rw [hpj] at this; cases this
    | some b =>
      rw [hpj] at this
      cases this with
      | some hr => cases hr with
        | val hx => cases hx with
          | tensor hv => exact lt_of_get hv
  refine ⟨hi.before.trans hp, rfl, fun j => ?_, fun o j r hj => ?_, fun o j k r hj hk => ?_⟩
  · simp only [Dict.get?_set]
    split_ifs
    · exact .some ha
    · have := hi.rel j
      generalize s.merged.get? j = x at this
      generalize p.merged.get? j = y at this
      cases this with
      | none => exact .none
      | some hr => exact .some (hr.prefix hp)
  · simp only [Dict.get?_set] at hj
    split_ifs at hj
    · exact hi.before.length_le.trans (ho o r (Option.some.inj hj))
    · exact hi.floor o j r hj
  · simp only [Dict.get?_set] at hj hk
    split_ifs at hj hk with h1 h2 h2
    · rw [← h1, ← h2]
    · have := old k r hk
      have := ho o r (Option.some.inj hj)
      omega
    · have := old j r hj
      have := ho o r (Option.some.inj hk)
      omega
    · exact hi.distinct o j k r hj hk

structure RelChild (B : List V) (own : Prop) (c : HChild F V) (p : Child F V) : Prop where
  idx : c.idx = p.idx
  depth : c.depth = p.depth
  config : c.config = p.config
  run : ∀ k, Good B own (c.run k) (p.run k)

theorem stepChild_good' {own : Prop} (C : Conv F V) (types : Dict Idx PTy) (key : Str) {h0 h : List V} (hB : B <+: h0) {s : HMerged F V} {p : Merged F V}
    (hi : Inv B own h0 h s p) {c : HChild F V} {d : Child F V} (hc : RelChild B own c d) :
    (∃ e h', stepChildH C types key s c h = (h', .error e) ∧ stepChild C types key p d = .error e ∧ h <+: h') ∨
    ∃ h' s' p', stepChildH C types key s c h = (h', .ok s') ∧ stepChild C types key p d = .ok p' ∧ Inv B own h0 h' s' p' := by
  unfold stepChildH stepChild
  rw [hc.idx]
  cases types.get? d.idx with
  | none => exact .inl ⟨_, _, rfl, rfl, List.prefix_refl _⟩
  | some ty =>
    cases ty with
    | sd t =>
      refine .inr ⟨_, _, _, rfl, rfl, ?_⟩
      rw [← hi.holder]
      have := hi.set (List.prefix_refl _) d.idx (a := .sd (castRunH C t c.run) c.config) (b := .sd (castRun C t d.run) d.config)
        (by rw [hc.config]; exact .sd _ fun k => castRun_good C t (hc.run k)) (fun _ r hr => by cases hr) s.holder
      exact this
    | val t =>
      simp only
      obtain ⟨g1, g2, g3⟩ := hc.run key h (hB.trans hi.before)
      rcases hr : c.run key h with ⟨h1, x⟩
      rw [hr] at g1 g2 g3
      simp only at g1 g2 g3 ⊢
      cases x with
      | error e =>
        cases hy : d.run key with
        | ok y => rw [hy] at g2; exact g2.elim
        | error e' =>
          rw [hy] at g2
          obtain rfl : e = e' := g2
          exact .inr ⟨_, _, _, rfl, rfl, hi.set g1 d.idx (.val .none) (fun _ r hr => by cases hr) (some e)⟩
      | ok x =>
        cases hy : d.run key with
        | error e' => rw [hy] at g2; exact g2.elim
        | ok y =>
          rw [hy] at g2
          obtain ⟨q1, q2, q3⟩ := castH_good C t (g2 : Is (all h1) x y)
          simp only
          rcases hz : castH C t x h1 with ⟨h2, z⟩
          rw [hz] at q1 q2 q3
          simp only at q1 q2 q3 ⊢
          cases z with
          | error e =>
            cases hu : castTo C t y with
            | ok u => rw [hu] at q2; exact q2.elim
            | error e' =>
              rw [hu] at q2
              obtain rfl : e = e' := q2
              exact .inl ⟨_, _, rfl, rfl, g1.trans q1⟩
          | ok z =>
            cases hu : castTo C t y with
            | error e' => rw [hu] at q2; exact q2.elim
            | ok u =>
              rw [hu] at q2
              refine .inr ⟨_, _, _, rfl, rfl, ?_⟩
              rw [← hi.holder]
              refine hi.set (g1.trans q1) d.idx (.val q2) (fun o r hr => ?_) s.holder
              cases hr
              rcases q3 r rfl with rfl | hq
              · exact g3 o r rfl
              · exact g1.length_le.trans hq

theorem stepAll_good' {own : Prop} (C : Conv F V) (types : Dict Idx PTy) (key : Str) {h0 : List V} (hB : B <+: h0) {l : List (HChild F V)} {d : List (Child F V)}
    (hl : List.Forall₂ (RelChild B own) l d) : ∀ {h : List V} {s : HMerged F V} {p : Merged F V}, Inv B own h0 h s p →
    (∃ e h', stepAllH C types key s l h = (h', .error e) ∧ stepAll C types key p d = .error e ∧ h0 <+: h') ∨
    ∃ h' s' p', stepAllH C types key s l h = (h', .ok s') ∧ stepAll C types key p d = .ok p' ∧ Inv B own h0 h' s' p' := by
  induction hl with
  | nil => intro h s p hi; exact .inr ⟨h, s, p, rfl, rfl, hi⟩
  | cons hc _ ih =>
    intro h s p hi
    unfold stepAllH stepAll
    rcases stepChild_good' C types key hB hi hc with ⟨e, h', q1, q2, q3⟩ | ⟨h', s', p', q1, q2, q3⟩
    · rw [q1, q2]
      exact .inl ⟨e, h', rfl, rfl, hi.before.trans q3⟩
    · rw [q1, q2]
      exact ih q3

theorem insertDeep_rel' {own : Prop} {c : HChild F V} {d : Child F V} (hc : RelChild B own c d) {l : List (HChild F V)} {l' : List (Child F V)}
    (hl : List.Forall₂ (RelChild B own) l l') : List.Forall₂ (RelChild B own) (insertDeepH c l) (insertDeep d l') := by
  induction hl with
  | nil => exact .cons hc .nil
  | cons h t ih =>
    unfold insertDeepH insertDeep
    rw [hc.depth, h.depth]
    split_ifs
    · exact .cons hc (.cons h t)
    · exact .cons h ih

theorem deeperFirst_rel' {own : Prop} {l : List (HChild F V)} {l' : List (Child F V)} (hl : List.Forall₂ (RelChild B own) l l') :
    List.Forall₂ (RelChild B own) (deeperFirstH l) (deeperFirst l') := by
  unfold deeperFirstH deeperFirst
  have : ∀ {acc : List (HChild F V)} {acc' : List (Child F V)}, List.Forall₂ (RelChild B own) acc acc' →
      List.Forall₂ (RelChild B own) (l.foldl (fun acc c => insertDeepH c acc) acc) (l'.foldl (fun acc c => insertDeep c acc) acc') := by
    induction hl with
    | nil => exact fun h => h
    | cons hc _ ih => exact fun h => ih (insertDeep_rel' hc h)
  exact this .nil

/-! ### What the loop leaves -/

theorem stepChild_ok {C : Conv F V} {types : Dict Idx PTy} {key : Str} {s s' : Merged F V} {c : Child F V} (h : stepChild C types key s c = .ok s')
    (hh : s'.holder = none) : s.holder = none ∧ ∃ p a, types.get? c.idx = some p ∧ s'.merged = s.merged.set c.idx a ∧
      match p with
      | .sd t => a = .sd (castRun C t c.run) c.config
      | .val t => ∃ x, castRun C t c.run key = .ok x ∧ a = .val x := by
  unfold stepChild at h
  cases ht : types.get? c.idx with
  | none => rw [ht] at h; cases h
  | some p =>
    rw [ht] at h
    cases p with
    | sd t => cases h; exact ⟨hh, _, _, rfl, rfl, rfl⟩
    | val t =>
      simp only at h
      unfold castRun
      cases hr : c.run key with
      | error e => rw [hr] at h; cases h; cases hh
      | ok v =>
        rw [hr] at h
        simp only at h ⊢
        cases hc : castTo C t v with
        | error e => rw [hc] at h; cases h
        | ok v' => rw [hc] at h; cases h; exact ⟨hh, _, _, rfl, rfl, v', hc, rfl⟩

theorem stepAll_ok {C : Conv F V} {types : Dict Idx PTy} {key : Str} {l : List (Child F V)} : ∀ {s s' : Merged F V}, stepAll C types key s l = .ok s' →
    s'.holder = none → (l.map (·.idx)).Nodup → s.holder = none ∧ (∀ i, i ∉ l.map (·.idx) → s'.merged.get? i = s.merged.get? i) ∧
    ∀ c ∈ l, ∃ p a, types.get? c.idx = some p ∧ s'.merged.get? c.idx = some a ∧
      match p with
      | .sd t => a = .sd (castRun C t c.run) c.config
      | .val t => ∃ x, castRun C t c.run key = .ok x ∧ a = .val x := by
  induction l with
  | nil => intro s s' h hh _; cases h; exact ⟨hh, fun _ _ => rfl, fun c hc => by cases hc⟩
  | cons c l ih =>
    intro s s' h hh hn
    unfold stepAll at h
    cases h1 : stepChild C types key s c with
    | error e => rw [h1] at h; cases h
    | ok s1 =>
      rw [h1] at h
      rw [List.map_cons, List.nodup_cons] at hn
      obtain ⟨i1, i2, i3⟩ := ih h hh hn.2
      obtain ⟨j1, p, a, j2, j3, j4⟩ := stepChild_ok h1 i1
      refine ⟨j1, fun i hi => ?_, fun d hd => ?_⟩
      · rw [List.map_cons, List.mem_cons, not_or] at hi
        rw [i2 i hi.2, j3, Dict.get?_set_ne _ _ (Ne.symm hi.1)]
      · rcases List.mem_cons.1 hd with rfl | hd
        · refine ⟨p, a, j2, ?_, j4⟩
          rw [i2 _ hn.1, j3, Dict.get?_set_self]
        · exact i3 d hd

/-! ### The call -/

def nth (n : ℕ) (s : HMerged F V) : List (HArg F V) := (List.range n).map fun i => (s.merged.get? (.pos i)).getD (.val .none)

theorem finishH_none {src : HSource F V} {n : ℕ} {key : Str} {s : HMerged F V} (h : s.holder = none) :
    finishH src n key s = (src.body ((nth n s).map HArg.shape) (fun k => (s.merged.get? (.name k)).map HArg.shape) key).run
      fun i => HArg.get (argAt (nth n s) (fun k => s.merged.get? (.name k)) i) := by
  unfold finishH
  rw [h]
  rfl

theorem argAt_map {A C : Type} (f : A → C) (as : List A) (ks : Str → Option A) (i : Idx) :
    argAt (as.map f) (fun k => (ks k).map f) i = (argAt as ks i).map f := by
  cases i <;> simp [argAt]

theorem argAt_merged {n : ℕ} {s : HMerged F V} {i : Idx} {r : ℕ}
    (h : argAt ((nth n s).map HArg.shape) (fun k => (s.merged.get? (.name k)).map HArg.shape) i = some (.val (.tensor r))) :
    s.merged.get? i = some (.val (.tensor r)) := by
  rw [argAt_map] at h
  obtain ⟨a, ha, hs⟩ := Option.map_eq_some_iff.1 h
  have : a = .val (.tensor r) := by
    cases a with
    | val v => exact congrArg HArg.val (Shape.val.inj hs)
    | sd g c => cases hs
  subst this
  cases i with
  | name k => exact ha
  | pos i =>
    simp only [argAt, nth, List.getElem?_map] at ha
    obtain ⟨j, hj, hj'⟩ := Option.map_eq_some_iff.1 ha
    obtain ⟨hlt, hj⟩ := List.getElem?_eq_some_iff.1 hj
    rw [List.getElem_range] at hj
    subst hj
    cases hg : s.merged.get? (.pos i) with
    | none => rw [hg] at hj'; cases hj'
    | some a => rw [hg] at hj'; exact congrArg some hj'

theorem argAt_rel {own : Prop} {h0 h : List V} {n : ℕ} {s : HMerged F V} {p : Merged F V} (hi : Inv B own h0 h s p) (i : Idx) :
    Option.Rel (RelArg B own h) (argAt (nth n s) (fun k => s.merged.get? (.name k)) i) (argAt (splitArgs n p.merged).1 (splitArgs n p.merged).2 i) := by
  cases i with
  | name k => exact hi.rel _
  | pos i =>
    simp only [argAt, nth, splitArgs, List.getElem?_map]
    cases (List.range n)[i]? with
    | none => exact .none
    | some j =>
      refine .some ?_
      show RelArg B own h ((s.merged.get? (.pos j)).getD (.val .none)) ((p.merged.get? (.pos j)).getD (.val .none))
      have := hi.rel (.pos j)
      generalize s.merged.get? (.pos j) = x at this
      generalize p.merged.get? (.pos j) = y at this
      cases this with
      | none => exact .val .none
      | some hr => exact hr

open Classical in
theorem finish_good {own fresh : Prop} {w : Bool} {hs : HSource F V} {src : Source F V} {fr : List (Shape F V) → (Str → Option (Shape F V)) → Prop}
    (him : Implements hs src w fr) (hw : w = true → own) {n : ℕ} {key : Str} {h0 h : List V} {s : HMerged F V} {p : Merged F V} (hB : B <+: h0)
    (hi : Inv B own h0 h s p)
    (hf : fresh → s.holder = none → fr ((splitArgs n p.merged).1.map shape) fun k => ((splitArgs n p.merged).2 k).map shape) :
    h0 <+: (finishH hs n key s h).1 ∧ Rel (finishH hs n key s h).1 (finishH hs n key s h).2 (finish (impl src) n key p) ∧
      (own ∨ fresh → ∀ r, (finishH hs n key s h).2 = .ok (.tensor r) → h0.length ≤ r) := by
  cases hh : s.holder with
  | some e =>
    have hh' : p.holder = some e := by rw [← hi.holder]; exact hh
    unfold finishH finish
    rw [hh, hh']
    exact ⟨hi.before, rfl, fun _ r hr => by cases hr⟩
  | none =>
    have hh' : p.holder = none := by rw [← hi.holder]; exact hh
    have hfin : finish (impl src) n key p = (impl src).run (splitArgs n p.merged).1 (splitArgs n p.merged).2 key := by
      unfold finish
      rw [hh']
    rw [hfin, finishH_none hh]
    set σ : Known V := fun r => if ∃ i, argAt ((nth n s).map HArg.shape) (fun k => (s.merged.get? (.name k)).map HArg.shape) i = some (.val (.tensor r))
      then h[r]? else none with hσ
    have hshape : ∀ i a b, argAt (nth n s) (fun k => s.merged.get? (.name k)) i = some a → RelArg B own h a b → IsShape σ a.shape (shape b) := by
      intro i a b ha hr
      cases hr with
      | sd c hg => exact .sd c
      | @val x y hx =>
        refine .val ?_
        cases hx with
        | @tensor r v hv =>
          refine .tensor ?_
          rw [hσ]
          simp only
          rw [if_pos ⟨i, by rw [argAt_map, ha]; rfl⟩]
          exact hv
        | str s => exact .str s
        | int s => exact .int s
        | float s => exact .float s
        | bool s => exact .bool s
        | none => exact .none
    have hσs : ∀ r v, σ r = some v → h[r]? = some v := by
      intro r v hr
      rw [hσ] at hr
      simp only at hr
      split_ifs at hr
      exact hr
    have hcomp := him.body σ ((nth n s).map HArg.shape) (fun k => (s.merged.get? (.name k)).map HArg.shape)
      ((splitArgs n p.merged).1.map shape) (fun k => ((splitArgs n p.merged).2 k).map shape) key
      (by
        rw [List.forall₂_iff_get]
        refine ⟨by simp [nth, splitArgs], fun i h1 h2 => ?_⟩
        have := argAt_rel (n := n) hi (.pos i)
        simp only [List.length_map] at h1 h2
        simp only [argAt, List.getElem?_eq_getElem h1, List.getElem?_eq_getElem h2] at this
        cases this with
        | some hr =>
          have := hshape (.pos i) _ _ (by simp only [argAt, List.getElem?_eq_getElem h1]) hr
          simpa using this)
      (by
        intro k
        have h1 := argAt_rel (n := n) hi (.name k)
        have h2 := hshape (.name k)
        simp only [argAt] at h1 h2
        generalize s.merged.get? (.name k) = x at h1 h2
        generalize (splitArgs n p.merged).2 k = y at h1
        cases h1 with
        | none => exact .none
        | some hr => exact .some (h2 _ _ rfl hr))
      (by
        intro hww i j r h1 h2
        exact hi.distinct (hw hww) i j r (argAt_merged h1) (argAt_merged h2))
    have hrun := run_good (B := B) (own := own) (w := w) (get := fun i => HArg.get (argAt (nth n s) (fun k => s.merged.get? (.name k)) i))
      (getP := fun i => look (argAt (splitArgs n p.merged).1 (splitArgs n p.merged).2 i))
      (by
        intro i k
        have := argAt_rel (n := n) hi i
        generalize argAt (nth n s) (fun k => s.merged.get? (.name k)) i = x at this
        generalize argAt (splitArgs n p.merged).1 (splitArgs n p.merged).2 i = y at this
        cases this with
        | none => exact fun g _ => ⟨List.prefix_refl _, rfl, fun _ r hr => by cases hr⟩
        | some hr => cases hr with
          | val hx => exact fun g _ => ⟨List.prefix_refl _, rfl, fun _ r hr => by cases hr⟩
          | sd c hg => exact hg k)
      hw h0 hB _ _ σ (fun _ => False) h hi.before hcomp hσs
      (by
        intro o r hr
        rw [hσ] at hr
        simp only at hr
        split_ifs at hr with hx
        · obtain ⟨i, hx⟩ := hx
          exact hi.floor o i r (argAt_merged hx)
        · cases hr)
      (fun _ h => h.elim)
    exact ⟨hrun.1, hrun.2.1, fun o => hrun.2.2 (o.imp id fun f => hf f hh)⟩

theorem applyMerge_good' {own fresh : Prop} {w : Bool} {hs : HSource F V} {src : Source F V} {fr : List (Shape F V) → (Str → Option (Shape F V)) → Prop}
    (him : Implements hs src w fr) (hw : w = true → own) (C : Conv F V) {n : ℕ} {key : Str} {l : List (HChild F V)} {d : List (Child F V)}
    (hl : List.Forall₂ (RelChild B own) l d)
    (hf : fresh → ∀ p, stepAll C (src.types.asDict (some n)) key ⟨none, []⟩ (deeperFirst d) = .ok p → p.holder = none →
      fr ((splitArgs n p.merged).1.map shape) fun k => ((splitArgs n p.merged).2 k).map shape) :
    Good B (own ∨ fresh) (applyMergeH C hs n l key) (applyMerge C (impl src) n d key) := by
  intro h0 hB
  unfold applyMergeH applyMerge
  have hany : l.any (fun c => c.depth.isNone) = d.any (fun c => c.depth.isNone) := by
    clear hf
    induction hl with
    | nil => rfl
    | cons hc _ ih => rw [List.any_cons, List.any_cons, ih, hc.depth]
  rw [hany]
  split_ifs
  · exact ⟨List.prefix_refl _, rfl, fun _ r hr => by cases hr⟩
  · unfold applyOrdered
    have hi : Inv B own h0 h0 (⟨none, []⟩ : HMerged F V) ⟨none, []⟩ :=
      ⟨List.prefix_refl _, rfl, fun _ => .none, fun _ _ _ h => (by cases h), fun _ _ _ _ h => (by cases h)⟩
    rw [him.types]
    have ht : (impl src).types = src.types := rfl
    rw [ht]
    rcases stepAll_good' C (src.types.asDict (some n)) key hB (deeperFirst_rel' hl) hi with ⟨e, h', q1, q2, q3⟩ | ⟨h', s', p', q1, q2, q3⟩
    · rw [q1, q2]
      exact ⟨q3, rfl, fun _ r hr => by cases hr⟩
    · rw [q1, q2]
      refine finish_good him hw hB q3 fun f hh => hf f p' q2 ?_
      rw [← q3.holder]
      exact hh

/-! ### Recipes -/

def RelE {α β : Type} (R : α → β → Prop) : Except Err α → Except Err β → Prop
  | .ok a, .ok b => R a b
  | .error e, .error e' => e = e'
  | _, _ => False

theorem visitKeys_relE {α β : Type} {R : α → β → Prop} {get : Str → Except Err α} {get' : Str → Except Err β} (h : ∀ k, RelE R (get k) (get' k)) (ks : List Str) :
    RelE R (visitKeys get ks) (visitKeys get' ks) := by
  induction ks with
  | nil => exact rfl
  | cons k ks ih =>
    have hk := h k
    cases ks with
    | nil =>
      simp only [visitKeys]
      cases h1 : get k <;> cases h2 : get' k <;> rw [h1, h2] at hk
      · obtain rfl := (hk : _ = _)
        simp only
        split_ifs <;> exact rfl
      · exact hk.elim
      · exact hk.elim
      · exact hk
    | cons k' ks =>
      rw [visitKeys_two, visitKeys_two]
      cases h1 : get k <;> cases h2 : get' k <;> rw [h1, h2] at hk
      · obtain rfl := (hk : _ = _)
        simp only
        split_ifs
        · exact ih
        · exact rfl
      · exact hk.elim
      · exact hk.elim
      · exact hk

theorem visit_relE {H : HWorld F V} {X : Traits F V} {W : World F V} (hd : Describes H X B W) {α β : Type} {R : α → β → Prop} {get : Str → Except Err α}
    {get' : Str → Except Err β} (h : ∀ k, RelE R (get k) (get' k)) (config : Option Str) (key : Str) :
    RelE R (visitH H get config key) (visitSd W get' config key) := by
  unfold visitH visitSd
  rw [hd.configs]
  cases config with
  | none => exact rfl
  | some c =>
    simp only
    cases H.configs c with
    | none => exact rfl
    | some cfg => exact visitKeys_relE h _

theorem config_eq {H : HWorld F V} {X : Traits F V} {W : World F V} (hd : Describes H X B W) (v : Val F) : configOfH H v = configOf W v := by
  unfold configOfH configOf
  rw [hd.env, hd.configs]
  rfl

theorem good_const {own : Prop} {x : RVal F ℕ} {y : RVal F V} (hx : ∀ h, B <+: h → Is (all h) x y) (hn : own → ∀ r, x ≠ .tensor r) :
    Good B own (fun h => (h, .ok x)) (.ok y) :=
  fun h hB => ⟨List.prefix_refl _, hx h hB, fun o r hr => absurd (Except.ok.inj hr) (hn o r)⟩

theorem good_error {own : Prop} (e : Err) : Good (F := F) B own (fun h => (h, .error e)) (.error e) :=
  fun _ _ => ⟨List.prefix_refl _, rfl, fun _ _ hr => by cases hr⟩

/-- What the loop leaves for `Copies` -/
theorem copies_fresh {X : Traits F V} {W : World F V} {m : Str} {args : List (Val F)} {kwargs : Dict Str (Val F)} (hk : kwargs.keys.Nodup)
    (hc : Copies X W m args kwargs) {key : Str} {p : Merged F V}
    (hp : stepAll W.conv ((W.impl m).types.asDict (some args.length)) key ⟨none, []⟩ (deeperFirst (evalL W 0 args ++ evalK W kwargs)) = .ok p)
    (hh : p.holder = none) :
    X.fresh m ((splitArgs args.length p.merged).1.map shape) fun k => ((splitArgs args.length p.merged).2 k).map shape := by
  have hperm := deeperFirst_perm (evalL W 0 args ++ evalK W kwargs)
  obtain ⟨_, _, h3⟩ := stepAll_ok hp hh ((hperm.map (·.idx)).nodup_iff.2 (children_nodup W args kwargs hk))
  refine hc key (splitArgs args.length p.merged).1 (splitArgs args.length p.merged).2 (by simp [splitArgs]) fun idx v hv => ?_
  obtain ⟨q, a, h4, h5, h6⟩ := h3 (childOf W idx v) (hperm.mem_iff.2 ((mem_children hk).2 ⟨idx, v, hv, rfl⟩))
  have h5 : p.merged.get? idx = some a := h5
  refine ⟨a, q, ?_, h4, h6⟩
  cases idx with
  | name k => exact h5
  | pos i =>
    have hi : i < args.length := by
      by_contra hn
      have hv : args[i]? = some v := hv
      rw [List.getElem?_eq_none (by omega)] at hv
      cases hv
    simp only [argAt, splitArgs, List.getElem?_map]
    rw [List.getElem?_range hi]
    simp [h5]

mutual
theorem eval_good {H : HWorld F V} {X : Traits F V} {W : World F V} (hd : Describes H X B W) : ∀ (r : Val F), Safe X W r →
    ∀ key, Good B (Owned X W r) (evalH H r key) (eval W r key)
  | .lit (.dict es) config sp, hs, key => by
    have h := evalD_good hd es (by simpa [Safe] using hs)
    obtain ⟨get, hget⟩ : ∃ get : Str → Except Err (Str → Res F V), get = fun k =>
        match Dict.get? (evalD W es) k with | some f => .ok f | none => .error .key := ⟨_, rfl⟩
    obtain ⟨getH, hgetH⟩ : ∃ get : Str → Except Err (Str → M V (Res F ℕ)), get = fun k =>
        match Dict.get? (evalDH H es) k with | some f => .ok f | none => .error .key := ⟨_, rfl⟩
    have heval : eval W (.lit (.dict es) config sp) key =
        match visitSd W get config key with | .ok f => f key | .error e => .error e := by rw [eval, hget]; rfl
    have hevalH : evalH H (.lit (.dict es) config sp) key =
        match visitH H getH config key with | .ok f => f key | .error e => fun h => (h, .error e) := by rw [evalH, hgetH]; rfl
    rw [heval, hevalH]
    have hr := visit_relE hd (R := fun f g => ∀ k, Good B (OwnedK X W es) (f k) (g k)) (get := getH) (get' := get) (by
      intro k
      rw [hget, hgetH]
      have := h k
      simp only
      generalize Dict.get? (evalDH H es) k = x at this
      generalize Dict.get? (evalD W es) k = y at this
      cases this with
      | none => exact rfl
      | some hr => exact hr) config key
    cases h1 : visitH H getH config key <;> cases h2 : visitSd W get config key <;> rw [h1, h2] at hr
    · obtain rfl := (hr : _ = _)
      exact good_error _
    · exact hr.elim
    · exact hr.elim
    · exact (hr key).mono (by simp [Owned])
  | .lit (.str s) _ _, _, key => by
    simp only [evalH, eval]; exact good_const (fun _ _ => .str s) (fun _ r h => by cases h)
  | .lit (.int s) _ _, _, key => by
    simp only [evalH, eval]; exact good_const (fun _ _ => .int s) (fun _ r h => by cases h)
  | .lit (.float s) _ _, _, key => by
    simp only [evalH, eval]; exact good_const (fun _ _ => .float s) (fun _ r h => by cases h)
  | .lit (.bool s) _ _, _, key => by
    simp only [evalH, eval]; exact good_const (fun _ _ => .bool s) (fun _ r h => by cases h)
  | .lit .none _ _, _, key => by
    simp only [evalH, eval]; exact good_const (fun _ _ => .none) (fun _ r h => by cases h)
  | .lit (.tensor s) _ _, _, key => by
    simp only [evalH, eval]
    exact good_const (fun h hB => .tensor (get_prefix hB (hd.tensors s))) (fun o r h => by simp [Owned] at o)
  | .lit (.lit v c s) c' s', hs, key => by
    simp only [evalH, eval]
    exact (eval_good hd (.lit v c s) (by simpa [Safe] using hs) key).mono (by simp [Owned])
  | .lit (.model v c s) c' s', hs, key => by
    simp only [evalH, eval]
    exact (eval_good hd (.model v c s) (by simp [Safe]) key).mono (by simp [Owned])
  | .lit (.merge m a k) c' s', hs, key => by
    have h := eval_good hd (.merge m a k) (by simpa [Safe] using hs) key
    have e1 : evalH H (.lit (.merge m a k) c' s') = evalH H (.merge m a k) := by rw [evalH]; intro es h; cases h
    have e2 : eval W (.lit (.merge m a k) c' s') = eval W (.merge m a k) := by rw [eval]; intro es h; cases h
    rw [e1, e2]
    exact h.mono (by simp [Owned])
  | .model path config _, _, key => by
    simp only [evalH, eval]
    have hr := visit_relE hd (R := fun r v => B[r]? = some v) (get := H.read path) (get' := W.read path) (fun k => by
      have := hd.read path k
      cases h1 : H.read path k <;> cases h2 : W.read path k <;> rw [h1, h2] at this <;> exact this) config key
    cases h1 : visitH H (H.read path) config key <;> cases h2 : visitSd W (W.read path) config key <;> rw [h1, h2] at hr
    · obtain rfl := (hr : _ = _)
      exact good_error _
    · exact hr.elim
    · exact hr.elim
    · exact good_const (fun h hB => .tensor (get_prefix hB hr)) (fun o r h => by simp [Owned] at o)
  | .merge m args kwargs, hs, key => by
    have hs' : (X.writes m = true → OwnedL X W args ∧ OwnedK X W kwargs) ∧ (Dict.keys kwargs).Nodup ∧ SafeL X W args ∧ SafeK X W kwargs := by
      simpa [Safe] using hs
    obtain ⟨h1, h2, h3, h4⟩ := hs'
    have hL := evalL_good hd args h3 0
    have hK := evalK_good hd kwargs h4
    have hl : List.Forall₂ (RelChild B (OwnedL X W args ∧ OwnedK X W kwargs)) (evalLH H 0 args ++ evalKH H kwargs) (evalL W 0 args ++ evalK W kwargs) := by
      refine List.rel_append (hL.imp fun a b hr => ⟨hr.1, hr.2, hr.3, fun k => (hr.4 k).mono And.left⟩)
        (hK.imp fun a b hr => ⟨hr.1, hr.2, hr.3, fun k => (hr.4 k).mono And.right⟩)
    have hev : eval W (.merge m args kwargs) = applyMerge W.conv (W.impl m) args.length (evalL W 0 args ++ evalK W kwargs) := eval_merge W m args kwargs
    have hevH : evalH H (.merge m args kwargs) = applyMergeH H.conv (H.source m) args.length (evalLH H 0 args ++ evalKH H kwargs) := by rw [evalH]
    rw [hev, hevH, hd.impl, hd.conv]
    refine (applyMerge_good' (hd.source m) h1 H.conv hl (fresh := Copies X W m args kwargs) ?_).mono (by simp [Owned])
    intro hc p hp hh
    refine copies_fresh h2 hc ?_ hh (key := key)
    rw [hd.impl, hd.conv]
    exact hp
  | .str s, _, key => by simp only [evalH, eval]; exact good_const (fun _ _ => .str s) (fun _ r h => by cases h)
  | .int s, _, key => by simp only [evalH, eval]; exact good_const (fun _ _ => .int s) (fun _ r h => by cases h)
  | .float s, _, key => by simp only [evalH, eval]; exact good_const (fun _ _ => .float s) (fun _ r h => by cases h)
  | .bool s, _, key => by simp only [evalH, eval]; exact good_const (fun _ _ => .bool s) (fun _ r h => by cases h)
  | .none, _, key => by simp only [evalH, eval]; exact good_const (fun _ _ => .none) (fun _ r h => by cases h)
  | .tensor s, _, key => by
    simp only [evalH, eval]
    exact good_const (fun h hB => .tensor (get_prefix hB (hd.tensors s))) (fun o r h => by simp [Owned] at o)
  | .dict _, _, key => by simp only [evalH, eval]; exact good_error _
theorem evalD_good {H : HWorld F V} {X : Traits F V} {W : World F V} (hd : Describes H X B W) : ∀ (es : List (Str × Val F)), SafeK X W es →
    ∀ k, Option.Rel (fun f g => ∀ key, Good B (OwnedK X W es) (f key) (g key)) (Dict.get? (evalDH H es) k) (Dict.get? (evalD W es) k)
  | [], _, k => by simp only [evalDH, evalD]; exact .none
  | (k', v) :: l, hs, k => by
    have hs' : Safe X W v ∧ SafeK X W l := by simpa [SafeK] using hs
    have h1 := eval_good hd v hs'.1
    have h2 := evalD_good hd l hs'.2 k
    simp only [evalDH, evalD, Dict.get?]
    by_cases hk : k' = k
    · rw [if_pos hk, if_pos hk]
      exact .some fun key => (h1 key).mono (by simp only [OwnedK]; exact And.left)
    · rw [if_neg hk, if_neg hk]
      generalize Dict.get? (evalDH H l) k = x at h2
      generalize Dict.get? (evalD W l) k = y at h2
      cases h2 with
      | none => exact .none
      | some hr => exact .some fun key => (hr key).mono (by simp only [OwnedK]; exact And.right)
theorem evalL_good {H : HWorld F V} {X : Traits F V} {W : World F V} (hd : Describes H X B W) : ∀ (l : List (Val F)), SafeL X W l → ∀ i,
    List.Forall₂ (RelChild B (OwnedL X W l)) (evalLH H i l) (evalL W i l)
  | [], _, i => by simp only [evalLH, evalL]; exact .nil
  | v :: l, hs, i => by
    have hs' : Safe X W v ∧ SafeL X W l := by simpa [SafeL] using hs
    have h1 := eval_good hd v hs'.1
    have h2 := evalL_good hd l hs'.2 (i + 1)
    simp only [evalLH, evalL]
    exact .cons ⟨rfl, rfl, config_eq hd v, fun k => (h1 k).mono (by simp only [OwnedL]; exact And.left)⟩
      (h2.imp fun a b hr => ⟨hr.1, hr.2, hr.3, fun k => (hr.4 k).mono (by simp only [OwnedL]; exact And.right)⟩)
theorem evalK_good {H : HWorld F V} {X : Traits F V} {W : World F V} (hd : Describes H X B W) : ∀ (l : List (Str × Val F)), SafeK X W l →
    List.Forall₂ (RelChild B (OwnedK X W l)) (evalKH H l) (evalK W l)
  | [], _ => by simp only [evalKH, evalK]; exact .nil
  | (k', v) :: l, hs => by
    have hs' : Safe X W v ∧ SafeK X W l := by simpa [SafeK] using hs
    have h1 := eval_good hd v hs'.1
    have h2 := evalK_good hd l hs'.2
    simp only [evalKH, evalK]
    exact .cons ⟨rfl, rfl, config_eq hd v, fun k => (h1 k).mono (by simp only [OwnedK]; exact And.left)⟩
      (h2.imp fun a b hr => ⟨hr.1, hr.2, hr.3, fun k => (hr.4 k).mono (by simp only [OwnedK]; exact And.right)⟩)
end

theorem deref_prefix {h h' : List V} (hp : h <+: h') {x : RVal F ℕ} {y : RVal F V} (hx : deref h x = some y) : deref h' x = some y := by
  cases x with
  | tensor r =>
    simp only [deref, Option.map_eq_some_iff] at hx ⊢
    obtain ⟨v, hv, rfl⟩ := hx
    exact ⟨v, get_prefix hp hv, rfl⟩
  | _ => exact hx

/-- All keys of a merge -/
theorem merge_good {H : HWorld F V} {X : Traits F V} {W : World F V} (hd : Describes H X B W) {r : Val F} (hs : Safe X W r) : ∀ (ks : List Str) (h : List V), B <+: h →
    h <+: (mergeH H r ks h).1 ∧ held (mergeH H r ks h) = (ks.map fun k => (eval W r k).map some) ∧
      (Owned X W r → ∀ q, .ok (.tensor q) ∈ (mergeH H r ks h).2 → h.length ≤ q)
  | [], h, hB => ⟨List.prefix_refl _, rfl, fun _ _ hq => by cases hq⟩
  | k :: ks, h, hB => by
    obtain ⟨h1, h2, h5⟩ := eval_good hd r hs k h hB
    obtain ⟨h3, h4, h6⟩ := merge_good hd hs ks (evalH H r k h).1 (hB.trans h1)
    refine ⟨h1.trans h3, ?_, fun ho q hq => ?_⟩
    · show (evalH H r k h).2.map (deref (mergeH H r ks (evalH H r k h).1).1) :: held (mergeH H r ks (evalH H r k h).1) = _
      rw [h4, List.map_cons]
      congr 1
      generalize (evalH H r k h).2 = x at h2
      generalize eval W r k = y at h2
      cases x <;> cases y
      · obtain rfl := (h2 : _ = _); rfl
      · exact h2.elim
      · exact h2.elim
      · exact congrArg Except.ok (deref_prefix h3 (deref_is h2))
    · rcases List.mem_cons.1 (show _ ∈ (evalH H r k h).2 :: (mergeH H r ks (evalH H r k h).1).2 from hq) with hq | hq
      · exact h5 ho q hq.symm
      · exact h1.length_le.trans (h6 ho q hq)

end Verif.Mem
