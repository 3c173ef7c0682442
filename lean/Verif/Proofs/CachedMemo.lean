import Verif.Proofs.Cached
import Verif.Proofs.MemCast
import Verif.Proofs.ByName

/-!
# Functions that remember what they have computed, and the recipe that is merged
-/
namespace Verif.Cached
open Method Recipe Config Eval Eval.Spec Program Program.Spec Spec
variable {F T : Type}

/-! ### The arguments at a key are determined -/

theorem receives_unique {W : World F T} {key : Str} {p : PTy} {v : Val F} {a b : Arg F T} (ha : Receives W key p v a) (hb : Receives W key p v b) : a = b := by
  cases p with
  | sd t => exact (ha : a = _).trans (hb : b = _).symm
  | val t =>
    obtain ⟨x, h1, rfl⟩ := ha
    obtain ⟨y, h2, rfl⟩ := hb
    rw [h1] at h2
    cases h2
    rfl

theorem receiving_unique {W : World F T} {m : Str} {args : List (Val F)} {kwargs : Dict Str (Val F)} {key : Str} {as bs : List (Arg F T)}
    {ks ls : Str → Option (Arg F T)} (ha : Receiving W m args kwargs key as ks) (hb : Receiving W m args kwargs key bs ls) : as = bs ∧ ks = ls := by
  have at_ : ∀ idx v, ArgAt args kwargs idx v → argAt as ks idx = argAt bs ls idx := by
    intro idx v hv
    obtain ⟨a, p, h1, h2, h3⟩ := ha.args idx v hv
    obtain ⟨b, q, g1, g2, g3⟩ := hb.args idx v hv
    rw [h2] at g2
    cases g2
    rw [h1, g1, receives_unique h3 g3]
  constructor
  · refine List.ext_getElem? fun i => ?_
    cases h : args[i]? with
    | some v => exact at_ (.pos i) v h
    | none =>
      have := List.getElem?_eq_none_iff.1 h
      rw [List.getElem?_eq_none (by rw [ha.length]; exact this), List.getElem?_eq_none (by rw [hb.length]; exact this)]
  · funext k
    cases h : kwargs.get? k with
    | some v => exact at_ (.name k) v h
    | none => rw [ha.none k h, hb.none k h]

/-! ### Remembering -/

theorem harmless_andThen {I : Str → RVal F T → Prop} {get : Idx → Str → Res F T} (f : Fn F T) (g : Res F T → CFn F T) (r : Res F T) :
    Harmless I get (andThenC f g) r ↔ Harmless I get (g (result get f)) r := by
  induction f with
  | done x => rfl
  | ask i k next ih => exact ih _

theorem result_andThen {get : Idx → Str → Res F T} (f : Fn F T) (g : Res F T → Fn F T) : result get (andThen f g) = result get (g (result get f)) := by
  induction f with
  | done x => rfl
  | ask i k next ih => exact ih _

theorem memo_harmless {I : Str → RVal F T → Prop} {get : Idx → Str → Res F T} (M : Memo F T) {as : List (Shape F T)} {ks : Str → Option (Shape F T)} {key : Str}
    (hI : ∀ v, I key v ↔ result get (M.entry as ks key) = .ok v) : Harmless I get (M.cached as ks key) (result get (M.plain as ks key)) := by
  unfold Memo.plain
  rw [result_andThen]
  constructor
  · refine (harmless_andThen _ _ _).2 ?_
    cases h : result get (M.entry as ks key) with
    | error e => rfl
    | ok v => exact ⟨(hI v).2 h, (harmless_andThen _ _ _).2 rfl⟩
  · intro v hv
    rw [(hI v).1 hv]
    exact (harmless_andThen _ _ _).2 rfl

/-- The entries are those that the instructions compute. -/
def Entry (W : World F T) (μ : Str → Memo F T) (S : List (Instr F)) (c : ℕ) (key : Str) (v : RVal F T) : Prop :=
  ∃ i ∈ S, i.cache = c ∧ ∃ as ks, Receiving W i.method i.args i.kwargs key as ks ∧
    result (fun j => look (argAt as ks j)) ((μ i.method).entry (as.map shape) (fun k => (ks k).map shape) key) = .ok v

section
variable {W : CWorld F T} {μ : Str → Memo F T} {S : List (Instr F)}

mutual
theorem memo_fits (hA : Agrees W) (hS : ∀ i ∈ S, ∀ j ∈ S, i.cache = j.cache → i = j)
    (hμ : ∀ i ∈ S, ∀ body, W.cached i.method = some body → body = (μ i.method).cached ∧ (W.source i.method).body = (μ i.method).plain) :
    ∀ (r : CVal F), Named r → (∀ i ∈ cachedOf r, i ∈ S) → Fits W (Entry W.base μ S) r
  | .leaf v, _, _ => by rw [Fits]; trivial
  | .dict es c s, hn, hr => by
    rw [Fits]
    rw [Named] at hn
    rw [cachedOf] at hr
    exact memo_fitsK hA hS hμ es hn hr
  | .merge m args kwargs cache, hn, hr => by
    rw [Fits]
    rw [Named] at hn
    rw [cachedOf] at hr
    refine ⟨hn.1, memo_fitsL hA hS hμ args hn.2.1 fun i hi => hr i (by simp [hi]), memo_fitsK hA hS hμ kwargs hn.2.2 fun i hi => hr i (by simp [hi]), ?_⟩
    rintro c body rfl hb key as ks hrec
    have hi := hr ⟨m, plainL args, plainK kwargs, c⟩ (by simp)
    obtain ⟨rfl, hsrc⟩ := hμ _ hi body hb
    rw [hA m]
    have : (impl (W.source m)).run as ks key = result (fun i => look (argAt as ks i)) ((μ m).plain (as.map shape) (fun k => (ks k).map shape) key) := by
      rw [← hsrc]
      rfl
    rw [this]
    refine memo_harmless (μ m) fun v => ⟨?_, fun h => ⟨_, hi, rfl, as, ks, hrec, h⟩⟩
    rintro ⟨j, hj, hc, bs, ls, h1, h2⟩
    obtain rfl := hS _ hj _ hi hc
    obtain ⟨rfl, rfl⟩ := receiving_unique h1 hrec
    exact h2
theorem memo_fitsL (hA : Agrees W) (hS : ∀ i ∈ S, ∀ j ∈ S, i.cache = j.cache → i = j)
    (hμ : ∀ i ∈ S, ∀ body, W.cached i.method = some body → body = (μ i.method).cached ∧ (W.source i.method).body = (μ i.method).plain) :
    ∀ (l : List (CVal F)), NamedL l → (∀ i ∈ cachedL l, i ∈ S) → FitsL W (Entry W.base μ S) l
  | [], _, _ => by rw [FitsL]; trivial
  | v :: l, hn, hr => by
    rw [FitsL]
    rw [NamedL] at hn
    rw [cachedL] at hr
    exact ⟨memo_fits hA hS hμ v hn.1 fun i hi => hr i (by simp [hi]), memo_fitsL hA hS hμ l hn.2 fun i hi => hr i (by simp [hi])⟩
theorem memo_fitsK (hA : Agrees W) (hS : ∀ i ∈ S, ∀ j ∈ S, i.cache = j.cache → i = j)
    (hμ : ∀ i ∈ S, ∀ body, W.cached i.method = some body → body = (μ i.method).cached ∧ (W.source i.method).body = (μ i.method).plain) :
    ∀ (l : List (Str × CVal F)), NamedK l → (∀ i ∈ cachedK l, i ∈ S) → FitsK W (Entry W.base μ S) l
  | [], _, _ => by rw [FitsK]; trivial
  | (k, v) :: l, hn, hr => by
    rw [FitsK]
    rw [NamedK] at hn
    rw [cachedK] at hr
    exact ⟨memo_fits hA hS hμ v hn.1 fun i hi => hr i (by simp [hi]), memo_fitsK hA hS hμ l hn.2 fun i hi => hr i (by simp [hi])⟩
end
end

/-! ### The recipe that is merged -/

/-- The same instruction in the recipe whose inputs are cast -/
structure CastOf (E : Env F) (d t : Option Str) (i j : Instr F) : Prop where
  method : j.method = i.method
  cache : j.cache = i.cache
  args : castInputsL E d t i.args = .ok j.args
  kwargs : castInputsK E d t i.kwargs = .ok j.kwargs

theorem isScalar_of_node {v : Val F} (h : v.isNode = true) : isScalar v = false := by cases v <;> first | rfl | cases h

section
variable {E : Env F} {d t : Option Str}

mutual
theorem castC_kept : ∀ (r r' : CVal F), castC E d t r = .ok r' → Uniform r → Named r →
    castInputs E d t r.plain = .ok r'.plain ∧ List.Forall₂ (CastOf E d t) (cachedOf r) (cachedOf r') ∧ Named r'
  | .leaf v, r', h, _, _ => by
    rw [castC] at h
    cases hv : castInputs E d t v with
    | error e => rw [hv] at h; cases h
    | ok v' =>
      rw [hv] at h
      cases h
      rw [CVal.plain, CVal.plain, cachedOf, cachedOf, Named]
      exact ⟨hv, .nil, trivial⟩
  | .dict [] c s, r', h, _, _ => by rw [castC] at h; cases h
  | .dict ((k, v) :: es) c s, r', h, hu, hn => by
    rw [Uniform] at hu
    rw [Named] at hn
    have hv : v.plain.isNode = true := hu.1 (k, v) (by simp)
    rw [castC, if_pos hv] at h
    cases hk : castKC E d t ((k, v) :: es) with
    | error e => rw [hk] at h; cases h
    | ok es' =>
      rw [hk] at h
      simp only at h
      obtain ⟨q1, q2, q3⟩ := castKC_kept ((k, v) :: es) es' hk hu.2 hn
      cases hm : mkLit E (.dict (plainK es')) c (some s) with
      | error e => rw [hm] at h; cases h
      | ok w =>
        rw [hm] at h
        obtain ⟨c', s', rfl⟩ := Mem.mkLit_shape hm
        cases h
        rw [CVal.plain, CVal.plain, cachedOf, cachedOf, Named]
        refine ⟨?_, q2, q3⟩
        rw [plainK] at q1 ⊢
        rw [castInputs, if_neg (by rw [isScalar_of_node hv]; simp), if_pos hv, q1]
        exact hm
  | .merge m args kwargs cache, r', h, hu, hn => by
    rw [Uniform] at hu
    rw [Named] at hn
    rw [castC] at h
    cases ha : castLC E d t args with
    | error e => rw [ha] at h; cases h
    | ok as =>
      rw [ha] at h
      cases hk : castKC E d t kwargs with
      | error e => rw [hk] at h; cases h
      | ok ks =>
        rw [hk] at h
        simp only at h
        obtain ⟨p1, p2, p3⟩ := castLC_kept args as ha hu.1 hn.2.1
        obtain ⟨q1, q2, q3⟩ := castKC_kept kwargs ks hk hu.2 hn.2.2
        cases hs : (Val.merge m (plainL as) (plainK ks)).space E with
        | error e => rw [hs] at h; cases h
        | ok sp =>
          rw [hs] at h
          cases h
          rw [CVal.plain, CVal.plain, cachedOf, cachedOf, Named]
          refine ⟨?_, ?_, ?_, p3, q3⟩
          · rw [castInputs, p1, q1]
            simp only
            rw [hs]
          · refine List.rel_append ?_ (List.rel_append p2 q2)
            cases cache with
            | none => exact .nil
            | some c => exact .cons ⟨rfl, rfl, p1, q1⟩ .nil
          · rw [Mem.keys_castInputsK q1]
            exact hn.1
theorem castLC_kept : ∀ (l l' : List (CVal F)), castLC E d t l = .ok l' → UniformL l → NamedL l →
    castInputsL E d t (plainL l) = .ok (plainL l') ∧ List.Forall₂ (CastOf E d t) (cachedL l) (cachedL l') ∧ NamedL l'
  | [], l', h, _, _ => by
    rw [castLC] at h
    cases h
    rw [plainL, castInputsL, cachedL, NamedL]
    exact ⟨rfl, .nil, trivial⟩
  | v :: l, l', h, hu, hn => by
    rw [UniformL] at hu
    rw [NamedL] at hn
    rw [castLC] at h
    cases hv : castC E d t v with
    | error e => rw [hv] at h; cases h
    | ok v' =>
      rw [hv] at h
      cases hl : castLC E d t l with
      | error e => rw [hl] at h; cases h
      | ok l'' =>
        rw [hl] at h
        cases h
        obtain ⟨p1, p2, p3⟩ := castC_kept v v' hv hu.1 hn.1
        obtain ⟨q1, q2, q3⟩ := castLC_kept l l'' hl hu.2 hn.2
        rw [plainL, castInputsL, p1, q1, plainL, cachedL, cachedL, NamedL]
        exact ⟨rfl, List.rel_append p2 q2, p3, q3⟩
theorem castKC_kept : ∀ (l l' : List (Str × CVal F)), castKC E d t l = .ok l' → UniformK l → NamedK l →
    castInputsK E d t (plainK l) = .ok (plainK l') ∧ List.Forall₂ (CastOf E d t) (cachedK l) (cachedK l') ∧ NamedK l'
  | [], l', h, _, _ => by
    rw [castKC] at h
    cases h
    rw [plainK, castInputsK, cachedK, NamedK]
    exact ⟨rfl, .nil, trivial⟩
  | (k, v) :: l, l', h, hu, hn => by
    rw [UniformK] at hu
    rw [NamedK] at hn
    rw [castKC] at h
    cases hv : castC E d t v with
    | error e => rw [hv] at h; cases h
    | ok v' =>
      rw [hv] at h
      cases hl : castKC E d t l with
      | error e => rw [hl] at h; cases h
      | ok l'' =>
        rw [hl] at h
        cases h
        obtain ⟨p1, p2, p3⟩ := castC_kept v v' hv hu.1 hn.1
        obtain ⟨q1, q2, q3⟩ := castKC_kept l l'' hl hu.2 hn.2
        rw [plainK, castInputsK, p1, q1, plainK, cachedK, cachedK, NamedK]
        exact ⟨rfl, List.rel_append p2 q2, p3, q3⟩
end
end

/-! ### Instructions put around a recipe -/

theorem plainL_leaf (l : List (Val F)) : plainL (l.map .leaf) = l := by
  induction l with
  | nil => rw [List.map_nil, plainL]
  | cons v l ih => rw [List.map_cons, plainL, CVal.plain, ih]

theorem plainK_leaf (l : List (Str × Val F)) : plainK (l.map fun p => (p.1, .leaf p.2)) = l := by
  induction l with
  | nil => rw [List.map_nil, plainK]
  | cons p l ih => rw [List.map_cons, plainK, CVal.plain, ih]

theorem cachedL_leaf (l : List (Val F)) : cachedL (l.map CVal.leaf) = [] := by
  induction l with
  | nil => rw [List.map_nil, cachedL]
  | cons v l ih => rw [List.map_cons, cachedL, cachedOf, ih]; rfl

theorem cachedK_leaf (l : List (Str × Val F)) : cachedK (l.map fun p => (p.1, CVal.leaf p.2)) = [] := by
  induction l with
  | nil => rw [List.map_nil, cachedK]
  | cons p l ih => rw [List.map_cons, cachedK, cachedOf, ih]; rfl

theorem namedL_leaf (l : List (Val F)) : NamedL (l.map CVal.leaf) := by
  induction l with
  | nil => rw [List.map_nil, NamedL]; trivial
  | cons v l ih => rw [List.map_cons, NamedL, Named]; exact ⟨trivial, ih⟩

theorem namedK_leaf (l : List (Str × Val F)) : NamedK (l.map fun p => (p.1, CVal.leaf p.2)) := by
  induction l with
  | nil => rw [List.map_nil, NamedK]; trivial
  | cons v l ih => rw [List.map_cons, NamedK, Named]; exact ⟨trivial, ih⟩

theorem uniformL_leaf (l : List (Val F)) : UniformL (l.map CVal.leaf) := by
  induction l with
  | nil => rw [List.map_nil, UniformL]; trivial
  | cons v l ih => rw [List.map_cons, UniformL, Uniform]; exact ⟨trivial, ih⟩

theorem uniformK_leaf (l : List (Str × Val F)) : UniformK (l.map fun p => (p.1, CVal.leaf p.2)) := by
  induction l with
  | nil => rw [List.map_nil, UniformK]; trivial
  | cons v l ih => rw [List.map_cons, UniformK, Uniform]; exact ⟨trivial, ih⟩

theorem wrapC_kept {a : CVal F} {m : Str} {args : List (Val F)} : 
    (wrapC a (.merge m (a.plain :: args) [])).plain = .merge m (a.plain :: args) [] ∧ cachedOf (wrapC a (.merge m (a.plain :: args) [])) = cachedOf a ∧
      (Named a → Named (wrapC a (.merge m (a.plain :: args) []))) ∧ (Uniform a → Uniform (wrapC a (.merge m (a.plain :: args) []))) := by
  refine ⟨?_, ?_, fun h => ?_, fun h => ?_⟩
  · rw [wrapC, CVal.plain, plainL, plainL_leaf, List.map_nil, plainK]
  · rw [wrapC, cachedOf, cachedL, cachedL_leaf, List.map_nil, cachedK]; simp
  · rw [wrapC, Named, NamedL, List.map_nil, plainK, NamedK]; exact ⟨List.nodup_nil, ⟨h, namedL_leaf _⟩, trivial⟩
  · rw [wrapC, Uniform, UniformL, List.map_nil, UniformK]; exact ⟨⟨h, uniformL_leaf _⟩, trivial⟩

/-- The same instruction in the recipe that is merged -/
def PrepOf (E : Env F) (o : Whole.Options F) (i j : Instr F) : Prop :=
  if o.castsInputs = true then CastOf E o.mergeDevice o.mergeDtype i j else i = j

theorem prepOf_unique {E : Env F} {o o' : Whole.Options F} (hd : o.mergeDevice = o'.mergeDevice) (ht : o.mergeDtype = o'.mergeDtype) {i j j' : Instr F}
    (h : PrepOf E o i j) (h' : PrepOf E o' i j') : j = j' := by
  have hc : o.castsInputs = o'.castsInputs := by unfold Whole.Options.castsInputs; rw [hd, ht]
  unfold PrepOf at h h'
  rw [← hc] at h'
  split_ifs at h h' with hh
  · rw [← hd, ← ht] at h'
    obtain ⟨a1, a2, a3, a4⟩ := h
    obtain ⟨b1, b2, b3, b4⟩ := h'
    rw [a3] at b3
    rw [a4] at b4
    cases j
    cases j'
    cases b3
    cases b4
    simp only at a1 a2 b1 b2
    rw [a1, a2, b1, b2]
  · exact h.symm.trans h'

theorem prepOf_cache {E : Env F} {o : Whole.Options F} {i j : Instr F} (h : PrepOf E o i j) : j.method = i.method ∧ j.cache = i.cache := by
  unfold PrepOf at h
  split_ifs at h
  · exact ⟨h.method, h.cache⟩
  · rw [h]; exact ⟨rfl, rfl⟩

theorem prepareC_kept {E : Env F} (hC : E.resolve nCast = .ok castSig) (hF : E.resolve nFallback = .ok fallbackSig) {o : Whole.Options F} {r r' : CVal F}
    (hr : r.plain.isNode = true) (hu : Uniform r) (hn : Named r) (h : prepareC E o r = .ok r') :
    Whole.prepare E o r.plain = .ok (r.plain, r'.plain) ∧ List.Forall₂ (PrepOf E o) (cachedOf r) (cachedOf r') ∧ Named r' := by
  unfold prepareC at h
  simp only [Bind.bind, Except.bind] at h
  unfold Whole.prepare
  simp only [Bind.bind, Except.bind, Serialize.valueToNode_node hr]
  -- the fallback
  cases h1 : withFallbackC E o r with
  | error e => rw [h1] at h; cases h
  | ok r1 =>
  rw [h1] at h
  simp only at h
  obtain ⟨w1, n1, c1, m1, u1⟩ : Whole.withFallback E o r.plain = .ok r1.plain ∧ r1.plain.isNode = true ∧ cachedOf r1 = cachedOf r ∧ Named r1 ∧ Uniform r1 := by
    unfold withFallbackC at h1
    unfold Whole.withFallback
    cases hfb : o.fallback with
    | none => rw [hfb] at h1; cases h1; exact ⟨rfl, hr, rfl, hn, hu⟩
    | some fb =>
      rw [hfb] at h1
      simp only at h1 ⊢
      unfold orC at h1
      cases ho : orNode E r.plain fb with
      | error e => rw [ho] at h1; cases h1
      | ok v =>
        rw [ho] at h1
        cases h1
        obtain ⟨b', sp, _, _, rfl, _⟩ := ByName.orNode_space hF hr ho
        obtain ⟨q1, q2, q3, q4⟩ := wrapC_kept (a := r) (m := nFallback) (args := [b'])
        exact ⟨by rw [q1], by rw [q1]; rfl, q2, q3 hn, q4 hu⟩
  rw [w1]
  simp only
  -- the inputs
  cases h2 : withInputsC E o r1 with
  | error e => rw [h2] at h; cases h
  | ok r2 =>
  rw [h2] at h
  simp only at h
  obtain ⟨w2, n2, c2, m2⟩ : Whole.withInputs E o r1.plain = .ok r2.plain ∧ r2.plain.isNode = true ∧
      List.Forall₂ (PrepOf E o) (cachedOf r) (cachedOf r2) ∧ Named r2 := by
    unfold withInputsC at h2
    unfold Whole.withInputs PrepOf
    rw [← c1]
    by_cases hc : o.castsInputs = true
    · rw [if_pos hc] at h2 ⊢
      simp only [if_pos hc]
      obtain ⟨q1, q2, q3⟩ := castC_kept r1 r2 h2 u1 m1
      exact ⟨q1, Mem.castInputs_isNode hC q1, q2, q3⟩
    · rw [if_neg hc] at h2 ⊢
      simp only [if_neg hc]
      cases h2
      exact ⟨rfl, n1, by rw [List.forall₂_same]; exact fun _ _ => rfl, m1⟩
  rw [w2]
  simp only
  -- the output
  unfold withOutputC at h
  unfold Whole.withOutput
  by_cases hc : o.castsOutput = true
  · rw [if_pos hc] at h ⊢
    unfold toC at h
    cases ho : toNode E r2.plain o.outputDevice o.outputDtype with
    | error e => rw [ho] at h; cases h
    | ok v =>
      rw [ho] at h
      cases h
      obtain rfl := Mem.toNode_sig hC n2 ho
      obtain ⟨q1, q2, q3, _⟩ := wrapC_kept (a := r2) (m := nCast) (args := [.lit (optVal o.outputDevice) none paramSpace, .lit (optVal o.outputDtype) none paramSpace])
      have e : castNode r2.plain o.outputDevice o.outputDtype =
        .merge nCast (r2.plain :: [.lit (optVal o.outputDevice) none paramSpace, .lit (optVal o.outputDtype) none paramSpace]) [] := rfl
      simp only
      rw [e, q1, q2]
      exact ⟨rfl, c2, q3 m2⟩
  · rw [if_neg hc] at h ⊢
    cases h
    exact ⟨rfl, c2, m2⟩

end Verif.Cached
