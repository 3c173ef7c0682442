import Verif.Proofs.LinearMain
import Mathlib.Data.Set.Finite.Lemmas

/-!
# Recipes of weighted sums, differences and additions are accurate (C114)

See `Verif/Spec/Linear.lean`: `Linear num paths c s r l` says which recipes these are, `Term entry num r v s n g` what they stand for in exact arithmetic.
-/
namespace Verif.Linear
open Method Recipe Config Eval Eval.Spec Program Program.Spec Whole Whole.Spec Ieee Ieee.Spec Spec Readme Readme.Spec
open Threads.Spec (stored Opened)
open StreamOut (Tensor)
variable {F : Type}

section

variable {A : Arith} {P : PWorld F Tensor} {num : F → FV} {d1 d2 : F} {opened : Str → Option StreamIn.State} {c : Str} {cfg : ModelConfig}
  {shape : Str → List ℕ} {rcap : ℕ}

theorem Spec.Linear.spaces {paths : Str → Prop} {s : Str} {r : Val F} {l : List Str} (h : Linear num paths c s r l) :
    s = "weight".toList ∨ s = "delta".toList := by
  induction h with
  | model _ hs => exact hs
  | zero _ _ _ _ ih _ => exact ih
  | one _ _ _ _ _ ih _ => exact ih
  | sum _ _ _ _ _ ih _ => exact ih
  | mean _ _ _ ih => exact ih 0
  | add => exact .inl rfl
  | sub => exact .inr rfl

/-- The merge space of a linear recipe -/
theorem Scene.space (S : Scene A P num d1 d2 opened c cfg shape rcap) {paths : Str → Prop} {s : Str} {r : Val F} {l : List Str}
    (h : Linear num paths c s r l) : r.space P.env = .ok (some s) := by
  have hp : ∀ x : F, (param x).space P.env = .ok (some "param".toList) := fun x => by unfold param; rw [Val.space]
  have hsum : ∀ {s : Str} {a b : Val F} (x : F), a.space P.env = .ok (some s) → b.space P.env = .ok (some s) → 
      (s = "weight".toList ∨ s = "delta".toList) → (weightedSum a b x).space P.env = .ok (some s) := by
    intro s a b x ha hb hs
    unfold weightedSum
    rw [Val.space, show P.env.resolve "weighted_sum".toList = _ from S.weightedSig, spaceL, spaceL, spaceL, spaceL, spaceK, ha, hb, hp]
    have e1 : someSpaces [some s, some s, some "param".toList] = .ok [s, s, "param".toList] := rfl
    have e2 : someSpaces [] = .ok [] := rfl
    simp only [Bind.bind, Except.bind, e1, e2, List.map_nil, List.zip_nil_left]
    have : Sig.returnSpace (Readme.weightedSig d1) [s, s, "param".toList] [] = .ok s := by
      rcases hs with rfl | rfl <;> rfl
    rw [this]
  induction h with
  | model _ _ => rw [Val.space]
  | zero ha _ _ _ ih1 ih2 => exact hsum _ ih1 ih2 ha.spaces
  | one ha _ _ _ _ ih1 ih2 => exact hsum _ ih1 ih2 ha.spaces
  | sum ha _ _ _ _ ih1 ih2 => exact hsum _ ih1 ih2 ha.spaces
  | mean a l ha ih =>
    refine average_space S.meanSig (ha 0).spaces (fun v hv => ?_) (by simp [List.ofFn_succ])
    obtain ⟨i, rfl⟩ := mem_ofFn_iff.1 hv
    exact ih i
  | add _ _ _ ih1 ih2 =>
    unfold addDifference
    rw [Val.space, show P.env.resolve "add_difference".toList = _ from S.addSig, spaceL, spaceL, spaceL, spaceL, spaceK, ih1, ih2, hp]
    rfl
  | sub _ _ ih1 ih2 =>
    unfold subtract
    rw [Val.space, show P.env.resolve "subtract".toList = _ from S.subSig, spaceL, spaceL, spaceL, spaceK, ih1, ih2]
    rfl

theorem Spec.Linear.node {paths : Str → Prop} {s : Str} {r : Val F} {l : List Str} (h : Linear num paths c s r l) (E : Env F) : valueToNode E r = .ok r := by
  cases h <;> rfl

/-- **C114.**  The calls that make these recipes: of linear recipes in one merge space, `weighted_sum(a, b, alpha=x)` makes a linear recipe in that space;
`add_difference(a, b, alpha=x)` of one in weight space and one in delta space makes one in weight space; `subtract(a, b)` of two in weight space
makes one in delta space. -/
theorem C114_calls (S : Scene A P num d1 d2 opened c cfg shape rcap) {paths : Str → Prop} {s t : Str} {a b : Val F} {l m : List Str}
    (ha : Linear num paths c s a l) (hb : Linear num paths c t b m) (x : F) (w : ℚ) (hw : Weight (num x) w) :
    (s = t → ∃ r l', createRecipe P.env nWeighted [a, b] [("alpha".toList, .float x)] = .ok r ∧ r = weightedSum a b x ∧ Linear num paths c s r l') ∧
    (s = weight → t = "delta".toList → ∃ r l', createRecipe P.env Lora.nAdd [a, b] [("alpha".toList, .float x)] = .ok r ∧ r = addDifference a b x ∧
      Linear num paths c weight r l') ∧
    (s = weight → t = weight → ∃ r l', createRecipe P.env Wrappers.nSub [a, b] [] = .ok r ∧ r = subtract a b ∧ Linear num paths c "delta".toList r l') := by
  have hlin : s = t → ∃ l', Linear num paths c s (weightedSum a b x) l' := by
    rintro rfl
    by_cases h0 : NearZero w
    · exact ⟨_, .zero ha hb hw h0⟩
    by_cases h1 : NearOne w
    · exact ⟨_, .one ha hb hw h0 h1⟩
    exact ⟨_, .sum ha hb hw h0 h1⟩
  have na := ha.node P.env
  have nb := hb.node P.env
  have nx : valueToNode P.env (.float x) = .ok (param x) := rfl
  refine ⟨fun hst => ?_, fun h1 h2 => ?_, fun h1 h2 => ?_⟩
  · obtain ⟨l', hl⟩ := hlin hst
    refine ⟨_, l', ?_, rfl, hl⟩
    have hsp := S.space hl
    have hb' : Method.bind (Readme.weightedSig d1) [a, b] [("alpha".toList, .float x)] = .ok ⟨[a, b, .float x], []⟩ := rfl
    unfold weightedSum at hsp ⊢
    unfold createRecipe
    rw [S.weightedSig]
    simp only [Bind.bind, Except.bind, hb', valuesToNodes, valuesToNodesK, na, nb, nx]
    have hsp : Val.space P.env (.merge nWeighted [a, b, param x] []) = _ := hsp
    rw [hsp]
    rfl
  · subst h1 h2
    have hl : Linear num paths c weight (addDifference a b x) (l ++ m) := .add ha hb hw
    refine ⟨_, _, ?_, rfl, hl⟩
    have hsp := S.space hl
    have hb' : Method.bind (Lora.addSig d2) [a, b] [("alpha".toList, .float x)] = .ok ⟨[a, b, .float x], []⟩ := rfl
    unfold addDifference at hsp ⊢
    unfold createRecipe
    rw [S.addSig]
    simp only [Bind.bind, Except.bind, hb', valuesToNodes, valuesToNodesK, na, nb, nx]
    have hsp : Val.space P.env (.merge Lora.nAdd [a, b, param x] []) = _ := hsp
    rw [hsp]
    rfl
  · subst h1 h2
    have hl : Linear num paths c "delta".toList (subtract a b) (l ++ m) := .sub ha hb
    refine ⟨_, _, ?_, rfl, hl⟩
    have hsp := S.space hl
    have hb' : Method.bind (Wrappers.subtractSig (F := F)) [a, b] [] = .ok ⟨[a, b], []⟩ := rfl
    unfold subtract at hsp ⊢
    unfold createRecipe
    rw [S.subSig]
    simp only [Bind.bind, Except.bind, hb', valuesToNodes, valuesToNodesK, na, nb]
    have hsp : Val.space P.env (.merge Wrappers.nSub [a, b] []) = _ := hsp
    rw [hsp]
    rfl

/-- **C114.**  `n_average(*models)` of linear recipes in one merge space, of one at least, makes a linear recipe in that space. -/
theorem C114_average (S : Scene A P num d1 d2 opened c cfg shape rcap) {paths : Str → Prop} {s : Str} {n : ℕ} (a : Fin (n + 1) → Val F) (l : Fin (n + 1) → List Str)
    (h : ∀ i, Linear num paths c s (a i) (l i)) :
    createRecipe P.env nAverage (List.ofFn a) [] = .ok (Spec.average (List.ofFn a)) ∧ Linear num paths c s (Spec.average (List.ofFn a)) (List.ofFn l).flatten := by
  refine ⟨?_, .mean a l h⟩
  have hsp := S.space (.mean a l h)
  have hn : ∀ l : List (Val F), (∀ v ∈ l, valueToNode P.env v = .ok v) → valuesToNodes P.env l = .ok l := by
    intro l hl
    induction l with
    | nil => rfl
    | cons v l ih =>
      rw [valuesToNodes, hl v (by simp), ih fun v hv => hl v (by simp [hv])]
      rfl
  have hnode := hn (List.ofFn a) fun v hv => by
    obtain ⟨i, rfl⟩ := mem_ofFn_iff.1 hv
    exact (h i).node _
  have hb : Method.bind (averageSig (F := F)) (List.ofFn a) [] = .ok ⟨List.ofFn a, []⟩ := by
    unfold Method.bind
    simp [averageSig, FunctionArgs.argsVarargs, FunctionArgs.varargsCount, Dict.update, Dict.keys, pure, Except.pure, Bind.bind, Except.bind]
  unfold Spec.average at hsp ⊢
  have hsp : Val.space P.env (.merge nAverage (List.ofFn a) []) = _ := hsp
  unfold createRecipe
  rw [S.meanSig]
  simp only [Bind.bind, Except.bind, hb, valuesToNodesK, hnode]
  rw [hsp]
  rfl

/-- **C114.**  `merge(recipe, output=file)` with the options as they are by default, where the recipe is built from models of one architecture
(float64, float32, float16, bfloat16 or float8_e5m2, also mixed) with `weighted_sum`, `n_average`, `add_difference` and `subtract`: the file opens; it has the keys of the architecture that all models needed hold, with float16
tensors of the shape the models have; and each entry is the nearest float16 number (an infinity if there is none) to a number `x` that differs from what
the recipe stands for in exact arithmetic by at most `n 2^-52 size`, and by nothing if `size 2^g < 2^53`. -/
theorem C114_linear_partial (S : Scene A P num d1 d2 opened c cfg shape rcap) (N : Serialize.Num F) {s : Str} {r : Val F} {reads : List Str}
    (hr : Linear num (fun p => opened p ≠ none) c s r reads) (n : ℕ) (file : Bytes) (m : Saves P N defaults opened r n file) (bs : ℕ) (hbs : bs ≤ rcap) :
    ∃ s0, StreamIn.open_ file bs rcap = .ok s0 ∧
      (∀ k, k ∈ StreamIn.keys s0 ↔ Wanted cfg (defaults (F := F)) k ∧ ∀ p ∈ reads, (held opened cfg p k).isSome) ∧
      ∀ k, k ∈ StreamIn.keys s0 → ∀ history : List Key, ∃ s1 v, StreamIn.getItem (StreamIn.run s0 (history.map .load)).st k = (s1, .ok v) ∧
        v.dtype = .f16 ∧ v.shape = shape k ∧ (entries ⟨v.dtype, v.shape, s1.read v⟩).length = numel (shape k) ∧
        ∀ (i : ℕ) (value size : ℚ) (ops g : ℕ), Term (entryOf opened cfg k i) num r value size ops g → ops ≤ 2 ^ 50 →
          ∃ o x, (entries ⟨v.dtype, v.shape, s1.read v⟩)[i]? = some o ∧ |x - value| ≤ ops * (2 : ℚ) ^ (-52 : ℤ) * size ∧
            (size * 2 ^ g < 2 ^ 53 → x = value) ∧ Stored x o := by
  have hv : valueToNode P.env r = Except.ok m.original := prepare_node m.prepared
  have hself : valueToNode P.env r = .ok r := by
    cases hr <;> rfl
  have horig : r = m.original := Except.ok.inj (hself.symm.trans hv)
  have hw : ∀ k, k ∈ m.keys → Wanted cfg (defaults (F := F)) k := by
    obtain ⟨_, fb, f1, f2⟩ := facts (builtin S.registered (stored opened)) (fun s h => by cases h; decide) (fun s h => by cases h; decide)
      (fun y e h => by rw [show move A.torch.other (defaults (F := F)).mergeDevice (defaults (F := F)).mergeDtype y = _ from move64 A.torch y] at h; cases h)
      m.prepared (by rw [← horig]; exact S.fits hr) (fun b b' hb => by cases hb)
    obtain ⟨_, cfg', p2, p3⟩ := plan_ok m.planned
    have hcfg := f2.config cfg' p2
    rw [← horig] at hcfg
    cases f1
    obtain rfl := S.hasConfig hr hcfg
    intro k hk
    rw [p3, Merge.mem_targetKeys] at hk
    exact hk
  have hne : ∀ t : Tensor, t.dtype = .f64 → t.dtype ≠ .f16 := by
    intro t ht h
    rw [ht] at h
    cases h
  -- the models that are needed: there is one at least
  have hsome : ∀ {s : Str} {r : Val F} {l : List Str}, Linear num (fun p => opened p ≠ none) c s r l → ∃ p, p ∈ l := by
    intro s r l h
    induction h with
    | @model p _ _ _ => exact ⟨p, by simp⟩
    | zero _ _ _ _ ih _ => exact ih
    | one _ _ _ _ _ _ ih => exact ih
    | sum _ _ _ _ _ ih _ => obtain ⟨p, hp⟩ := ih; exact ⟨p, List.mem_append.2 (.inl hp)⟩
    | mean _ _ _ ih => obtain ⟨p, hp⟩ := ih 0; exact ⟨p, List.mem_flatten.2 ⟨_, mem_ofFn_iff.2 ⟨0, rfl⟩, hp⟩⟩
    | add _ _ _ ih _ => obtain ⟨p, hp⟩ := ih; exact ⟨p, List.mem_append.2 (.inl hp)⟩
    | sub _ _ ih _ => obtain ⟨p, hp⟩ := ih; exact ⟨p, List.mem_append.2 (.inl hp)⟩
  obtain ⟨p0, hp0⟩ := hsome hr
  have hfin : ∀ k u, final (world P (stored opened)) (move A.torch.other) (tensors A) (enc num) defaults r none k = .ok (.tensor u) →
      StreamOut.Spec.Tensor.WF u ∧ u.bytes.length ≤ rcap := by
    intro k y hy
    rcases S.final hr k with ⟨h1, t, _, h3, h4⟩ | ⟨_, h4⟩
    · rw [h4] at hy
      cases hy
      obtain ⟨u, hu⟩ := Option.isSome_iff_exists.1 (h1 p0 hp0)
      obtain ⟨_, u2, u3⟩ := S.floats p0 k u hu
      rw [cast_ne (f := half) rfl (hne t h3.1)]
      have h := wf_ofEntries .f16 t.shape ((entries t).map fun n => encode half (read t.dtype n)) (by rw [List.length_map, entries_length])
      refine ⟨h, ?_⟩
      rw [wf_iff] at h
      rw [h]
      show numel t.shape * 2 ≤ rcap
      rw [mul_comm, h3.2, ← u2]
      exact u3
    · rw [h4] at hy
      cases hy
  obtain ⟨r', fb, cfg', s0, k1, k2, k3, _, k5, _, k7, k8⟩ := C99_file_partial P (move A.torch.other) S.registered N defaults
    ⟨fun s h => by cases h; decide, fun s h => by cases h; decide, fun y e h => by rw [show move A.torch.other (defaults (F := F)).mergeDevice (defaults (F := F)).mergeDtype y = _ from move64 A.torch y] at h; cases h⟩
    opened S.files r n file m (tensors A) (enc num)
    (fun r' h => by rw [← Except.ok.inj (hself.symm.trans h)]; exact S.fits hr) (fun b b' hb => by cases hb)
    (fun h => S.names _ (hw _ h) rfl)
    (fun r' fb k u h h' hk hu => by
      rw [← Except.ok.inj (hself.symm.trans h)] at hu
      cases h'
      exact (hfin k u hu).1)
    bs rcap hbs
    (fun r' fb k u h h' hk hu => by
      rw [← Except.ok.inj (hself.symm.trans h)] at hu
      cases h'
      exact (hfin k u hu).2)
  obtain rfl : r = r' := Except.ok.inj (hself.symm.trans k1)
  cases k2
  obtain rfl := S.hasConfig hr k3
  have hkeys : ∀ k, k ∈ StreamIn.keys s0 ↔ Wanted cfg (defaults (F := F)) k ∧ ∀ p ∈ reads, (held opened cfg p k).isSome := by
    intro k
    rw [k7]
    refine and_congr_right fun _ => ?_
    rcases S.final hr k with ⟨h1, t, _, _, h4⟩ | ⟨⟨p, hp, h1⟩, h4⟩
    · exact ⟨fun _ => h1, fun _ => ⟨_, h4⟩⟩
    · refine ⟨fun ⟨t, ht⟩ => ?_, fun h => ?_⟩
      · rw [h4] at ht; cases ht
      · have := h p hp
        rw [h1] at this
        cases this
  refine ⟨s0, k5, hkeys, fun k hk history => ?_⟩
  obtain ⟨hk1, hk2⟩ := (hkeys k).1 hk
  rcases S.final hr k with ⟨_, t, t1, t2, t3⟩ | ⟨⟨p, hp, h1⟩, _⟩
  · obtain ⟨s1, v, q1, q2, q3, q4⟩ := k8 k _ hk1 t3 history
    have hv' : (⟨v.dtype, v.shape, s1.read v⟩ : Tensor) = Ieee.cast A.torch.other .f16 t := by rw [q2, q3, q4]
    have hent := entries_cast (other := A.torch.other) (f := half) (d := .f16) rfl (hne t t2.1)
    refine ⟨s1, v, q1, ?_, ?_, ?_, ?_⟩
    · rw [q2, cast_ne (f := half) rfl (hne t t2.1)]; rfl
    · rw [q3, cast_ne (f := half) rfl (hne t t2.1), ← t2.2]; rfl
    · rw [hv', hent, List.length_map, entries_length, t2.2]
    · intro i value size ops g hterm hops
      obtain ⟨t', m', q, e1, _, e3, e4, e5⟩ := S.term hterm hr.models hr.proper hops
      rw [t1] at e1
      cases e1
      refine ⟨encode half (decode double m'), q, ?_, e5.appr.simple hops, e5.exact, stored_half e4⟩
      rw [hv', hent, List.getElem?_map, e3, t2.1]
      rfl
  · have := hk2 p hp
    rw [h1] at this
    cases this

end

/-! ### There are sums and quotients -/

theorem sums_exist {xs : List FV} (h : xs ≠ []) : ∃ s, Sums xs s := by
  induction xs with
  | nil => exact absurd rfl h
  | cons x xs ih =>
    by_cases hx : xs = []
    · subst hx; exact ⟨x, .one x⟩
    · obtain ⟨s, hs⟩ := ih hx
      exact ⟨_, .add (.one x) hs⟩

theorem nearest_exists (q : ℚ) : ∃ r, Has double r ∧ ∀ r', Has double r' → |r - q| ≤ |r' - q| := by
  have hfin : {r : ℚ | Has double r}.Finite := by
    refine ((Set.finite_lt_nat (2 ^ 64)).image fun n : ℕ => (val (decode double n)).getD 0).subset ?_
    intro r hr
    obtain ⟨m, e, h1, _⟩ := id hr
    have hv : val (.fin (decide (m < 0)) m.natAbs e) = some r := by
      simp only [val, decide_eq_true_eq]
      rw [h1]
      congr 1
      split_ifs with h
      · rw [← neg_mul]; congr 1; rw [← Int.cast_natCast, Int.ofNat_natAbs_of_nonpos h.le]; push_cast; ring
      · congr 1; rw [← Int.cast_natCast, Int.natAbs_of_nonneg (not_lt.1 h)]
    refine ⟨_, encode_lt (f := double) (by decide) (.fin (decide (m < 0)) m.natAbs e), ?_⟩
    simp only
    rw [(round_has (by decide) (by decide) hv hr).1]
    rfl
  exact Set.exists_min_image _ (fun r => |r - q|) hfin ⟨0, has_zero _⟩

theorem divided_exists (x : FV) (n : ℕ) : ∃ y, Divided x n y := by
  cases hx : val x with
  | none => exact ⟨x, fun q hq => by rw [hx] at hq; cases hq⟩
  | some q =>
    obtain ⟨r, h1, h2⟩ := nearest_exists (q / n)
    obtain ⟨m, e, h3, _⟩ := id h1
    refine ⟨.fin (decide (m < 0)) m.natAbs e, fun q' hq' _ => ?_⟩
    obtain rfl : q = q' := Option.some.inj (hx.symm.trans hq')
    refine ⟨r, ?_, h1, h2⟩
    simp only [val, decide_eq_true_eq]
    rw [h3]
    congr 1
    split_ifs with h
    · rw [← neg_mul]; congr 1; rw [← Int.cast_natCast, Int.ofNat_natAbs_of_nonpos h.le]; push_cast; ring
    · congr 1; rw [← Int.cast_natCast, Int.natAbs_of_nonneg (not_lt.1 h)]

/-! ## An example

`merge(n_average(f, add_difference(f, subtract(g, f), alpha=0.75)), output=...)` with the files of `Verif/Props/Readme.lean`: `f` holds `a = [1, -0, 0.1]`, `b = [3]` and
`c = [5]`, `g` holds `a = [2, -0, 0.2]` and `old.b = [-4]`, where `old.b` is an alias of `b`. -/

namespace Ex
open Readme.Ex (opened cfg T num)

noncomputable section

theorem mean_exists (xs : List FV) : ∃ y, xs ≠ [] → ∃ s, Sums xs s ∧ Divided s xs.length y := by
  by_cases h : xs = []
  · exact ⟨zero, fun h' => absurd h h'⟩
  · obtain ⟨s, hs⟩ := sums_exist h
    obtain ⟨y, hy⟩ := divided_exists s xs.length
    exact ⟨y, fun _ => ⟨s, hs, hy⟩⟩

/-- The mean of two numbers is half of their sum; of others, some mean. -/
def mean : List FV → FV
  | [x, y] => fmul (fadd x y) (.fin false 1 (-1))
  | xs => Classical.choose (mean_exists xs)

def A : Arith := ⟨T, fun a b alpha => fadd a (fmul b alpha), fun _ _ => mean, fun _ _ _ => .error .runtime, fun _ _ => .error .runtime, fun _ => .error .runtime⟩

theorem rounds : Mean A := by
  intro sh i xs hne
  have other : mean xs = Classical.choose (mean_exists xs) → ∃ s, Sums xs s ∧
      (Divided s xs.length (A.mean sh i xs) ∨ ∃ c, Divided one xs.length c ∧ A.mean sh i xs = fmul s c) := by
    intro h
    obtain ⟨s, h1, h2⟩ := Classical.choose_spec (mean_exists xs) hne
    exact ⟨s, h1, .inl (by show Divided s _ (mean xs); rw [h]; exact h2)⟩
  match xs with
  | [] => exact absurd rfl hne
  | [x] => exact other rfl
  | [x, y] =>
    refine ⟨fadd x y, .add (.one x) (.one y), .inr ⟨.fin false 1 (-1), ?_, rfl⟩⟩
    intro q hq _
    rw [val_one] at hq
    cases hq
    have e : val (.fin false 1 (-1)) = some ((1 : ℚ) / (2 : ℕ)) := by simp [val]
    refine ⟨1 / (2 : ℕ), e, ?_, fun r' _ => by simp⟩
    have := has_double (N := 1) (e := -1) (by norm_num) (by norm_num) (by norm_num)
    norm_num at this ⊢
    exact this
  | x :: y :: z :: l => exact other rfl

def P : PWorld (Option Int) Tensor where
  env := ⟨[(nFallback, fallbackSig), (nCast, castSig), (nPick, componentSig), (nOmit, componentSig), (nWeighted, Readme.weightedSig (some 2)),
    (Lora.nAdd, Lora.addSig (some 4)), (Wrappers.nSub, Wrappers.subtractSig), (nAverage, averageSig)], ["t-c".toList], allSpaces, id⟩
  conv := Readme.Ex.P.conv
  tensors _ := ⟨.u8, [0], []⟩
  configs c := if c = "t-c".toList then some cfg else none
  source m := if m = nFallback then fallbackSource else if m = nCast then castSource (move T.other) else if m = nPick then pickSource
    else if m = nOmit then omitSource else if m = nWeighted then weightedSource T else if m = Lora.nAdd then Lora.addSource (addcmul A)
    else if m = Wrappers.nSub then subSource A else averageSource A

def shape (k : Str) : List ℕ := if k = "a".toList then [3] else []

theorem halves (p k : Str) (u : Tensor) (hu : held opened cfg p k = some u) : u.dtype = .f16 ∧ u.shape = shape k ∧ 2 * numel u.shape ≤ 1000 := by
  have hp : p = "f".toList ∨ p = "g".toList := by
    have := held_open hu
    unfold opened at this
    split_ifs at this with h1 h2
    · exact .inl h1
    · exact .inr h2
    · exact absurd rfl this
  have hname : ∀ name t, tensorIn opened p name = some t → name ∈ ["a".toList, "b".toList, "c".toList, "old.b".toList] := by
    intro name t h
    unfold tensorIn at h
    split at h
    · rename_i t' ht
      unfold stored at ht
      have key : ∀ (s : StreamIn.State), opened p = some s → name ∈ Dict.keys s.header → name ∈ ["a".toList, "b".toList, "c".toList, "old.b".toList] := by
        intro s hs hn
        unfold opened at hs
        rcases hp with rfl | rfl
        · simp only [if_true] at hs
          rw [← Option.some.inj hs] at hn
          have : ∀ n ∈ Dict.keys Readme.Ex.headerF, n ∈ ["a".toList, "b".toList, "c".toList, "old.b".toList] := by decide
          exact this name hn
        · rw [if_neg (by decide), if_pos rfl] at hs
          rw [← Option.some.inj hs] at hn
          have : ∀ n ∈ Dict.keys Readme.Ex.headerG, n ∈ ["a".toList, "b".toList, "c".toList, "old.b".toList] := by decide
          exact this name hn
      cases ho : opened p with
      | none => rw [ho] at ht; cases ht
      | some s =>
        rw [ho] at ht
        simp only at ht
        split_ifs at ht
        split at ht
        · rename_i e he
          exact key s ho (List.mem_map.2 ⟨_, Dict.mem_of_get? he, rfl⟩)
        · cases ht
    · cases h
  have hk : k ∈ ["a".toList, "b".toList, "c".toList, "old.b".toList] := by
    obtain ⟨name, hn, ht⟩ := List.exists_of_findSome?_eq_some hu
    rcases List.mem_cons.1 hn with rfl | hn
    · exact hname _ _ ht
    · have hal : cfg.aliases = [("a".toList, []), ("b".toList, ["old.b".toList]), ("c".toList, [])] := by decide +kernel
      rw [hal] at hn
      by_cases hb : k = "b".toList
      · rw [hb]; decide
      · exfalso
        cases hg : Dict.get? [("a".toList, []), ("b".toList, ["old.b".toList]), ("c".toList, ([] : List Str))] k with
        | none => rw [hg] at hn; cases hn
        | some l =>
          have := Dict.mem_of_get? hg
          simp only [List.mem_cons, List.not_mem_nil, or_false, Prod.mk.injEq] at this
          rw [hg] at hn
          rcases this with ⟨_, rfl⟩ | ⟨h, _⟩ | ⟨_, rfl⟩
          · cases hn
          · exact hb h
          · cases hn
  have h : ∀ p ∈ ["f".toList, "g".toList], ∀ k ∈ ["a".toList, "b".toList, "c".toList, "old.b".toList], ∀ u ∈ held opened cfg p k,
      u.dtype = .f16 ∧ u.shape = shape k ∧ 2 * numel u.shape ≤ 1000 := by
    decide +kernel
  exact h p (by rcases hp with rfl | rfl <;> simp) k hk u hu

theorem scene : Scene A P num (some 2) (some 4) opened "t-c".toList cfg shape 1000 where
  registered := by constructor <;> rfl
  fma _ _ _ := .inl rfl
  rounds := rounds
  meanIs := rfl
  meanSig := rfl
  weightedIs := rfl
  addIs := rfl
  subIs := rfl
  weightedSig := rfl
  addSig := rfl
  subSig := rfl
  tensor _ := rfl
  files := Readme.Ex.opened_ok
  config := rfl
  names k hk := by rcases Readme.Ex.wanted hk with rfl | rfl | rfl <;> decide
  floats p k u hu := by
    obtain ⟨h1, h2⟩ := halves p k u hu
    exact ⟨by rw [h1]; rfl, h2⟩

def f : Val (Option Int) := .model "f".toList (some "t-c".toList) (some "weight".toList)
def g : Val (Option Int) := .model "g".toList (some "t-c".toList) (some "weight".toList)

/-- `alpha=0.75` -/
def d : Val (Option Int) := addDifference f (subtract g f) (some 3)

def both : Fin 2 → Val (Option Int)
  | 0 => f
  | 1 => d

def r : Val (Option Int) := Spec.average [f, d]

theorem r_eq : Spec.average (List.ofFn both) = r := by simp [r, both, List.ofFn_succ]

theorem weight_r : Weight (num (some 3)) (3 / 4) := by
  unfold Weight
  have : decode single (encode single (num (some 3))) = .fin false 12582912 (-24) := by decide +kernel
  rw [this]
  simp only [val]
  norm_num

theorem linear_r : Linear num (fun p => opened p ≠ none) "t-c".toList "weight".toList r ["f".toList, "f".toList, "g".toList, "f".toList] := by
  have hf : Linear num (fun p => opened p ≠ none) "t-c".toList "weight".toList f ["f".toList] := .model (by decide +kernel) (.inl rfl)
  have hg : Linear num (fun p => opened p ≠ none) "t-c".toList "weight".toList g ["g".toList] := .model (by decide +kernel) (.inl rfl)
  have hd : Linear num (fun p => opened p ≠ none) "t-c".toList "weight".toList d ["f".toList, "g".toList, "f".toList] := .add hf (.sub hg hf) weight_r
  have := Linear.mean (n := 1) both (fun | 0 => ["f".toList] | 1 => ["f".toList, "g".toList, "f".toList]) (fun | 0 => hf | 1 => hd)
  rw [r_eq] at this
  exact this

def merged : Val (Option Int) := match prepare P.env defaults r with | .ok p => p.2 | .error _ => .none

def keys : List Str := ["a".toList, "b".toList, "c".toList]

/-- What the merge computes -/
def stores : List (Str × Tensor) := (Threads.sequential (Threads.fileProgram P merged) opened keys).1

def text : Option Str := match recipeText Serialize.Ex.num r with | .ok t => t | .error _ => none

def declared : Dict Key StreamOut.Meta := keys.map fun k => (k, ⟨none, none⟩)

def actions : List StreamOut.Action := stores.flatMap fun p => [.begin 0 p.1 p.2, .locked 0, .finish 0]

def writer : StreamOut.State := (StreamOut.run (StreamOut.init declared text 2 10000) actions).getD (StreamOut.init declared text 2 10000)

def file : Bytes := match StreamOut.close writer with | .ok f => f | .error _ => []

theorem ran : Threads.sequential (Threads.fileProgram P merged) opened keys = (stores, .returned) := by decide +kernel

def saves : Saves P Serialize.Ex.num defaults opened r 0 file where
  original := r
  merged := merged
  keys := keys
  stores := stores
  prepared := by decide +kernel
  planned := by decide +kernel
  ran := ran
  text := text
  declared := declared
  minBuf := 2
  cap := 10000
  actions := actions
  writer := writer
  serialized := by decide +kernel
  wrote := by decide +kernel
  quiet := by unfold StreamOut.Spec.Quiescent; decide +kernel
  assigned := by decide +kernel
  complete := ⟨by decide, by decide +kernel, by decide +kernel, by decide +kernel⟩
  closed := by decide +kernel

theorem entry_f : entryOf opened cfg "b".toList 0 "f".toList = some 3 := by
  have h : held opened cfg "f".toList "b".toList = some ⟨.f16, [], [0x00, 0x42]⟩ := by decide +kernel
  have h2 : (entries ⟨.f16, [], [0x00, 0x42]⟩)[0]? = some 0x4200 := by decide
  have h3 : read .f16 0x4200 = .fin false 1536 (-9) := by decide
  unfold entryOf
  simp only [h, h2, h3, val]
  norm_num

theorem entry_g : entryOf opened cfg "b".toList 0 "g".toList = some (-4) := by
  have h : held opened cfg "g".toList "b".toList = some ⟨.f16, [], [0x00, 0xC4]⟩ := by decide +kernel
  have h2 : (entries ⟨.f16, [], [0x00, 0xC4]⟩)[0]? = some 0xC400 := by decide
  have h3 : read .f16 0xC400 = .fin true 1024 (-8) := by decide
  unfold entryOf
  simp only [h, h2, h3, val]
  norm_num

/-- `(3 + (3 + 0.75 * (-4 - 3))) / 2` -/
theorem term_r : ∃ size, size ≤ 9 ∧ Term (entryOf opened cfg "b".toList 0) num r ((3 + (3 + 3 / 4 * (-4 - 3))) / 2) size 7 27 := by
  have e : 0 < eta ∧ eta < 1 / 16 := by
    constructor
    · unfold eta; positivity
    · calc eta ≤ (2 : ℚ) ^ (-5 : ℤ) := zpow_le_zpow_right₀ (by norm_num) (by norm_num)
        _ < 1 / 16 := by norm_num
  have big : (9 : ℚ) < 2 ^ 1000 := lt_of_lt_of_le (by norm_num : (9 : ℚ) < 2 ^ 4) (pow_le_pow_right₀ (by norm_num) (by norm_num))
  have big16 : (16 : ℚ) < 2 ^ 1000 := lt_of_lt_of_le (by norm_num : (16 : ℚ) < 2 ^ 5) (pow_le_pow_right₀ (by norm_num) (by norm_num))
  have a3 : |(3 : ℚ)| = 3 := abs_of_pos (by norm_num)
  have a4 : |(-4 : ℚ)| = 4 := by rw [abs_neg]; exact abs_of_pos (by norm_num)
  have hf : Term (entryOf opened cfg "b".toList 0) num f 3 |3| 0 24 := .model (z := 3 * 2 ^ 24) entry_f (by norm_num) (lt_of_le_of_lt (by rw [a3]; norm_num) big)
  have hg : Term (entryOf opened cfg "b".toList 0) num g (-4) |-4| 0 24 := .model (z := -4 * 2 ^ 24) entry_g (by norm_num) (lt_of_le_of_lt (by rw [a4]; norm_num) big)
  have aw : |(3 / 4 : ℚ)| = 3 / 4 := abs_of_pos (by norm_num)
  have hs : Term (entryOf opened cfg "b".toList 0) num (subtract g f) (-4 - 3) (|-4| + |3| + eta) 1 24 :=
    .sub hg hf (lt_of_le_of_lt (by rw [a3, a4]; linarith [e.2]) big)
  have hd : Term (entryOf opened cfg "b".toList 0) num d (3 + 3 / 4 * (-4 - 3)) (|3| + |3 / 4| * (|-4| + |3| + eta) + eta) 3 26 :=
    .add (z := 3) (j := 2) weight_r (by norm_num) hf hs (lt_of_le_of_lt (by rw [a3, a4, aw]; linarith [e.2]) big)
  have hm := Term.mean (entry := entryOf opened cfg "b".toList 0) (num := num) (k := 1) both (fun | 0 => 3 | 1 => 3 + 3 / 4 * (-4 - 3))
    (fun | 0 => |3| | 1 => |3| + |3 / 4| * (|-4| + |3| + eta) + eta) (fun | 0 => 0 | 1 => 3) (fun | 0 => 24 | 1 => 26) (n := 3) (g := 27)
    (fun | 0 => hf | 1 => hd) (fun | 0 => by norm_num | 1 => by norm_num) (lt_of_le_of_lt (by simp [List.ofFn_succ]; linarith [e.2]) big16)
    (.inl ⟨1, by norm_num, fun | 0 => by norm_num | 1 => by norm_num⟩)
  rw [r_eq] at hm
  refine ⟨_, ?_, by convert hm using 1; simp [List.ofFn_succ]⟩
  simp [List.ofFn_succ]
  linarith [e.2]

/-- C114_linear_partial applies: `b` is exactly `0.375`, and `c`, which `g` lacks, is not in the file. -/
example : ∃ s0, StreamIn.open_ file 2 1000 = .ok s0 ∧ "b".toList ∈ StreamIn.keys s0 ∧ "c".toList ∉ StreamIn.keys s0 ∧ ∃ s1 v o,
    StreamIn.getItem s0 "b".toList = (s1, .ok v) ∧ (entries ⟨v.dtype, v.shape, s1.read v⟩)[0]? = some o ∧ Nearest (3 / 8) o := by
  obtain ⟨s0, h1, h2, h3⟩ := C114_linear_partial scene Serialize.Ex.num linear_r 0 file saves 2 (by decide)
  have hw : Wanted cfg (defaults (F := Option Int)) "b".toList := by
    have : "b".toList ∈ Merge.targetKeys cfg true := by decide +kernel
    exact (Merge.mem_targetKeys _ _ _).1 this
  have hb : "b".toList ∈ StreamIn.keys s0 := (h2 _).2 ⟨hw, by decide +kernel⟩
  obtain ⟨s1, v, q1, _, _, _, q5⟩ := h3 _ hb []
  obtain ⟨size, hs, ht⟩ := term_r
  obtain ⟨o, x, o1, _, o3, o4⟩ := q5 0 _ size 7 27 ht (by norm_num)
  refine ⟨s0, h1, hb, fun h => ?_, s1, v, o, q1, o1, ?_⟩
  · have := ((h2 _).1 h).2 "g".toList (by simp)
    exact absurd this (by decide +kernel)
  · have hx : x = (3 + (3 + 3 / 4 * (-4 - 3))) / 2 := o3 (by norm_num; linarith)
    have := o4.nearest (by rw [hx, abs_of_pos (by norm_num)]; norm_num)
    rw [hx] at this
    norm_num at this ⊢
    exact this

/-- C114_calls applies. -/
example := C114_calls scene (paths := fun p => opened p ≠ none) (s := "weight".toList) (t := "weight".toList) (a := g) (b := f)
  (.model (by decide +kernel) (.inl rfl)) (.model (by decide +kernel) (.inl rfl)) (some 3) (3 / 4) weight_r

/-- C114_average applies. -/
example := C114_average scene (paths := fun p => opened p ≠ none) (s := "weight".toList) (n := 1) (fun | 0 => f | 1 => g) (fun | 0 => ["f".toList] | 1 => ["g".toList])
  (fun | 0 => .model (by decide +kernel) (.inl rfl) | 1 => .model (by decide +kernel) (.inl rfl))

end

end Ex

end Verif.Linear
