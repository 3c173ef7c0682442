import Verif.Proofs.CachedMemo
import Verif.Proofs.Text

/-!
# Caches of instructions (C115)

`runAll l σ` are the merges `l`, one after the other, with caches that hold `σ` at the beginning; in each merge the threads take turns as its schedule says.
`eval W.base r.plain key` is the value of the recipe without caches.
-/
namespace Verif.Cached
open Method Recipe Config Eval Eval.Spec Program Program.Spec Spec

theorem forall₂_mem {A B : Type} {R Q : A → B → Prop} {l : List A} {l' : List B} (h : ∀ a b, a ∈ l → R a b → Q a b) (hr : List.Forall₂ R l l') : List.Forall₂ Q l l' := by
  induction hr with
  | nil => exact .nil
  | cons hab _ ih => exact .cons (h _ _ (by simp) hab) (ih fun a b ha => h a b (by simp [ha]))

section
variable {F T : Type}

/-- If the functions that use caches are indifferent to what is in them, as long as it satisfies `I`, and store only what does, then in any number of merges, of any recipes,
with any interleaving of the threads, each key that is done has the value it has without caches. -/
theorem C115_indifferent {I : ℕ → Str → RVal F T → Prop} (l : List (Session F T)) (h : ∀ s ∈ l, Agrees s.world ∧ Fits s.world I s.recipe) {σ : Store (RVal F T)} (hσ : Holds I σ) :
    List.Forall₂ Right l (runAll l σ).2 :=
  (runAll_right l h hσ).2

/-- Whatever the threads have done so far, all keys can still be finished. -/
theorem C115_ends (s : Session F T) (σ : Store (RVal F T)) :
    ∃ more, ∀ p ∈ (Session.run { s with schedule := s.schedule ++ more } σ).2, ∃ x, p = .ret x := by
  obtain ⟨more, h1, h2⟩ := finish_all (s.run σ).2.length (s.run σ).1 (s.run σ).2 (le_refl _)
  refine ⟨more, fun p hp => ?_⟩
  unfold Session.run at hp
  rw [runPool_append] at hp
  obtain ⟨i, hi, rfl⟩ := List.getElem_of_mem hp
  have hi' : i < (s.run σ).2.length := by rw [← h1]; exact hi
  obtain ⟨a, ha⟩ := h2 i hi'
  refine ⟨a, ?_⟩
  rw [List.getElem_eq_iff]
  exact ha

/-- The recipe that is merged is the one that is merged without caches, and has the caches of the recipe that was given, on the same methods in the same order. -/
theorem C115_kept {E : Env F} (hC : E.resolve nCast = .ok castSig) (hF : E.resolve nFallback = .ok fallbackSig) {o : Whole.Options F} {r r' : CVal F}
    (hr : r.plain.isNode = true) (hu : Uniform r) (hn : Named r) (h : prepareC E o r = .ok r') :
    Whole.prepare E o r.plain = .ok (r.plain, r'.plain) ∧ (cachedOf r').map (fun i => (i.method, i.cache)) = (cachedOf r).map fun i => (i.method, i.cache) := by
  obtain ⟨h1, h2, _⟩ := prepareC_kept hC hF hr hu hn h
  refine ⟨h1, ?_⟩
  generalize cachedOf r = a at h2
  generalize cachedOf r' = b at h2
  induction h2 with
  | nil => rfl
  | cons h _ ih => rw [List.map_cons, List.map_cons, ih, (prepOf_cache h).1, (prepOf_cache h).2]

/-- Functions that compute an entry per key, if their cache has none, and go on from the entry.  The caches are new, and no two different instructions have the same.
Then any number of merges with the same merge dtype and device, of recipes made of these instructions, with any fallback and output dtype, with any interleaving of the threads,
gives each key the value that merging without caches gives. -/
theorem C115_memo {W : CWorld F T} (hA : Agrees W) (hC : W.base.env.resolve nCast = .ok castSig) (hF : W.base.env.resolve nFallback = .ok fallbackSig)
    (μ : Str → Memo F T) (l : List (Asked F)) (d t : Option Str)
    (hm : ∀ m ∈ l, m.options.mergeDevice = d ∧ m.options.mergeDtype = t ∧ m.recipe.plain.isNode = true ∧ Uniform m.recipe ∧ Named m.recipe ∧
      prepareC W.base.env m.options m.recipe = .ok m.prepared)
    (hone : ∀ m ∈ l, ∀ m' ∈ l, ∀ i ∈ cachedOf m.recipe, ∀ j ∈ cachedOf m'.recipe, i.cache = j.cache → i = j)
    (hμ : ∀ m ∈ l, ∀ i ∈ cachedOf m.recipe, ∀ body, W.cached i.method = some body →
      body = (μ i.method).cached ∧ (W.source i.method).body = (μ i.method).plain) :
    List.Forall₂ (fun m ps => ps.length = m.keys.length ∧ ∃ r, Whole.prepare W.base.env m.options m.recipe.plain = .ok (m.recipe.plain, r) ∧
      ∀ (i : ℕ) (key : Str) (x : Res F T), m.keys[i]? = some key → ps[i]? = some (CProg.ret x) → x = eval W.base r key) l (runAll (l.map (Asked.session W)) empty).2 := by
  have prep := fun m hml => prepareC_kept hC hF (hm m hml).2.2.1 (hm m hml).2.2.2.1 (hm m hml).2.2.2.2.1 (hm m hml).2.2.2.2.2
  obtain ⟨S, hS⟩ : ∃ S : List (Instr F), S = l.flatMap fun m => cachedOf m.prepared := ⟨_, rfl⟩
  have back : ∀ m ∈ l, ∀ j ∈ cachedOf m.prepared, ∃ i ∈ cachedOf m.recipe, PrepOf W.base.env m.options i j := by
    intro m hml j hj
    have h2 := (prep m hml).2.1
    generalize cachedOf m.recipe = a at h2
    generalize cachedOf m.prepared = b at h2 hj
    induction h2 with
    | nil => cases hj
    | cons h _ ih =>
      rcases List.mem_cons.1 hj with rfl | hj
      · exact ⟨_, by simp, h⟩
      · obtain ⟨i, hi, h⟩ := ih hj
        exact ⟨i, by simp [hi], h⟩
  have hone' : ∀ i ∈ S, ∀ j ∈ S, i.cache = j.cache → i = j := by
    intro i hi j hj hc
    rw [hS] at hi hj
    obtain ⟨m, hml, hi⟩ := List.mem_flatMap.1 hi
    obtain ⟨m', hml', hj⟩ := List.mem_flatMap.1 hj
    obtain ⟨i0, hi0, hi⟩ := back m hml i hi
    obtain ⟨j0, hj0, hj⟩ := back m' hml' j hj
    have h0 := hone m hml m' hml' i0 hi0 j0 hj0 (by rw [← (prepOf_cache hi).2, ← (prepOf_cache hj).2, hc])
    subst h0
    exact prepOf_unique ((hm m hml).1.trans (hm m' hml').1.symm) ((hm m hml).2.1.trans (hm m' hml').2.1.symm) hi hj
  have hμ' : ∀ i ∈ S, ∀ body, W.cached i.method = some body → body = (μ i.method).cached ∧ (W.source i.method).body = (μ i.method).plain := by
    intro i hi body hb
    rw [hS] at hi
    obtain ⟨m, hml, hi⟩ := List.mem_flatMap.1 hi
    obtain ⟨i0, hi0, hi⟩ := back m hml i hi
    rw [(prepOf_cache hi).1] at hb ⊢
    exact hμ m hml i0 hi0 body hb
  have main := C115_indifferent (I := Entry W.base μ S) (l.map (Asked.session W)) (by
    intro s hs
    obtain ⟨m, hml, rfl⟩ := List.mem_map.1 hs
    refine ⟨hA, memo_fits hA hone' hμ' m.prepared (prep m hml).2.2 fun i hi => ?_⟩
    rw [hS]
    exact List.mem_flatMap.2 ⟨m, hml, hi⟩) (σ := empty) (fun c n v h => by cases h)
  rw [List.forall₂_map_left_iff] at main
  refine forall₂_mem (R := fun m ps => Right (Asked.session W m) ps) (fun m ps hml hr => ?_) main
  exact ⟨hr.1, m.prepared.plain, (prep m hml).1, hr.2⟩
end

/-! ### Examples -/

namespace Ex

def s (x : String) : Str := x.toList

/-- `float16` keeps 4 bits. -/
def move (_ t : Option Str) (x : ℕ) : Except Err ℕ := if t = some (s "float16") then .ok (x % 16) else .ok x

def toTensor : RVal ℕ ℕ → Except Err ℕ
  | .int i => .ok i.toNat
  | _ => .error .type

def conv : Conv ℕ ℕ := ⟨fun _ => .error .type, fun _ => .error .type, toTensor⟩

/-- The entry is the square of the tensor, the result the entry plus the tensor. -/
def square : Memo ℕ ℕ where
  entry
    | [.val (.tensor x)], _, _ => .done (.ok (.tensor (x * x)))
    | _, _, _ => .done (.error .type)
  use
    | .tensor v, [.val (.tensor x)], _, _ => .done (.ok (.tensor (v + x)))
    | _, _, _, _ => .done (.error .type)

/-- `a[key]` for a mapping; the entry does not depend on the current key alone, the mapping is asked while the function runs. -/
def lookup : Memo ℕ ℕ where
  entry _ _ key := .ask (.pos 0) key .done
  use v _ _ _ := .done (.ok v)

def source (m : Str) : Source ℕ ℕ :=
  if m = nCast then Whole.castSource move else if m = nFallback then Whole.fallbackSource
  else if m = s "lookup" then ⟨⟨[.sd .tensor], none, []⟩, lookup.plain⟩ else ⟨⟨[.val .tensor], none, []⟩, square.plain⟩

def sig : Sig (Val ℕ) := ⟨[(s "a", plain)], none, [], [], [], .none, none⟩

def env : Env ℕ := ⟨[(nCast, castSig), (nFallback, fallbackSig), (s "square", sig), (s "lookup", sig)], [s "c"], [s "weight", s "param"], id⟩

def cfg : ModelConfig := ⟨s "c", [(s "m", [(s "k1", ⟨none, none, [], false⟩), (s "k2", ⟨none, none, [], false⟩)])]⟩

def files : Dict Str (Dict Str ℕ) := [(s "f", [(s "k1", 3), (s "k2", 5)]), (s "g", [(s "k1", 7), (s "k2", 20)])]

def base : World ℕ ℕ where
  env := env
  conv := conv
  tensors := id
  read p k := match (files.get? p).bind fun d => d.get? k with | some v => .ok v | none => .error .key
  configs c := if c = s "c" then some cfg else none
  impl m := impl (source m)

/-- The methods `square` and `lookup` use a cache if there is one. -/
def W : CWorld ℕ ℕ := ⟨base, source, fun m => if m = s "square" then some square.cached else if m = s "lookup" then some lookup.cached else none⟩

theorem agrees : Agrees W := fun _ => rfl

def memo (m : Str) : Memo ℕ ℕ := if m = s "lookup" then lookup else square

theorem memoizes (m : Str) (body : Body ℕ ℕ) (h : W.cached m = some body) : body = (memo m).cached ∧ (W.source m).body = (memo m).plain := by
  change (if m = s "square" then some square.cached else if m = s "lookup" then some lookup.cached else none) = some body at h
  split_ifs at h with h1 h2
  · subst h1
    cases h
    have e1 : memo (s "square") = square := if_neg (by decide)
    rw [e1]
    refine ⟨rfl, ?_⟩
    show (source (s "square")).body = _
    unfold source
    rw [if_neg (by decide), if_neg (by decide), if_neg (by decide)]
  · subst h2
    cases h
    have e1 : memo (s "lookup") = lookup := if_pos rfl
    rw [e1]
    refine ⟨rfl, ?_⟩
    show (source (s "lookup")).body = _
    unfold source
    rw [if_neg (by decide), if_neg (by decide), if_pos rfl]

def file (p : String) : CVal ℕ := .leaf (.model (s p) (some (s "c")) (some (s "weight")))

/-- `square` of a file, with cache 0 -/
def sq (p : String) : CVal ℕ := .merge (s "square") [file p] [] (some 0)

/-- `lookup` of `square` of a file, with cache 1 -/
def nested : CVal ℕ := .merge (s "lookup") [sq "f"] [] (some 1)

def options (t out : Option Str) (fb : Option (Val ℕ)) : Whole.Options ℕ := ⟨fb, none, t, none, out, true, false⟩

/-- What is merged for `o` and `r` -/
def ready (o : Whole.Options ℕ) (r : CVal ℕ) : CVal ℕ := match prepareC env o r with | .ok r => r | .error _ => r

/-- `square(f)` with a fallback, then `lookup(square(f))`: in both merges the threads of two keys take turns. -/
def first : Whole.Options ℕ := options (some (s "float64")) (some (s "float16")) (some (.model (s "g") (some (s "c")) (some (s "weight"))))
def second : Whole.Options ℕ := options (some (s "float64")) none none

def asked : List (Asked ℕ) :=
  [⟨first, sq "f", ready first (sq "f"), [s "k1", s "k2"], [0, 1, 1, 0]⟩, ⟨second, nested, ready second nested, [s "k2", s "k1"], [1, 0, 0, 1, 0, 1, 1, 0]⟩]

end Ex

/-- 3 and 5: the results are 9 + 3 and 25 + 5, the latter as float16 in the first merge. -/
example : (runAll (Ex.asked.map (Asked.session Ex.W)) empty).2.map (fun ps => ps.map answer) =
    [[some (.ok (.tensor 12)), some (.ok (.tensor 14))], [some (.ok (.tensor 30)), some (.ok (.tensor 12))]] := by decide +kernel

/-- The theorem applies to them: its hypotheses hold. -/
example : List.Forall₂ (fun m ps => ps.length = m.keys.length ∧ ∃ r, Whole.prepare Ex.W.base.env m.options m.recipe.plain = .ok (m.recipe.plain, r) ∧
      ∀ (i : ℕ) (key : Str) (x : Res ℕ ℕ), m.keys[i]? = some key → ps[i]? = some (CProg.ret x) → x = eval Ex.W.base r key) Ex.asked
    (runAll (Ex.asked.map (Asked.session Ex.W)) empty).2 := by
  refine C115_memo Ex.agrees (by decide +kernel) (by decide +kernel) Ex.memo Ex.asked none (some (Ex.s "float64")) ?_ (by decide +kernel)
    fun m _ i _ body h => Ex.memoizes i.method body h
  intro m hm
  simp only [Ex.asked, List.mem_cons, List.not_mem_nil, or_false] at hm
  rcases hm with rfl | rfl
  · refine ⟨rfl, rfl, by decide +kernel, ?_, ?_, by kernel_rfl⟩
    · simp [Ex.sq, Ex.file, Uniform, UniformL, UniformK]
    · simp [Ex.sq, Ex.file, Named, NamedL, NamedK, plainK, Dict.keys]
  · refine ⟨rfl, rfl, by decide +kernel, ?_, ?_, by kernel_rfl⟩
    · simp [Ex.nested, Ex.sq, Ex.file, Uniform, UniformL, UniformK]
    · simp [Ex.nested, Ex.sq, Ex.file, Named, NamedL, NamedK, plainK, Dict.keys]

/-! ### Where a cache changes results -/

/-- The result of the second of two merges of one key -/
def Ex.later (W : CWorld ℕ ℕ) (r r' : CVal ℕ) (key : Str) : Option (Res ℕ ℕ) :=
  (((runAll [⟨W, r, [key], [0, 0]⟩, ⟨W, r', [key], [0, 0]⟩] empty).2[1]?).bind (·[0]?)).bind answer

/-- Two instructions that share a cache, with different arguments: the second gets the entry of the first. -/
theorem C115_shared_false : ∃ (W : CWorld ℕ ℕ) (μ : Str → Memo ℕ ℕ) (r r' : CVal ℕ) (key : Str) (x : Res ℕ ℕ), Agrees W ∧
    (∀ m body, W.cached m = some body → body = (μ m).cached ∧ (W.source m).body = (μ m).plain) ∧ Ex.later W r r' key = some x ∧ x ≠ eval W.base r'.plain key :=
  ⟨Ex.W, Ex.memo, Ex.sq "f", Ex.sq "g", Ex.s "k1", .ok (.tensor 16), Ex.agrees, Ex.memoizes, by decide +kernel, by decide +kernel⟩

/-- A recipe that is merged again, with another merge dtype: it gets the entries computed for the dtype before. -/
theorem C115_dtype_false : ∃ (W : CWorld ℕ ℕ) (μ : Str → Memo ℕ ℕ) (o o' : Whole.Options ℕ) (r p p' : CVal ℕ) (key : Str) (x : Res ℕ ℕ), Agrees W ∧
    (∀ m body, W.cached m = some body → body = (μ m).cached ∧ (W.source m).body = (μ m).plain) ∧ o' = { o with mergeDtype := some "float64".toList } ∧
    prepareC W.base.env o r = .ok p ∧ prepareC W.base.env o' r = .ok p' ∧ Ex.later W p p' key = some x ∧ x ≠ eval W.base p'.plain key :=
  ⟨Ex.W, Ex.memo, Ex.options (some (Ex.s "float16")) none none, Ex.second, Ex.sq "g", Ex.ready (Ex.options (some (Ex.s "float16")) none none) (Ex.sq "g"), Ex.ready Ex.second (Ex.sq "g"),
    Ex.s "k2", .ok (.tensor 36), Ex.agrees, Ex.memoizes, rfl, by kernel_rfl, by kernel_rfl, by decide +kernel, by decide +kernel⟩

/-- `square` with its entries stored in a smaller format, as `rotate` does (builtin/merge_methods/__init__.py:424-429) -/
def Ex.halved : Body ℕ ℕ := fun as ks key =>
  .get key fun
    | some v => andThenC (Ex.square.use v as ks key) .done
    | none => andThenC (Ex.square.entry as ks key) fun
      | .ok (.tensor v) => .put key (.tensor (v % 16)) (andThenC (Ex.square.use (.tensor v) as ks key) .done)
      | r => .done r

/-- A function that stores its entries rounded, and goes on from the exact ones: merging the same recipe again gives another result. -/
theorem C115_rounded_false : ∃ (W : CWorld ℕ ℕ) (r : CVal ℕ) (key : Str) (x : Res ℕ ℕ), Agrees W ∧ Ex.later W (.leaf r.plain) r key = some (eval W.base r.plain key) ∧
    Ex.later W r r key = some x ∧ x ≠ eval W.base r.plain key :=
  ⟨{ Ex.W with cached := fun m => if m = Ex.s "square" then some Ex.halved else none }, Ex.sq "f", Ex.s "k2", .ok (.tensor 14), Ex.agrees, by decide +kernel, by decide +kernel,
    by decide +kernel⟩

/-- A recipe whose threads have done nothing yet -/
example : ∃ more, ∀ p ∈ (Session.run ⟨Ex.W, Ex.nested, [Ex.s "k1", Ex.s "k2"], more⟩ empty).2, ∃ x, p = .ret x :=
  C115_ends ⟨Ex.W, Ex.nested, [Ex.s "k1", Ex.s "k2"], []⟩ empty

/-- The caches of `lookup(square(f))` after fallback and casts -/
example : (cachedOf (Ex.ready Ex.first Ex.nested)).map (fun i => (i.method, i.cache)) = [(Ex.s "lookup", 1), (Ex.s "square", 0)] ∧
    Whole.prepare Ex.env Ex.first Ex.nested.plain = .ok (Ex.nested.plain, (Ex.ready Ex.first Ex.nested).plain) := by
  have h := C115_kept (E := Ex.env) (o := Ex.first) (r := Ex.nested) (r' := Ex.ready Ex.first Ex.nested) (by decide +kernel) (by decide +kernel) (by decide +kernel)
    (by simp [Ex.nested, Ex.sq, Ex.file, Uniform, UniformL, UniformK]) (by simp [Ex.nested, Ex.sq, Ex.file, Named, NamedL, NamedK, plainK, Dict.keys]) (by kernel_rfl)
  exact ⟨h.2, h.1⟩

end Verif.Cached
