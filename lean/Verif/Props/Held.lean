import Verif.Proofs.HeldWhole
import Verif.Proofs.HeldThreads
import Verif.Proofs.HeldLoads
import Verif.Proofs.HeldText

/-!
# C119 What is held in memory while a key is merged; C120 How often tensors are loaded
-/
namespace Verif.Held
open Method Recipe Config Eval Program Whole Held.Spec
section
variable {F T : Type} (P : PWorld F T) (read : Str → Str → Except Err T)

/-- Saying what is held changes neither the value nor the loads: they are those of evaluating the recipe. -/
theorem C119_same (r : Val F) (key : Str) : value read (live P r key) = eval (Program.Spec.world P read) r key ∧
    loads (trace read (live P r key)) = loadsOf read (program P r key) := by
  constructor
  · rw [← value_forget, live_forget, program_value]
  · rw [← loads_forget, live_forget]

/-- When a key has been merged only its result is held. -/
theorem C119_end {k : ℕ} {r : Val F} (hs : Simple P k r) (hn : isNode r = true) {key : Str} {x : RVal F T}
    (hx : eval (Program.Spec.world P read) r key = .ok x) : heldAfter 0 (trace read (live P r key)) = 1 := by
  rw [← (C119_same P read r key).1] at hx
  have := (live_exact read P r hs key 0 x hx).1
  rw [fresh_eq, hn] at this
  simpa [weight] using this

/-- With methods of at most `K + 1` inputs, each level of the recipe adds at most `K` results to what is held at once. -/
theorem C119_height {K : ℕ} {r : Val F} (hs : Simple P (K + 1) r) {key : Str} {x : RVal F T}
    (hx : eval (Program.Spec.world P read) r key = .ok x) : AtMost (K * (height r - 1) + 2) (trace read (live P r key)) := by
  rw [← (C119_same P read r key).1] at hx
  rw [atMost_iff, (live_exact read P r hs key 0 x hx).2, Nat.zero_add]
  exact (good P r hs).deep

/-- At most about the square root of the size of the recipe is held at once. -/
theorem C119_root {K : ℕ} {r : Val F} (hs : Simple P (K + 1) r) {key : Str} {x : RVal F T}
    (hx : eval (Program.Spec.world P read) r key = .ok x) (before : List Event) (hb : before <+: trace read (live P r key)) :
    (heldAfter 0 before - 2) * (heldAfter 0 before - 2) ≤ 2 * K * size r := by
  rw [← (C119_same P read r key).1] at hx
  have h1 := prefix_top hb 0
  rw [(live_exact read P r hs key 0 x hx).2, Nat.zero_add] at h1
  have h2 : heldAfter 0 before - 2 ≤ bound r - 2 := by omega
  exact le_trans (Nat.mul_le_mul h2 h2) (good P r hs).root

/-- A recipe that takes in one model after the other holds a fixed number of results, however many models it takes in. -/
theorem C119_chain {K : ℕ} {r : Val F} (hs : Simple P (K + 1) r) (hc : Chain r) {key : Str} {x : RVal F T}
    (hx : eval (Program.Spec.world P read) r key = .ok x) : AtMost (2 * (K + 1)) (trace read (live P r key)) := by
  rw [← (C119_same P read r key).1] at hx
  rw [atMost_iff, (live_exact read P r hs key 0 x hx).2, Nat.zero_add]
  exact chain_bound P hc hs

/-- `merge` casts the inputs and the output of the recipe: the bounds for the recipe as it was given, with methods of at most `K + 1` arguments
and no fallback model. -/
theorem C119_merge {move : Option Str → Option Str → T → Except Err T} (hP : Registered P move) {K : ℕ} {o : Options F} (hfb : o.fallback = none)
    {recipe original p : Val F} (hn : isNode recipe = true) (hv : Narrow P (K + 1) recipe) (h : prepare P.env o recipe = .ok (original, p)) {key : Str}
    {x : RVal F T} (hx : eval (Program.Spec.world P read) p key = .ok x) :
    (∀ before, before <+: trace read (live P p key) → (heldAfter 0 before - 2) * (heldAfter 0 before - 2) ≤ 2 * K * (4 * size recipe + 3)) ∧
    (Accumulates recipe → AtMost (2 * (K + 1)) (trace read (live P p key))) ∧ heldAfter 0 (trace read (live P p key)) = 1 := by
  obtain ⟨h1, h2, h3, h4⟩ := prepared hP hfb hn hv h
  refine ⟨fun before hb => (C119_root P read h1 hx before hb).trans (Nat.mul_le_mul_left _ h2), fun ha => C119_chain P read h1 (h4 ha) hx,
    C119_end P read h1 h3 hx⟩

/-- Threads that merge any keys one after the other hold together, in every interleaving, at most what one key needs for each thread, however many
keys there are. -/
theorem C119_threads {k b : ℕ} {r : Val F} (hs : Simple P k r) (hn : isNode r = true) {threads : List (List Str)}
    (hx : ∀ keys ∈ threads, ∀ key ∈ keys, ∃ x, eval (Program.Spec.world P read) r key = .ok x)
    (hb : ∀ keys ∈ threads, ∀ key ∈ keys, AtMost b (trace read (live P r key))) {es : List Event}
    (hi : Interleaving (threads.map (work P read r)) es) : AtMost (threads.length * b) es := by
  rw [atMost_iff]
  have hf : List.Forall₂ (fun n t => Fits n t ∧ top n t ≤ b) (threads.map fun _ => 0) (threads.map (work P read r)) := by
    rw [List.forall₂_map_left_iff, List.forall₂_map_right_iff, List.forall₂_same]
    intro keys hk
    refine work_fits P read hs hn keys fun key hkey => ⟨?_, hb keys hk key hkey⟩
    obtain ⟨x, h⟩ := hx keys hk key hkey
    exact ⟨x, by rw [(C119_same P read r key).1]; exact h⟩
  have := interleaving_top hi _ hf
  rwa [List.length_map, show (threads.map fun _ => 0).sum = 0 from by simp] at this

/-- If the files have the key under its own name, merging it loads each model as often as it occurs in the recipe, and nothing else. -/
theorem C120_loads {k : ℕ} {r : Val F} (hs : Simple P k r) {key : Str} (hr : ∀ p ∈ paths r, ∃ t, read p key = .ok t) {x : RVal F T}
    (hx : eval (Program.Spec.world P read) r key = .ok x) : (loadsOf read (program P r key)).Perm ((paths r).map fun p => (p, key)) := by
  rw [← (C119_same P read r key).2]
  rw [← (C119_same P read r key).1] at hx
  exact live_loads read P r hs hr hx

/-- So a recipe in which no model occurs twice loads no tensor twice. -/
theorem C120_once {k : ℕ} {r : Val F} (hs : Simple P k r) {key : Str} (hr : ∀ p ∈ paths r, ∃ t, read p key = .ok t) {x : RVal F T}
    (hx : eval (Program.Spec.world P read) r key = .ok x) (hd : (paths r).Nodup) : (loadsOf read (program P r key)).Nodup :=
  (C120_loads P read hs hr hx).nodup_iff.2 (hd.map fun _ _ h => (Prod.mk.inj h).1)

end

/-! ### A method of two tensors -/

namespace Ex

/-- Adds two tensors (here: numbers) -/
def mixSource : Source ℕ ℕ where
  types := ⟨[.val .tensor, .val .tensor], none, []⟩
  body args _ _ :=
    match args with
    | [.val (.tensor x), .val (.tensor y)] => .done (.ok (.tensor (x + y)))
    | _ => .done (.error .type)

def nMix : Str := "mix".toList

def move (_ _ : Option Str) (x : ℕ) : Except Err ℕ := .ok x

def cfg : ModelConfig := ⟨"c".toList, [("all".toList, [("k".toList, ⟨some [], some "float32".toList, [], false⟩)])]⟩

def P : PWorld ℕ ℕ where
  env := ⟨[(nFallback, fallbackSig), (nCast, castSig), (nPick, componentSig), (nOmit, componentSig), (nMix, fallbackSig)], ["c".toList], allSpaces, id⟩
  conv := ⟨fun _ => .error .type, fun _ => .error .type, fun | .tensor t => .ok t | .float f => .ok f | _ => .error .type⟩
  tensors _ := 0
  configs c := if c = "c".toList then some cfg else none
  source m := if m = nFallback then fallbackSource else if m = nCast then castSource move else if m = nPick then pickSource
    else if m = nOmit then omitSource else mixSource

theorem registered : Registered P move := by constructor <;> rfl

def read (p _ : Str) : Except Err ℕ := .ok p.length

def key : Str := "k".toList

def model (p : Str) : Val ℕ := .model p (some "c".toList) (some "weight".toList)

def mix (a b : Val ℕ) : Val ℕ := .merge nMix [a, b] []

theorem mix_value {a b : Val ℕ} {x y : ℕ} (ha : (depth a).isSome) (hb : (depth b).isSome)
    (h1 : eval (Program.Spec.world P read) a key = .ok (.tensor x)) (h2 : eval (Program.Spec.world P read) b key = .ok (.tensor y)) :
    eval (Program.Spec.world P read) (mix a b) key = .ok (.tensor (x + y)) := by
  have ht : ∀ i ∈ [0, 1], Dict.get? ((Program.Spec.impl mixSource : Impl ℕ ℕ).types.asDict (some 2)) (.pos i) = some (.val .tensor) := by decide
  have hm : (Program.Spec.world P read).impl nMix = Program.Spec.impl mixSource := rfl
  have hc : ∀ t : ℕ, castTo (Program.Spec.world P read).conv .tensor (.tensor t) = .ok (.tensor t) := fun _ => rfl
  obtain ⟨da, hda⟩ := Option.isSome_iff_exists.1 ha
  obtain ⟨db, hdb⟩ := Option.isSome_iff_exists.1 hb
  unfold mix
  rw [eval, hm]
  simp only [evalL, evalK, List.append_nil, List.length_cons, List.length_nil, applyMerge, List.any_cons, List.any_nil, hda, hdb, Option.isNone_some,
    Bool.or_false, Bool.false_eq_true, if_false, applyOrdered, deeperFirst, List.foldl_cons, List.foldl_nil, insertDeep, Option.getD_some]
  split_ifs
  · simp only [stepAll, stepChild, ht 0 (by simp), ht 1 (by simp), h1, h2, hc]
    rfl
  · simp only [stepAll, stepChild, ht 0 (by simp), ht 1 (by simp), h1, h2, hc]
    rfl

theorem model_value (p : Str) : eval (Program.Spec.world P read) (model p) key = .ok (.tensor p.length) := by
  unfold model
  rw [eval]
  rfl

theorem mix_simple {a b : Val ℕ} (ha : Simple P 2 a) (hb : Simple P 2 b) : Simple P 2 (mix a b) := by
  unfold mix
  rw [Simple, SimpleL, SimpleL, SimpleL, SimpleK]
  refine ⟨?_, ?_, ⟨ha, hb, trivial⟩, trivial⟩
  · intro i t hi
    have e : (P.source nMix).types.asDict (some [a, b].length) = [(.pos 0, .val .tensor), (.pos 1, .val .tensor)] := rfl
    rw [e] at hi
    simp only [Dict.get?] at hi
    split_ifs at hi <;> cases hi
  · exact inputs_le _ _

theorem model_simple (p : Str) : Simple P 2 (model p) := by unfold model; simp [Simple, Flat]

/-- One model after the other, `n + 1` of them -/
def chain : ℕ → Val ℕ
  | 0 => model "a".toList
  | n + 1 => mix (chain n) (model "a".toList)

/-- At each level a chain as deep as all that is below -/
def tower : ℕ → Val ℕ
  | 0 => model "a".toList
  | n + 1 => mix (chain n) (tower n)

/-- Each level uses the one below twice -/
def double : ℕ → Val ℕ
  | 0 => model "a".toList
  | n + 1 => mix (double n) (double n)

theorem depth_mix {a b : Val ℕ} {da db : ℕ} (ha : depth a = some da) (hb : depth b = some db) : depth (mix a b) = some (max da db + 1) := by
  unfold mix
  rw [depth]
  simp only [depthL, depthK, List.append_nil, maxDepth, ha, hb]
  rfl

theorem chain_depth : ∀ n, depth (chain n) = some (n + 1)
  | 0 => rfl
  | n + 1 => by rw [chain, depth_mix (chain_depth n) (show depth (model "a".toList) = some 1 from rfl)]; congr 1; omega

theorem tower_depth : ∀ n, depth (tower n) = some (n + 1)
  | 0 => rfl
  | n + 1 => by rw [tower, depth_mix (chain_depth n) (tower_depth n)]; congr 1; omega

theorem double_depth : ∀ n, depth (double n) = some (n + 1)
  | 0 => rfl
  | n + 1 => by rw [double, depth_mix (double_depth n) (double_depth n)]; congr 1; omega

theorem chain_value : ∀ n, ∃ x, eval (Program.Spec.world P read) (chain n) key = .ok (.tensor x)
  | 0 => ⟨_, model_value _⟩
  | n + 1 => by
    obtain ⟨x, hx⟩ := chain_value n
    exact ⟨_, mix_value (by rw [chain_depth]; rfl) rfl hx (model_value _)⟩

theorem tower_value : ∀ n, ∃ x, eval (Program.Spec.world P read) (tower n) key = .ok (.tensor x)
  | 0 => ⟨_, model_value _⟩
  | n + 1 => by
    obtain ⟨x, hx⟩ := chain_value n
    obtain ⟨y, hy⟩ := tower_value n
    exact ⟨_, mix_value (by rw [chain_depth]; rfl) (by rw [tower_depth]; rfl) hx hy⟩

theorem double_value : ∀ n, ∃ x, eval (Program.Spec.world P read) (double n) key = .ok (.tensor x)
  | 0 => ⟨_, model_value _⟩
  | n + 1 => by
    obtain ⟨x, hx⟩ := double_value n
    exact ⟨_, mix_value (by rw [double_depth]; rfl) (by rw [double_depth]; rfl) hx hx⟩

theorem chain_simple : ∀ n, Simple P 2 (chain n)
  | 0 => model_simple _
  | n + 1 => mix_simple (chain_simple n) (model_simple _)

theorem tower_simple : ∀ n, Simple P 2 (tower n)
  | 0 => model_simple _
  | n + 1 => mix_simple (chain_simple n) (tower_simple n)

theorem double_simple : ∀ n, Simple P 2 (double n)
  | 0 => model_simple _
  | n + 1 => mix_simple (double_simple n) (double_simple n)

theorem size_mix (a b : Val ℕ) : size (mix a b) = 1 + size a + size b := by
  unfold mix
  simp only [size, sizeL, sizeK]
  omega

theorem chain_size : ∀ n, size (chain n) = 2 * n + 1
  | 0 => rfl
  | n + 1 => by rw [chain, size_mix, chain_size n, show size (model "a".toList) = 1 from rfl]; omega

theorem tower_size : ∀ n, size (tower n) = n * n + n + 1
  | 0 => rfl
  | n + 1 => by rw [tower, size_mix, chain_size n, tower_size n]; ring

theorem bound_mix {a b : Val ℕ} (ha : isNode a = true) (hb : isNode b = true) (h : height b ≤ height a) :
    bound (mix a b) = max (bound a) (max (1 + bound b) 3) := by
  unfold mix
  rw [bound]
  have e : sortKids (kidsL [a, b] ++ kidsK ([] : List (Str × Val ℕ))) = [kidOf a, kidOf b] := by
    show sortKids [kidOf a, kidOf b] = _
    simp only [sortKids, List.foldl_cons, List.foldl_nil, insertKid]
    rw [if_neg (by show ¬ height a < height b; omega)]
  rw [e]
  have wa : (kidOf a).isFresh = true := by rw [← ha]; exact fresh_eq a
  have wb : (kidOf b).isFresh = true := by rw [← hb]; exact fresh_eq b
  simp only [stack, count, wa, wb, weight, if_true]
  show max (bound a) (1 + max (bound b) (1 + 0)) ⊔ _ = _
  omega

theorem chain_node (n : ℕ) : isNode (chain n) = true := by cases n <;> rfl

theorem tower_node (n : ℕ) : isNode (tower n) = true := by cases n <;> rfl

theorem chain_bound_le : ∀ n, bound (chain n) ≤ 3
  | 0 => by decide
  | n + 1 => by
    have h1 := chain_bound_le n
    have h2 := depth_height _ (chain_depth n)
    rw [chain, bound_mix (chain_node n) rfl (by rw [← h2]; show 1 ≤ _; omega)]
    have : bound (model "a".toList) = 1 := by simp [model, bound]
    rw [this]
    omega

theorem tower_bound : ∀ n, bound (tower (n + 1)) = n + 3
  | 0 => by
    rw [tower, bound_mix (chain_node 0) (tower_node 0) (by rw [← depth_height _ (chain_depth 0), ← depth_height _ (tower_depth 0)])]
    have h1 : bound (chain 0) = 1 := by simp [chain, model, bound]
    have h2 : bound (tower 0) = 1 := by simp [tower, model, bound]
    rw [h1, h2]
    omega
  | n + 1 => by
    have h1 := chain_bound_le (n + 1)
    rw [tower, bound_mix (chain_node _) (tower_node _) (by rw [← depth_height _ (chain_depth _), ← depth_height _ (tower_depth _)]), tower_bound n]
    omega

theorem can_mix {a b : Val ℕ} (ha : isNode a = true) (hb : isNode b = true) {n : ℕ} (hn : 3 ≤ n) (h : Can b n ∧ Can a (n - 1) ∨ Can a n ∧ Can b (n - 1)) :
    Can (mix a b) n := by
  have hi : inputs [a, b] [] = [a, b] := by
    unfold inputs
    rw [List.map_nil, List.append_nil, List.filter_cons, if_pos ha, List.filter_cons, if_pos hb]
    rfl
  rcases h with ⟨h1, h2⟩ | ⟨h1, h2⟩
  · refine .merge _ _ _ n [b, a] (by rw [hi]; exact .swap a b []) (by simpa using hn) ?_
    intro i h
    match i, h with
    | 0, _ => exact h1
    | 1, _ => exact h2
  · refine .merge _ _ _ n [a, b] (by rw [hi]) (by simpa using hn) ?_
    intro i h
    match i, h with
    | 0, _ => exact h1
    | 1, _ => exact h2

theorem chain_can : ∀ n {b : ℕ}, 3 ≤ b → Can (chain n) b
  | 0, b, h => .model _ _ _ b (by omega)
  | n + 1, b, h => can_mix (chain_node n) rfl h (.inr ⟨chain_can n h, .model _ _ _ _ (by omega)⟩)

theorem tower_can : ∀ n, Can (tower n) 4
  | 0 => .model _ _ _ 4 (by omega)
  | n + 1 => can_mix (chain_node n) (tower_node n) (by omega) (.inl ⟨tower_can n, chain_can n (by omega)⟩)

theorem double_paths : ∀ n, paths (double n) = List.replicate (2 ^ n) "a".toList
  | 0 => rfl
  | n + 1 => by
    unfold double mix
    simp only [paths, pathsL, pathsK, List.append_nil, double_paths n]
    rw [List.replicate_append_replicate]
    congr 1
    ring

open Serialize in
theorem double_text (N : Num ℕ) : ∀ n, ∃ a st, serVal N (double n) [] = .ok (a, st) ∧ st.length ≤ n + 1
  | 0 => by
    refine ⟨_, _, rfl, ?_⟩
    simp
  | n + 1 => by
    obtain ⟨a, st, h1, h2⟩ := double_text N n
    have h3 := (serVal_again N (double n) h1).2 st List.prefix_rfl
    obtain ⟨x, st', hx⟩ : ∃ x st', addInstr (join ' ' ("merge".toList :: quote nMix :: ([a, a] ++ []))) st = (x, st') := ⟨_, _, rfl⟩
    refine ⟨x, st', ?_, by have := (addInstr_again hx).2.1; omega⟩
    unfold double mix
    rw [serVal]
    simp only [serL, serK, Bind.bind, Except.bind, h1, h3]
    rw [hx]

/-- The order in which the arguments of merges are evaluated (deepest first) does not hold as few results as possible: there are recipes for which
four results at a time would do and that hold any number of them; it is the square root of the size, so `C119_root` cannot be improved by more than a
constant factor. -/
theorem C119_order_false (n : ℕ) : Simple P 2 (tower (n + 1)) ∧ (∃ x, eval (Program.Spec.world P read) (tower (n + 1)) key = .ok x) ∧
    Reaches (n + 3) (trace read (live P (tower (n + 1)) key)) ∧ size (tower (n + 1)) = (n + 1) * (n + 1) + (n + 1) + 1 ∧ Can (tower (n + 1)) 4 := by
  obtain ⟨x, hx⟩ := tower_value (n + 1)
  refine ⟨tower_simple _, ⟨_, hx⟩, ?_, tower_size _, tower_can _⟩
  have hx' := hx
  rw [← (C119_same P read _ key).1] at hx'
  have h := (live_exact read P (tower (n + 1)) (tower_simple _) key 0 _ hx').2
  rw [tower_bound, Nat.zero_add] at h
  obtain ⟨b, h1, h2⟩ := top_reached (trace read (live P (tower (n + 1)) key)) 0
  exact ⟨b, h1, by rw [h2, h]⟩

/-- What is written once in the text of a recipe is not merged once: there are texts of `n + 2` lines that load a tensor `2 ^ n` times for each key. -/
theorem C120_shared_false (N : Serialize.Num ℕ) (n : ℕ) : ∃ (r : Val ℕ) (lines : List Str), lines.length ≤ n + 1 ∧
    Serialize.serialize N r = .ok (Serialize.join '\n' (Serialize.header :: lines)) ∧ (∃ x, eval (Program.Spec.world P read) r key = .ok x) ∧
    loadsOf read (program P r key) = List.replicate (2 ^ n) ("a".toList, key) := by
  obtain ⟨a, st, h1, h2⟩ := double_text N n
  obtain ⟨x, hx⟩ := double_value n
  refine ⟨double n, st, h2, ?_, ⟨_, hx⟩, ?_⟩
  · unfold Serialize.serialize
    simp only [Bind.bind, Except.bind, h1]
  · have h := C120_loads P read (double_simple n) (fun p _ => ⟨_, rfl⟩) hx
    rw [double_paths, List.map_replicate] at h
    exact List.perm_replicate.1 h

/-! ### The hypotheses can be met -/

/-- A chain of four models -/
def r : Val ℕ := mix (model "a".toList) (mix (mix (model "b".toList) (model "c".toList)) (model "d".toList))

theorem narrow_r : Narrow P 2 r := by
  have hm : ∀ p, Narrow P 2 (model p) := fun p => by unfold model; simp [Narrow, Flat]
  have hx : ∀ a b, Narrow P 2 a → Narrow P 2 b → Narrow P 2 (mix a b) := by
    intro a b ha hb
    unfold mix
    rw [Narrow, NarrowL, NarrowL, NarrowL, NarrowK]
    refine ⟨?_, le_rfl, ⟨ha, hb, trivial⟩, trivial⟩
    intro i t hi
    have e : (P.source nMix).types.asDict (some [a, b].length) = [(.pos 0, .val .tensor), (.pos 1, .val .tensor)] := rfl
    rw [e] at hi
    simp only [Dict.get?] at hi
    split_ifs at hi <;> cases hi
  exact hx _ _ (hm _) (hx _ _ (hx _ _ (hm _) (hm _)) (hm _))

theorem accumulates_r : Accumulates r :=
  .pos nMix [model "a".toList] _ [] []
    (.pos nMix [] _ [model "d".toList] []
      (.pos nMix [] (model "b".toList) [model "c".toList] [] (.model _ _ _) (by simp [model, isLeaf]) (by simp)) (by simp [model, isLeaf]) (by simp))
    (by simp [model, isLeaf]) (by simp)

/-- The default options without a fallback: the inputs are cast to `float64`, the output to `float16`. -/
def o : Options ℕ := ⟨none, none, some "float64".toList, none, some "float16".toList, true, true⟩

theorem chain_chain (n : ℕ) : Chain (chain n) := by
  induction n with
  | zero => exact .side _ (.model _ _ _)
  | succ n ih =>
    have e : inputs [chain n, model "a".toList] [] = [chain n, model "a".toList] := by
      unfold inputs
      rw [List.map_nil, List.append_nil, List.filter_cons, if_pos (chain_node n)]
      rfl
    refine .step _ _ _ [] (chain n) [model "a".toList] e ih ?_
    intro s hs
    rw [List.nil_append, List.mem_singleton] at hs
    rw [hs]
    exact .model _ _ _

theorem prepares : ∃ original p x, prepare P.env o r = .ok (original, p) ∧ eval (Program.Spec.world P read) p key = .ok x := by
  have h : (match prepare P.env o r with
    | .ok (_, p) => (match eval (Program.Spec.world P read) p key with | .ok _ => true | .error _ => false)
    | .error _ => false) = true := by decide +kernel
  cases hp : prepare P.env o r with
  | error e => rw [hp] at h; cases h
  | ok q =>
    obtain ⟨original, p⟩ := q
    rw [hp] at h
    simp only at h
    cases hx : eval (Program.Spec.world P read) p key with
    | error e => rw [hx] at h; cases h
    | ok x => exact ⟨original, p, x, rfl, hx⟩

example : ∃ p, (∃ original, prepare P.env o r = .ok (original, p)) ∧ AtMost 4 (trace read (live P p key)) ∧ heldAfter 0 (trace read (live P p key)) = 1 := by
  obtain ⟨original, p, x, h1, h2⟩ := prepares
  have h := C119_merge P read registered (K := 1) rfl rfl narrow_r h1 h2
  exact ⟨p, ⟨original, h1⟩, h.2.1 accumulates_r, h.2.2⟩

example : AtMost 4 (trace read (live P (chain 1000) key)) := by
  obtain ⟨x, hx⟩ := chain_value 1000
  exact C119_chain P read (K := 1) (chain_simple 1000) (chain_chain 1000) hx

/-- Two threads -/
example (es : List Event) (h : Interleaving [work P read (chain 1000) [key, key], work P read (chain 1000) [key]] es) : AtMost 8 es := by
  obtain ⟨x, hx⟩ := chain_value 1000
  refine C119_threads P read (b := 4) (threads := [[key, key], [key]]) (chain_simple 1000) (chain_node 1000) ?_ ?_ h
  · intro keys hk key' hk'
    have : key' = key := by
      simp only [List.mem_cons, List.not_mem_nil, or_false] at hk
      rcases hk with rfl | rfl <;> simpa using hk'
    rw [this]
    exact ⟨_, hx⟩
  · intro keys hk key' hk'
    have : key' = key := by
      simp only [List.mem_cons, List.not_mem_nil, or_false] at hk
      rcases hk with rfl | rfl <;> simpa using hk'
    rw [this]
    exact C119_chain P read (K := 1) (chain_simple 1000) (chain_chain 1000) hx

example : AtMost 8 (trace read (live P (tower 6) key)) := by
  obtain ⟨x, hx⟩ := tower_value 6
  have := C119_height P read (K := 1) (tower_simple 6) hx
  rwa [← depth_height _ (tower_depth 6)] at this

example (before : List Event) (hb : before <+: trace read (live P (tower 6) key)) : (heldAfter 0 before - 2) * (heldAfter 0 before - 2) ≤ 86 := by
  obtain ⟨x, hx⟩ := tower_value 6
  have := C119_root P read (K := 1) (tower_simple 6) hx before hb
  rwa [tower_size] at this

example : heldAfter 0 (trace read (live P (tower 6) key)) = 1 := by
  obtain ⟨x, hx⟩ := tower_value 6
  exact C119_end P read (tower_simple 6) (tower_node 6) hx

example : (loadsOf read (program P r key)).Nodup := by
  refine C120_once P read (narrow_simple _ narrow_r) (fun p _ => ⟨_, rfl⟩) (x := .tensor 4) (by decide +kernel) (by decide +kernel)

end Ex

end Verif.Held
