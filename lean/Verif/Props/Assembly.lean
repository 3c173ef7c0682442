import Verif.Proofs.Assembly
import Verif.Proofs.Returned

/-!
# Components merged separately (C117)

`A.build E r` is what python builds from the recipes `r` with `pick_component`, `omit_component` and `|`, in any nesting; `A.sources cfg k` are the numbers of
the recipes the key may come from, in order.
-/
namespace Verif.Assembly
open Method Recipe Config Eval Eval.Spec Program Program.Spec Whole Spec
open Threads (fileProgram)
open Threads.Spec (Runs Opened stored)
open StreamOut (Tensor)
open Blocks.Spec (Known)
open WholeExtra.Spec (firstOf)
open WholeExtra (alt alt_of_ne firstOf_cons)
variable {F : Type}

theorem first_find {T : Type} {p : ℕ → Bool} {f : ℕ → Res F T} : ∀ {l : List ℕ}, (∀ i ∈ l, p i = true ↔ f i ≠ .error .stateDictKey) →
    firstOf (l.map f) = match l.find? p with | some i => f i | none => .error .stateDictKey
  | [], _ => rfl
  | i :: l, h => by
    rw [List.map_cons, firstOf_cons, List.find?_cons]
    cases hp : p i with
    | true => exact alt_of_ne ((h i (by simp)).1 hp) _
    | false =>
      have : f i = .error .stateDictKey := by
        by_contra hn
        rw [(h i (by simp)).2 hn] at hp
        cases hp
      rw [this]
      exact first_find fun j hj => h j (by simp [hj])

/-- **C117.**  A recipe put together from others by component is merged to a file, and so is each of the others, with any numbers of threads and the same options,
without a fallback model.  All files open; the file lists a key if and only if one of the sources of the key does; and its tensor has the dtype, shape and
bytes it has in the file of the first source that does. -/
theorem C117_file (P : PWorld F Tensor) (move : Option Str → Option Str → Tensor → Except Err Tensor) (hP : Registered P move)
    (N : Serialize.Num F) (o : Options F) (hfb : o.fallback = none) (ho : ∀ s, o.outputDtype = some s → s ∈ dtypeNames)
    (hconv : ∀ v, P.conv.toTensor v ≠ .error .stateDictKey) (hmove : ∀ x, move o.outputDevice o.outputDtype x ≠ .error .stateDictKey)
    (opened : Str → Option StreamIn.State) (hop : Opened opened) (c : Str) (cfg : ModelConfig) (hcfg : P.configs c = some cfg)
    (r : ℕ → Val F) (A : Assembly) (hA : A.Within cfg) (hr : ∀ i ∈ A.parts, Proper (r i) ∧ Known (r i) ∧ (r i).config P.env = .ok (some c))
    (whole : Val F) (hb : A.build P.env r = .ok whole) (n : ℕ) (file : Bytes) (m : Saves P N o opened whole n file)
    (n' : ℕ → ℕ) (file' : ℕ → Bytes) (m' : ∀ i ∈ A.parts, Saves P N o opened (r i) (n' i) (file' i))
    (hmeta : metadataKey ∉ m.keys) (hwf : ∀ i hi, ∀ p ∈ (m' i hi).stores, StreamOut.Spec.Tensor.WF p.2)
    (bs rcap : ℕ) (hbs : bs ≤ rcap) (hrc : ∀ i hi, ∀ p ∈ (m' i hi).stores, p.2.bytes.length ≤ rcap) :
    ∃ s0, StreamIn.open_ file bs rcap = .ok s0 ∧ ∃ s : ℕ → StreamIn.State, (∀ i ∈ A.parts, StreamIn.open_ (file' i) bs rcap = .ok (s i)) ∧
      ∀ k, (k ∈ StreamIn.keys s0 ↔ ∃ i ∈ A.sources cfg k, k ∈ StreamIn.keys (s i)) ∧
        ∀ i, (A.sources cfg k).find? (fun j => decide (k ∈ StreamIn.keys (s j))) = some i → ∀ history history' : List Key, ∃ s1 v s1' v',
          StreamIn.getItem (StreamIn.run s0 (history.map .load)).st k = (s1, .ok v) ∧
          StreamIn.getItem (StreamIn.run (s i) (history'.map .load)).st k = (s1', .ok v') ∧
          v.dtype = v'.dtype ∧ v.shape = v'.shape ∧ s1.read v = s1'.read v' := by
  have hW := builtin hP (stored opened)
  obtain rfl := build_recipe hW A (fun i hi => (hr i hi).1) hb
  have hq : ∀ i ∈ A.parts, prepare P.env o (r i) = .ok ((if hi : i ∈ A.parts then (m' i hi).original else .none), (if hi : i ∈ A.parts then (m' i hi).merged else .none)) := by
    intro i hi
    rw [dif_pos hi, dif_pos hi]
    exact (m' i hi).prepared
  obtain ⟨c1, c2, hev⟩ := merged_first hW hfb ho hconv hmove hcfg hA hr m.prepared hq
  have hkeys : ∀ {q : Val F} {keys : List Str}, q.config P.env = .ok (some c) → plan (world P (stored opened)) o q = .ok keys → keys = Merge.targetKeys cfg o.omitEma := by
    intro q keys hc h
    obtain ⟨_, cfg', p2, p3⟩ := plan_ok h
    unfold configOf at p2
    have hc : q.config (world P (stored opened)).env = .ok (some c) := hc
    rw [hc] at p2
    have : P.configs c = some cfg' := Except.ok.inj p2
    rw [hcfg] at this
    rw [p3, Option.some.inj this]
  have k0 := hkeys c1 m.planned
  have k1 : ∀ i hi, (m' i hi).keys = m.keys := by
    intro i hi
    have := c2 i hi
    rw [dif_pos hi] at this
    rw [k0, hkeys this (m' i hi).planned]
  have hnd : m.keys.Nodup := by rw [k0]; exact Merge.targetKeys_nodup _ _
  -- what the parts hold
  have hsub : ∀ k, ∀ i ∈ A.sources cfg k, i ∈ A.parts := fun k => sources_parts k A
  have hev : ∀ k, eval (world P (stored opened)) m.merged k =
      firstOf ((A.sources cfg k).map fun i => eval (world P (stored opened)) (if hi : i ∈ A.parts then (m' i hi).merged else .none) k) := hev
  have hopen : ∀ i, ∃ s : StreamIn.State, ∀ hi : i ∈ A.parts, StreamIn.open_ (file' i) bs rcap = .ok s ∧
      (∀ k, k ∈ StreamIn.keys s ↔ k ∈ m.keys ∧ ∃ t, eval (world P (stored opened)) (m' i hi).merged k = .ok (.tensor t)) ∧
      ∀ k t, k ∈ m.keys → eval (world P (stored opened)) (m' i hi).merged k = .ok (.tensor t) → ∀ history : List Key, ∃ s1 v,
        StreamIn.getItem (StreamIn.run s (history.map .load)).st k = (s1, .ok v) ∧ v.dtype = t.dtype ∧ v.shape = t.shape ∧ s1.read v = t.bytes := by
    intro i
    by_cases hi : i ∈ A.parts
    · obtain ⟨s, a1, a2, _, a4⟩ := Threads.C98_file P (m' i hi).merged opened hop (m' i hi).keys (by rw [k1]; exact hnd) (by rw [k1]; exact hmeta) (n' i)
        (m' i hi).stores (m' i hi).ran (m' i hi).declared (m' i hi).text (m' i hi).minBuf (m' i hi).cap (m' i hi).actions (m' i hi).writer (file' i)
        (m' i hi).wrote (m' i hi).quiet (m' i hi).assigned (m' i hi).complete (m' i hi).closed (fun k t hkk he => hwf i hi _ (mem_stores hop (m' i hi) hkk he))
        bs rcap hbs (fun k t hkk he => hrc i hi _ (mem_stores hop (m' i hi) hkk he))
      rw [k1] at a2 a4
      exact ⟨s, fun _ => ⟨a1, a2, a4⟩⟩
    · exact ⟨StreamIn.exState 0 0, fun h => absurd h hi⟩
  choose s hs using hopen
  have hfind : ∀ k, k ∈ m.keys → eval (world P (stored opened)) m.merged k =
      match (A.sources cfg k).find? (fun j => decide (k ∈ StreamIn.keys (s j))) with
      | some i => eval (world P (stored opened)) (if hi : i ∈ A.parts then (m' i hi).merged else .none) k
      | none => .error .stateDictKey := by
    intro k hk
    rw [hev]
    apply first_find
    intro i hi
    have hip := hsub k i hi
    rw [dif_pos hip, decide_eq_true_eq, (hs i hip).2.1]
    constructor
    · rintro ⟨_, t, ht⟩ h
      rw [ht] at h; cases h
    · intro h
      refine ⟨hk, ?_⟩
      rcases returned_ok hop (m' i hip) (by rw [k1]; exact hk) with h' | h'
      · exact absurd h' h
      · exact h'
  -- the tensor of a key, and its source
  have hval : ∀ {k t}, k ∈ m.keys → eval (world P (stored opened)) m.merged k = .ok (.tensor t) → ∃ i, ∃ hi : i ∈ A.parts, i ∈ A.sources cfg k ∧
      eval (world P (stored opened)) (m' i hi).merged k = .ok (.tensor t) := by
    intro k t hk h
    rw [hfind k hk] at h
    cases hf : (A.sources cfg k).find? (fun j => decide (k ∈ StreamIn.keys (s j))) with
    | none => rw [hf] at h; cases h
    | some i =>
      have hi := List.mem_of_find?_eq_some hf
      have hip := hsub k i hi
      rw [hf] at h
      simp only [dif_pos hip] at h
      exact ⟨i, hip, hi, h⟩
  obtain ⟨s0, a1, a2, _, a4⟩ := Threads.C98_file P m.merged opened hop m.keys hnd hmeta n m.stores m.ran m.declared m.text m.minBuf m.cap m.actions m.writer
    file m.wrote m.quiet m.assigned m.complete m.closed
    (fun k t hkk he => by
      obtain ⟨i, hi, _, h⟩ := hval hkk he
      exact hwf i hi _ (mem_stores hop (m' i hi) (by rw [k1]; exact hkk) h)) bs rcap hbs
    (fun k t hkk he => by
      obtain ⟨i, hi, _, h⟩ := hval hkk he
      exact hrc i hi _ (mem_stores hop (m' i hi) (by rw [k1]; exact hkk) h))
  refine ⟨s0, a1, s, fun i hi => (hs i hi).1, fun k => ⟨?_, ?_⟩⟩
  · rw [a2]
    constructor
    · rintro ⟨hk, t, ht⟩
      obtain ⟨i, hi, h1, h2⟩ := hval hk ht
      exact ⟨i, h1, ((hs i hi).2.1 k).2 ⟨hk, t, h2⟩⟩
    · rintro ⟨i, hi, h⟩
      have hk := (((hs i (hsub k i hi)).2.1 k).1 h).1
      refine ⟨hk, ?_⟩
      rw [hfind k hk]
      cases hf : (A.sources cfg k).find? (fun j => decide (k ∈ StreamIn.keys (s j))) with
      | none => exact absurd (List.find?_eq_none.1 hf i hi) (by simpa using h)
      | some j =>
        have hj := hsub k j (List.mem_of_find?_eq_some hf)
        have h' : k ∈ StreamIn.keys (s j) := by simpa using List.find?_some hf
        simp only [dif_pos hj]
        exact (((hs j hj).2.1 k).1 h').2
  · intro i hf history history'
    have hi := hsub k i (List.mem_of_find?_eq_some hf)
    have h' : k ∈ StreamIn.keys (s i) := by simpa using List.find?_some hf
    obtain ⟨hk, t, ht⟩ := ((hs i hi).2.1 k).1 h'
    have he : eval (world P (stored opened)) m.merged k = .ok (.tensor t) := by
      rw [hfind k hk, hf]
      simp only [dif_pos hi]
      exact ht
    obtain ⟨s1, v, d1, d2, d3, d4⟩ := a4 k t hk he history
    obtain ⟨s1', v', e1, e2, e3, e4⟩ := (hs i hi).2.2 k t hk ht history'
    exact ⟨s1, v, s1', v', d1, e1, by rw [d2, e2], by rw [d3, e3], by rw [d4, e4]⟩

/-- **C117, mistyped components.**  `pick_component(a, c)` and `omit_component(a, c)` for a name that is no component of the config: no merge returns, unless the config
has no keys. -/
theorem C117_unknown (P : PWorld F Tensor) (move : Option Str → Option Str → Tensor → Except Err Tensor) (hP : Registered P move)
    (N : Serialize.Num F) (o : Options F) (hfb : o.fallback = none) (ho : ∀ s, o.outputDtype = some s → s ∈ dtypeNames)
    (opened : Str → Option StreamIn.State) (hop : Opened opened) (c : Str) (cfg : ModelConfig) (hcfg : P.configs c = some cfg)
    (r : Val F) (hr : Proper r ∧ Known r ∧ r.config P.env = .ok (some c)) (comp : Str) (hcomp : comp ∉ Dict.keys cfg.components)
    (A : Assembly) (hA : A = .pick (.part 0) comp ∨ A = .drop (.part 0) comp) (whole : Val F) (hb : A.build P.env (fun _ => r) = .ok whole)
    (k : Str) (hk : Whole.Spec.Wanted cfg o k) (n : ℕ) (file : Bytes) (m : Saves P N o opened whole n file) : False := by
  have hW := builtin hP (stored opened)
  obtain rfl := build_recipe hW A (fun i hi => hr.1) hb
  obtain ⟨hp, h2⟩ := prepare_recipe hW hfb (fun i _ => hr.1) m.prepared
  have hin : (0 : ℕ) ∈ A.parts := by rcases hA with rfl | rfl <;> simp [Assembly.parts]
  have hR : Proper (Blocks.prepF P.env o (fun _ => r) 0) ∧ (Blocks.prepF P.env o (fun _ => r) 0).config P.env = .ok (some c) := by
    by_cases hc : o.castsInputs = true
    · have := h2 0 hin hc
      exact ⟨proper_cast hW _ _ hr.1 this, by
        have h := (Blocks.castInputs_config hW _ _ hr.2.1 this).1
        exact h.trans hr.2.2⟩
    · have e : Blocks.prepF P.env o (fun _ => r) 0 = r := by unfold Blocks.prepF; rw [if_neg hc]
      rw [e]
      exact ⟨hr.1, hr.2.2⟩
  have hall : ∀ i ∈ A.parts, i = 0 := by rcases hA with rfl | rfl <;> simp [Assembly.parts]
  have hconf : m.merged.config P.env = .ok (some c) := by
    rw [hp]
    have h := config_out hW o (recipe (Blocks.prepF P.env o (fun _ => r)) A)
    refine h.trans (config_recipe hW A fun i hi => ?_)
    rw [hall i hi]
    exact hR.2
  have hkk : k ∈ m.keys := by
    obtain ⟨_, cfg', p2, p3⟩ := plan_ok m.planned
    unfold configOf at p2
    have hc : m.merged.config (world P (stored opened)).env = .ok (some c) := hconf
    rw [hc] at p2
    have : P.configs c = some cfg' := Except.ok.inj p2
    rw [hcfg] at this
    rw [p3, ← Option.some.inj this, Merge.mem_targetKeys]
    exact hk
  have hc : configOf (world P (stored opened)) (Blocks.prepF P.env o (fun _ => r) 0) = .ok (some cfg) := by
    unfold configOf
    have h : (Blocks.prepF P.env o (fun _ => r) 0).config (world P (stored opened)).env = .ok (some c) := hR.2
    rw [h]
    exact congrArg _ hcfg
  have hg : cfg.components.get? comp = none := (Dict.get?_eq_none_iff _ _).2 hcomp
  have hv : eval (world P (stored opened)) (recipe (Blocks.prepF P.env o (fun _ => r)) A) k = .error .value := by
    rcases hA with rfl | rfl
    · rw [recipe, recipe, eval_component hW.implPick rfl hR.1]
      simp only [pickImpl, componentKeys, hc, hg]
    · rw [recipe, recipe, eval_component hW.implOmit rfl hR.1]
      simp only [omitImpl, componentKeys, hc, hg]
  have hm : eval (world P (stored opened)) m.merged k = .error .value := by
    rw [hp]
    have := eval_out hW ho (a := recipe (Blocks.prepF P.env o (fun _ => r)) A) (proper_recipe A fun i hi => by rw [hall i hi]; exact hR.1) k
    refine this.trans ?_
    rw [hv]
    unfold deliver castLeaf
    split_ifs <;> rfl
  rcases returned_ok hop m hkk with h | ⟨t, h⟩ <;> rw [hm] at h <;> cases h

/-! ## An example

`merge(pick_component(f, "main") | g)`, where the file `f` holds `a` and `b`, the mapping `g` has `b` and `c`, and the component `main` has the keys `a` and `c`: `a`
is from `f`, `c` and `b` are from `g`. -/

namespace Ex
open Whole.Ex (P move cfg f fb int8 uint8 registered keys)
open Threads.Ex (opened opened_ok)

def o : Options (Option Int) := ⟨none, none, some int8, none, some uint8, true, true⟩
def r (i : ℕ) : Val (Option Int) := match i with | 0 => f | _ + 1 => fb
def A : Assembly := .either (.pick (.part 0) "main".toList) (.part 1)
def whole : Val (Option Int) := recipe r A

def merged (v : Val (Option Int)) : Val (Option Int) := match prepare P.env o v with | .ok p => p.2 | .error _ => .none
def text (v : Val (Option Int)) : Option Str := match recipeText Serialize.Ex.num v with | .ok t => t | .error _ => none
def declared : Dict Key StreamOut.Meta := keys.map fun k => (k, ⟨none, none⟩)
def actions (stores : List (Str × Tensor)) : List StreamOut.Action :=
  stores.flatMap fun p => .begin 0 p.1 p.2 :: if p.1 = "c".toList ∧ stores.length = 2 then [] else [.locked 0, .finish 0]
def writer (v : Val (Option Int)) (stores : List (Str × Tensor)) : StreamOut.State :=
  (StreamOut.run (StreamOut.init declared (text v) 2 10000) (actions stores)).getD (StreamOut.init declared (text v) 2 10000)
def file (v : Val (Option Int)) (stores : List (Str × Tensor)) : Bytes := match StreamOut.close (writer v stores) with | .ok f => f | .error _ => []

def stF : List (Str × Tensor) := [("a".toList, StreamOut.exT [1, 2, 2]), ("b".toList, StreamOut.exT [2, 2])]
def stG : List (Str × Tensor) := [("c".toList, StreamOut.exT [2]), ("b".toList, StreamOut.exT [2, 0])]
def stW : List (Str × Tensor) := [("a".toList, StreamOut.exT [1, 2, 2]), ("c".toList, StreamOut.exT [2]), ("b".toList, StreamOut.exT [2, 0])]

def savesF : Saves P Serialize.Ex.num o opened f 0 (file f stF) where
  original := f
  merged := merged f
  keys := keys
  stores := stF
  prepared := by decide +kernel
  planned := by decide +kernel
  ran := by
    have : Threads.sequential (fileProgram P (merged f)) opened keys = (stF, .returned) := by decide +kernel
    exact this
  text := text f
  declared := declared
  minBuf := 2
  cap := 10000
  actions := actions stF
  writer := writer f stF
  serialized := by decide +kernel
  wrote := by decide +kernel
  quiet := by unfold StreamOut.Spec.Quiescent; decide +kernel
  assigned := by decide +kernel
  complete := ⟨by decide +kernel, by decide +kernel, by decide +kernel, by decide +kernel⟩
  closed := by decide +kernel

def savesG : Saves P Serialize.Ex.num o opened fb 0 (file fb stG) where
  original := fb
  merged := merged fb
  keys := keys
  stores := stG
  prepared := by decide +kernel
  planned := by decide +kernel
  ran := by
    have : Threads.sequential (fileProgram P (merged fb)) opened keys = (stG, .returned) := by decide +kernel
    exact this
  text := text fb
  declared := declared
  minBuf := 2
  cap := 10000
  actions := actions stG
  writer := writer fb stG
  serialized := by decide +kernel
  wrote := by decide +kernel
  quiet := by unfold StreamOut.Spec.Quiescent; decide +kernel
  assigned := by decide +kernel
  complete := ⟨by decide +kernel, by decide +kernel, by decide +kernel, by decide +kernel⟩
  closed := by decide +kernel

def savesW : Saves P Serialize.Ex.num o opened whole 0 (file whole stW) where
  original := whole
  merged := merged whole
  keys := keys
  stores := stW
  prepared := by decide +kernel
  planned := by decide +kernel
  ran := by
    have : Threads.sequential (fileProgram P (merged whole)) opened keys = (stW, .returned) := by decide +kernel
    exact this
  text := text whole
  declared := declared
  minBuf := 2
  cap := 10000
  actions := actions stW
  writer := writer whole stW
  serialized := by decide +kernel
  wrote := by decide +kernel
  quiet := by unfold StreamOut.Spec.Quiescent; decide +kernel
  assigned := by decide +kernel
  complete := ⟨by decide +kernel, by decide +kernel, by decide +kernel, by decide +kernel⟩
  closed := by decide +kernel

theorem parts {i : ℕ} (h : i ∈ A.parts) : i = 0 ∨ i = 1 := by
  have : A.parts = [0, 1] := rfl
  rw [this] at h
  simpa using h

def files (i : ℕ) : Bytes := match i with | 0 => file f stF | _ + 1 => file fb stG

def saves (i : ℕ) : Saves P Serialize.Ex.num o opened (r i) 0 (files i) :=
  match i with
  | 0 => savesF
  | _ + 1 => savesG

/-- C117 applies. -/
example : ∃ s0 s, StreamIn.open_ (file whole stW) 2 1000 = .ok s0 ∧ StreamIn.open_ (file fb stG) 2 1000 = .ok s ∧ "b".toList ∈ StreamIn.keys s0 ∧
    ∃ s1 v s1' v', StreamIn.getItem s0 "b".toList = (s1, .ok v) ∧ StreamIn.getItem s "b".toList = (s1', .ok v') ∧
      v.dtype = v'.dtype ∧ v.shape = v'.shape ∧ s1.read v = s1'.read v' := by
  have hst : ∀ i, ∀ p ∈ (saves i).stores, StreamOut.Spec.Tensor.WF p.2 ∧ p.2.bytes.length ≤ 1000 := by
    intro i
    have h : ∀ st ∈ [stF, stG], ∀ p ∈ st, StreamOut.Spec.Tensor.WF p.2 ∧ p.2.bytes.length ≤ 1000 := by
      intro st hst p hp
      simp only [List.mem_cons, List.not_mem_nil, or_false] at hst
      rcases hst with rfl | rfl <;> simp only [stF, stG, List.mem_cons, List.not_mem_nil, or_false] at hp <;>
        rcases hp with rfl | rfl <;> exact ⟨by unfold StreamOut.Spec.Tensor.WF; decide +kernel, by decide +kernel⟩
    match i with
    | 0 => exact h stF (by simp)
    | i + 1 => exact h stG (by simp)
  obtain ⟨s0, h1, s, h2, h3⟩ := C117_file P move registered Serialize.Ex.num o rfl (by intro s h; cases h; decide)
    (fun v => by simp [P]) (fun x => by simp [move, o, int8, uint8]) opened opened_ok "t-c".toList cfg (by decide +kernel) r A
    ⟨⟨trivial, by decide⟩, trivial⟩
    (fun i hi => by rcases parts hi with rfl | rfl <;> refine ⟨?_, ?_, ?_⟩ <;> first | decide +kernel | simp [r, f, fb, Proper, Blocks.Spec.Known, Blocks.Spec.KnownK])
    whole (by decide +kernel) 0 (file whole stW) savesW (fun _ => 0) files (fun i _ => saves i) (by decide +kernel)
    (fun i _ p hp => (hst i p hp).1) 2 1000 (by decide) (fun i _ p hp => (hst i p hp).2)
  have hs : A.sources cfg "b".toList = [1] := by decide +kernel
  have hin : "b".toList ∈ StreamIn.keys s0 := by
    have h : (StreamIn.open_ (file whole stW) 2 1000).map StreamIn.keys = .ok ["a".toList, "c".toList, "b".toList] := by decide +kernel
    rw [h1] at h
    rw [(Except.ok.inj h : StreamIn.keys s0 = _)]
    simp
  have hin1 : "b".toList ∈ StreamIn.keys (s 1) := by
    obtain ⟨i, hi, h⟩ := (h3 _).1.1 hin
    rw [hs] at hi
    rw [← List.mem_singleton.1 hi]
    exact h
  refine ⟨s0, s 1, h1, h2 1 (by decide +kernel), hin, ?_⟩
  exact (h3 "b".toList).2 1 (by rw [hs, List.find?_cons, decide_eq_true hin1]) [] []

/-- C117_unknown applies: `pick_component(f, "mian")` builds. -/
example : (Assembly.pick (.part 0) "mian".toList).build P.env (fun _ => f) = .ok (recipe (fun _ => f) (.pick (.part 0) "mian".toList)) ∧
    "mian".toList ∉ Dict.keys cfg.components ∧ Whole.Spec.Wanted cfg o "a".toList := by
  have h : "a".toList ∈ Merge.targetKeys cfg true := by decide +kernel
  exact ⟨by decide +kernel, by decide +kernel, (Merge.mem_targetKeys _ _ _).1 h⟩

end Ex

end Verif.Assembly
