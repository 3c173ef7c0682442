import Verif.Proofs.ByName
import Verif.Props.Whole

/-!
# C107: a merge of files by name
-/
namespace Verif.ByName
open Method Recipe Config Eval Eval.Spec Program Program.Spec Infer Inputs Whole Spec
open Threads (fileProgram)
open Threads.Spec (Runs stored)
open StreamOut (Tensor)
variable {F : Type}

/-- How a recipe is laid out as objects when it is merged: where the objects of the recipe that was asked for are, and what they hold.  A node that was
given a config refers to the registered object. -/
structure Laid (S : Site F) (original merged : Val F) (obj : ℕ → Val F) (num numOriginal : Layout) (start : St) : Prop where
  objects : ∀ x ∈ leaves [] merged, obj (num x.1) = x.2
  shared : ∀ x ∈ leaves [] original, ∃ y ∈ leaves [] merged, y.2 = x.2 ∧ num y.1 = numOriginal x.1
  closed : ∀ x ∈ leaves [] merged, start.sd (num x.1) = none
  bare : ∀ x ∈ leaves [] merged, given x.2 = none → start.config (num x.1) = none
  hinted : ∀ x ∈ leaves [] merged, ∀ c, given x.2 = some c → ∃ r, S.config c = some r ∧ start.config (num x.1) = some (.reg r)

/-- The registered configs: by identifier, and as the merge looks them up. -/
structure Configs (S : Site F) (P : PWorld F Tensor) (registry : List RegCfg) : Prop where
  named : ∀ c r, S.config c = some r → r.config.identifier = c ∧ r ∈ registry
  listed : ∀ r ∈ registry, P.configs r.config.identifier = some r.config

/-- A call of `merge` that wrote `file`, whatever is known of the configs of the inputs beforehand: the recipe is prepared, the inputs are opened, and the
recipe with the configs that its nodes then have is merged and written to the header. -/
structure Call (P : PWorld F Tensor) (N : Serialize.Num F) (S : Site F) (D : Disk) (E : Inputs.Env) (o : Options F) (recipe : Val F) (n : ℕ)
    (file : Bytes) where
  original : Val F
  merged : Val F
  prepared : prepare P.env o recipe = .ok (original, merged)
  obj : ℕ → Val F
  num : Layout
  numOriginal : Layout
  start : St
  laid : Laid S original merged obj num numOriginal start
  ready : St
  loaded : load E none (tree S num [] merged) { start with cache := [], structs := upd start.structs E.ref [] } = (ready, .ok ())
  keys : List Str
  stores : List (Str × Tensor)
  planned : plan (world P (stored (D.opened E.dirs))) o (fill num ready [] merged) = .ok keys
  ran : Runs n (fileProgram P (fill num ready [] merged)) (D.opened E.dirs) keys stores .returned
  text : Option Str
  declared : Dict Key StreamOut.Meta
  minBuf : ℕ
  cap : ℕ
  actions : List StreamOut.Action
  writer : StreamOut.State
  serialized : recipeText N (fill numOriginal ready [] original) = .ok text
  wrote : StreamOut.run (StreamOut.init declared text minBuf cap) actions = some writer
  quiet : StreamOut.Spec.Quiescent writer
  assigned : (StreamOut.Spec.stored actions).Perm stores
  complete : StreamOut.Spec.Complete declared text minBuf cap (StreamOut.Spec.stored actions)
  closed : StreamOut.close writer = .ok file

/-- `found` is the config of each input: the one it was given, or the one that its tensor names call for (C88). -/
structure Recognised (S : Site F) (D : Disk) (E : Inputs.Env) (found : Val F → RegCfg) (us : List (Val F)) : Prop where
  given : ∀ u ∈ us, ∀ c, given u = some c → S.config c = some (found u)
  usable : ∀ u ∈ us, ByName.Spec.given u = none → Usable E.registry none (tensorNames (D.opened E.dirs) u)
  chosen : ∀ u ∈ us, ByName.Spec.given u = none → Chosen E.registry none (tensorNames (D.opened E.dirs) u) (some (found u))

theorem Examined.mem {L : List RegCfg} {sd : List Str} {c : RegCfg} (h : Infer.Spec.Examined L sd c) : c ∈ L := by
  obtain ⟨pre, post, h, _⟩ := h
  rw [h]
  simp

theorem Chosen.mem {L : List RegCfg} {param : Option RegCfg} {sd : List Str} {c : RegCfg} (h : Chosen L param sd (some c)) : c ∈ L := by
  cases h with
  | param _ _ h1 _ => exact Examined.mem h1
  | best _ _ h1 _ _ => exact Examined.mem h1

/-- The paths of the models among the inputs -/
def pathsOf (num : Layout) (ls : List (List ℕ × Val F)) : List (ℕ × Str) :=
  ls.filterMap fun x => match x.2 with | .model p _ _ => some (num x.1, p) | _ => none

theorem mem_pathsOf {num : Layout} {ls : List (List ℕ × Val F)} {q : ℕ × Str} :
    q ∈ pathsOf num ls ↔ ∃ x ∈ ls, ∃ c s, x.2 = .model q.2 c s ∧ num x.1 = q.1 := by
  unfold pathsOf
  rw [List.mem_filterMap]
  constructor
  · rintro ⟨x, hx, h⟩
    refine ⟨x, hx, ?_⟩
    split at h
    · rename_i p c s he
      cases h
      exact ⟨c, s, he, rfl⟩
    · cases h
  · rintro ⟨x, hx, c, s, he, hn⟩
    refine ⟨x, hx, ?_⟩
    rw [he]
    show some (num x.1, q.2) = some q
    rw [hn]

section
variable {P : PWorld F Tensor} {move : Option Str → Option Str → Tensor → Except Err Tensor} {N : Serialize.Num F} {S : Site F} {D : Disk} {E : Inputs.Env}
  {o : Options F} {recipe : Val F} {n : ℕ} {file : Bytes} {found : Val F → RegCfg}

mutual
theorem input_cases : ∀ (v : Val F) {u : Val F}, u ∈ inputs v → (∃ p c s, u = .model p c s) ∨ ∃ es c s, u = .lit (.dict es) c s
  | .model p c s, u, h => by
    rw [inputs, List.mem_singleton] at h
    exact .inl ⟨p, c, s, h⟩
  | .lit (.dict es) c s, u, h => by
    rw [inputs, List.mem_cons] at h
    rcases h with h | h
    · exact .inr ⟨es, c, s, h⟩
    · exact inputD_cases es h
  | .merge m args kwargs, u, h => by
    rw [inputs, List.mem_append] at h
    rcases h with h | h
    · exact inputL_cases args h
    · exact inputD_cases kwargs h
  | .lit (.str _) _ _, u, h | .lit .none _ _, u, h | .lit (.lit _ _ _) _ _, u, h | .lit (.model _ _ _) _ _, u, h | .lit (.merge _ _ _) _ _, u, h
  | .lit (.int _) _ _, u, h | .lit (.float _) _ _, u, h | .lit (.bool _) _ _, u, h | .lit (.tensor _) _ _, u, h => by
    rw [inputs] at h
    · simp at h
    all_goals simp
  | .str _, u, h | .none, u, h | .int _, u, h | .float _, u, h | .bool _, u, h | .tensor _, u, h | .dict _, u, h => by
    rw [inputs] at h
    · simp at h
    all_goals simp
theorem inputD_cases : ∀ (l : List (Str × Val F)) {u : Val F}, u ∈ inputsD l → (∃ p c s, u = .model p c s) ∨ ∃ es c s, u = .lit (.dict es) c s
  | [], u, h => by simp [inputsD] at h
  | (_, v) :: l, u, h => by
    rw [inputsD, List.mem_append] at h
    rcases h with h | h
    · exact input_cases v h
    · exact inputD_cases l h
theorem inputL_cases : ∀ (l : List (Val F)) {u : Val F}, u ∈ inputsL l → (∃ p c s, u = .model p c s) ∨ ∃ es c s, u = .lit (.dict es) c s
  | [], u, h => by simp [inputsL] at h
  | v :: l, u, h => by
    rw [inputsL, List.mem_append] at h
    rcases h with h | h
    · exact input_cases v h
    · exact inputL_cases l h
end

theorem mem_together {r : Val F} {fb : Option (Val F)} {u : Val F} (h : u ∈ together r fb) : ∃ v : Val F, u ∈ inputs v := by
  unfold together at h
  rcases List.mem_append.1 h with h | h
  · exact ⟨_, h⟩
  · cases fb with
    | none => simp at h
    | some b => exact ⟨b, h⟩

/-- **C107.**  Not giving the configs of inputs is the same as giving those that their tensor names call for: a call that wrote `file` is a call, on the
recipe and the fallback model with these configs, that wrote `file`.  So C99, C104 and C106 hold of it.  The caller's recipe has these configs from then on, and each input is of the config in question. -/
theorem C107_call (hP : Registered P move) (hfs : E.fs = D.fs) (hcfg : Configs S P E.registry) (m : Call P N S D E o recipe n file)
    {fb : Option (Val F)} (hfb : Whole.Spec.IsFallback P.env o fb) (hf : Recognised S D E found (together m.original fb))
    (hpn : ∀ es c s, Val.lit (.dict es) c s ∈ together m.original fb → ∀ p ∈ es, p.2.isNode = false) (hun : Unhinted S m.merged) :
    Nonempty (Saves P N { o with fallback := fb.map (assign found) } (D.opened E.dirs) (assign found m.original) n file) ∧
      fill m.numOriginal m.ready [] m.original = assign found m.original ∧ ∀ u ∈ together m.original fb, configOf (world P (stored (D.opened E.dirs))) (assign found u) = .ok (some (found u).config) := by
  obtain ⟨hprep, hin⟩ := prepare_assign (found := found) hP.sigCast hP.sigFallback m.prepared hfb hpn
  have hmem : ∀ x ∈ leaves [] m.merged, x.2 ∈ together m.original fb := fun x hx => by rw [← hin]; exact mem_inputs (pos := []) (q := x.1) hx
  have hpm : Plain m.merged := by
    intro es c s h
    rw [hin] at h
    exact hpn es c s h
  have hpo : Plain m.original := (together_plain hpn).1
  have hagree : ∀ u ∈ together m.original fb, Agrees found u := fun u hu c hc => (hcfg.named c _ (hf.given u hu c hc)).1
  have hctx : Ctx D E found m.obj ((leaves [] m.merged).map fun x => m.num x.1) := by
    refine ⟨hfs, ?_, ?_⟩
    · intro id hid hg
      obtain ⟨x, hx, rfl⟩ := List.mem_map.1 hid
      rw [m.laid.objects x hx] at hg ⊢
      exact hf.usable _ (hmem x hx) hg
    · intro id hid hg
      obtain ⟨x, hx, rfl⟩ := List.mem_map.1 hid
      rw [m.laid.objects x hx] at hg ⊢
      exact hf.chosen _ (hmem x hx) hg
  have hcons : Consistent (pathsOf m.num (leaves [] m.merged)) := by
    intro p hp q hq hpq
    obtain ⟨x, hx, c, s, h1, h2⟩ := mem_pathsOf.1 hp
    obtain ⟨y, hy, c', s', h3, h4⟩ := mem_pathsOf.1 hq
    have : x.2 = y.2 := by
      rw [← m.laid.objects x hx, ← m.laid.objects y hy, h2, h4, hpq]
    rw [h1, h3] at this
    exact (Val.model.inj this).1
  have hinv : Inv D E found m.obj ((leaves [] m.merged).map fun x => m.num x.1) (pathsOf m.num (leaves [] m.merged)) m.start.files.length
      { m.start with cache := [], structs := upd m.start.structs E.ref [] } := by
    refine ⟨⟨le_refl _, ?_, by simp⟩, ?_, ?_, ?_⟩
    · intro i f hi h
      rw [List.getElem?_eq_none hi] at h; cases h
    · intro p hp h hh
      obtain ⟨x, hx, _, _, _, h2⟩ := mem_pathsOf.1 hp
      have : m.start.sd p.1 = some h := hh
      rw [← h2, m.laid.closed x hx] at this
      cases this
    · intro i f hi h
      rw [List.getElem?_eq_none hi] at h; cases h
    · intro id hid
      obtain ⟨x, hx, rfl⟩ := List.mem_map.1 hid
      rw [m.laid.objects x hx]
      cases hg : given x.2 with
      | none => exact .inr ⟨m.laid.bare x hx hg, rfl⟩
      | some c =>
        obtain ⟨r, h1, h2⟩ := m.laid.hinted x hx c hg
        rw [hf.given _ (hmem x hx) c hg] at h1
        rw [Option.some.inj h1]
        exact .inl h2
  obtain ⟨_, _, hfinal⟩ := load_tree hctx hcons S m.num m.merged [] none _ m.ready hpm hun
    (fun x hx => ⟨m.laid.objects x hx, List.mem_map.2 ⟨x, hx, rfl⟩, fun p c s he => mem_pathsOf.2 ⟨x, hx, c, s, he, rfl⟩⟩) (fun _ => rfl) hinv m.loaded
  have hready : ∀ x ∈ leaves [] m.merged, m.ready.config (m.num x.1) = some (.reg (found x.2)) := by
    intro x hx
    have := hfinal x hx
    unfold Final at this
    rwa [m.laid.objects x hx] at this
  have hmerged : fill m.num m.ready [] m.merged = assign found m.merged :=
    fill_assign m.num m.ready m.merged [] hpm fun x hx => ⟨hagree _ (hmem x hx), hready x hx⟩
  have horiginal : fill m.numOriginal m.ready [] m.original = assign found m.original := by
    refine fill_assign m.numOriginal m.ready m.original [] hpo fun x hx => ?_
    obtain ⟨y, hy, h1, h2⟩ := m.laid.shared x hx
    rw [← h1, ← h2]
    exact ⟨hagree _ (hmem y hy), hready y hy⟩
  have hplan := m.planned
  have hran := m.ran
  have hser := m.serialized
  rw [hmerged] at hplan hran
  rw [horiginal] at hser
  refine ⟨⟨{
    original := _, merged := _, keys := m.keys, stores := m.stores, prepared := hprep, planned := hplan, ran := hran, text := m.text,
    declared := m.declared, minBuf := m.minBuf, cap := m.cap, actions := m.actions, writer := m.writer, serialized := hser, wrote := m.wrote,
    quiet := m.quiet, assigned := m.assigned, complete := m.complete, closed := m.closed }⟩, horiginal, ?_⟩
  intro u hu
  have hreg : found u ∈ E.registry := by
    cases hg : given u with
    | none => exact Chosen.mem (hf.chosen u hu hg)
    | some c => exact (hcfg.named c _ (hf.given u hu c hg)).2
  have hl := hcfg.listed _ hreg
  have hname : ∀ c : Option Str, given u = c → c.getD (found u).config.identifier = (found u).config.identifier := by
    rintro c hc
    cases c with
    | none => rfl
    | some c => exact (hagree u hu c hc).symm
  rcases input_cases _ (mem_together hu).choose_spec with ⟨p, c, s, rfl⟩ | ⟨es, c, s, rfl⟩
  · simp only [assign, configOf, Val.config, hname c rfl]
    exact congrArg _ hl
  · simp only [assign, configOf, Val.config, hname c rfl]
    exact congrArg _ hl

/-- **C107, with the default options.**  With a device or dtype to merge in, as by default, the inputs go to `cast`, which declares no config; then it
suffices that the state dicts hold tensors and numbers. -/
theorem C107_default (hP : Registered P move) (hS : S.env = P.env) (hfs : E.fs = D.fs) (hcfg : Configs S P E.registry) (m : Call P N S D E o recipe n file)
    {fb : Option (Val F)} (hfb : Whole.Spec.IsFallback P.env o fb) (hf : Recognised S D E found (together m.original fb)) (hcast : o.castsInputs = true)
    (hnum : ∀ es c s, Val.lit (.dict es) c s ∈ together m.original fb → ∀ p ∈ es, isScalar p.2 = true) :
    Nonempty (Saves P N { o with fallback := fb.map (assign found) } (D.opened E.dirs) (assign found m.original) n file) ∧
      fill m.numOriginal m.ready [] m.original = assign found m.original ∧ ∀ u ∈ together m.original fb, configOf (world P (stored (D.opened E.dirs))) (assign found u) = .ok (some (found u).config) := by
  have hpn : ∀ es c s, Val.lit (.dict es) c s ∈ together m.original fb → ∀ p ∈ es, p.2.isNode = false := by
    intro es c s h p hp
    have := hnum es c s h p hp
    cases hv : p.2 <;> rw [hv] at this <;> first | rfl | cases this
  refine C107_call hP hfs hcfg m hfb hf hpn ?_
  · obtain ⟨h0, r1, r2, h1, h2, h3⟩ := prepare_steps m.prepared
    have hi : inputs r1 = together m.original fb := by
      unfold withFallback at h1
      unfold Whole.Spec.IsFallback at hfb
      cases hb : o.fallback with
      | none =>
        rw [hb] at h1 hfb
        subst hfb
        cases h1
        unfold together; simp
      | some b =>
        rw [hb] at h1 hfb
        obtain ⟨b', hb', rfl⟩ := hfb
        obtain ⟨b'', sp, g1, g2, rfl, g4⟩ := orNode_space hP.sigFallback (valueToNode_isNode h0) h1
        rw [hb'] at g1
        cases g1
        unfold together; simp [inputs, inputsL, inputsD]
    unfold Whole.withInputs at h2
    rw [if_pos hcast, ← hS] at h2
    have hc : S.env.resolve nCast = .ok castSig := by rw [hS]; exact hP.sigCast
    have hu := (castInputs_unhinted hc _ _ r1 r2 (by unfold Numeric; rw [hi]; exact hnum) h2).1
    unfold withOutput at h3
    split_ifs at h3
    · have hn : r2.isNode = true := castInputs_isNode hc (by unfold Spec.Plain; rw [hi]; exact hpn) h2
      rw [(toNode_space hP.sigCast hn h3).1]
      exact unhinted_castNode hc hu _ _
    · cases h3; exact hu

end

/-! ## An example: as that of C99, with neither the file nor the fallback model given a config -/

namespace Ex

def reg : RegCfg := ⟨Whole.Ex.cfg, true⟩
def other : RegCfg := ⟨⟨"t-d".toList, [("main".toList, [("a".toList, Whole.Ex.entry), ("z".toList, Whole.Ex.entry)])]⟩, true⟩

def P : PWorld (Option Int) Tensor :=
  { Whole.Ex.P with
    env := { Whole.Ex.P.env with configs := ["t-c".toList, "t-d".toList] }
    configs := fun c => if c = "t-c".toList then some Whole.Ex.cfg else if c = "t-d".toList then some other.config else none }

theorem registered : Registered P Whole.Ex.move := by constructor <;> rfl

def D : Disk := ⟨fun _ => false, fun d p => d ++ p, fun p => p = "f".toList, id, fun _ => 1, fun p => if p = "f".toList then some StreamIn.exFile else none, 2, 1000⟩
def E : Inputs.Env := ⟨D.fs, [], true, false, [other, reg], 0⟩
def S : Site (Option Int) := ⟨P.env, fun c => if c = "t-c".toList then some reg else if c = "t-d".toList then some other else none, fun _ => ⟨none, none⟩⟩

def f : Val (Option Int) := .model "f".toList none (some "weight".toList)
def recipe : Val (Option Int) := .merge nPick [f, .lit (.str "main".toList) none "param".toList] []
def fb : Val (Option Int) := .lit (.dict [("b".toList, .tensor 0), ("c".toList, .tensor 1), ("e".toList, .tensor 0)]) none "weight".toList
def o : Options (Option Int) := { Whole.Ex.o with fallback := some fb }
def merged : Val (Option Int) := match prepare P.env o recipe with | .ok p => p.2 | .error _ => .none

theorem prepared : prepare P.env o recipe = .ok (recipe, merged) := by decide +kernel

def fPos : List ℕ := [0, 0, 0, 0]
def fbPos : List ℕ := [0, 1, 0]
def num : Layout := fun p => if p = fPos then 0 else 1
def obj : ℕ → Val (Option Int) := fun i => if i = 0 then f else fb
def start : St := ⟨fun _ => none, fun _ => none, fun _ => [], [], []⟩

theorem leaves_merged : leaves [] merged = [(fPos, f), (fbPos, fb)] := by decide +kernel
theorem leaves_recipe : leaves [] recipe = [([0], f)] := by decide +kernel

def ready : St := (load E none (tree S num [] merged) { start with cache := [], structs := upd start.structs E.ref [] }).1

theorem loaded : load E none (tree S num [] merged) { start with cache := [], structs := upd start.structs E.ref [] } = (ready, .ok ()) :=
  StreamIn.pair_of_snd _ _ (by decide +kernel)

theorem filled : fill num ready [] merged = Whole.Ex.merged := by decide +kernel
theorem filled_recipe : fill (fun _ => 0) ready [] recipe = Whole.Ex.recipe := by decide +kernel

theorem opened : D.opened E.dirs = Threads.Ex.opened := by
  funext p
  show D.state p = _
  unfold Disk.state Threads.Ex.opened
  by_cases hp : p = "f".toList
  · have : D.bytes p = some StreamIn.exFile := if_pos hp
    rw [this, if_pos hp]
    simp only [StreamIn.exOpen]
    rfl
  · have : D.bytes p = none := if_neg hp
    rw [this, if_neg hp]

def call : Call P Serialize.Ex.num S D E o recipe 2 Whole.Ex.file where
  original := recipe
  merged := merged
  prepared := prepared
  obj := obj
  num := num
  numOriginal := fun _ => 0
  start := start
  laid := by
    refine ⟨?_, ?_, fun _ _ => rfl, fun _ _ _ => rfl, ?_⟩
    · rw [leaves_merged]; simp [obj, num, fPos, fbPos]
    · rw [leaves_merged, leaves_recipe]
      intro x hx
      rw [List.mem_singleton] at hx
      subst hx
      exact ⟨_, List.mem_cons_self, rfl, rfl⟩
    · rw [leaves_merged]; simp [f, fb, given]
  ready := ready
  loaded := loaded
  keys := Whole.Ex.keys
  stores := Whole.Ex.stores
  planned := by rw [filled, opened]; decide +kernel
  ran := by rw [filled, opened]; exact Whole.Ex.ran
  text := some Whole.Ex.text
  declared := Whole.Ex.declared
  minBuf := 2
  cap := 10000
  actions := Whole.Ex.actions
  writer := Whole.Ex.writer
  serialized := by rw [filled_recipe]; exact Whole.Ex.saves.serialized
  wrote := Whole.Ex.saves.wrote
  quiet := Whole.Ex.saves.quiet
  assigned := Whole.Ex.saves.assigned
  complete := Whole.Ex.saves.complete
  closed := Whole.Ex.saves.closed

theorem configs : Configs S P E.registry := by
  refine ⟨?_, ?_⟩
  · intro c r h
    have h : (if c = "t-c".toList then some reg else if c = "t-d".toList then some other else none) = some r := h
    split_ifs at h with h1 h2
    · cases h; subst h1; exact ⟨rfl, by simp [E]⟩
    · cases h; subst h2; exact ⟨rfl, by simp [E]⟩
  · intro r hr
    have hr : r ∈ [other, reg] := hr
    simp only [List.mem_cons, List.not_mem_nil, or_false] at hr
    rcases hr with rfl | rfl <;> decide +kernel

theorem usable (sd : List Str) (h : sd.length < 2 ^ 40) : Usable E.registry none sd :=
  ⟨⟨h, by simp only [E, List.forall_mem_cons]; exact ⟨by decide +kernel, by decide +kernel, by simp⟩⟩, by decide +kernel, by decide +kernel, fun _ h => by cases h⟩

theorem chosen {sd : List Str} (h1 : ¬ Infer.Spec.Stops sd other.config) (h2 : Infer.Spec.Enough sd reg.config)
    (h3 : Infer.Spec.count sd other.config < Infer.Spec.count sd reg.config) : Chosen E.registry none sd (some reg) := by
  refine .best _ (fun _ h => by cases h) ⟨[other], [], rfl, ?_⟩ h2 ?_
  · intro d hd
    rw [List.mem_singleton] at hd
    subst hd; exact h1
  · intro d hd hne
    have hd : d ∈ [other, reg] := Examined.mem hd
    simp only [List.mem_cons, List.not_mem_nil, or_false] at hd
    rcases hd with rfl | rfl
    · exact h3
    · exact absurd rfl hne

theorem together_is : together call.original (some fb) = [f, fb] := by
  show together recipe (some fb) = [f, fb]
  decide +kernel

theorem recognised : Recognised S D E (fun _ => reg) (together call.original (some fb)) := by
  have hf : tensorNames (D.opened E.dirs) f = ["a".toList, "b".toList] := by rw [opened]; decide +kernel
  have hb : tensorNames (D.opened E.dirs) fb = ["b".toList, "c".toList, "e".toList] := by decide +kernel
  rw [together_is]
  refine ⟨by simp [given, f, fb], ?_, ?_⟩
  · simp only [List.forall_mem_cons]
    exact ⟨fun _ => usable _ (by rw [hf]; decide), fun _ => usable _ (by rw [hb]; decide), by simp⟩
  · simp only [List.forall_mem_cons]
    refine ⟨fun _ => ?_, fun _ => ?_, by simp⟩
    · rw [hf]; exact chosen (by decide +kernel) (by decide +kernel) (by decide +kernel)
    · rw [hb]; exact chosen (by decide +kernel) (by decide +kernel) (by decide +kernel)

/-- The file with the tensors `a`, `b` and the dict with `b`, `c`, `e` are both of the config `t-c`, and the merge is that of C99's example. -/
example : Nonempty (Saves P Serialize.Ex.num { o with fallback := some Whole.Ex.fb } Threads.Ex.opened Whole.Ex.recipe 2 Whole.Ex.file) ∧
    configOf (world P (stored Threads.Ex.opened)) (assign (fun _ => reg) f) = .ok (some Whole.Ex.cfg) := by
  have h := C107_default registered rfl rfl configs call (fb := some fb) ⟨fb, rfl, rfl⟩ recognised rfl (by
    rw [together_is]
    intro es c s h
    simp only [List.mem_cons, List.not_mem_nil, or_false] at h
    rcases h with h | h
    · cases h
    · cases h; decide +kernel)
  rw [together_is, opened] at h
  refine ⟨?_, h.2.2 f (by simp)⟩
  have e1 : (some fb).map (assign fun _ => reg) = some Whole.Ex.fb := by decide +kernel
  have e2 : assign (fun _ => reg) call.original = Whole.Ex.recipe := by
    show assign (fun _ => reg) recipe = _
    decide +kernel
  rw [e1, e2] at h
  exact h.1

end Ex

end Verif.ByName
