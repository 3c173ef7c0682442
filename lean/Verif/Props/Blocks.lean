import Verif.Proofs.BlocksReadme
import Verif.Proofs.Text
import Verif.Props.Convert
import Verif.Props.Readme
import Verif.Proofs.Returned

/-!
# Weights per block (C116)

A `Plan` is a recipe in which some parameters are left open; `q.fill f` is the recipe with `f i` for the parameter `i`.  `(w i).node K` are weights per block,
converted to the layout of the model; `number x` is a number.
-/
namespace Verif.Blocks
open Method Recipe Config Eval Eval.Spec Program Program.Spec Whole Spec
open Threads (fileProgram)
open Threads.Spec (Runs Opened stored)
open StreamOut (Tensor)
variable {F : Type}

theorem ready {T : Type} {K : Conversion} {P : PWorld F T} (h : K.Registered P) (read : Str → Str → Except Err T) : Ready K (world P read) :=
  ⟨h.sig, by show impl (P.source K.name) = _; rw [h.source], h.config⟩

/-- **C116.**  A recipe for models of the config of a conversion, with weights per block for some parameters, is merged to a file; the same recipe with numbers for these
parameters is merged to another file, with any numbers of threads.  Both open, and for every key whose block has these numbers as weights: the files both
list it or both do not, and if they do, it has the same dtype, shape and bytes in both. -/
theorem C116_file (P : PWorld F Tensor) (move : Option Str → Option Str → Tensor → Except Err Tensor) (hP : Registered P move)
    (N : Serialize.Num F) (o : Options F) (ho : Sane move o) (hconv : ∀ v, P.conv.toTensor v ≠ .error .stateDictKey)
    (K : Conversion) (hK : K.Registered P) (opened : Str → Option StreamIn.State) (hop : Opened opened) (q : Plan F)
    (hq : Fine (world P (stored opened)) K.model q) (hg : Given P.env K.model q)
    (hfb : ∀ b b', o.fallback = some b → valueToNode P.env b = .ok b' → Known b' ∧ (b'.config P.env = .ok none ∨ b'.config P.env = .ok (some K.model)))
    (w : ℕ → Weights F) (hw : ∀ i, (w i).Numbers) (x : ℕ → Val F) (hx : ∀ i, IsNumber (x i)) (n n' : ℕ) (file file' : Bytes)
    (m : Saves P N o opened (q.fill fun i => (w i).node K) n file) (m' : Saves P N o opened (q.fill fun i => number (x i)) n' file')
    (hmeta : metadataKey ∉ m.keys) (hwf : ∀ p ∈ m.stores, StreamOut.Spec.Tensor.WF p.2) (hwf' : ∀ p ∈ m'.stores, StreamOut.Spec.Tensor.WF p.2)
    (bs bs' rcap : ℕ) (hbs : bs ≤ rcap) (hbs' : bs' ≤ rcap) (hrc : ∀ p ∈ m.stores, p.2.bytes.length ≤ rcap)
    (hrc' : ∀ p ∈ m'.stores, p.2.bytes.length ≤ rcap) :
    ∃ s0 s0', StreamIn.open_ file bs rcap = .ok s0 ∧ StreamIn.open_ file' bs' rcap = .ok s0' ∧
      ∀ k block, BlockOf K k block → (∀ i, (w i).of block = some (x i)) → Calm (world P (stored opened)) k m'.merged →
        (k ∈ StreamIn.keys s0 ↔ k ∈ StreamIn.keys s0') ∧
        (k ∈ StreamIn.keys s0 → ∀ history history' : List Key, ∃ s1 v s1' v',
          StreamIn.getItem (StreamIn.run s0 (history.map .load)).st k = (s1, .ok v) ∧
          StreamIn.getItem (StreamIn.run s0' (history'.map .load)).st k = (s1', .ok v') ∧
          v.dtype = v'.dtype ∧ v.shape = v'.shape ∧ s1.read v = s1'.read v') := by
  have hW := builtin hP (stored opened)
  have hR := ready hK (stored opened)
  obtain ⟨c1, c2, hv⟩ := merged_alike hW (o := o) hq hg hfb m.prepared m'.prepared
    (fun i h => weights_config hW hR (hw i) (f := fun i => (w i).node K) rfl h) (fun i h => number_config hW (hx i) (g := fun i => number (x i)) rfl h)
  have hkeys : m'.keys = m.keys := by
    obtain ⟨_, cfg, p2, p3⟩ := plan_ok m.planned
    obtain ⟨_, cfg', p2', p3'⟩ := plan_ok m'.planned
    unfold configOf at p2 p2'
    rw [c1] at p2
    rw [c2] at p2'
    have : some cfg' = some cfg := Except.ok.inj (p2'.symm.trans p2)
    rw [p3, p3', Option.some.inj this]
  have hnd : m.keys.Nodup := by
    obtain ⟨_, cfg, _, p3⟩ := plan_ok m.planned
    rw [p3]; exact Merge.targetKeys_nodup _ _
  obtain ⟨s0, a1, a2, _, a4⟩ := Threads.C98_file P m.merged opened hop m.keys hnd hmeta n m.stores m.ran m.declared m.text m.minBuf m.cap m.actions m.writer
    file m.wrote m.quiet m.assigned m.complete m.closed (fun k t hkk he => hwf _ (mem_stores hop m hkk he)) bs rcap hbs
    (fun k t hkk he => hrc _ (mem_stores hop m hkk he))
  obtain ⟨s0', b1, b2, _, b4⟩ := Threads.C98_file P m'.merged opened hop m'.keys (by rw [hkeys]; exact hnd) (by rw [hkeys]; exact hmeta) n' m'.stores m'.ran
    m'.declared m'.text m'.minBuf m'.cap m'.actions m'.writer file' m'.wrote m'.quiet m'.assigned m'.complete m'.closed
    (fun k t hkk he => hwf' _ (mem_stores hop m' hkk he)) bs' rcap hbs' (fun k t hkk he => hrc' _ (mem_stores hop m' hkk he))
  refine ⟨s0, s0', a1, b1, ?_⟩
  intro k block hb hof hcalm
  have he := hv k hcalm fun i h h' =>
    weights_alike hW hR ho.mergeDtype ho.move hconv (hw i) (f := fun i => (w i).node K) (g := fun i => number (x i)) rfl rfl hb (hof i) h h'
  refine ⟨by rw [a2, b2, hkeys, he], ?_⟩
  intro hkk history history'
  obtain ⟨k1, t, k2⟩ := (a2 k).1 hkk
  obtain ⟨s1, v, d1, d2, d3, d4⟩ := a4 k t k1 k2 history
  obtain ⟨s1', v', e1, e2, e3, e4⟩ := b4 k t (by rw [hkeys]; exact k1) (by rw [← he]; exact k2) history'
  exact ⟨s1, v, s1', v', d1, e1, by rw [d2, e2], by rw [d3, e3], by rw [d4, e4]⟩

/-- The block of a key of SD1 (C60) -/
theorem C116_sd1 (e : Data.Entry) (he : e ∈ Data.Sd1Ldm.table.entries) (k : Str) (hk : Lora.codes k = e.key) :
    BlockOf sd1 k (Shipped.str (Convert.Spec.sd1Block e.key)) :=
  ⟨_, by rw [hk]; exact (Convert.C60_sd1 e he).1, rfl⟩

/-- The block of a key of SDXL (C60) -/
theorem C116_sdxl (e : Data.Entry) (he : e ∈ Data.SdxlSgm.table.entries) (k : Str) (hk : Lora.codes k = e.key) :
    BlockOf sdxl k (Shipped.str (Convert.Spec.sdxlBlock e.key)) :=
  ⟨_, by rw [hk]; exact (Convert.C60_sdxl e he).1, rfl⟩

/-- **C116, what is silently lost.**  If the block of a key has no weight and there is no weight for the rest, the key is not in the file, although `merge` returned:
here for a method that gets the weights as a parameter, without casts and fallback model. -/
theorem C116_missing_false (P : PWorld F Tensor) (N : Serialize.Num F) (o : Options F)
    (hplain : o.fallback = none ∧ o.castsInputs = false ∧ o.castsOutput = false)
    (K : Conversion) (hK : K.Registered P) (opened : Str → Option StreamIn.State) (hop : Opened opened) (method : Str) (args : List (Val F))
    (kwargs : Dict Str (Val F)) (hc : Call (world P (stored opened)) method args kwargs) (w : Weights F) (idx : Idx) (t : Ty) (ha : ArgAt args kwargs idx (w.node K))
    (ht : typeOf (world P (stored opened)) method args.length idx = some (.val t)) (n : ℕ) (file : Bytes)
    (m : Saves P N o opened (.merge method args kwargs) n file)
    (hmeta : metadataKey ∉ m.keys) (hwf : ∀ p ∈ m.stores, StreamOut.Spec.Tensor.WF p.2)
    (bs rcap : ℕ) (hbs : bs ≤ rcap) (hrc : ∀ p ∈ m.stores, p.2.bytes.length ≤ rcap) :
    ∃ s0, StreamIn.open_ file bs rcap = .ok s0 ∧ ∀ k block, BlockOf K k block → w.of block = none → k ∉ StreamIn.keys s0 := by
  have hR := ready hK (stored opened)
  have hm : m.merged = .merge method args kwargs := by
    have h := m.prepared
    unfold prepare withFallback withInputs withOutput at h
    rw [hplain.1, hplain.2.1, hplain.2.2] at h
    exact (Prod.mk.inj (Except.ok.inj h)).2.symm
  have hnd : m.keys.Nodup := by
    obtain ⟨_, cfg, _, p3⟩ := plan_ok m.planned
    rw [p3]; exact Merge.targetKeys_nodup _ _
  obtain ⟨s0, a1, a2, _, _⟩ := Threads.C98_file P m.merged opened hop m.keys hnd hmeta n m.stores m.ran m.declared m.text m.minBuf m.cap m.actions m.writer
    file m.wrote m.quiet m.assigned m.complete m.closed (fun k t hkk he => hwf _ (mem_stores hop m hkk he)) bs rcap hbs
    (fun k t hkk he => hrc _ (mem_stores hop m hkk he))
  refine ⟨s0, a1, ?_⟩
  intro k block hb hof hk
  obtain ⟨_, y, hy⟩ := (a2 k).1 hk
  have hrest : w.rest = none ∧ w.entries.get? block = none := by
    unfold Weights.of at hof
    cases h : w.entries.get? block with
    | none => rw [h] at hof; exact ⟨hof, rfl⟩
    | some z => rw [h] at hof; cases hof
  have hev : eval (world P (stored opened)) (w.node K) k = .error .stateDictKey := by
    rw [node_shape, hrest.1, eval_blocks hR (proper_lit K w) hb]
    exact (entries_eval hR w block).2 hrest.2
  obtain ⟨e', _, h2⟩ := C31_error_kept_partial (W := world P (stored opened)) method args kwargs hc k .stateDictKey
    ⟨idx, _, t, ha, ht, by unfold castRun; rw [hev]⟩
  rw [hm, h2] at hy
  cases hy

section
open Readme (Scene Torch nWeighted defaults)
open Readme.Spec (held Blended)
open Ieee Ieee.Spec Whole.Spec

/-- **C116, the first example of the README with weights per block.**  `merge(weighted_sum(a, b, alpha=weights), output=file)` for two float16 models of one
architecture, with all other options as they are by default.  The file opens; each key whose block has the weight `t`, `0 <= t <= 1`, is as C104 says of the
weight `t`: there is a good weighted sum with `t` if both models hold the key, and so on.  No key of a block without weight is there. -/
theorem C116_readme_partial {T : Torch} {P : PWorld F Tensor} {num : F → FV} {dflt : F} {opened : Str → Option StreamIn.State} {c : Str} {cfg : ModelConfig}
    {pa pb : Str} {rcap : ℕ} (S : Scene T P num dflt opened c cfg pa pb rcap) (hconv : ∀ v, P.conv.toTensor v ≠ .error .stateDictKey)
    (K : Conversion) (hK : K.Registered P) (hc : K.model = c) (hblock : ∀ k, Wanted cfg (defaults (F := F)) k → ∃ block, BlockOf K k block)
    (w : Weights F) (hw : ∀ block y, w.of block = some y → ∃ x, y = .float x) (hnum : w.Numbers) (N : Serialize.Num F) (n : ℕ) (file : Bytes)
    (m : Saves P N defaults opened (.merge nWeighted [.model pa (some c) (some weight), .model pb (some c) (some weight), w.node K] []) n file)
    (bs : ℕ) (hbs : bs ≤ rcap) :
    ∃ s0, StreamIn.open_ file bs rcap = .ok s0 ∧ (∀ k ∈ StreamIn.keys s0, Wanted cfg (defaults (F := F)) k) ∧
      ∀ k block, Wanted cfg (defaults (F := F)) k → BlockOf K k block →
        (w.of block = none → k ∉ StreamIn.keys s0) ∧
        ∀ x t, w.of block = some (.float x) → val (num x) = some t → 0 ≤ t → t ≤ 1 →
          (∀ u v, held opened cfg pa k = some u → held opened cfg pb k = some v → k ∈ StreamIn.keys s0 ∧
            ∀ history : List Key, ∃ s1 y, StreamIn.getItem (StreamIn.run s0 (history.map .load)).st k = (s1, .ok y) ∧ y.dtype = .f16 ∧ y.shape = u.shape ∧
              (entries ⟨y.dtype, y.shape, s1.read y⟩).length = (entries u).length ∧
              ∀ (i m n : ℕ), (entries u)[i]? = some m → (entries v)[i]? = some n →
                ∃ o, (entries ⟨y.dtype, y.shape, s1.read y⟩)[i]? = some o ∧ Blended t m n o) ∧
          (1 / 2 ^ 13 ≤ t → t ≤ 1 - 1 / 2 ^ 13 → (k ∈ StreamIn.keys s0 ↔ (held opened cfg pa k).isSome ∧ (held opened cfg pb k).isSome)) ∧
          ∀ p, t = 0 ∧ p = pa ∨ t = 1 ∧ p = pb →
            (k ∈ StreamIn.keys s0 ↔ (held opened cfg p k).isSome) ∧
            ∀ u, held opened cfg p k = some u → NoNan u → ∀ history : List Key, ∃ s1 y,
              StreamIn.getItem (StreamIn.run s0 (history.map .load)).st k = (s1, .ok y) ∧ (⟨y.dtype, y.shape, s1.read y⟩ : Tensor) = u := by
  have hR := ready hK (stored opened)
  obtain ⟨hcfg, hev⟩ := sum_weight S hconv hR hc hnum m.prepared
  have hkeys : ∀ k, k ∈ m.keys ↔ Wanted cfg (defaults (F := F)) k := by
    obtain ⟨_, cfg', p2, p3⟩ := plan_ok m.planned
    unfold configOf at p2
    have hcfg : m.merged.config (world P (stored opened)).env = _ := hcfg
    rw [hcfg] at p2
    have p2 : Except.ok (P.configs c) = Except.ok (some cfg') := p2
    rw [S.config] at p2
    cases p2
    intro k
    rw [p3, Merge.mem_targetKeys]
    rfl
  have hnd : m.keys.Nodup := by
    obtain ⟨_, cfg, _, p3⟩ := plan_ok m.planned
    rw [p3]; exact Merge.targetKeys_nodup _ _
  have hwf : ∀ k t, k ∈ m.keys → eval (world P (stored opened)) m.merged k = .ok (.tensor t) → StreamOut.Spec.Tensor.WF t ∧ t.bytes.length ≤ rcap := by
    intro k t hk he
    have hk := (hkeys k).1 hk
    obtain ⟨block, hb⟩ := hblock k hk
    cases ho : w.of block with
    | none => rw [sum_missing S hR hnum m.prepared hb ho] at he; cases he
    | some y =>
      obtain ⟨x, rfl⟩ := hw block y ho
      rw [hev k block x hk hb ho] at he
      exact S.final_wf x hk he
  obtain ⟨s0, a1, a2, _, a4⟩ := Threads.C98_file P m.merged opened S.files m.keys hnd (fun h => S.names _ ((hkeys _).1 h) rfl) n m.stores m.ran m.declared m.text
    m.minBuf m.cap m.actions m.writer file m.wrote m.quiet m.assigned m.complete m.closed (fun k t hkk he => (hwf k t hkk he).1) bs rcap hbs
    (fun k t hkk he => (hwf k t hkk he).2)
  refine ⟨s0, a1, fun k hk => (hkeys k).1 ((a2 k).1 hk).1, fun k block hk hb => ⟨fun ho h => ?_, fun x t ho hx h0 h1 => ?_⟩⟩
  · obtain ⟨_, y, hy⟩ := (a2 k).1 h
    rw [sum_missing S hR hnum m.prepared hb ho] at hy
    cases hy
  · have he := hev k block x hk hb ho
    have hkk := (hkeys k).2 hk
    exact S.each x t hx h0 h1 hk (by rw [a2 k, he]; exact ⟨fun h => h.2, fun h => ⟨hkk, h⟩⟩) fun y hy => a4 k y hkk (by rw [he]; exact hy)

end

/-- Every key of SD1 and SDXL has a block, also keys the configs do not list. -/
theorem covers_sd1 (k : Str) : ∃ block, BlockOf sd1 k block := ⟨_, _, rfl, rfl⟩
theorem covers_sdxl (k : Str) : ∃ block, BlockOf sdxl k block := ⟨_, _, rfl, rfl⟩

/-! ## An example

Two SD1 models of three keys each, in the blocks `IN01`, `M00` and `BASE`; the second lacks a key of `BASE`.  They are merged with the weights `{"IN01": 0.25, "BASE": 0.5}`, with
the weights `{"M00": 0.75} | 0.25`, and with the weight `0.25`. -/

namespace Ex
open Readme (Scene Torch nWeighted defaults weightedSig weightedSource alphaTensor)
open Readme.Ex (T num openOf fresh stateOf)
open Readme.Spec (held Blended)
open Ieee Ieee.Spec Whole.Spec Program

def kIn : Str := "model.diffusion_model.input_blocks.1.a".toList
def kMid : Str := "model.diffusion_model.middle_block.1.a".toList
def kBase : Str := "first.a".toList

def textF : List Char :=
  "{\"model.diffusion_model.input_blocks.1.a\":{\"dtype\":\"F16\",\"shape\":[2],\"data_offsets\":[0,4]},\"model.diffusion_model.middle_block.1.a\":{\"dtype\":\"F16\",\"shape\":[],\"data_offsets\":[4,6]},\"first.a\":{\"dtype\":\"F16\",\"shape\":[],\"data_offsets\":[6,8]}}".toList

def textG : List Char :=
  "{\"model.diffusion_model.input_blocks.1.a\":{\"dtype\":\"F16\",\"shape\":[2],\"data_offsets\":[0,4]},\"model.diffusion_model.middle_block.1.a\":{\"dtype\":\"F16\",\"shape\":[],\"data_offsets\":[4,6]}}".toList

def fileF : Bytes := le64 textF.length ++ asciiBytes textF ++ [0x00, 0x3C, 0x00, 0x80, 0x00, 0x42, 0x00, 0x45]
def fileG : Bytes := le64 textG.length ++ asciiBytes textG ++ [0x00, 0x40, 0x00, 0x80, 0x00, 0xC4]

def headerF : Header := [(kIn, .tensor ⟨.f16, [2], 0, 4⟩), (kMid, .tensor ⟨.f16, [], 4, 6⟩), (kBase, .tensor ⟨.f16, [], 6, 8⟩)]
def headerG : Header := [(kIn, .tensor ⟨.f16, [2], 0, 4⟩), (kMid, .tensor ⟨.f16, [], 4, 6⟩)]

def opened (p : Str) : Option StreamIn.State :=
  if p = "f".toList then some (stateOf fileF textF.length headerF) else if p = "g".toList then some (stateOf fileG textG.length headerG) else none

theorem readF : StreamIn.readHeader fileF = .ok (textF.length, headerF) := by decide +kernel
theorem readG : StreamIn.readHeader fileG = .ok (textG.length, headerG) := by decide +kernel

theorem entriesF : ∀ p ∈ headerF, ∀ e, p.2 = .tensor e → e.start ≤ e.stop ∧ 8 + textF.length + e.stop ≤ fileF.length ∧
    e.stop - e.start = numel e.shape * Safetensors.width e.dtype ∧ e.stop - e.start ≤ 1000 := by
  intro p hp e he
  simp only [headerF, List.mem_cons, List.not_mem_nil, or_false] at hp
  rcases hp with rfl | rfl | rfl <;> cases he <;> exact ⟨by decide, by decide +kernel, by decide, by decide⟩

theorem entriesG : ∀ p ∈ headerG, ∀ e, p.2 = .tensor e → e.start ≤ e.stop ∧ 8 + textG.length + e.stop ≤ fileG.length ∧
    e.stop - e.start = numel e.shape * Safetensors.width e.dtype ∧ e.stop - e.start ≤ 1000 := by
  intro p hp e he
  simp only [headerG, List.mem_cons, List.not_mem_nil, or_false] at hp
  rcases hp with rfl | rfl <;> cases he <;> exact ⟨by decide, by decide +kernel, by decide, by decide⟩

theorem opened_ok : Opened opened := by
  intro p s h
  unfold opened at h
  split_ifs at h
  · rw [← Option.some.inj h]
    exact fresh readF entriesF
  · rw [← Option.some.inj h]
    exact fresh readG entriesG

def cfg : ModelConfig := ⟨sd1.model, [("main".toList, [(kIn, ⟨none, none, [], false⟩), (kMid, ⟨none, none, [], false⟩), (kBase, ⟨none, none, [], false⟩)])]⟩

def blocks : ModelConfig := ⟨sd1.blocks, [("blocks".toList, [("IN01".toList, ⟨none, none, [], false⟩), ("M00".toList, ⟨none, none, [], false⟩), ("BASE".toList, ⟨none, none, [], false⟩)])]⟩

def P : PWorld (Option Int) Tensor where
  env := ⟨[(nFallback, fallbackSig), (nCast, castSig), (nPick, componentSig), (nOmit, componentSig), (nWeighted, weightedSig (some 2)), (sd1.name, blockSig sd1.blocks sd1.model)],
    [sd1.model, sd1.blocks], allSpaces, id⟩
  conv := ⟨fun _ => .error .value, fun _ => .error .value, fun v => match v with | .float x => .ok (alphaTensor (num x)) | _ => .error .type⟩
  tensors _ := ⟨.u8, [0], []⟩
  configs c := if c = sd1.model then some cfg else if c = sd1.blocks then some blocks else none
  source m := if m = nFallback then fallbackSource else if m = nCast then castSource (move T.other) else if m = nPick then pickSource
    else if m = nOmit then omitSource else if m = sd1.name then blockSource sd1.block else weightedSource T

theorem wanted {k : Str} (h : Wanted cfg (defaults (F := Option Int)) k) : k = kIn ∨ k = kMid ∨ k = kBase := by
  obtain ⟨⟨p, hp, hk⟩, _⟩ := h
  simp only [cfg, List.mem_singleton] at hp
  subst hp
  simpa [Dict.keys] using hk

theorem registered : sd1.Registered P := by
  refine ⟨by decide +kernel, rfl, blocks, by rfl, fun b => ?_⟩
  have h : blocks.aliases = [("IN01".toList, []), ("M00".toList, []), ("BASE".toList, [])] := by decide +kernel
  rw [h]
  simp only [Dict.get?]
  split_ifs <;> rfl

theorem scene : Scene T P num (some 2) opened sd1.model cfg "f".toList "g".toList 1000 where
  registered := by constructor <;> rfl
  source := rfl
  sig := rfl
  tensor _ := rfl
  files := opened_ok
  a := by decide +kernel
  b := by decide +kernel
  config := rfl
  names k hk := by rcases wanted hk with rfl | rfl | rfl <;> decide
  half p k u hp hk hu := by
    have h : ∀ p ∈ ["f".toList, "g".toList], ∀ k ∈ [kIn, kMid, kBase], ∀ u ∈ held opened cfg p k, u.dtype = .f16 ∧ 2 * numel u.shape ≤ 1000 := by
      decide +kernel
    exact h p (by rcases hp with rfl | rfl <;> simp) k (by rcases wanted hk with rfl | rfl | rfl <;> simp) u hu
  shapes k u w hk hu hw := by
    have h : ∀ k ∈ [kIn, kMid, kBase], ∀ u ∈ held opened cfg "f".toList k, ∀ w ∈ held opened cfg "g".toList k, u.shape = w.shape := by
      decide +kernel
    exact h k (by rcases wanted hk with rfl | rfl | rfl <;> simp) u hu w hw

/-- `weighted_sum(f, g, alpha=z)` -/
def recipe (z : Val (Option Int)) : Val (Option Int) :=
  .merge nWeighted [.model "f".toList (some sd1.model) (some weight), .model "g".toList (some sd1.model) (some weight), z] []

def merged (z : Val (Option Int)) : Val (Option Int) := match prepare P.env defaults (recipe z) with | .ok p => p.2 | .error _ => .none
def keys : List Str := [kIn, kMid, kBase]
def text (z : Val (Option Int)) : Option Str := match recipeText Serialize.Ex.num (recipe z) with | .ok t => t | .error _ => none
def declared : Dict Key StreamOut.Meta := keys.map fun k => (k, ⟨none, none⟩)
def actions (stores : List (Str × Tensor)) : List StreamOut.Action := stores.flatMap fun p => [.begin 0 p.1 p.2, .locked 0, .finish 0]
def writer (z : Val (Option Int)) (stores : List (Str × Tensor)) : StreamOut.State :=
  (StreamOut.run (StreamOut.init declared (text z) 2 10000) (actions stores)).getD (StreamOut.init declared (text z) 2 10000)
def file (z : Val (Option Int)) (stores : List (Str × Tensor)) : Bytes := match StreamOut.close (writer z stores) with | .ok f => f | .error _ => []

/-- `{"IN01": 0.25, "BASE": 0.5}` -/
def some2 : Weights (Option Int) := ⟨[("IN01".toList, .float (some 1)), ("BASE".toList, .float (some 2))], none⟩
/-- `{"M00": 0.75} | 0.25` -/
def rest : Weights (Option Int) := ⟨[("M00".toList, .float (some 3))], some (.float (some 1))⟩

/-- All steps of a call of `merge` went well. -/
structure Went (z : Val (Option Int)) (stores : List (Str × Tensor)) : Prop where
  prepared : prepare P.env defaults (recipe z) = .ok (recipe z, merged z)
  planned : plan (world P (stored opened)) defaults (merged z) = .ok keys
  ran : Threads.sequential (fileProgram P (merged z)) opened keys = (stores, .returned)
  serialized : recipeText Serialize.Ex.num (recipe z) = .ok (text z)
  wrote : StreamOut.run (StreamOut.init declared (text z) 2 10000) (actions stores) = some (writer z stores)
  quiet : StreamOut.Spec.Quiescent (writer z stores)
  assigned : (StreamOut.Spec.stored (actions stores)).Perm stores
  complete : StreamOut.Spec.Complete declared (text z) 2 10000 (StreamOut.Spec.stored (actions stores))
  closed : StreamOut.close (writer z stores) = .ok (file z stores)

def Went.saves {z : Val (Option Int)} {stores : List (Str × Tensor)} (h : Went z stores) {r : Val (Option Int)} (hr : r = recipe z) :
    Saves P Serialize.Ex.num defaults opened r 0 (file z stores) :=
  { h with prepared := by rw [hr]; exact h.prepared, original := recipe z, merged := merged z, keys := keys, stores := stores, text := text z, declared := declared, minBuf := 2, cap := 10000,
           actions := actions stores, writer := writer z stores }

def stSome : List (Str × Tensor) := [(kIn, ⟨.f16, [2], [0x00, 0x3D, 0x00, 0x80]⟩)]
def stRest : List (Str × Tensor) := [(kIn, ⟨.f16, [2], [0x00, 0x3D, 0x00, 0x80]⟩), (kMid, ⟨.f16, [], [0x80, 0xC0]⟩)]
def stOne : List (Str × Tensor) := [(kIn, ⟨.f16, [2], [0x00, 0x3D, 0x00, 0x80]⟩), (kMid, ⟨.f16, [], [0x00, 0x3D]⟩)]

theorem wentSome1 : Threads.sequential (fileProgram P (merged (some2.node sd1))) opened keys = (stSome, .returned) := by decide +kernel
theorem wentSome2 : StreamOut.run (StreamOut.init declared (text (some2.node sd1)) 2 10000) (actions stSome) = some (writer (some2.node sd1) stSome) := by decide +kernel
theorem wentSome3 : StreamOut.Spec.Quiescent (writer (some2.node sd1) stSome) := by unfold StreamOut.Spec.Quiescent; decide +kernel
theorem wentSome4 : StreamOut.Spec.Complete declared (text (some2.node sd1)) 2 10000 (StreamOut.Spec.stored (actions stSome)) :=
  ⟨by decide +kernel, by decide +kernel, by decide +kernel, by decide +kernel⟩
theorem wentSome5 : StreamOut.close (writer (some2.node sd1) stSome) = .ok (file (some2.node sd1) stSome) := by decide +kernel

theorem wentSome : Went (some2.node sd1) stSome :=
  ⟨by decide +kernel, by decide +kernel, wentSome1, by decide +kernel, wentSome2, wentSome3, by decide +kernel, wentSome4, wentSome5⟩

theorem wentRest1 : Threads.sequential (fileProgram P (merged (rest.node sd1))) opened keys = (stRest, .returned) := by decide +kernel
theorem wentRest2 : StreamOut.run (StreamOut.init declared (text (rest.node sd1)) 2 10000) (actions stRest) = some (writer (rest.node sd1) stRest) := by decide +kernel
theorem wentRest3 : StreamOut.Spec.Quiescent (writer (rest.node sd1) stRest) := by unfold StreamOut.Spec.Quiescent; decide +kernel
theorem wentRest4 : StreamOut.Spec.Complete declared (text (rest.node sd1)) 2 10000 (StreamOut.Spec.stored (actions stRest)) :=
  ⟨by decide +kernel, by decide +kernel, by decide +kernel, by decide +kernel⟩
theorem wentRest5 : StreamOut.close (writer (rest.node sd1) stRest) = .ok (file (rest.node sd1) stRest) := by decide +kernel

theorem wentRest : Went (rest.node sd1) stRest :=
  ⟨by decide +kernel, by decide +kernel, wentRest1, by decide +kernel, wentRest2, wentRest3, by decide +kernel, wentRest4, wentRest5⟩

theorem wentOne1 : Threads.sequential (fileProgram P (merged (number (.float (some 1))))) opened keys = (stOne, .returned) := by decide +kernel
theorem wentOne2 : StreamOut.run (StreamOut.init declared (text (number (.float (some 1)))) 2 10000) (actions stOne) = some (writer (number (.float (some 1))) stOne) := by decide +kernel
theorem wentOne3 : StreamOut.Spec.Quiescent (writer (number (.float (some 1))) stOne) := by unfold StreamOut.Spec.Quiescent; decide +kernel
theorem wentOne4 : StreamOut.Spec.Complete declared (text (number (.float (some 1)))) 2 10000 (StreamOut.Spec.stored (actions stOne)) :=
  ⟨by decide +kernel, by decide +kernel, by decide +kernel, by decide +kernel⟩
theorem wentOne5 : StreamOut.close (writer (number (.float (some 1))) stOne) = .ok (file (number (.float (some 1))) stOne) := by decide +kernel

theorem wentOne : Went (number (.float (some 1))) stOne :=
  ⟨by decide +kernel, by decide +kernel, wentOne1, by decide +kernel, wentOne2, wentOne3, by decide +kernel, wentOne4, wentOne5⟩

theorem wantedIn {k : Str} (h : k ∈ keys) : Wanted cfg (defaults (F := Option Int)) k := by
  have : ∀ k ∈ keys, k ∈ Merge.targetKeys cfg true := by decide +kernel
  exact (Merge.mem_targetKeys _ _ _).1 (this k h)

theorem noKey (v : RVal (Option Int) Tensor) : P.conv.toTensor v ≠ .error .stateDictKey := by cases v <;> simp [P]

theorem blockIn : BlockOf sd1 kIn "IN01".toList := ⟨key% "IN01", by decide +kernel, by decide +kernel⟩
theorem blockMid : BlockOf sd1 kMid "M00".toList := ⟨key% "M00", by decide +kernel, by decide +kernel⟩

theorem numbersSome : some2.Numbers := ⟨fun p hp => by
  simp only [some2, List.mem_cons, List.not_mem_nil, or_false] at hp
  rcases hp with rfl | rfl <;> exact .float _, fun x h => by cases h⟩

theorem numbersRest : rest.Numbers := ⟨fun p hp => by
  simp only [rest, List.mem_cons, List.not_mem_nil, or_false] at hp
  rcases hp with rfl; exact .float _, fun x h => by cases h; exact .float _⟩

/-- C116_readme_partial applies: `IN01` is merged with the weight `0.25`, and the key in `M00` is missing. -/
example : ∃ s0, StreamIn.open_ (file (some2.node sd1) stSome) 2 1000 = .ok s0 ∧ kMid ∉ StreamIn.keys s0 ∧ kIn ∈ StreamIn.keys s0 ∧ ∃ s1 v o,
    StreamIn.getItem s0 kIn = (s1, .ok v) ∧ (entries ⟨v.dtype, v.shape, s1.read v⟩)[0]? = some o ∧ Blended (1 / 4) 0x3C00 0x4000 o := by
  obtain ⟨s0, h1, _, h3⟩ := C116_readme_partial scene noKey sd1 registered rfl (fun k _ => covers_sd1 k) some2
    (fun block y h => by
      cases numbersSome.entries (block, y) (Dict.mem_of_get? (d := some2.entries) (by
        unfold Weights.of at h
        cases hg : some2.entries.get? block with
        | none => rw [hg] at h; cases h
        | some z => rw [hg] at h; exact h)) with
      | int i =>
        exfalso
        have : ∀ p ∈ some2.entries, ∃ x, p.2 = .float x := by simp [some2]
        obtain ⟨x, hx⟩ := this (block, .int i) (Dict.mem_of_get? (by
          unfold Weights.of at h
          cases hg : some2.entries.get? block with
          | none => rw [hg] at h; cases h
          | some z => rw [hg] at h; exact h))
        cases hx
      | float x => exact ⟨x, rfl⟩)
    numbersSome Serialize.Ex.num 0 _ (wentSome.saves rfl) 2 (by decide)
  obtain ⟨_, h4⟩ := h3 kIn _ (wantedIn (by simp [keys])) blockIn
  obtain ⟨h5, _⟩ := h4 (some 1) (1 / 4) (by decide +kernel) (by simp [num, val]; norm_num) (by norm_num) (by norm_num)
  obtain ⟨g1, g2⟩ := h5 ⟨.f16, [2], [0x00, 0x3C, 0x00, 0x80]⟩ ⟨.f16, [2], [0x00, 0x40, 0x00, 0x80]⟩ (by decide +kernel) (by decide +kernel)
  obtain ⟨s1, v, q1, _, _, _, q5⟩ := g2 []
  obtain ⟨o, o1, o2⟩ := q5 0 0x3C00 0x4000 (by decide) (by decide)
  exact ⟨s0, h1, (h3 kMid _ (wantedIn (by simp [keys])) blockMid).1 (by decide +kernel), g1, s1, v, o, q1, o1, o2⟩

/-- C116_file applies: the files of the weights `{"M00": 0.75} | 0.25` and of the weight `0.25` agree on the key in `IN01`. -/
example : ∃ s0 s0', StreamIn.open_ (file (rest.node sd1) stRest) 2 1000 = .ok s0 ∧ StreamIn.open_ (file (number (.float (some 1))) stOne) 2 1000 = .ok s0' ∧
    (kIn ∈ StreamIn.keys s0 ↔ kIn ∈ StreamIn.keys s0') := by
  have hfill : ∀ z, ((sumPlan "f".toList "g".toList sd1.model).fill fun _ => z) = recipe z := fun z => by rw [sumPlan_fill]; rfl
  obtain ⟨s0, s0', h1, h2, h3⟩ := C116_file P _ scene.registered Serialize.Ex.num defaults (sane_defaults T) noKey sd1 registered opened opened_ok
    (sumPlan "f".toList "g".toList sd1.model) (fine_sum scene) trivial (fun b b' h => by cases h) (fun _ => rest) (fun _ => numbersRest) (fun _ => .float (some 1))
    (fun _ => .float _) 0 0 _ _ (wentRest.saves (hfill _)) (wentOne.saves (hfill _)) (by show metadataKey ∉ keys; decide +kernel)
    (by show ∀ p ∈ stRest, StreamOut.Spec.Tensor.WF p.2; simp [stRest, StreamOut.Spec.Tensor.WF, numel, Safetensors.width])
    (by show ∀ p ∈ stOne, StreamOut.Spec.Tensor.WF p.2; simp [stOne, StreamOut.Spec.Tensor.WF, numel, Safetensors.width]) 2 2 1000 (by decide) (by decide)
    (by show ∀ p ∈ stRest, _; decide +kernel) (by show ∀ p ∈ stOne, _; decide +kernel)
  exact ⟨s0, s0', h1, h2, (h3 kIn _ blockIn (fun _ => by decide +kernel) (calm_sum scene (x := some 1) wentOne.prepared (wantedIn (by simp [keys])))).1⟩

/-- `{"OUT05": 0.25}`, for models without keys in this block -/
def other : Weights (Option Int) := ⟨[("OUT05".toList, .float (some 1))], none⟩

/-- `merge_device=None, merge_dtype=None, output_device=None, output_dtype=None` -/
def plain : Options (Option Int) := ⟨none, none, none, none, none, true, true⟩

def emptyWriter : StreamOut.State := StreamOut.init declared (text (other.node sd1)) 2 10000

def saved : Saves P Serialize.Ex.num plain opened (recipe (other.node sd1)) 0 (match StreamOut.close emptyWriter with | .ok f => f | .error _ => []) where
  original := recipe (other.node sd1)
  merged := recipe (other.node sd1)
  keys := keys
  stores := []
  prepared := by decide +kernel
  planned := by decide +kernel
  ran := by show Threads.sequential _ _ _ = _; decide +kernel
  text := text (other.node sd1)
  declared := declared
  minBuf := 2
  cap := 10000
  actions := []
  writer := emptyWriter
  serialized := by decide +kernel
  wrote := by rfl
  quiet := by unfold StreamOut.Spec.Quiescent; decide +kernel
  assigned := by decide +kernel
  complete := ⟨by decide +kernel, by decide +kernel, by decide +kernel, by decide +kernel⟩
  closed := by decide +kernel

/-- C116_missing_false applies: the file lacks the key in `IN01` (and all others). -/
example : ∃ s0, StreamIn.open_ (match StreamOut.close emptyWriter with | .ok f => f | .error _ => []) 2 1000 = .ok s0 ∧ kIn ∉ StreamIn.keys s0 := by
  have himpl : (world P (stored opened)).impl nWeighted = impl (weightedSource T) := rfl
  obtain ⟨s0, h1, h2⟩ := C116_missing_false P Serialize.Ex.num plain ⟨rfl, rfl, rfl⟩ sd1 registered opened opened_ok nWeighted _ []
    (call_weighted himpl (a := .model "f".toList (some sd1.model) (some weight)) (b := .model "g".toList (some sd1.model) (some weight)) (z := other.node sd1)
      (by simp [Proper]) (by simp [Proper]) (proper_one (proper_lit sd1 other)))
    other (.pos 2) .tensor rfl (types_weighted himpl).2.2 0 _ saved (by show metadataKey ∉ keys; decide +kernel) (fun p hp => by cases hp) 2 1000 (by decide)
    (fun p hp => by cases hp)
  exact ⟨s0, h1, h2 kIn _ blockIn (by decide +kernel)⟩

end Ex

end Verif.Blocks
