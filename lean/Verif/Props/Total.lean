import Verif.Proofs.Total
import Verif.Props.Whole

/-!
# A merge that has no reason to fail returns (C109)

`Ready E r` says what the constructors of nodes see to, and that no mapping is empty: see `Verif/Spec/Total.lean`.  `Returns` and `Saves` are calls
of `merge` that returned, with any number of threads: see `Verif/Props/Whole.lean`.
-/
namespace Verif.Total
open Method Recipe Config Eval Eval.Spec Program Program.Spec Whole Whole.Spec Spec
open Threads (fileProgram)
open Threads.Spec (Runs Opened stored)
open StreamOut (Tensor)
variable {F : Type}

/-- What is passed to `merge`: a recipe and perhaps a fallback model that are ready, in one of the library's merge spaces -/
structure Asked (P : PWorld F Tensor) (move : Option Str → Option Str → Tensor → Except Err Tensor) (o : Options F)
    (opened : Str → Option StreamIn.State) (tensors : ℕ → Tensor) (enc : Val F → ℕ) (recipe r : Val F) (fb : Option (Val F)) (s : Str) : Prop where
  registered : Registered P move
  sane : Sane move o
  files : Opened opened
  node : valueToNode P.env recipe = .ok r
  fallback : IsFallback P.env o fb
  ready : Ready P.env r
  readyFallback : ∀ b, fb = some b → Ready P.env b
  space : InSpace P.env r fb s
  known : s ∈ allSpaces
  fits : Fits (world P (stored opened)) move tensors enc o r
  fitsFallback : ∀ b, fb = some b → Fits (world P (stored opened)) move tensors enc o b

section
variable {P : PWorld F Tensor} {move : Option Str → Option Str → Tensor → Except Err Tensor} {o : Options F}
  {opened : Str → Option StreamIn.State} {tensors : ℕ → Tensor} {enc : Val F → ℕ} {recipe r : Val F} {fb : Option (Val F)} {s : Str}

theorem fallback_unique {E : Env F} {fb fb' : Option (Val F)} (h : IsFallback E o fb) (h' : IsFallback E o fb') : fb = fb' := by
  unfold IsFallback at h h'
  cases hb : o.fallback with
  | none => rw [hb] at h h'; rw [h, h']
  | some b =>
    rw [hb] at h h'
    obtain ⟨x, h1, rfl⟩ := h
    obtain ⟨y, h2, rfl⟩ := h'
    rw [h1] at h2
    rw [Except.ok.inj h2]

theorem fitsFallback' (h : Asked P move o opened tensors enc recipe r fb s) :
    ∀ b b', o.fallback = some b → valueToNode P.env b = .ok b' → Fits (world P (stored opened)) move tensors enc o b' := by
  intro b b' hb hb'
  refine h.fitsFallback b' (fallback_unique h.fallback ?_)
  unfold IsFallback
  rw [hb]
  exact ⟨b', hb', rfl⟩

theorem outcome_file (P : PWorld F Tensor) (merged : Val F) (opened : Str → Option StreamIn.State) :
    Threads.outcome opened (fileProgram P merged) = Merge.fileJob (eval (world P (stored opened)) merged) := by
  funext k
  unfold Threads.outcome fileProgram Merge.fileJob
  rw [value_bind, program_value]
  cases eval (world P (stored opened)) merged k with
  | error e => rfl
  | ok v => cases v <;> rfl

/-- The keys are planned exactly if the recipe is in weight space, should this be asked for, and recipe and fallback model have one config. -/
theorem plan_iff (h : Asked P move o opened tensors enc recipe r fb s) {merged : Val F} (hp : prepare P.env o recipe = .ok (r, merged))
    (keys : List Str) : plan (world P (stored opened)) o merged = .ok keys ↔
      (o.strict = true → s = weight) ∧ ∃ c cfg, OneConfig P.env r fb c ∧ P.configs c = some cfg ∧ keys = Merge.targetKeys cfg o.omitEma := by
  have hW := builtin h.registered (stored opened)
  obtain ⟨merged', e1, e2, e3⟩ := prepare_total hW h.node h.fallback h.ready h.readyFallback h.space h.known
  have e : merged' = merged := (Prod.mk.inj (Except.ok.inj (e1.symm.trans hp))).2
  subst e
  have hc : ∀ cfg, configOf (world P (stored opened)) merged' = .ok (some cfg) ↔ ∃ c, OneConfig P.env r fb c ∧ P.configs c = some cfg := by
    intro cfg
    unfold configOf
    rw [e3]
    constructor
    · intro hc
      cases hj : (joined r fb).config (world P (stored opened)).env with
      | error e => rw [hj] at hc; cases hc
      | ok x =>
        rw [hj] at hc
        cases x with
        | none => cases hc
        | some c => exact ⟨c, (joined_config hW).1 hj, Except.ok.inj hc⟩
    · rintro ⟨c, h1, h2⟩
      rw [(joined_config hW).2 h1]
      exact congrArg Except.ok h2
  have hk : Merge.recipeKeys (world P (stored opened)) merged' o.omitEma = .ok keys ↔
      ∃ c cfg, OneConfig P.env r fb c ∧ P.configs c = some cfg ∧ keys = Merge.targetKeys cfg o.omitEma := by
    unfold Merge.recipeKeys
    constructor
    · intro hh
      split at hh
      · cases hh
      · cases hh
      · rename_i cfg hcfg
        obtain ⟨c, h1, h2⟩ := (hc cfg).1 hcfg
        exact ⟨c, cfg, h1, h2, (Except.ok.inj hh).symm⟩
    · rintro ⟨c, cfg, h1, h2, rfl⟩
      rw [(hc cfg).2 ⟨c, h1, h2⟩]
  unfold plan
  rw [← hk]
  by_cases hs : o.strict = true
  · rw [if_pos hs, e2]
    dsimp only
    by_cases hw : s = weight
    · rw [if_neg (by simp [hw])]
      simp [hw]
    · rw [if_pos hw]
      simp [hw, hs]
  · rw [if_neg hs]
    simp [hs]

theorem final_eval (h : Asked P move o opened tensors enc recipe r fb s) {merged : Val F} (hp : prepare P.env o recipe = .ok (r, merged)) :
    eval (world P (stored opened)) merged = final (world P (stored opened)) move tensors enc o r fb := by
  have hW := builtin h.registered (stored opened)
  obtain ⟨_, fb', f1, f2⟩ := facts hW h.sane.mergeDtype h.sane.outputDtype h.sane.move hp h.fits (fitsFallback' h)
  rw [fallback_unique h.fallback f1]
  exact funext f2.eval

/-- **C109** in memory.  The call can return exactly if: with `strict_weight_space`, recipe and fallback model are in weight space; they have one
config between them; and no key of this config fails with anything but a missing key. -/
theorem C109_memory (h : Asked P move o opened tensors enc recipe r fb s) (n : ℕ) :
    Nonempty (Returns (RVal F Tensor) (program P) P o opened recipe n) ↔
      (o.strict = true → s = weight) ∧ ∃ c cfg, OneConfig P.env r fb c ∧ P.configs c = some cfg ∧
        ∀ k, Wanted cfg o k → ∀ e, final (world P (stored opened)) move tensors enc o r fb k = .error e → e = .stateDictKey := by
  have hout : ∀ merged, Threads.outcome opened (program P merged) = eval (world P (stored opened)) merged :=
    fun merged => funext fun k => program_value (stored opened) P merged k
  have hW := builtin h.registered (stored opened)
  constructor
  · rintro ⟨m⟩
    have hn := prepare_node m.prepared
    have ho : m.original = r := Except.ok.inj (hn.symm.trans h.node)
    have hp := m.prepared
    rw [ho] at hp
    obtain ⟨h1, c, cfg, h2, h3, h4⟩ := (plan_iff h hp m.keys).1 m.planned
    refine ⟨h1, c, cfg, h2, h3, fun k hk e he => ?_⟩
    have hnd : m.keys.Nodup := by rw [h4]; exact Merge.targetKeys_nodup _ _
    have := (Merge.C30_returned _ m.keys hnd n m.stores (runs_job h.files hnd m.ran) [] k).2 (by rw [h4, Merge.mem_targetKeys]; exact hk) e
    rw [hout, final_eval h hp] at this
    exact this he
  · rintro ⟨h1, c, cfg, h2, h3, h4⟩
    obtain ⟨merged, hp, _, _⟩ := prepare_total hW h.node h.fallback h.ready h.readyFallback h.space h.known
    have hnd := Merge.targetKeys_nodup cfg o.omitEma
    obtain ⟨stores, out, hrun⟩ := runs_exist (start := program P merged) h.files hnd n
    have : out = .returned := by
      cases out with
      | returned => rfl
      | raised e =>
        obtain ⟨⟨k, hk, hb, hne⟩, _⟩ := Merge.C30_raised _ _ hnd n stores e (runs_job h.files hnd hrun)
        rw [hout, final_eval h hp] at hb
        exact absurd (h4 k (by rw [Merge.mem_targetKeys] at hk; exact hk) e hb) hne
    subst this
    exact ⟨⟨r, merged, _, stores, hp, (plan_iff h hp _).2 ⟨h1, c, cfg, h2, h3, rfl⟩, hrun⟩⟩

/-- **C109.**  Whether it returns is no matter of luck: if it can return, no execution, with however many threads, ends in an exception. -/
theorem C109_always (h : Asked P move o opened tensors enc recipe r fb s) (n : ℕ) (m : Returns (RVal F Tensor) (program P) P o opened recipe n)
    (n' : ℕ) (stores : List (Str × RVal F Tensor)) (out : Merge.Outcome) (hrun : Runs n' (program P m.merged) opened m.keys stores out) :
    out = .returned := by
  have hnd : m.keys.Nodup := by
    obtain ⟨_, cfg, _, h4⟩ := plan_ok m.planned
    rw [h4]; exact Merge.targetKeys_nodup _ _
  exact ((Merge.C29_schedule _ m.keys hnd n n' _ _ _ _ (runs_job h.files hnd m.ran) (runs_job h.files hnd hrun)).1.1 rfl)

/-- **C109** for a file.  If every key has a tensor or is missing, and the recipe can be serialized or only fails with a `TypeError`, then for every
positive buffer size the call can return with a file, unless the header needs more than 2^64 bytes. -/
theorem C109_file (h : Asked P move o opened tensors enc recipe r fb s) (N : Serialize.Num F) (n : ℕ) (hs : o.strict = true → s = weight)
    (c : Str) (cfg : ModelConfig) (hc : OneConfig P.env r fb c) (hcfg : P.configs c = some cfg)
    (hk : ∀ k, Wanted cfg o k → (∃ t, final (world P (stored opened)) move tensors enc o r fb k = .ok (.tensor t)) ∨
      final (world P (stored opened)) move tensors enc o r fb k = .error .stateDictKey)
    (text : Option Str) (ht : recipeText N r = .ok text) (declared : Dict Key StreamOut.Meta) (minBuf cap : ℕ) (hm : 0 < minBuf)
    (hb : minBuf ≤ cap) (h8 : 8 ≤ cap) (hh : StreamOut.reservedSize declared text ≤ cap)
    (hcap : ∀ k t, Wanted cfg o k → final (world P (stored opened)) move tensors enc o r fb k = .ok (.tensor t) → t.bytes.length ≤ cap) :
    (∃ file, ∃ m : Saves P N o opened recipe n file, m.declared = declared ∧ m.minBuf = minBuf ∧ m.cap = cap) ∨
      ∃ (m : Returns Tensor (fileProgram P) P o opened recipe n) (as : List StreamOut.Action) (w : StreamOut.State),
        StreamOut.run (StreamOut.init declared text minBuf cap) as = some w ∧ StreamOut.Spec.stored as = m.stores ∧
        StreamOut.close w = .error .struct := by
  have hW := builtin h.registered (stored opened)
  obtain ⟨merged, hp, _, _⟩ := prepare_total hW h.node h.fallback h.ready h.readyFallback h.space h.known
  have hnd := Merge.targetKeys_nodup cfg o.omitEma
  obtain ⟨stores, out, hrun⟩ := runs_exist (start := fileProgram P merged) h.files hnd n
  have hjob := runs_job h.files hnd hrun
  rw [outcome_file, final_eval h hp] at hjob
  have : out = .returned := by
    cases out with
    | returned => rfl
    | raised e =>
      obtain ⟨⟨k, hk', hb, hne⟩, _⟩ := Merge.C30_raised _ _ hnd n stores e hjob
      unfold Merge.fileJob at hb
      rcases hk k (by rw [Merge.mem_targetKeys] at hk'; exact hk') with ⟨t, hk⟩ | hk
      · rw [hk] at hb; cases hb
      · rw [hk] at hb; cases hb; exact absurd rfl hne
  subst this
  have hmem : ∀ p ∈ stores, ∃ k, Wanted cfg o k ∧ final (world P (stored opened)) move tensors enc o r fb k = .ok (.tensor p.2) := by
    intro p hp'
    obtain ⟨fin, can, p1, p2, _, _⟩ := Merge.runs_facts hjob
    rw [p2] at hp'
    obtain ⟨k, hk1, hk2⟩ := List.mem_filterMap.1 hp'
    have hk' : k ∈ Merge.targetKeys cfg o.omitEma := p1.mem_iff.1 (List.mem_append_left _ hk1)
    rw [Merge.mem_targetKeys] at hk'
    refine ⟨k, hk', ?_⟩
    unfold Merge.storeOf Merge.fileJob at hk2
    rcases hk k hk' with ⟨t, hk⟩ | hk
    · simp only [hk, Merge.track, Option.map_some] at hk2
      rw [hk, ← Option.some.inj hk2]
    · simp [hk, Merge.track] at hk2
  obtain ⟨as, w, w1, w2, w3⟩ := write_all stores (StreamOut.init declared text minBuf cap) (by intro p hp'; cases hp')
  have hcomp : StreamOut.Spec.Complete declared text minBuf cap (StreamOut.Spec.stored as) := by
    refine ⟨hb, ?_, h8, hh⟩
    rw [w3]
    intro p hp'
    obtain ⟨k, hk1, hk2⟩ := hmem p hp'
    exact hcap k p.2 hk1 hk2
  have hplan := (plan_iff h hp _).2 ⟨hs, c, cfg, hc, hcfg, rfl⟩
  rcases StreamOut.C05_close_succeeds declared text minBuf cap as w w1 w2 hcomp hm with ⟨file, hclose⟩ | hclose
  · left
    exact ⟨file, ⟨⟨r, merged, _, stores, hp, hplan, hrun⟩, text, declared, minBuf, cap, as, w, ht, w1, w2, by rw [w3], hcomp, hclose⟩, rfl, rfl, rfl⟩
  · right
    exact ⟨⟨r, merged, _, stores, hp, hplan, hrun⟩, as, w, w1, w3, hclose⟩

end

/-- **C109.**  What a method makes of values that are good is ready, so by induction are all recipes that methods build from models with merge spaces,
numbers, tensors, strings and mappings with an entry. -/
theorem C109_built (E : Env F) (m : Str) (sig : Sig (Val F)) (hsig : E.resolve m = .ok sig) (hd : ∀ v ∈ sig.defaults, Good E v)
    (hkd : ∀ p ∈ sig.kwdefaults, Good E p.2) (args : List (Val F)) (kwargs : List (Str × Val F)) (ha : ∀ v ∈ args, Good E v)
    (hk : ∀ p ∈ kwargs, Good E p.2) (r : Val F) (h : createRecipe E m args kwargs = .ok r) : Ready E r ∧ Good E r := by
  obtain ⟨sig', b, as, ks, sp, h1, h2, h3, h4, h5, rfl⟩ := Serialize.createRecipe_ok.1 h
  rw [hsig] at h1
  cases h1
  obtain ⟨b1, b2⟩ := bind_mem h2
  obtain ⟨s, rfl⟩ := space_some h5
  have : Ready E (.merge m as ks) := by
    rw [Ready]
    refine ⟨⟨s, h5⟩, goods_ready (fun v hv => ?_) h3, goods_readyK (fun p hp => ?_) h4⟩
    · rcases b1 v hv with hv | ⟨k, hv⟩ | hv
      · exact ha v hv
      · exact hk _ hv
      · exact hd v hv
    · rcases b2 p hp with hp | hp
      · exact hk p hp
      · exact hkd p hp
  exact ⟨this, fun _ => this⟩

/-- **C109.**  A value that is good can be passed to `merge` itself. -/
theorem C109_value (E : Env F) (v n : Val F) (h : Good E v) (hv : valueToNode E v = .ok n) : Ready E n := good_ready h hv

/-! ## An example

The call of `Verif/Props/Whole.lean`: a component of a model with a fallback model in memory, both cast. -/

namespace Ex
open Whole.Ex

theorem asked : Asked P move o Threads.Ex.opened tensors enc recipe recipe (some fb) weight where
  registered := registered
  sane := ⟨by decide, by decide, fun x e h => by simp [move, o] at h⟩
  files := Threads.Ex.opened_ok
  node := rfl
  fallback := ⟨fb, rfl, rfl⟩
  ready := by
    unfold recipe f
    simp only [Ready, ReadyL, ReadyK, and_true]
    exact ⟨⟨weight, by decide +kernel⟩, ⟨weight, by decide, rfl⟩, by decide⟩
  readyFallback := by
    intro b hb
    cases hb
    unfold fb
    rw [Ready]
    exact ⟨by decide, by simp, .inl (by decide)⟩
  space := ⟨by decide +kernel, fun b hb => by cases hb; rfl⟩
  known := by decide
  fits := fits_recipe
  fitsFallback := fun b hb => by cases hb; exact fits_fb

/-- A mapping of recipes given to `fallback` by name. -/
def pair : Val (Option Int) := .dict [("a".toList, f), ("b".toList, recipe)]

example (r : Val (Option Int)) (h : createRecipe P.env nFallback [fb] [("default".toList, pair)] = .ok r) : Ready P.env r :=
  (C109_built P.env nFallback fallbackSig registered.sigFallback (by simp [fallbackSig]) (by simp [fallbackSig]) [fb] [("default".toList, pair)]
    (by simp only [List.mem_singleton, forall_eq]; exact fun _ => asked.readyFallback fb rfl)
    (by
      simp only [List.mem_singleton, forall_eq]
      refine ⟨by simp, .inr ?_⟩
      simp only [List.mem_cons, List.not_mem_nil, or_false, forall_eq_or_imp, forall_eq]
      refine ⟨⟨rfl, ?_, weight, by decide, rfl⟩, rfl, asked.ready, weight, by decide, by decide +kernel⟩
      unfold f
      rw [Ready]
      exact ⟨weight, by decide, rfl⟩) r h).1

example : (match createRecipe P.env nFallback [fb] [("default".toList, pair)] with | .ok _ => true | .error _ => false) = true := by decide +kernel

theorem wanted (k : Str) : Wanted cfg o k ↔ k ∈ keys := by
  rw [show keys = Merge.targetKeys cfg o.omitEma by decide +kernel, Merge.mem_targetKeys]
  rfl

theorem oneConfig : OneConfig P.env recipe (some fb) "t-c".toList :=
  ⟨some "t-c".toList, some "t-c".toList, by decide +kernel, by decide +kernel, .inl ⟨rfl, .inr rfl⟩⟩

/-- With any number of threads. -/
example (n : ℕ) : Nonempty (Returns (RVal (Option Int) Tensor) (program P) P o Threads.Ex.opened recipe n) := by
  refine (C109_memory asked n).2 ⟨fun _ => rfl, "t-c".toList, cfg, oneConfig, rfl, fun k hk e he => ?_⟩
  obtain ⟨t, ht, _⟩ := values k ((wanted k).1 hk)
  rw [show final (world P (stored Threads.Ex.opened)) move tensors enc o recipe (some fb) k = .ok (.tensor t) from ht] at he
  cases he

example (n : ℕ) (minBuf : ℕ) (hm : 0 < minBuf) (hm' : minBuf ≤ 10000) :=
  C109_file asked Serialize.Ex.num n (fun _ => rfl) "t-c".toList cfg oneConfig rfl
    (fun k hk => .inl ((values k ((wanted k).1 hk)).imp fun _ h => h.1)) (some text) (by decide +kernel) declared minBuf 10000 hm hm' (by decide)
    (by decide +kernel) (fun k t hk ht => by
      obtain ⟨t', h1, h2⟩ := values k ((wanted k).1 hk)
      have h3 : (Except.ok (.tensor t') : Res (Option Int) Tensor) = .ok (.tensor t) := h1.symm.trans ht
      cases h3
      have : ∀ p ∈ stores, p.2.bytes.length ≤ 10000 := by decide
      exact this _ h2)

example (n : ℕ) (stores : List (Str × RVal (Option Int) Tensor)) (out : Merge.Outcome)
    (h : Runs n (program P merged) Threads.Ex.opened keys stores out) : out = .returned :=
  C109_always asked 2 returns n stores out h

end Ex
end Verif.Total
