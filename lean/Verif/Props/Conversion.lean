import Verif.Proofs.Conversion
import Verif.Proofs.Rebuild

/-!
# Conversion: C19 to C21
-/
namespace Verif.Conversion
open Method Recipe Spec
variable {F : Type}

/-! ## C19 -/

/-- **C19.**  A chain found by the search is a chain of registered converters from the source to the target, and none is shorter.
`cs` is any list of converters: several between the same configs, cycles, and unreachable parts are allowed. -/
theorem C19_shortest (cs : List Converter) (src tgt : Str) (p : List Str)
    (h : dijkstra (buildGraph cs) src tgt = some (.ok (some p))) :
    Chain cs src p tgt ∧ ∀ q, Chain cs src q tgt → p.length ≤ q.length := by
  obtain ⟨r, h1, h2⟩ := dijkstra_spec (buildGraph cs) (buildGraph_closed cs) src tgt
  rw [h1] at h
  cases h
  obtain ⟨h3, h4⟩ := h2
  exact ⟨(chain_iff ..).2 h3, fun q hq => h4 q ((chain_iff ..).1 hq)⟩

namespace Ex
def cs : List Converter :=
  [⟨"ab".toList, "a".toList, "b".toList⟩, ⟨"ba".toList, "b".toList, "a".toList⟩, ⟨"bc".toList, "b".toList, "c".toList⟩,
   ⟨"cd".toList, "c".toList, "d".toList⟩, ⟨"ab2".toList, "a".toList, "b".toList⟩, ⟨"bd".toList, "b".toList, "d".toList⟩,
   ⟨"ef".toList, "e".toList, "f".toList⟩]

example : dijkstra (buildGraph cs) "a".toList "d".toList = some (.ok (some ["ab".toList, "bd".toList])) := by decide +kernel
example : dijkstra (buildGraph cs) "a".toList "f".toList = some (.ok none) := by decide +kernel
example : dijkstra (buildGraph cs) "x".toList "x".toList = some (.ok (some [])) := by decide +kernel
end Ex

/-! ## C20 -/

/-- More rounds than needed change nothing. -/
theorem search_mono (g : Graph) (goal : Str) (fuel : ℕ) (s : St) (r : Except Err St) (h : search g goal fuel s = some r) :
    search g goal (fuel + 1) s = some r := by
  induction fuel generalizing s with
  | zero =>
    unfold search at h
    split at h
    · rename_i he
      cases h
      unfold search
      rw [popMin_none.2 he]
    · cases h
  | succ fuel ih =>
    unfold search at h ⊢
    cases hp : popMin s.heap with
    | none => rw [hp] at h; exact h
    | some q =>
      obtain ⟨⟨d, v⟩, rest⟩ := q
      rw [hp] at h
      simp only at h ⊢
      cases hd : s.dist.get? v with
      | none => rw [hd] at h; exact h
      | some dv =>
        rw [hd] at h
        simp only at h ⊢
        split_ifs at h ⊢
        · exact ih _ h
        · exact h
        · cases hg : g.get? v with
          | none => rw [hg] at h; exact h
          | some es =>
            rw [hg] at h
            simp only at h ⊢
            cases hr : relax v d es { s with heap := rest } with
            | error e => rw [hr] at h; exact h
            | ok s' => rw [hr] at h; exact ih s' h

/-- **C20.**  The search ends (after at most one round per config and two more, and more rounds would not change the result);
it returns a chain if there is any, and otherwise reports that there is none, by `None` or by a `KeyError`. -/
theorem C20_complete (cs : List Converter) (src tgt : Str) :
    (∃ r, ∀ fuel, fuelFor (buildGraph cs) ≤ fuel → search (buildGraph cs) tgt fuel (init (buildGraph cs) src) = some r) ∧
    (((∃ q, Chain cs src q tgt) ∧ ∃ p, dijkstra (buildGraph cs) src tgt = some (.ok (some p))) ∨
      ((¬ ∃ q, Chain cs src q tgt) ∧ (dijkstra (buildGraph cs) src tgt = some (.ok none) ∨
        dijkstra (buildGraph cs) src tgt = some (.error .key)))) := by
  constructor
  · have hi := init_inv (buildGraph cs) src
    obtain ⟨r, h1, _⟩ := search_spec (goal := tgt) (buildGraph_closed cs) (fuelFor (buildGraph cs)) (init (buildGraph cs) src) hi (by
      have := init_count (buildGraph cs) src
      have := hi.size
      unfold fuelFor
      have : (init (buildGraph cs) src).heap.length = 1 := rfl
      omega)
    refine ⟨r, ?_⟩
    intro fuel hf
    induction hf with
    | refl => exact h1
    | step _ ih => exact search_mono _ _ _ _ _ ih
  · obtain ⟨r, h1, h2⟩ := dijkstra_spec (buildGraph cs) (buildGraph_closed cs) src tgt
    cases r with
    | error e =>
      obtain ⟨rfl, h3⟩ := h2
      right
      exact ⟨fun ⟨q, hq⟩ => h3 q ((chain_iff ..).1 hq), Or.inr h1⟩
    | ok o =>
      cases o with
      | none =>
        right
        exact ⟨fun ⟨q, hq⟩ => h2 q ((chain_iff ..).1 hq), Or.inl h1⟩
      | some p =>
        left
        exact ⟨⟨p, (chain_iff ..).2 h2.1⟩, p, h1⟩

/-- The documented `ValueError` is not what is raised when a config occurs in no converter: it is a `KeyError`. -/
theorem C20_unknown_config_false : ∃ (cs : List Converter) (src tgt : Str), src ≠ tgt ∧
    dijkstra (buildGraph cs) src tgt = some (.error .key) :=
  ⟨Ex.cs, "x".toList, "a".toList, by decide, by decide +kernel⟩

/-- For a mapping, a first fitting config that occurs in no converter ends the whole search with that `KeyError`, though a
later one has a chain. -/
theorem C20_mapping_false (E : Env F) (v : Val F) : ∃ (cs : List Converter) (configs : List Str) (tgt : Str),
    convertMapping E cs v tgt configs = some (.error .key) ∧ ∃ c ∈ configs, ∃ q, Chain cs c q tgt := by
  refine ⟨Ex.cs, ["x".toList, "a".toList], "b".toList, ?_, "a".toList, by simp, ["ab".toList], ?_⟩
  · have h : dijkstra (buildGraph Ex.cs) "x".toList "b".toList = some (.error .key) := by decide +kernel
    unfold convertMapping conversionRecipe
    rw [h]
  · exact Chain.cons ⟨"ab".toList, "a".toList, "b".toList⟩ (by simp [Ex.cs]) (.nil _)

/-! ## C21 -/

/-- What a registered converter is (merge_methods.py:518-525): one positional parameter with a config, a result with a config, and
keyword parameters whose defaults are plain values. -/
structure Spec.Valid (E : Env F) (c : Converter) : Prop where
  sig : ∃ sig n p, E.resolve c.name = .ok sig ∧ sig.args = [(n, p)] ∧ p.config = some c.src ∧ sig.retConfig = some c.tgt ∧
    ∀ q ∈ sig.kwdefaults, q.2.isNode = false ∧ ∀ es, q.2 ≠ .dict es

theorem bind_one {sig : Sig (Val F)} {n : Str} {p : Param} (hargs : sig.args = [(n, p)]) {v : Val F} {b : Bound (Val F)}
    (h : Method.bind sig [v] [] = .ok b) : b.args = [v] ∧ b.kwargs = sig.kwdefaults := by
  obtain ⟨_, ⟨bound, hm, hb⟩, _, _, hk⟩ := bind_ok_iff.1 h
  refine ⟨?_, by rw [hk]; rfl⟩
  have hn : Method.Spec.names sig = [n] := by simp [Method.Spec.names, hargs]
  rw [hn] at hm hb
  have hbind : bindArg sig [v] [] 0 n = .ok v := by
    unfold bindArg byPosition firstArgAsKwarg
    simp [hargs, Dict.keys]
  have : bound = [v] := by
    have h1 : ([n].mapIdx fun i k => (i, k)).mapM (fun p => bindArg sig [v] [] p.1 p.2) = .ok [v] := by
      simp [List.mapIdx_cons, hbind, Bind.bind, Except.bind, pure, Except.pure]
    rw [h1] at hm
    cases hm; rfl
  rw [hb, this]; rfl

theorem valuesToNodesK_plain {E : Env F} {l ks : List (Str × Val F)} (hl : ∀ q ∈ l, q.2.isNode = false ∧ ∀ es, q.2 ≠ .dict es)
    (h : valuesToNodesK E l = .ok ks) : ∃ cfg, configK E ks = .ok cfg ∧ ∀ q ∈ cfg, q.2 = none := by
  induction l generalizing ks with
  | nil => simp [valuesToNodesK] at h; subst h; exact ⟨[], rfl, by simp⟩
  | cons q l ih =>
    obtain ⟨k, v⟩ := q
    unfold valuesToNodesK at h
    obtain ⟨hv1, hv2⟩ := hl (k, v) (by simp)
    have hv : ∃ s, valueToNode E v = .ok (.lit v none s) := by
      cases v with
      | dict es => exact absurd rfl (hv2 es)
      | lit _ _ _ => cases hv1
      | model _ _ _ => cases hv1
      | merge _ _ _ => cases hv1
      | _ => exact ⟨_, rfl⟩
    obtain ⟨s, hv⟩ := hv
    rw [hv] at h
    simp only [Bind.bind, Except.bind] at h
    cases h2 : valuesToNodesK E l with
    | error e => rw [h2] at h; cases h
    | ok ks' =>
      rw [h2] at h
      cases h
      obtain ⟨cfg, h3, h4⟩ := ih (fun q hq => hl q (by simp [hq])) h2
      refine ⟨(k, none) :: cfg, ?_, ?_⟩
      · unfold configK
        rw [h3]
        rfl
      · intro q hq
        rcases List.mem_cons.1 hq with rfl | hq
        · rfl
        · exact h4 q hq

theorem configLoop_none {input : Dict Idx (Option Str)} {d : Option Str} {l : List (Idx × Option Str)} (h : ∀ q ∈ l, q.2 = none) :
    configLoop input d l = .ok d := by
  induction l with
  | nil => rfl
  | cons q l ih =>
    obtain ⟨i, c⟩ := q
    have : c = none := h (i, c) (by simp)
    subst this
    unfold configLoop
    exact ih (fun q hq => h q (by simp [hq]))

/-- One converter. -/
theorem convert_step {E : Env F} {c : Converter} (hc : Valid E c) {v r : Val F} (hv : v.isNode = true)
    (hcfg : v.config E = .ok (some c.src)) (h : createRecipe E c.name [v] [] = .ok r) :
    (∃ ks, r = .merge c.name [v] ks) ∧ r.config E = .ok (some c.tgt) := by
  obtain ⟨sig, n, p, h1, h2, h3, h4, h5⟩ := hc.sig
  obtain ⟨sig', b, as, ks, sp, g1, g2, g3, g4, g5, rfl⟩ := Serialize.createRecipe_ok.1 h
  rw [h1] at g1
  cases g1
  obtain ⟨e1, e2⟩ := bind_one h2 g2
  rw [e1] at g3
  have has : as = [v] := by
    unfold valuesToNodes at g3
    rw [Serialize.valueToNode_node hv] at g3
    have : valuesToNodes E ([] : List (Val F)) = .ok [] := rfl
    rw [this] at g3
    cases g3; rfl
  subst has
  refine ⟨⟨ks, rfl⟩, ?_⟩
  rw [e2] at g4
  obtain ⟨cfg, k1, k2⟩ := valuesToNodesK_plain h5 g4
  have hl : configL E [v] = .ok [some c.src] := by
    unfold configL
    rw [hcfg]
    rfl
  unfold Val.config
  rw [h1, hl, k1]
  simp only [Bind.bind, Except.bind]
  unfold Sig.returnConfig argIdx
  simp only [List.mapIdx_cons, List.mapIdx_nil, List.cons_append, List.nil_append]
  have hin : Dict.get? (sig.inputConfigs.asDict (some [some c.src].length)) (.pos 0) = some (some c.src) := by
    unfold FunctionArgs.asDict FunctionArgs.argsVarargs Sig.inputConfigs
    simp [h2, h3, Dict.get?]
  unfold configLoop
  rw [hin]
  simp only [ne_eq, not_true_eq_false, if_false]
  rw [h4]
  apply configLoop_none
  intro q hq
  obtain ⟨q', hq', rfl⟩ := List.mem_map.1 hq
  exact k2 q' hq'

theorem applyChain_spec {E : Env F} {cs : List Converter} (hcs : ∀ c ∈ cs, Valid E c) {src tgt : Str} {p : List Str}
    (hp : Chain cs src p tgt) : ∀ {v r : Val F}, v.isNode = true → v.config E = .ok (some src) → applyChain E p v = .ok r →
    Nested p v r ∧ r.config E = .ok (some tgt) := by
  induction hp with
  | nil a =>
    intro v r _ hcfg h
    simp [applyChain] at h
    subst h
    exact ⟨.nil _, hcfg⟩
  | cons c hc _ ih =>
    intro v r hv hcfg h
    unfold applyChain at h
    cases h1 : createRecipe E c.name [v] [] with
    | error e => rw [h1] at h; cases h
    | ok r' =>
      rw [h1] at h
      obtain ⟨⟨ks, rfl⟩, h3⟩ := convert_step (hcs c hc) hv hcfg h1
      obtain ⟨h4, h5⟩ := ih rfl h3 h
      exact ⟨.cons ks h4, h5⟩

/-- **C21.**  What `convert` returns is the input recipe with the converters of a shortest chain nested around it in order, and
its config is the target. -/
theorem C21_convert (E : Env F) (cs : List Converter) (hcs : ∀ c ∈ cs, Valid E c) (v r : Val F) (src tgt : Str)
    (hv : v.isNode = true) (hcfg : v.config E = .ok (some src)) (h : convert E cs v src tgt = some (.ok r)) :
    ∃ p, Chain cs src p tgt ∧ (∀ q, Chain cs src q tgt → p.length ≤ q.length) ∧ Nested p v r ∧ r.config E = .ok (some tgt) := by
  unfold convert at h
  split at h
  · cases h
  · unfold conversionRecipe at h
    cases hd : dijkstra (buildGraph cs) src tgt with
    | none => rw [hd] at h; cases h
    | some x =>
      rw [hd] at h
      cases x with
      | error e => cases h
      | ok o =>
        cases o with
        | none => cases h
        | some p =>
          obtain ⟨h1, h2⟩ := C19_shortest cs src tgt p hd
          simp only at h
          cases ha : applyChain E p v with
          | error e => rw [ha] at h; cases h
          | ok r' =>
            rw [ha] at h
            have hr : r' = r := by simpa using h
            subst hr
            obtain ⟨h3, h4⟩ := applyChain_spec hcs h1 hv hcfg ha
            exact ⟨p, h1, h2, h3, h4⟩

/-- The input itself when the configs are equal. -/
theorem C21_same (E : Env F) (cs : List Converter) (v : Val F) (src : Str) (hs : src ≠ "structural".toList) :
    convert E cs v src src = some (.ok v) := by
  rcases (C20_complete cs src src).2 with ⟨_, p, hp⟩ | ⟨hn, _⟩
  · obtain ⟨_, h2⟩ := C19_shortest cs src src p hp
    have := h2 [] (.nil src)
    have hp0 : p = [] := List.length_eq_zero_iff.1 (by simpa using this)
    subst hp0
    unfold convert conversionRecipe
    rw [if_neg hs, hp]
    rfl
  · exact absurd ⟨[], .nil src⟩ hn

namespace Ex

def sigOf (a b : Str) : Sig (Val ℕ) where
  args := [("x".toList, ⟨none, some a, false⟩)]
  vararg := none
  kwonly := [("k".toList, ⟨none, none, true⟩)]
  defaults := []
  kwdefaults := [("k".toList, .int 1)]
  retSpace := .none
  retConfig := some b

def env : Env ℕ where
  methods := cs.map fun c => (c.name, sigOf c.src c.tgt)
  configs := []
  spaces := []
  norm := id

theorem cs_valid : ∀ c ∈ cs, Valid env c := by
  intro c hc
  have h : env.resolve c.name = .ok (sigOf c.src c.tgt) := by
    revert c
    decide +kernel
  refine ⟨_, _, _, h, rfl, rfl, rfl, ?_⟩
  intro q hq
  have hq' : q = ("k".toList, .int 1) := by simpa [sigOf] using hq
  subst hq'
  exact ⟨rfl, fun es h => nomatch h⟩

def lit1 : List (Str × Val ℕ) := [("k".toList, .lit (.int 1) none "param".toList)]

example : convert env cs (.model "m".toList (some "a".toList) (some "weight".toList)) "a".toList "d".toList =
    some (.ok (.merge "bd".toList [.merge "ab".toList [.model "m".toList (some "a".toList) (some "weight".toList)] lit1] lit1)) := by
  decide +kernel

end Ex

end Verif.Conversion
