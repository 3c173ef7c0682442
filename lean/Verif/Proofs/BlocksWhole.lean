import Verif.Proofs.BlocksCast
import Verif.Proofs.Shipped

/-!
# Weights per block, and merges of recipes with open parameters
-/
namespace Verif.Blocks
open Method Recipe Config Eval Eval.Spec Program Program.Spec Whole Spec
variable {F T : Type}

/-! ### What `merge` makes of a recipe -/

theorem forall2_three {α β : Type} {R : α → β → Prop} {l : List α} {l' : List β} (h : List.Forall₂ R l l') :
    (∃ a b c a' b' c', l = [a, b, c] ∧ l' = [a', b', c'] ∧ R a a' ∧ R b b' ∧ R c c') ∨ (l.length ≠ 3 ∧ l'.length ≠ 3) := by
  by_cases hl : l.length = 3
  · left
    match l, hl, h with
    | [a, b, c], _, .cons h1 (.cons h2 (.cons h3 .nil)) => exact ⟨_, _, _, _, _, _, rfl, rfl, h1, h2, h3⟩
  · right
    exact ⟨hl, by rw [← h.length_eq]; exact hl⟩

theorem cast_local (move : Option Str → Option Str → T → Except Err T) : Local (castImpl (F := F) move) := by
  intro args args' _ _ key h _
  have hrun : ∀ l : List (Arg F T), (∀ a b c, l ≠ [.val a, .val b, .val c]) → ∀ ks, (castImpl (F := F) move).run l ks key = .error .type := by
    intro l hl ks
    unfold castImpl
    dsimp only
    split
    · exact absurd rfl (hl _ _ _)
    · rfl
  rcases forall2_three h with ⟨a, b, c, a', b', c', rfl, rfl, ha, hb, hc⟩ | ⟨h1, h2⟩
  · cases ha with
    | sd _ => rw [hrun _ (by simp), hrun _ (by simp)]
    | val _ =>
      cases hb with
      | sd _ => rw [hrun _ (by simp), hrun _ (by simp)]
      | val _ =>
        cases hc with
        | sd _ => rw [hrun _ (by simp), hrun _ (by simp)]
        | val _ => rfl
  · rw [hrun _ (by rintro a b c rfl; exact h1 rfl), hrun _ (by rintro a b c rfl; exact h2 rfl)]

/-- What is put in the open parameters, as `merge` prepares it -/
def prepF (E : Env F) (o : Options F) (f : ℕ → Val F) : ℕ → Val F :=
  if o.castsInputs then castF E o.mergeDevice o.mergeDtype f else f

theorem given_node {E : Env F} {c : Str} {q : Plan F} (h : Given E c q) (f : ℕ → Val F) : (q.fill f).isNode = true := by
  cases q with
  | hole i => exact h.elim
  | fixed v =>
    rw [Plan.fill]
    have h : v.config E = .ok (some c) := h
    cases v <;> first | rfl | (rw [Val.config] at h <;> first | cases h | simp)
  | merge m args kwargs => rw [Plan.fill]; rfl

theorem at_two {A : Type} {a b x : A} {idx : Idx} (h : At [a, b] [] idx x) : (idx = .pos 0 ∧ x = a) ∨ (idx = .pos 1 ∧ x = b) := by
  cases idx with
  | name k => cases h
  | pos i =>
    have h' : [a, b][i]? = some x := h
    match i, h' with
    | 0, h' => left; simp at h'; exact ⟨rfl, h'.symm⟩
    | 1, h' => right; simp at h'; exact ⟨rfl, h'.symm⟩
    | i + 2, h' => simp at h'

theorem at_three {A : Type} {a b c x : A} {idx : Idx} (h : At [a, b, c] [] idx x) :
    (idx = .pos 0 ∧ x = a) ∨ (idx = .pos 1 ∧ x = b) ∨ (idx = .pos 2 ∧ x = c) := by
  cases idx with
  | name k => cases h
  | pos i =>
    have h' : [a, b, c][i]? = some x := h
    match i, h' with
    | 0, h' => left; simp at h'; exact ⟨rfl, h'.symm⟩
    | 1, h' => right; left; simp at h'; exact ⟨rfl, h'.symm⟩
    | 2, h' => right; right; simp at h'; exact ⟨rfl, h'.symm⟩
    | i + 3, h' => simp at h'

theorem fine_fallback {W : World F T} {move} (hW : Builtin W move) {c : Str} {q : Plan F} {b : Val F} (hq : Fine W c q) (hg : Given W.env c q)
    (hk : Known b) (hb : Maybe W.env c b) : Fine W c (.merge nFallback [q, .fixed b] []) := by
  simp only [Fine, FineL, FineK, and_true]
  refine ⟨by rw [hW.implFallback]; exact fallback_local, ⟨fallbackSig, hW.sigFallback, rfl, ?_⟩, ⟨.pos 0, q, rfl, hg⟩, ?_, hq, hk, hb⟩
  · intro idx a h
    rcases at_two h with ⟨rfl, _⟩ | ⟨rfl, _⟩ <;> rfl
  · intro idx i h
    rcases at_two h with ⟨rfl, h'⟩ | ⟨rfl, h'⟩
    · rw [← h'] at hg; exact hg.elim
    · cases h'

theorem fine_castNode {W : World F T} {move} (hW : Builtin W move) {c : Str} {q : Plan F} (hq : Fine W c q) (hg : Given W.env c q) (d t : Option Str) :
    Fine W c (.merge nCast [q, .fixed (.lit (optVal d) none paramSpace), .fixed (.lit (optVal t) none paramSpace)] []) := by
  simp only [Fine, FineL, FineK, and_true]
  refine ⟨by rw [hW.implCast]; exact cast_local move, ⟨castSig, hW.sigCast, rfl, ?_⟩, ⟨.pos 0, q, rfl, hg⟩, ?_, hq, ⟨known_opt _ _ _, .inl (by rw [Val.config])⟩,
    known_opt _ _ _, .inl (by rw [Val.config])⟩
  · intro idx a h
    rcases at_three h with ⟨rfl, _⟩ | ⟨rfl, _⟩ | ⟨rfl, _⟩ <;> rfl
  · intro idx i h
    rcases at_three h with ⟨rfl, h'⟩ | ⟨rfl, h'⟩ | ⟨rfl, h'⟩
    · rw [← h'] at hg; exact hg.elim
    · cases h'
    · cases h'

def planFallback (E : Env F) (o : Options F) (q : Plan F) : Except Err (Plan F) :=
  match o.fallback with
  | none => .ok q
  | some b => (valueToNode E b).map fun b' => .merge nFallback [q, .fixed b'] []

def planInputs (E : Env F) (o : Options F) (q : Plan F) : Except Err (Plan F) :=
  if o.castsInputs then castPlan E o.mergeDevice o.mergeDtype q else .ok q

def planOutput (o : Options F) (q : Plan F) : Plan F :=
  if o.castsOutput then .merge nCast [q, .fixed (.lit (optVal o.outputDevice) none paramSpace), .fixed (.lit (optVal o.outputDtype) none paramSpace)] [] else q

/-- The recipe that is merged, with its parameters open -/
def prepPlan (E : Env F) (o : Options F) (q : Plan F) : Except Err (Plan F) :=
  match planFallback E o q with
  | .error e => .error e
  | .ok q1 =>
    match planInputs E o q1 with
    | .error e => .error e
    | .ok q2 => .ok (planOutput o q2)

theorem prepare_fill {W : World F T} {move} (hW : Builtin W move) {o : Options F} {c : Str} {q : Plan F} (hq : Fine W c q) (hg : Given W.env c q)
    (hfb : ∀ b b', o.fallback = some b → valueToNode W.env b = .ok b' → Known b' ∧ Maybe W.env c b') {f : ℕ → Val F} {r p : Val F}
    (h : prepare W.env o (q.fill f) = .ok (r, p)) :
    ∃ Q, prepPlan W.env o q = .ok Q ∧ Fine W c Q ∧ Given W.env c Q ∧ p = Q.fill (prepF W.env o f) ∧
      (Q.Every fun i => o.castsInputs = true → castInputs W.env o.mergeDevice o.mergeDtype (f i) = .ok (prepF W.env o f i)) := by
  unfold prepare at h
  rw [Serialize.valueToNode_node (given_node hg f)] at h
  have h : (withFallback W.env o (q.fill f)).bind _ = _ := h
  cases h1 : withFallback W.env o (q.fill f) with
  | error e => rw [h1] at h; cases h
  | ok r1 =>
    rw [h1] at h
    have h : (withInputs W.env o r1).bind _ = _ := h
    cases h2 : withInputs W.env o r1 with
    | error e => rw [h2] at h; cases h
    | ok r2 =>
      rw [h2] at h
      have h : (withOutput W.env o r2).bind _ = _ := h
      cases h3 : withOutput W.env o r2 with
      | error e => rw [h3] at h; cases h
      | ok r3 =>
        rw [h3] at h
        obtain rfl : r3 = p := (Prod.mk.inj (Except.ok.inj h)).2
        -- with the fallback model
        obtain ⟨q1, a1, a2, a3, a4⟩ : ∃ q1, planFallback W.env o q = .ok q1 ∧
            Fine W c q1 ∧ Given W.env c q1 ∧ r1 = q1.fill f := by
          unfold withFallback at h1
          unfold planFallback
          cases hf : o.fallback with
          | none => rw [hf] at h1; exact ⟨q, rfl, hq, hg, (Except.ok.inj h1).symm⟩
          | some b =>
            rw [hf] at h1
            obtain ⟨b', b1, b2⟩ := orNode_shape hW (given_node hg f) h1
            obtain ⟨b3, b4⟩ := hfb b b' hf b1
            refine ⟨.merge nFallback [q, .fixed b'] [], by simp only [b1]; rfl, fine_fallback hW hq hg b3 b4, trivial, ?_⟩
            rw [b2, Plan.fill, fillL, fillL, fillL, fillK, Plan.fill]
        -- with inputs cast
        obtain ⟨q2, c1, c2, c3, c4, c5⟩ : ∃ q2, planInputs W.env o q1 = .ok q2 ∧
            Fine W c q2 ∧ Given W.env c q2 ∧ r2 = q2.fill (prepF W.env o f) ∧
            (q2.Every fun i => o.castsInputs = true → castInputs W.env o.mergeDevice o.mergeDtype (f i) = .ok (prepF W.env o f i)) := by
          unfold withInputs at h2
          unfold planInputs
          unfold prepF
          cases ho : o.castsInputs with
          | false =>
            rw [ho] at h2
            refine ⟨q1, rfl, a2, a3, (Except.ok.inj h2).symm.trans a4, ?_⟩
            have : ∀ q : Plan F, q.Every fun _ => True := by
              intro q
              induction q using plan_induct with
              | hh i => simp only [Plan.Every]
              | hf v => simp only [Plan.Every]
              | hm m args kwargs ha hk => simp only [Plan.Every, everyL_iff, everyK_iff]; exact ⟨ha, hk⟩
            exact every_mono (fun i _ h => by cases h) _ (this q1)
          | true =>
            rw [ho] at h2
            rw [a4] at h2
            obtain ⟨q2, d1, d2, d3⟩ := castInputs_fill q1 r2 h2
            exact ⟨q2, d1, fine_cast hW _ _ a2 d1, given_cast hW a2 d1 a3, d2, every_mono (fun i h _ => h) _ d3⟩
        -- with the output cast
        unfold withOutput at h3
        cases ho : o.castsOutput with
        | false =>
          rw [ho] at h3
          obtain rfl := Except.ok.inj h3
          refine ⟨q2, ?_, c2, c3, c4, c5⟩
          unfold prepPlan
          simp only [a1, c1, planOutput, ho]
          rfl
        | true =>
          rw [ho] at h3
          have hn : r2.isNode = true := by rw [c4]; exact given_node c3 _
          have e := toNode_shape hW hn h3
          refine ⟨.merge nCast [q2, .fixed (.lit (optVal o.outputDevice) none paramSpace), .fixed (.lit (optVal o.outputDtype) none paramSpace)] [],
            ?_, fine_castNode hW c2 c3 _ _, trivial, ?_, ?_⟩
          · unfold prepPlan
            simp only [a1, c1, planOutput, ho]
            rfl
          · rw [e, c4, Plan.fill, fillL, fillL, fillL, fillL, fillK, Plan.fill, Plan.fill]
            rfl
          · simp only [Plan.Every, EveryL, EveryK, and_true]
            exact c5

/-- What is merged for two ways to fill the open parameters -/
theorem merged_alike {W : World F T} {move} (hW : Builtin W move) {o : Options F} {c : Str} {q : Plan F} (hq : Fine W c q) (hg : Given W.env c q)
    (hfb : ∀ b b', o.fallback = some b → valueToNode W.env b = .ok b' → Known b' ∧ Maybe W.env c b') {f g : ℕ → Val F} {r p r' p' : Val F}
    (h : prepare W.env o (q.fill f) = .ok (r, p)) (h' : prepare W.env o (q.fill g) = .ok (r', p'))
    (hc : ∀ i, (o.castsInputs = true → castInputs W.env o.mergeDevice o.mergeDtype (f i) = .ok (prepF W.env o f i)) → Maybe W.env c (prepF W.env o f i))
    (hc' : ∀ i, (o.castsInputs = true → castInputs W.env o.mergeDevice o.mergeDtype (g i) = .ok (prepF W.env o g i)) → Maybe W.env c (prepF W.env o g i)) :
    p.config W.env = .ok (some c) ∧ p'.config W.env = .ok (some c) ∧
    ∀ key, Calm W key p' →
      (∀ i, (o.castsInputs = true → castInputs W.env o.mergeDevice o.mergeDtype (f i) = .ok (prepF W.env o f i)) →
        (o.castsInputs = true → castInputs W.env o.mergeDevice o.mergeDtype (g i) = .ok (prepF W.env o g i)) →
        Proper (prepF W.env o f i) ∧ eval W (prepF W.env o f i) key = eval W (prepF W.env o g i) key) →
      eval W p key = eval W p' key := by
  obtain ⟨Q, a1, a2, a3, rfl, a5⟩ := prepare_fill hW hq hg hfb h
  obtain ⟨Q', b1, b2, b3, rfl, b5⟩ := prepare_fill hW hq hg hfb h'
  obtain rfl : Q = Q' := by rw [a1] at b1; exact Except.ok.inj b1
  refine ⟨(config_fill _ a2 (every_mono hc _ a5)).2 a3, (config_fill _ a2 (every_mono hc' _ b5)).2 a3, ?_⟩
  intro key hcalm hi
  refine eval_fill Q a2 (every_mono ?_ _ (every_and _ a5 b5)) hcalm
  rintro i ⟨h1, h2⟩
  obtain ⟨h3, h4⟩ := hi i h1 h2
  exact ⟨hc i h1, hc' i h2, h3, h4⟩

/-! ### Weights per block -/

/-- What is asked of a world: the conversion is registered, and the config of blocks is known -/
structure Ready (K : Conversion) (W : World F T) : Prop where
  sig : W.env.resolve K.name = .ok (blockSig K.blocks K.model)
  impl : W.impl K.name = impl (blockSource K.block)
  config : ∃ cfg, W.configs K.blocks = some cfg ∧ ∀ block, (cfg.aliases.get? block).getD [] = []

theorem eval_blocks {K : Conversion} {W : World F T} (hK : Ready K W) {a : Val F} (ha : Proper a) {key block : Str} (hb : BlockOf K key block) :
    eval W (.merge K.name [a] []) key = eval W a block := by
  obtain ⟨b, h1, rfl⟩ := hb
  rw [eval_merge, hK.impl, evalL_cons, evalL_nil, evalK_nil]
  simp only [List.append_nil, List.length_cons, List.length_nil]
  rw [applyMerge_good (f := fun c => .sd (castRun W.conv .typeVar c.run) c.config)]
  · simp only [castRun_typeVar]
    show result _ ((blockSource K.block).body [.sd (configOf W a)] _ key) = _
    unfold blockSource
    simp only [h1]
    rfl
  · intro c hc
    simp only [List.mem_cons, List.not_mem_nil, or_false] at hc
    rw [hc]; exact depth_isSome a ha
  · simp
  · intro c hc
    simp only [List.mem_cons, List.not_mem_nil, or_false] at hc
    rw [hc]; rfl

theorem config_blocks {K : Conversion} {W : World F T} (hK : Ready K W) {a : Val F} (ha : a.config W.env = .ok (some K.blocks)) :
    (Val.merge K.name [a] []).config W.env = .ok (some K.model) := by
  rw [Val.config, hK.sig]
  simp only [configL, configK, ha, Bind.bind, Except.bind]
  show (if K.blocks ≠ K.blocks then _ else _) = _
  rw [if_neg (by simp)]
  rfl

theorem config_or {W : World F T} {move} (hW : Builtin W move) {a b : Val F} {c : Str} (ha : a.config W.env = .ok (some c)) (hb : b.config W.env = .ok none) :
    (Val.merge nFallback [a, b] []).config W.env = .ok (some c) := by
  rw [Val.config, hW.sigFallback]
  simp only [configL, configK, ha, hb, Bind.bind, Except.bind]
  rfl

theorem number_scalar {x : Val F} (h : IsNumber x) : isScalar x = true := by cases h <;> rfl

theorem number_eval {x : Val F} (h : IsNumber x) (W : World F T) (k k' : Str) : eval W x k = eval W x k' := by
  cases h <;> simp only [eval]

theorem number_ok {x : Val F} (h : IsNumber x) (W : World F T) (k : Str) : ∃ v, eval W x k = .ok v := by
  cases h <;> simp only [eval] <;> exact ⟨_, rfl⟩

theorem number_lit {x : Val F} (h : IsNumber x) (W : World F T) (k : Str) : eval W (number x) k = eval W x k := by
  unfold number
  cases h <;> simp only [eval]

theorem number_cast {W : World F T} {move} (hW : Builtin W move) {d t : Option Str} {x r : Val F} (h : IsNumber x)
    (hr : castInputs W.env d t (number x) = .ok r) : r = castNode (number x) d t := by
  unfold number at hr ⊢
  rw [castInputs, if_pos (number_scalar h)] at hr
  · exact toNode_shape hW rfl hr
  · intro h'; subst h'; cases h
  · intro _ _ _ h'; subst h'; cases h

/-- The mapping of the weights -/
def Spec.Weights.lit (K : Conversion) (w : Weights F) : Val F := .lit (.dict w.entries) (some K.blocks) "param".toList

theorem entries_cast {K : Conversion} {W : World F T} {move} (hW : Builtin W move) {d t : Option Str} {w : Weights F} {r : Val F}
    (hn : ∀ p ∈ w.entries, IsNumber p.2) (hr : castInputs W.env d t (w.lit K) = .ok r) : r = castNode (w.lit K) d t := by
  unfold Spec.Weights.lit at hr ⊢
  cases he : w.entries with
  | nil => rw [he, castInputs] at hr; cases hr
  | cons p es =>
    obtain ⟨k, v⟩ := p
    rw [he] at hr hn
    rw [castInputs, if_pos (number_scalar (hn (k, v) (by simp)))] at hr
    exact toNode_shape hW rfl hr

theorem entries_eval {K : Conversion} {W : World F T} (hK : Ready K W) (w : Weights F) (block : Str) :
    (∀ x, w.entries.get? block = some x → eval W (w.lit K) block = eval W x block) ∧
    (w.entries.get? block = none → eval W (w.lit K) block = .error .stateDictKey) := by
  obtain ⟨cfg, h1, h2⟩ := hK.config
  obtain ⟨a, b⟩ := C33_dict (W := W) w.entries K.blocks "param".toList cfg h1 block
  rw [h2 block] at a b
  refine ⟨fun x hx => a [] block [] x rfl (by simp) hx, fun hx => b ?_⟩
  intro k hk
  have : k = block := by simpa using hk
  rw [this]
  exact (Dict.get?_eq_none_iff _ _).1 hx

theorem node_shape (K : Conversion) (w : Weights F) :
    w.node K = .merge K.name [match w.rest with | none => w.lit K | some x => .merge nFallback [w.lit K, number x] []] [] := by
  unfold Weights.node Spec.Weights.lit
  cases w.rest <;> rfl

theorem proper_number (x : Val F) : Proper (number x) := by unfold number; simp [Proper]
theorem proper_lit (K : Conversion) (w : Weights F) : Proper (w.lit K) := by unfold Spec.Weights.lit; simp [Proper]
theorem proper_one {m : Str} {a : Val F} (ha : Proper a) : Proper (.merge m [a] []) := by simp [Proper, ProperL, ProperK, ha]
theorem proper_two {m : Str} {a b : Val F} (ha : Proper a) (hb : Proper b) : Proper (.merge m [a, b] []) := by simp [Proper, ProperL, ProperK, ha, hb]

/-- What is asked of weights: numbers -/
structure Spec.Weights.Numbers (w : Weights F) : Prop where
  entries : ∀ p ∈ w.entries, IsNumber p.2
  rest : ∀ x, w.rest = some x → IsNumber x

theorem cast_node {K : Conversion} {W : World F T} {move} (hW : Builtin W move) {d t : Option Str} {w : Weights F} {r : Val F} (hn : w.Numbers)
    (hr : castInputs W.env d t (w.node K) = .ok r) :
    r = .merge K.name [match w.rest with | none => castNode (w.lit K) d t | some x => .merge nFallback [castNode (w.lit K) d t, castNode (number x) d t] []] [] := by
  rw [node_shape] at hr
  obtain ⟨as, ks, h1, h2, rfl⟩ := castInputs_merge hr
  rw [castInputsK] at h2
  cases h2
  cases castInputsL_ok h1 with
  | cons a1 a2 =>
    cases a2
    cases hw : w.rest with
    | none => rw [hw] at a1; rw [entries_cast hW hn.entries a1]
    | some x =>
      rw [hw] at a1
      obtain ⟨as, ks, b1, b2, rfl⟩ := castInputs_merge a1
      rw [castInputsK] at b2
      cases b2
      cases castInputsL_ok b1 with
      | cons c1 c2 =>
        cases c2 with
        | cons d1 d2 =>
          cases d2
          rw [entries_cast hW hn.entries c1, number_cast hW (hn.rest x hw) d1]

/-- Where the block has a weight, the weights stand for it. -/
theorem weights_alike {K : Conversion} {W : World F T} {move} (hW : Builtin W move) (hK : Ready K W) {o : Options F} (hd : ∀ s, o.mergeDtype = some s → s ∈ dtypeNames)
    (hmove : ∀ x e, move o.mergeDevice o.mergeDtype x = .error e → Err.isKeyError e = false) (hconv : ∀ v, W.conv.toTensor v ≠ .error .stateDictKey)
    {w : Weights F} (hn : w.Numbers) {f g : ℕ → Val F} {i : ℕ} {x : Val F} (hf : f i = w.node K) (hg : g i = number x) {key block : Str} (hb : BlockOf K key block)
    (hx : w.of block = some x)
    (hcf : o.castsInputs = true → castInputs W.env o.mergeDevice o.mergeDtype (f i) = .ok (prepF W.env o f i))
    (hcg : o.castsInputs = true → castInputs W.env o.mergeDevice o.mergeDtype (g i) = .ok (prepF W.env o g i)) :
    Proper (prepF W.env o f i) ∧ eval W (prepF W.env o f i) key = eval W (prepF W.env o g i) key := by
  have hxn : IsNumber x := by
    unfold Weights.of at hx
    split at hx
    · rename_i y hy; cases hx; exact hn.entries (block, x) (Dict.mem_of_get? hy)
    · exact hn.rest x hx
  obtain ⟨e1, e2⟩ := entries_eval hK w block
  cases ho : o.castsInputs with
  | false =>
    have p1 : prepF W.env o f i = w.node K := by unfold prepF; rw [ho, ← hf]; rfl
    have p2 : prepF W.env o g i = number x := by unfold prepF; rw [ho, ← hg]; rfl
    rw [p1, p2, node_shape, number_lit hxn]
    unfold Weights.of at hx
    cases hw : w.rest with
    | none =>
      rw [hw] at hx
      refine ⟨proper_one (proper_lit K w), ?_⟩
      rw [eval_blocks hK (proper_lit K w) hb]
      cases hg : w.entries.get? block with
      | none => rw [hg] at hx; cases hx
      | some y => rw [hg] at hx; cases hx; rw [e1 x hg, number_eval hxn]
    | some z =>
      rw [hw] at hx
      have hp := proper_two (m := nFallback) (proper_lit K w) (proper_number z)
      refine ⟨proper_one hp, ?_⟩
      rw [eval_blocks hK hp hb, eval_fallback hW (proper_lit K w) (proper_number z)]
      unfold orElse
      cases hg : w.entries.get? block with
      | none =>
        rw [hg] at hx; cases hx
        rw [e2 hg]
        show eval W (number x) block = _
        rw [number_lit hxn, number_eval hxn]
      | some y =>
        rw [hg] at hx; cases hx
        rw [e1 x hg]
        obtain ⟨v, hv⟩ := number_ok hxn W block
        rw [hv, number_eval hxn W key block, hv]
  | true =>
    have p1 := cast_node hW hn (by rw [← hf]; exact hcf ho)
    have p2 := number_cast hW hxn (by rw [← hg]; exact hcg ho)
    have hpl := proper_castNode (proper_lit K w) o.mergeDevice o.mergeDtype
    have hev : ∀ k, eval W (castNode (number x) o.mergeDevice o.mergeDtype) k = castLeaf W.conv (move o.mergeDevice o.mergeDtype) (eval W x key) := by
      intro k
      rw [eval_castNode hW (proper_number x) hd, number_lit hxn, number_eval hxn W k key]
    rw [p1, p2, hev]
    unfold Weights.of at hx
    cases hw : w.rest with
    | none =>
      rw [hw] at hx
      refine ⟨proper_one hpl, ?_⟩
      rw [eval_blocks hK hpl hb, eval_castNode hW (proper_lit K w) hd]
      cases hg : w.entries.get? block with
      | none => rw [hg] at hx; cases hx
      | some y => rw [hg] at hx; cases hx; rw [e1 x hg, number_eval hxn W block key]
    | some z =>
      rw [hw] at hx
      have hpz := proper_castNode (proper_number z) o.mergeDevice o.mergeDtype
      have hp := proper_two (m := nFallback) hpl hpz
      refine ⟨proper_one hp, ?_⟩
      rw [eval_blocks hK hp hb, eval_fallback hW hpl hpz]
      unfold orElse
      rw [eval_castNode hW (proper_lit K w) hd]
      cases hg : w.entries.get? block with
      | none =>
        rw [hg] at hx; cases hx
        rw [e2 hg]
        exact hev block
      | some y =>
        rw [hg] at hx; cases hx
        rw [e1 x hg, number_eval hxn W block key]
        have hne : castLeaf W.conv (move o.mergeDevice o.mergeDtype) (eval W x key) ≠ .error .stateDictKey := by
          obtain ⟨v, hv⟩ := number_ok hxn W key
          rw [hv]
          unfold castLeaf
          intro h
          have hct : castTo W.conv .tensor v ≠ .error .stateDictKey := by
            unfold castTo
            intro h'
            split at h'
            · cases h'
            · by_cases hi : Ty.tensor = Ty.typeVar ∨ v.isInstance .tensor = true
              · rw [if_pos hi] at h'; cases h'
              rw [if_neg hi] at h'
              cases hc : W.conv.toTensor v with
              | error e => simp only [hc, Except.map] at h'; cases h'; exact hconv v hc
              | ok y => simp only [hc, Except.map] at h'; cases h'
          simp only at h
          split at h
          · rename_i e he; cases h; exact hct he
          · rename_i y he
            cases hm : move o.mergeDevice o.mergeDtype y with
            | error e => rw [hm] at h; cases h; have := hmove y _ hm; cases this
            | ok y' => rw [hm] at h; cases h
          · cases h
        generalize castLeaf W.conv (move o.mergeDevice o.mergeDtype) (eval W x key) = r at hne
        cases r with
        | ok v => rfl
        | error e => cases e <;> first | rfl | exact absurd rfl hne

theorem weights_config {K : Conversion} {W : World F T} {move} (hW : Builtin W move) (hK : Ready K W) {o : Options F}
    {w : Weights F} (hn : w.Numbers) {f : ℕ → Val F} {i : ℕ} (hf : f i = w.node K)
    (hcf : o.castsInputs = true → castInputs W.env o.mergeDevice o.mergeDtype (f i) = .ok (prepF W.env o f i)) :
    Maybe W.env K.model (prepF W.env o f i) := by
  right
  have hl : (w.lit K).config W.env = .ok (some K.blocks) := by unfold Spec.Weights.lit; rw [Val.config]
  have hnum : ∀ x : Val F, (number x).config W.env = .ok none := fun x => by unfold number; rw [Val.config]
  cases ho : o.castsInputs with
  | false =>
    have p1 : prepF W.env o f i = w.node K := by unfold prepF; rw [ho, ← hf]; rfl
    rw [p1, node_shape]
    refine config_blocks hK ?_
    cases w.rest with
    | none => exact hl
    | some x => exact config_or hW hl (hnum x)
  | true =>
    have p1 := cast_node (K := K) hW hn (by rw [← hf]; exact hcf ho)
    rw [p1]
    refine config_blocks hK ?_
    cases w.rest with
    | none => rw [config_castNode hW]; exact hl
    | some x => exact config_or hW (by rw [config_castNode hW]; exact hl) (by rw [config_castNode hW]; exact hnum x)

theorem number_config {W : World F T} {move} (hW : Builtin W move) {c : Str} {o : Options F} {x : Val F} (hx : IsNumber x) {g : ℕ → Val F} {i : ℕ}
    (hg : g i = number x) (hcg : o.castsInputs = true → castInputs W.env o.mergeDevice o.mergeDtype (g i) = .ok (prepF W.env o g i)) :
    Maybe W.env c (prepF W.env o g i) := by
  left
  have hnum : ∀ x : Val F, (number x).config W.env = .ok none := fun x => by unfold number; rw [Val.config]
  cases ho : o.castsInputs with
  | false =>
    have p1 : prepF W.env o g i = number x := by unfold prepF; rw [ho, ← hg]; rfl
    rw [p1, hnum]
  | true =>
    have p1 := number_cast hW hx (by rw [← hg]; exact hcg ho)
    rw [p1, config_castNode hW, hnum]

end Verif.Blocks
