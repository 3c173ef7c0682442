import Verif.Proofs.BlocksLocal
import Verif.Proofs.Total
import Verif.Props.Readme

/-!
# The weighted sum of two models with weights per block
-/
namespace Verif.Blocks
open Method Recipe Config Eval Eval.Spec Program Program.Spec Whole Whole.Spec Ieee Ieee.Spec Spec
open Readme (Scene Torch recipe weightedSource weightedSig nWeighted defaults alpha64 alphaTensor final_both final_one move64)
open Readme.Spec (held Blended)
open Threads.Spec (Opened stored)
open StreamOut (Tensor)
variable {F : Type}

/-- `weighted_sum(a, b, alpha=...)` -/
def sumPlan (pa pb c : Str) : Plan F :=
  .merge nWeighted [.fixed (.model pa (some c) (some weight)), .fixed (.model pb (some c) (some weight)), .hole 0] []

theorem sumPlan_fill (pa pb c : Str) (f : ℕ → Val F) :
    (sumPlan pa pb c).fill f = .merge nWeighted [.model pa (some c) (some weight), .model pb (some c) (some weight), f 0] [] := by
  simp [sumPlan, Plan.fill, fillL, fillK]

section

variable {T : Torch} {P : PWorld F Tensor} {num : F → FV} {dflt : F} {opened : Str → Option StreamIn.State} {c : Str} {cfg : ModelConfig}
  {pa pb : Str} {rcap : ℕ}

theorem types_weighted {W : World F Tensor} (hW : W.impl nWeighted = impl (weightedSource T)) : typeOf W nWeighted 3 (.pos 0) = some (.sd .tensor) ∧
    typeOf W nWeighted 3 (.pos 1) = some (.sd .tensor) ∧ typeOf W nWeighted 3 (.pos 2) = some (.val .tensor) := by
  unfold typeOf
  rw [hW]
  exact ⟨rfl, rfl, rfl⟩

theorem fine_sum (S : Scene T P num dflt opened c cfg pa pb rcap) : Fine (world P (stored opened)) c (sumPlan (F := F) pa pb c) := by
  have himpl : (world P (stored opened)).impl nWeighted = impl (weightedSource T) := by show impl (P.source nWeighted) = _; rw [S.source]
  obtain ⟨_, _, t2⟩ := types_weighted himpl
  unfold sumPlan
  simp only [Fine, FineL, FineK, and_true, true_and]
  refine ⟨by rw [himpl]; exact local_weighted T, ⟨weightedSig dflt, S.sig, rfl, ?_⟩, ⟨.pos 0, _, rfl, by show Val.config _ _ = _; rw [Val.config]⟩, ?_,
    ⟨trivial, .inr (by rw [Val.config])⟩, trivial, .inr (by rw [Val.config])⟩
  · intro idx a h
    rcases at_three h with ⟨rfl, _⟩ | ⟨rfl, _⟩ | ⟨rfl, _⟩ <;> rfl
  · intro idx i h
    rcases at_three h with ⟨rfl, h'⟩ | ⟨rfl, h'⟩ | ⟨rfl, h'⟩
    · cases h'
    · cases h'
    · exact ⟨_, t2⟩

theorem castModel {W : World F Tensor} {move} (hW : Builtin W move) {d t : Option Str} {p : Str} {r : Val F} {s : Option Str}
    (h : castInputs W.env d t (.model p (some c) s) = .ok r) : r = castNode (.model p (some c) s) d t := by
  rw [castInputs] at h
  exact toNode_shape hW rfl h

/-- What `merge` makes of the recipe -/
theorem shape_of {W : World F Tensor} {move} (hW : Builtin W move) {o : Options F} (h0 : o.fallback = none) (h1 : o.castsInputs = true) (h2 : o.castsOutput = true)
    {m : Str} {z r p : Val F} (h : prepare W.env o (.merge m [.model pa (some c) (some weight), .model pb (some c) (some weight), z] []) = .ok (r, p)) :
    ∃ z', castInputs W.env o.mergeDevice o.mergeDtype z = .ok z' ∧
      p = castNode (.merge m [castNode (.model pa (some c) (some weight)) o.mergeDevice o.mergeDtype,
        castNode (.model pb (some c) (some weight)) o.mergeDevice o.mergeDtype, z'] []) o.outputDevice o.outputDtype := by
  unfold prepare withFallback withInputs withOutput at h
  rw [Serialize.valueToNode_node rfl, h0, h1, h2] at h
  simp only [Bind.bind, Except.bind, if_true] at h
  split at h
  · cases h
  · rename_i r2 hr2
    split at h
    · cases h
    · rename_i r3 hr3
      obtain rfl : r3 = p := (Prod.mk.inj (Except.ok.inj h)).2
      obtain ⟨as, ks, b1, b2, rfl⟩ := castInputs_merge hr2
      rw [castInputsK] at b2
      cases b2
      cases castInputsL_ok b1 with
      | cons c1 c2 =>
        cases c2 with
        | cons d1 d2 =>
          cases d2 with
          | cons e1 e2 =>
            cases e2
            refine ⟨_, e1, ?_⟩
            rw [toNode_shape hW rfl hr3, castModel hW c1, castModel hW d1]

theorem sum_shape (S : Scene T P num dflt opened c cfg pa pb rcap) {z r p : Val F}
    (h : prepare P.env defaults (.merge nWeighted [.model pa (some c) (some weight), .model pb (some c) (some weight), z] []) = .ok (r, p)) :
    ∃ z', castInputs P.env (defaults (F := F)).mergeDevice (defaults (F := F)).mergeDtype z = .ok z' ∧
      p = castNode (.merge nWeighted [castNode (.model pa (some c) (some weight)) (defaults (F := F)).mergeDevice (defaults (F := F)).mergeDtype,
        castNode (.model pb (some c) (some weight)) (defaults (F := F)).mergeDevice (defaults (F := F)).mergeDtype, z'] [])
        (defaults (F := F)).outputDevice (defaults (F := F)).outputDtype :=
  shape_of (builtin S.registered (stored opened)) rfl rfl rfl h

theorem dtype_ok : ∀ s, (defaults (F := F)).mergeDtype = some s → s ∈ dtypeNames := fun s h => by cases h; decide
theorem odtype_ok : ∀ s, (defaults (F := F)).outputDtype = some s → s ∈ dtypeNames := fun s h => by cases h; decide

theorem sane_defaults (T : Torch) : Sane (Ieee.move T.other) (defaults (F := F)) :=
  ⟨dtype_ok, odtype_ok, fun y e h => by
    rw [show Ieee.move T.other (defaults (F := F)).mergeDevice (defaults (F := F)).mergeDtype y = _ from move64 T y] at h; cases h⟩

/-- The recipe with one weight for all is merged as C104 says. -/
theorem sum_final (S : Scene T P num dflt opened c cfg pa pb rcap) {x : F} {r p : Val F} (h : prepare P.env defaults (recipe pa pb c x) = .ok (r, p)) (k : Str) :
    eval (world P (stored opened)) p k =
      final (world P (stored opened)) (Ieee.move T.other) (fun _ => alpha64 T (num x)) (fun _ => 0) defaults (recipe pa pb c x) none k := by
  have hv : Except.ok (recipe pa pb c x) = Except.ok r := prepare_node h
  obtain ⟨_, fb, f1, f2⟩ := facts (builtin S.registered (stored opened)) dtype_ok odtype_ok (sane_defaults T).move h
    (by rw [← Except.ok.inj hv]; exact S.fits x) (fun b b' hb => by cases hb)
  cases f1
  rw [f2.eval, ← Except.ok.inj hv]

theorem sum_prepare (S : Scene T P num dflt opened c cfg pa pb rcap) (x : F) : ∃ p, prepare P.env defaults (recipe pa pb c x) = .ok (recipe pa pb c x, p) := by
  have hsp : (recipe pa pb c x).space P.env = .ok (some weight) := by
    unfold recipe
    rw [Val.space, S.sig]
    rfl
  obtain ⟨p, h, _⟩ := Total.prepare_total (builtin S.registered (stored opened)) (o := defaults) (recipe := recipe pa pb c x) (fb := none) (s := weight) rfl rfl
    (by
      have : (recipe pa pb c x).space (world P (stored opened)).env = .ok (some weight) := hsp
      unfold recipe at this ⊢
      simp only [Total.Spec.Ready, Total.Spec.ReadyL, Total.Spec.ReadyK, and_true]
      exact ⟨⟨_, this⟩, ⟨weight, by decide, rfl⟩, ⟨weight, by decide, rfl⟩, by decide⟩)
    (fun b h => by cases h) ⟨hsp, fun b h => by cases h⟩ (by decide)
  exact ⟨p, h⟩

/-- The models and the weight fail only in that they lack a key. -/
theorem final_error (S : Scene T P num dflt opened c cfg pa pb rcap) (x : F) {k : Str} (hk : Wanted cfg (defaults (F := F)) k) {e : Err}
    (h : final (world P (stored opened)) (Ieee.move T.other) (fun _ => alpha64 T (num x)) (fun _ => 0) defaults (recipe pa pb c x) none k = .error e) :
    e = .stateDictKey := by
  obtain ⟨o1, o2, o3⟩ := final_one S.source S.config S.a S.b (num x) x k
  by_cases c0 : Readme.isClose (Readme.alphaOf (num x)) Readme.zero = true
  · rw [o1 c0] at h
    cases hu : held opened cfg pa k <;> rw [hu] at h <;> cases h
    rfl
  rw [Bool.not_eq_true] at c0
  by_cases c1 : Readme.isClose (Readme.alphaOf (num x)) Ieee.one = true
  · rw [o2 c0 c1] at h
    cases hu : held opened cfg pb k <;> rw [hu] at h <;> cases h
    rfl
  rw [Bool.not_eq_true] at c1
  cases hu : held opened cfg pa k with
  | none => rw [o3 c0 c1 (.inl hu)] at h; cases h; rfl
  | some u =>
    cases hw' : held opened cfg pb k with
    | none => rw [o3 c0 c1 (.inr hw')] at h; cases h; rfl
    | some w =>
      rw [final_both S.source S.config S.a S.b (num x) x k hu hw' (S.half _ k u (.inl rfl) hk hu).1 (S.half _ k w (.inr rfl) hk hw').1 (S.shapes k u w hk hu hw')] at h
      cases h

theorem model_error (S : Scene T P num dflt opened c cfg pa pb rcap) {p : Str} (hp : opened p ≠ none) (s : Option Str) (k : Str) {e : Err}
    (h : castRun P.conv .tensor (eval (world P (stored opened)) (.model p (some c) s)) k = .error e) : e = .stateDictKey := by
  unfold castRun at h
  rw [eval] at h
  unfold visitSd at h
  have hc : (world P (stored opened)).configs c = some cfg := S.config
  have hr : (world P (stored opened)).read = stored opened := rfl
  simp only [hc, hr] at h
  rw [Readme.visit_held hp _ (by simp)] at h
  cases hf : (k :: (cfg.aliases.get? k).getD []).findSome? (Readme.Spec.tensorIn opened p) with
  | none => rw [hf] at h; cases h; rfl
  | some t => rw [hf] at h; cases h

theorem calm_cast {W : World F Tensor} {move} (hW : Builtin W move) {a : Val F} (ha : Proper a) {d t : Option Str} {k : Str} (hc : Calm W k a)
    (he : ∀ e, castRun W.conv .tensor (eval W a) k = .error e → e = .stateDictKey) : Calm W k (castNode a d t) := by
  have hcall := call_cast hW ha d t
  obtain ⟨t0, t1, t2⟩ := typeOf_cast hW
  unfold castNode
  rw [Calm, CalmL, CalmL, CalmL, CalmL, CalmK]
  refine ⟨hcall, ?_, ⟨hc, by cases d <;> simp [Calm], by cases t <;> simp [Calm], trivial⟩, trivial⟩
  rintro e ⟨idx, v, ty, h1, h2, h3⟩
  rcases Eval.arg3 h1 with ⟨rfl, rfl⟩ | ⟨rfl, rfl⟩ | ⟨rfl, rfl⟩
  · have h2' : typeOf W nCast 3 (.pos 0) = some (.val ty) := h2
    rw [t0] at h2'; cases h2'
    exact he e h3
  · have h2' : typeOf W nCast 3 (.pos 1) = some (.val ty) := h2
    rw [t1] at h2'; cases h2'
    rw [castRun_opt] at h3; cases h3
  · have h2' : typeOf W nCast 3 (.pos 2) = some (.val ty) := h2
    rw [t2] at h2'; cases h2'
    rw [castRun_opt] at h3; cases h3

theorem castRun_castLeaf {C : Conv F Tensor} {move : Tensor → Except Err Tensor} {f : Str → Res F Tensor} {r : Res F Tensor} {k : Str} {e : Err}
    (hf : f k = castLeaf C move r) (h : castRun C .tensor f k = .error e) : f k = .error e := by
  unfold castRun at h
  rw [hf] at h ⊢
  cases hr : castLeaf C move r with
  | error e' => rw [hr] at h; exact h
  | ok v =>
    rw [hr] at h
    unfold castLeaf at hr
    split at hr
    · cases hr
    · split at hr
      · cases hr
      · rename_i y _
        cases hm : move y with
        | error e => rw [hm] at hr; cases hr
        | ok y' => rw [hm] at hr; cases hr; cases h
      · cases hr

theorem proper_three {m : Str} {a b z : Val F} (ha : Proper a) (hb : Proper b) (hz : Proper z) : Proper (.merge m [a, b, z] []) := by
  simp only [Proper, ProperL, ProperK, and_true]
  exact ⟨.inl (by simp), ha, hb, hz⟩

theorem call_weighted {W : World F Tensor} (hW : W.impl nWeighted = impl (weightedSource T)) {a b z : Val F} (ha : Proper a) (hb : Proper b) (hz : Proper z) :
    Call W nWeighted [a, b, z] [] := by
  obtain ⟨t0, t1, t2⟩ := types_weighted hW
  refine ⟨by simp [Dict.keys], ?_, ?_⟩
  · intro idx v h
    rcases Readme.arg3 h with ⟨_, rfl⟩ | ⟨_, rfl⟩ | ⟨_, rfl⟩ <;> assumption
  · intro idx v h
    simp only [List.length_cons, List.length_nil]
    rcases Readme.arg3 h with ⟨rfl, _⟩ | ⟨rfl, _⟩ | ⟨rfl, _⟩
    · rw [t0]; rfl
    · rw [t1]; rfl
    · rw [t2]; rfl

theorem calm_sum (S : Scene T P num dflt opened c cfg pa pb rcap) {x : F} {r p : Val F} (h : prepare P.env defaults (recipe pa pb c x) = .ok (r, p)) {k : Str}
    (hk : Wanted cfg (defaults (F := F)) k) : Calm (world P (stored opened)) k p := by
  have hW := builtin S.registered (stored opened)
  have himpl : (world P (stored opened)).impl nWeighted = impl (weightedSource T) := by show impl (P.source nWeighted) = _; rw [S.source]
  obtain ⟨t0, t1, t2⟩ := types_weighted himpl
  have hfin := sum_final S h k
  obtain ⟨z', hz, rfl⟩ := sum_shape S h
  have hz : castInputs (world P (stored opened)).env _ _ (number (.float x)) = .ok z' := hz
  obtain rfl := number_cast hW (.float x) hz
  have hpm : ∀ p, Proper (castNode (F := F) (.model p (some c) (some weight)) (defaults (F := F)).mergeDevice (defaults (F := F)).mergeDtype) :=
    fun p => proper_castNode (by simp [Proper]) _ _
  have hpn := proper_castNode (proper_number (.float x)) (defaults (F := F)).mergeDevice (defaults (F := F)).mergeDtype
  have hmc : ∀ p, opened p ≠ none → Calm (world P (stored opened)) k (castNode (.model p (some c) (some weight)) (defaults (F := F)).mergeDevice (defaults (F := F)).mergeDtype) :=
    fun p hp => calm_cast hW (by simp [Proper]) (by simp [Calm]) fun e he => model_error S hp _ k he
  have hnum : castRun P.conv .tensor (eval (world P (stored opened)) (number (.float x))) k = .ok (.tensor (alphaTensor (num x))) := by
    unfold castRun
    rw [number_lit (.float x), eval]
    simp only [castTo, RVal.isInstance]
    show (P.conv.toTensor (.float x)).map RVal.tensor = _
    rw [S.tensor]; rfl
  have hps : Proper (.merge nWeighted [castNode (.model pa (some c) (some weight)) (defaults (F := F)).mergeDevice (defaults (F := F)).mergeDtype,
      castNode (.model pb (some c) (some weight)) (defaults (F := F)).mergeDevice (defaults (F := F)).mergeDtype,
      castNode (number (.float x)) (defaults (F := F)).mergeDevice (defaults (F := F)).mergeDtype] []) := by
    simp only [Proper, ProperL, ProperK, and_true]
    exact ⟨.inl (by simp), hpm pa, hpm pb, hpn⟩
  refine calm_cast hW hps ?_ ?_
  · rw [Calm, CalmL, CalmL, CalmL, CalmL, CalmK]
    refine ⟨call_weighted himpl (hpm pa) (hpm pb) hpn, ?_, ⟨hmc pa S.a, hmc pb S.b, ?_, trivial⟩, trivial⟩
    · rintro e ⟨idx, v, ty, h1, h2, h3⟩
      simp only [List.length_cons, List.length_nil] at h2
      rcases Readme.arg3 h1 with ⟨rfl, _⟩ | ⟨rfl, _⟩ | ⟨rfl, rfl⟩
      · rw [t0] at h2; cases h2
      · rw [t1] at h2; cases h2
      · rw [t2] at h2; cases h2
        have he := eval_castNode hW (proper_number (.float x)) (dtype_ok (F := F)) (d := (defaults (F := F)).mergeDevice) k
        have := castRun_castLeaf he h3
        rw [he] at this
        unfold castLeaf at this
        have hn : eval (world P (stored opened)) (number (.float x)) k = .ok (.float x) := by rw [number_lit (.float x), eval]
        rw [hn] at this
        unfold castRun at hnum
        rw [hn] at hnum
        have hnum : castTo (world P (stored opened)).conv .tensor (.float x) = _ := hnum
        simp only [hnum] at this
        rw [show Ieee.move T.other (defaults (F := F)).mergeDevice (defaults (F := F)).mergeDtype _ = _ from move64 T _] at this
        cases this
    · exact calm_cast hW (proper_number _) (by simp [number, Calm]) fun e he => by
        have he : castRun P.conv .tensor _ k = _ := he
        rw [hnum] at he; cases he
  · intro e he
    refine final_error S x hk ?_
    rw [← hfin, eval_castNode hW hps odtype_ok]
    unfold castLeaf
    unfold castRun at he
    generalize eval (world P (stored opened)) _ k = y at he
    cases y with
    | error e' => exact he
    | ok v => simp only at he ⊢; rw [he]

/-- A merge with weights per block, where the block has a weight -/
theorem sum_weight (S : Scene T P num dflt opened c cfg pa pb rcap) (hconv : ∀ v, P.conv.toTensor v ≠ .error .stateDictKey) {K : Conversion} (hK : Ready K (world P (stored opened)))
    (hc : K.model = c) {w : Weights F} (hw : w.Numbers) {r p : Val F}
    (h : prepare P.env defaults (.merge nWeighted [.model pa (some c) (some weight), .model pb (some c) (some weight), w.node K] []) = .ok (r, p)) :
    p.config P.env = .ok (some c) ∧ ∀ k block x, Wanted cfg (defaults (F := F)) k → BlockOf K k block → w.of block = some (.float x) →
      eval (world P (stored opened)) p k =
        final (world P (stored opened)) (Ieee.move T.other) (fun _ => alpha64 T (num x)) (fun _ => 0) defaults (recipe pa pb c x) none k := by
  have hW := builtin S.registered (stored opened)
  subst hc
  have key : ∀ x : F, p.config P.env = .ok (some K.model) ∧ ∀ k block, Wanted cfg (defaults (F := F)) k → BlockOf K k block → w.of block = some (.float x) →
      eval (world P (stored opened)) p k =
        final (world P (stored opened)) (Ieee.move T.other) (fun _ => alpha64 T (num x)) (fun _ => 0) defaults (recipe pa pb K.model x) none k := by
    intro x
    obtain ⟨p', h'⟩ := sum_prepare S x
    obtain ⟨c1, _, hv⟩ := merged_alike hW (o := defaults) (q := sumPlan pa pb K.model) (f := fun _ => w.node K) (g := fun _ => number (.float x)) (fine_sum S) trivial
      (fun b b' hb => by cases hb) (r := r) (p := p) (by rw [sumPlan_fill]; exact h) (by rw [sumPlan_fill]; exact h')
      (fun i h => weights_config hW hK hw (f := fun _ => w.node K) rfl h)
      (fun i h => number_config hW (.float x) (g := fun _ => number (.float x)) rfl h)
    refine ⟨c1, fun k block hk hb hx => ?_⟩
    rw [← sum_final S h', hv k (calm_sum S h' hk) fun i h h' => weights_alike hW hK dtype_ok (sane_defaults T).move hconv hw (f := fun _ => w.node K)
      (g := fun _ => number (.float x)) rfl rfl hb hx h h']
  exact ⟨(key dflt).1, fun k block x hk hb hx => (key x).2 k block hk hb hx⟩

/-- A merge with weights per block, where the block has none -/
theorem sum_missing (S : Scene T P num dflt opened c cfg pa pb rcap) {K : Conversion} (hK : Ready K (world P (stored opened)))
    {w : Weights F} (hw : w.Numbers) {r p : Val F}
    (h : prepare P.env defaults (.merge nWeighted [.model pa (some c) (some weight), .model pb (some c) (some weight), w.node K] []) = .ok (r, p))
    {k block : Str} (hb : BlockOf K k block) (hn : w.of block = none) : eval (world P (stored opened)) p k = .error .stateDictKey := by
  have hW := builtin S.registered (stored opened)
  have himpl : (world P (stored opened)).impl nWeighted = impl (weightedSource T) := by show impl (P.source nWeighted) = _; rw [S.source]
  obtain ⟨t0, t1, t2⟩ := types_weighted himpl
  obtain ⟨z', hz, rfl⟩ := sum_shape S h
  have hz : castInputs (world P (stored opened)).env _ _ (w.node K) = .ok z' := hz
  obtain rfl := cast_node hW hw hz
  have hrest : w.rest = none ∧ w.entries.get? block = none := by
    unfold Weights.of at hn
    cases h : w.entries.get? block with
    | none => rw [h] at hn; exact ⟨hn, rfl⟩
    | some z => rw [h] at hn; cases hn
  rw [hrest.1]
  have hpl := proper_castNode (proper_lit K w) (defaults (F := F)).mergeDevice (defaults (F := F)).mergeDtype
  have hev : eval (world P (stored opened)) (.merge K.name [castNode (w.lit K) (defaults (F := F)).mergeDevice (defaults (F := F)).mergeDtype] []) k =
      .error .stateDictKey := by
    rw [eval_blocks hK hpl hb, eval_castNode hW (proper_lit K w) dtype_ok, (entries_eval hK w block).2 hrest.2]
    rfl
  have hpm : ∀ p, Proper (castNode (F := F) (.model p (some c) (some weight)) (defaults (F := F)).mergeDevice (defaults (F := F)).mergeDtype) :=
    fun p => proper_castNode (by simp [Proper]) _ _
  have hcall := call_weighted himpl (hpm pa) (hpm pb) (proper_one (m := K.name) hpl)
  obtain ⟨e', ⟨idx, v, ty, h1, h2, h3⟩, h4⟩ := eval_fails (key := k) hcall ⟨.stateDictKey, .pos 2, _, .tensor, rfl, t2, by unfold castRun; rw [hev]⟩
  have he' : e' = .stateDictKey := by
    simp only [List.length_cons, List.length_nil] at h2
    rcases Readme.arg3 h1 with ⟨rfl, _⟩ | ⟨rfl, _⟩ | ⟨rfl, rfl⟩
    · rw [t0] at h2; cases h2
    · rw [t1] at h2; cases h2
    · unfold castRun at h3
      rw [hev] at h3
      cases h3; rfl
  subst he'
  rw [eval_castNode hW (proper_three (hpm pa) (hpm pb) (proper_one hpl)) odtype_ok, h4]
  rfl

end

end Verif.Blocks
