import Verif.Spec.Held
import Verif.Proofs.Program
import Mathlib.Tactic.Linarith
import Mathlib.Tactic.Ring

/-!
# How many results are held: proofs
-/
namespace Verif.Held
open Method Recipe Config Eval Program Held.Spec
variable {F T α β : Type}

/-! ### Forgetting what is held gives `program` -/

theorem forget_bind (p : Live T α) (f : α → Live T β) : forget (p.bind f) = (forget p).bind fun a => forget (f a) := by
  induction p with
  | ret a => rfl
  | load p k next ih => simp only [Live.bind, forget, Prog.bind]; congr 1; funext r; exact ih r
  | hold q ih => exact ih
  | free n q ih => exact ih

def LArg.drop : LArg F T → PArg F T
  | .val v => .val v
  | .sd get c _ => .sd (fun k => forget (get k)) c

def LChild.drop (c : LChild F T) : PChild F T := ⟨c.idx, fun k => forget (c.run k), c.depth, c.config⟩

def LMerged.drop (s : LMerged F T) : PMerged F T := ⟨s.holder, mapD LArg.drop s.merged⟩

theorem shape_drop (a : LArg F T) : a.drop.shape = a.shape := by cases a <;> rfl

theorem get_drop (a : Option (LArg F T)) (k : Str) : forget (LArg.get a k) = PArg.get (a.map LArg.drop) k := by
  cases a with
  | none => rfl
  | some a => cases a <;> rfl

theorem runL_forget (get : Idx → Str → Live T (Res F T)) (w : Idx → Bool) (f : Fn F T) : ∀ n,
    forget (runL get w n f) = f.run fun i k => forget (get i k) := by
  induction f with
  | done r => intro n; cases r <;> rfl
  | ask i k next ih =>
    intro n
    simp only [runL, forget_bind, Fn.run]
    congr 1
    funext r
    cases r <;> exact ih _ _

theorem loadFirstL_forget (path : Str) (ks : List Str) : forget (loadFirstL (T := T) path ks) = loadFirst path ks := by
  induction ks with
  | nil => rfl
  | cons k ks ih =>
    cases ks with
    | nil =>
      simp only [loadFirstL, loadFirst, forget]
      congr 1
      funext r
      cases r with
      | ok v => rfl
      | error e => simp only; split_ifs <;> rfl
    | cons k' ks =>
      simp only [loadFirstL, loadFirst, forget]
      congr 1
      funext r
      cases r with
      | ok v => rfl
      | error e => simp only; split_ifs <;> first | exact ih | rfl

theorem castRunL_forget (C : Conv F T) (t : Ty) (run : Str → Live T (Res F T)) :
    (fun k => forget (castRunL C t run k)) = castRunP C t fun k => forget (run k) := by
  funext k
  simp only [castRunL, castRunP, forget_bind]
  congr 1
  funext r
  cases r <;> rfl

theorem bind_map {γ : Type} (p : Prog T α) (f : α → Prog T β) (g : α → Prog T γ) (h : β → γ) (hfg : ∀ a, (f a).bind (fun b => .ret (h b)) = g a) :
    (p.bind f).bind (fun b => .ret (h b)) = p.bind g := by
  induction p with
  | ret a => exact hfg a
  | load p k next ih => simp only [Prog.bind]; congr 1; funext r; exact ih r

theorem bind_assoc {γ : Type} (p : Prog T α) (f : α → Prog T β) (g : β → Prog T γ) : (p.bind f).bind g = p.bind fun a => (f a).bind g := by
  induction p with
  | ret a => rfl
  | load p k next ih => simp only [Prog.bind]; congr 1; funext r; exact ih r

theorem stepChildL_forget (C : Conv F T) (types : Dict Idx PTy) (key : Str) (s : LMerged F T) (c : LChild F T) :
    (forget (stepChildL C types key s c)).bind (fun r => .ret (r.map LMerged.drop)) = stepChildP C types key s.drop c.drop := by
  unfold stepChildL stepChildP
  show _ = match types.get? c.idx with | none => _ | some (.sd t) => _ | some (.val t) => _
  cases types.get? c.idx with
  | none => rfl
  | some p =>
    cases p with
    | sd t =>
      simp only [forget, Prog.bind, Except.map, LMerged.drop, mapD_set, LArg.drop, castRunL_forget, LChild.drop]
    | val t =>
      simp only [forget_bind, LChild.drop]
      apply bind_map
      intro r
      cases r with
      | error e => simp only [forget, Prog.bind, Except.map, LMerged.drop, mapD_set, LArg.drop]
      | ok v =>
        simp only
        cases castTo C t v with
        | error e => rfl
        | ok v' => simp only [forget, Prog.bind, Except.map, LMerged.drop, mapD_set, LArg.drop]

theorem stepAllL_forget (C : Conv F T) (types : Dict Idx PTy) (key : Str) (l : List (LChild F T)) (s : LMerged F T) :
    (forget (stepAllL C types key s l)).bind (fun r => .ret (r.map LMerged.drop)) = stepAllP C types key s.drop (l.map LChild.drop) := by
  induction l generalizing s with
  | nil => rfl
  | cons c l ih =>
    simp only [stepAllL, forget_bind, List.map_cons, stepAllP, ← stepChildL_forget, bind_assoc]
    congr 1
    funext r
    cases r with
    | error e => rfl
    | ok s' => exact ih s'

theorem insertDeepL_drop (c : LChild F T) (l : List (LChild F T)) :
    (insertDeepL c l).map LChild.drop = insertDeepP c.drop (l.map LChild.drop) := by
  induction l with
  | nil => rfl
  | cons d l ih =>
    simp only [insertDeepL, List.map_cons, insertDeepP]
    show _ = if d.depth.getD 0 < c.depth.getD 0 then _ else _
    split_ifs
    · rfl
    · rw [List.map_cons, ih]

theorem deeperFirstL_drop (l : List (LChild F T)) : (deeperFirstL l).map LChild.drop = deeperFirstP (l.map LChild.drop) := by
  unfold deeperFirstL deeperFirstP
  have : ∀ (l : List (LChild F T)) (acc : List (LChild F T)), (l.foldl (fun acc c => insertDeepL c acc) acc).map LChild.drop =
      (l.map LChild.drop).foldl (fun acc c => insertDeepP c acc) (acc.map LChild.drop) := by
    intro l
    induction l with
    | nil => intro acc; rfl
    | cons c l ih => intro acc; simp only [List.foldl_cons, List.map_cons, ih, insertDeepL_drop]
  exact this l []

theorem finishL_forget (src : Source F T) (n : ℕ) (key : Str) (s : LMerged F T) :
    forget (finishL src n key s) = finishP src n key s.drop := by
  unfold finishL finishP
  show _ = match s.holder with | some e => _ | none => _
  cases s.holder with
  | some e => rfl
  | none =>
    simp only [runL_forget, LMerged.drop, get?_mapD, List.map_map]
    have h1 : ∀ i, ((s.merged.get? (.pos i)).map LArg.drop).getD (.val .none) =
        LArg.drop ((s.merged.get? (.pos i)).getD (.val .none)) := by
      intro i; cases s.merged.get? (.pos i) <;> rfl
    congr 1
    · funext i k
      rw [get_drop]
      congr 1
      cases i with
      | pos i =>
        simp only [argAt, List.getElem?_map, h1]
        cases (List.range n)[i]? <;> rfl
      | name k => rfl
    · congr 1
      · apply List.map_congr_left
        intro i _
        simp only [Function.comp, h1, shape_drop]
      · funext k
        cases s.merged.get? (.name k) with
        | none => rfl
        | some a => simp only [Option.map_some, shape_drop]

theorem applyMergeL_forget (C : Conv F T) (src : Source F T) (n : ℕ) (children : List (LChild F T)) (key : Str) :
    forget (applyMergeL C src n children key) = applyMergeP C src n (children.map LChild.drop) key := by
  unfold applyMergeL applyMergeP
  have : (children.map LChild.drop).any (fun c => c.depth.isNone) = children.any fun c => c.depth.isNone := by
    rw [List.any_map]; rfl
  rw [this]
  split_ifs
  · rfl
  · have h := stepAllL_forget C (src.types.asDict (some n)) key (deeperFirstL children) ⟨none, [], 0⟩
    have h' : stepAllP C (src.types.asDict (some n)) key ⟨none, []⟩ (deeperFirstP (children.map LChild.drop)) =
        (forget (stepAllL C (src.types.asDict (some n)) key ⟨none, [], 0⟩ (deeperFirstL children))).bind fun r => .ret (r.map LMerged.drop) := by
      rw [← deeperFirstL_drop]; exact h.symm
    rw [h', forget_bind, bind_assoc]
    congr 1
    funext r
    cases r with
    | error e => rfl
    | ok s => exact finishL_forget src n key s

mutual
theorem live_forget (P : PWorld F T) : ∀ (r : Val F) (key : Str), forget (live P r key) = program P r key
  | .lit (.dict es) config sp, key => by
    have h := liveD_forget P es
    simp only [live, program]
    have h2 : visitDict P (programD P es) config key = (visitDictL P (liveD P es) config key).map fun f k => forget (f k) := by
      unfold visitDict visitDictL
      cases config with
      | none => rfl
      | some c =>
        simp only
        cases P.configs c with
        | none => rfl
        | some cfg =>
          simp only
          rw [← visitKeys_map]
          congr 1
          funext k
          rw [h, get?_mapD]
          cases Dict.get? (liveD P es) k <;> rfl
    rw [h2]
    cases visitDictL P (liveD P es) config key <;> rfl
  | .lit (.str s) _ _, key => rfl
  | .lit (.int s) _ _, key => rfl
  | .lit (.float s) _ _, key => rfl
  | .lit (.bool s) _ _, key => rfl
  | .lit .none _ _, key => rfl
  | .lit (.tensor s) _ _, key => rfl
  | .lit (.lit v c s) c' s', key => by
    simp only [live, program]
    exact live_forget P (.lit v c s) key
  | .lit (.model v c s) c' s', key => by
    simp only [live, program]
    exact live_forget P (.model v c s) key
  | .lit (.merge m a k) c' s', key => by
    simp only [live, program]
    exact live_forget P (.merge m a k) key
  | .model path config _, key => by
    simp only [live, program, forget_bind]
    have : forget (visitModelL P path config key) = visitModel P path config key := by
      unfold visitModelL visitModel
      cases config with
      | none => rfl
      | some c =>
        simp only
        cases P.configs c with
        | none => rfl
        | some cfg => exact loadFirstL_forget _ _
    rw [this]
    congr 1
    funext r
    cases r <;> rfl
  | .merge m args kwargs, key => by
    simp only [live, program]
    rw [applyMergeL_forget, List.map_append, liveL_forget P args 0, liveK_forget P kwargs]
  | .str s, key => rfl
  | .int s, key => rfl
  | .float s, key => rfl
  | .bool s, key => rfl
  | .none, key => rfl
  | .tensor s, key => rfl
  | .dict s, key => rfl
theorem liveD_forget (P : PWorld F T) : ∀ (es : List (Str × Val F)), programD P es = mapD (fun f k => forget (f k)) (liveD P es)
  | [] => rfl
  | (k, v) :: l => by
    have h : program P v = fun k => forget (live P v k) := by funext k; rw [live_forget P v k]
    simp only [programD, liveD]
    rw [liveD_forget P l, h]
    rfl
theorem liveL_forget (P : PWorld F T) : ∀ (l : List (Val F)) (i : ℕ), (liveL P i l).map LChild.drop = programL P i l
  | [], i => rfl
  | v :: l, i => by
    have h : program P v = fun k => forget (live P v k) := by funext k; rw [live_forget P v k]
    simp only [programL, liveL, List.map_cons]
    rw [liveL_forget P l (i + 1), h]
    rfl
theorem liveK_forget (P : PWorld F T) : ∀ (l : List (Str × Val F)), (liveK P l).map LChild.drop = programK P l
  | [] => rfl
  | (k, v) :: l => by
    have h : program P v = fun k => forget (live P v k) := by funext k; rw [live_forget P v k]
    simp only [programK, liveK, List.map_cons]
    rw [liveK_forget P l, h]
    rfl
end

variable (ρ : Str → Str → Except Err T)

theorem value_forget (p : Live T α) : Program.Spec.value ρ (forget p) = value ρ p := by
  induction p with
  | ret a => rfl
  | load p k next ih => exact ih _
  | hold q ih => exact ih
  | free n q ih => exact ih

theorem loads_forget (p : Live T α) : loadsOf ρ (forget p) = loads (trace ρ p) := by
  induction p with
  | ret a => rfl
  | load p k next ih => simp only [forget, loadsOf, trace, loads, ih]
  | hold q ih => exact ih
  | free n q ih => exact ih

theorem value_bind (p : Live T α) (f : α → Live T β) : value ρ (p.bind f) = value ρ (f (value ρ p)) := by
  induction p with
  | ret a => rfl
  | load p k next ih => exact ih _
  | hold q ih => exact ih
  | free n q ih => exact ih

theorem trace_bind (p : Live T α) (f : α → Live T β) : trace ρ (p.bind f) = trace ρ p ++ trace ρ (f (value ρ p)) := by
  induction p with
  | ret a => rfl
  | load p k next ih => simp only [Live.bind, trace, value, ih, List.cons_append]
  | hold q ih => simp only [Live.bind, trace, value, ih, List.cons_append]
  | free n q ih => simp only [Live.bind, trace, value, ih, List.cons_append]

/-! ### The most that is held -/

/-- The most that is held at a moment -/
def top (n : ℕ) : List Event → ℕ
  | [] => n
  | .load _ _ :: es => top n es
  | .hold :: es => max n (top (n + 1) es)
  | .free m :: es => max n (top (n - m) es)

theorem le_top (es : List Event) : ∀ n, n ≤ top n es := by
  induction es with
  | nil => intro n; exact le_rfl
  | cons e es ih =>
    intro n
    cases e with
    | load p k => exact ih n
    | hold => exact le_max_left _ _
    | free m => exact le_max_left _ _

theorem prefix_top {before es : List Event} (h : before <+: es) : ∀ n, heldAfter n before ≤ top n es := by
  induction before generalizing es with
  | nil => intro n; exact le_top es n
  | cons e before ih =>
    intro n
    cases es with
    | nil => simp at h
    | cons e' es =>
      rw [List.cons_prefix_cons] at h
      obtain ⟨rfl, h⟩ := h
      cases e with
      | load p k => exact ih h n
      | hold => exact le_trans (ih h (n + 1)) (le_max_right _ _)
      | free m => exact le_trans (ih h (n - m)) (le_max_right _ _)

theorem top_reached (es : List Event) : ∀ n, ∃ before, before <+: es ∧ heldAfter n before = top n es := by
  induction es with
  | nil => intro n; exact ⟨[], List.prefix_rfl, rfl⟩
  | cons e es ih =>
    intro n
    cases e with
    | load p k =>
      obtain ⟨b, h1, h2⟩ := ih n
      exact ⟨.load p k :: b, (List.cons_prefix_cons).2 ⟨rfl, h1⟩, h2⟩
    | hold =>
      rcases le_total n (top (n + 1) es) with h | h
      · obtain ⟨b, h1, h2⟩ := ih (n + 1)
        exact ⟨.hold :: b, (List.cons_prefix_cons).2 ⟨rfl, h1⟩, by simp only [heldAfter, top, h2, max_eq_right h]⟩
      · exact ⟨[], List.nil_prefix, by simp only [heldAfter, top, max_eq_left h]⟩
    | free m =>
      rcases le_total n (top (n - m) es) with h | h
      · obtain ⟨b, h1, h2⟩ := ih (n - m)
        exact ⟨.free m :: b, (List.cons_prefix_cons).2 ⟨rfl, h1⟩, by simp only [heldAfter, top, h2, max_eq_right h]⟩
      · exact ⟨[], List.nil_prefix, by simp only [heldAfter, top, max_eq_left h]⟩

theorem atMost_iff {b : ℕ} {es : List Event} : AtMost b es ↔ top 0 es ≤ b := by
  constructor
  · intro h
    obtain ⟨p, h1, h2⟩ := top_reached es 0
    rw [← h2]; exact h p h1
  · intro h p hp
    exact le_trans (prefix_top hp 0) h

theorem after_append (a b : List Event) : ∀ n, heldAfter n (a ++ b) = heldAfter (heldAfter n a) b := by
  induction a with
  | nil => intro n; rfl
  | cons e a ih => intro n; cases e <;> exact ih _

theorem top_append (a b : List Event) : ∀ n, top n (a ++ b) = max (top n a) (top (heldAfter n a) b) := by
  induction a with
  | nil => intro n; exact (max_eq_right (le_top b n)).symm
  | cons e a ih =>
    intro n
    cases e with
    | load p k => exact ih n
    | hold => simp only [List.cons_append, top, heldAfter, ih, max_assoc]
    | free m => simp only [List.cons_append, top, heldAfter, ih, max_assoc]

/-! ### What an evaluation that succeeds holds -/

/-- An argument of a merge as far as holding goes -/
structure Kid where
  isFresh : Bool
  height : ℕ
  bound : ℕ
  size : ℕ

def insertKid (c : Kid) : List Kid → List Kid
  | [] => [c]
  | d :: l => if d.height < c.height then c :: d :: l else d :: insertKid c l

def sortKids (l : List Kid) : List Kid := l.foldl (fun acc c => insertKid c acc) []

def stack : List Kid → ℕ
  | [] => 0
  | k :: l => max k.bound (weight k.isFresh + stack l)

def count : List Kid → ℕ
  | [] => 0
  | k :: l => weight k.isFresh + count l

mutual
def bound : Val F → ℕ
  | .model .. => 1
  | .merge _ args kwargs => max (stack (sortKids (kidsL args ++ kidsK kwargs))) (count (sortKids (kidsL args ++ kidsK kwargs)) + 1)
  | _ => 0
def kidsL : List (Val F) → List Kid
  | [] => []
  | v :: l => ⟨fresh v, height v, bound v, size v⟩ :: kidsL l
def kidsK : List (Str × Val F) → List Kid
  | [] => []
  | (_, v) :: l => ⟨fresh v, height v, bound v, size v⟩ :: kidsK l
end

/-- A computation that, if it succeeds, leaves `w` and holds at most `b` more, which it does at some moment -/
def Exact (w : Bool) (b : ℕ) (run : Str → Live T (Res F T)) : Prop := ∀ key n v, value ρ (run key) = .ok v →
  heldAfter n (trace ρ (run key)) = n + weight w ∧ top n (trace ρ (run key)) = n + b

def RelC (c : LChild F T) (k : Kid) : Prop := c.isFresh = k.isFresh ∧ c.depth.getD 0 = k.height ∧ Exact ρ k.isFresh k.bound c.run

theorem insert_rel {c : LChild F T} {k : Kid} (hc : RelC ρ c k) {l : List (LChild F T)} {ks : List Kid} (h : List.Forall₂ (RelC ρ) l ks) :
    List.Forall₂ (RelC ρ) (insertDeepL c l) (insertKid k ks) := by
  induction h with
  | nil => exact .cons hc .nil
  | cons hd hl ih =>
    simp only [insertDeepL, insertKid, hc.2.1, hd.2.1]
    split_ifs
    · exact .cons hc (.cons hd hl)
    · exact .cons hd ih

theorem sort_rel {l : List (LChild F T)} {ks : List Kid} (h : List.Forall₂ (RelC ρ) l ks) :
    List.Forall₂ (RelC ρ) (deeperFirstL l) (sortKids ks) := by
  unfold deeperFirstL sortKids
  have : ∀ {l : List (LChild F T)} {ks : List Kid}, List.Forall₂ (RelC ρ) l ks → ∀ {acc : List (LChild F T)} {acc' : List Kid},
      List.Forall₂ (RelC ρ) acc acc' →
      List.Forall₂ (RelC ρ) (l.foldl (fun acc c => insertDeepL c acc) acc) (ks.foldl (fun acc c => insertKid c acc) acc') := by
    intro l ks h
    induction h with
    | nil => intro acc acc' h; exact h
    | cons hd hl ih => intro acc acc' h; exact ih (insert_rel ρ hd h)
  exact this h .nil

def AllVal (d : Dict Idx (LArg F T)) : Prop := ∀ i a, d.get? i = some a → ∃ v, a = .val v

theorem AllVal.set {d : Dict Idx (LArg F T)} (h : AllVal d) (i : Idx) (v : RVal F T) : AllVal (d.set i (.val v)) := by
  intro j a ha
  rw [Dict.get?_set] at ha
  split_ifs at ha
  · injection ha with ha; exact ⟨v, ha.symm⟩
  · exact h j a ha

theorem stepAll_exact (C : Conv F T) (types : Dict Idx PTy) (hsd : ∀ i t, types.get? i ≠ some (.sd t)) (key : Str) {l : List (LChild F T)}
    {ks : List Kid} (h : List.Forall₂ (RelC ρ) l ks) : ∀ {s s' : LMerged F T} (n : ℕ), value ρ (stepAllL C types key s l) = .ok s' →
    s'.holder = none → AllVal s.merged → s.holder = none ∧ s'.held = s.held + count ks ∧ AllVal s'.merged ∧
      heldAfter n (trace ρ (stepAllL C types key s l)) = n + count ks ∧ top n (trace ρ (stepAllL C types key s l)) = n + stack ks := by
  induction h with
  | nil =>
    intro s s' n hv hh ha
    simp only [stepAllL, value] at hv
    injection hv with hv
    subst hv
    exact ⟨hh, rfl, ha, rfl, rfl⟩
  | @cons c k l ks hc hl ih =>
    intro s s' n hv hh ha
    obtain ⟨c1, c2, c3⟩ := hc
    simp only [stepAllL, value_bind, trace_bind, after_append, top_append] at hv ⊢
    obtain ⟨t, ht⟩ | hn : (∃ t, types.get? c.idx = some (.val t)) ∨ types.get? c.idx = none := by
      cases e : types.get? c.idx with
      | none => exact .inr rfl
      | some p =>
        cases p with
        | sd t => exact absurd e (hsd _ _)
        | val t => exact .inl ⟨t, rfl⟩
    · have hstep : stepChildL C types key s c = (c.run key).bind fun
          | .error e => .ret (.ok ⟨some e, s.merged.set c.idx (.val .none), s.held⟩)
          | .ok v =>
            match castTo C t v with
            | .error e => .ret (.error e)
            | .ok v' => .ret (.ok ⟨s.holder, s.merged.set c.idx (.val v'), s.held + weight c.isFresh⟩) := by
        unfold stepChildL; rw [ht]; rfl
      rw [hstep] at hv ⊢
      simp only [value_bind, trace_bind, after_append, top_append] at hv ⊢
      cases hr : value ρ (c.run key) with
      | error e =>
        rw [hr] at hv
        simp only [value] at hv
        have := (ih (s := ⟨some e, s.merged.set c.idx (.val .none), s.held⟩) n hv hh (ha.set _ _)).1
        exact absurd this (by simp)
      | ok v =>
        rw [hr] at hv
        obtain ⟨e1, e2⟩ := c3 key n v hr
        cases hc : castTo C t v with
        | error e =>
          simp only [hc, value] at hv
          exact absurd hv (by simp)
        | ok v' =>
          simp only [hc, value] at hv
          obtain ⟨i1, i2, i3, i4, i5⟩ := ih (s := ⟨s.holder, s.merged.set c.idx (.val v'), s.held + weight c.isFresh⟩)
            (n + weight k.isFresh) hv hh (ha.set _ _)
          simp only [hc, value, trace, heldAfter, top, e1, e2, i4, i5, count, stack]
          refine ⟨i1, by rw [i2, c1]; show s.held + _ + _ = _; omega, i3, by omega, ?_⟩
          omega
    · have hstep : stepChildL C types key s c = .ret (.error .key) := by unfold stepChildL; rw [hn]
      rw [hstep] at hv
      simp only [value] at hv
      exact absurd hv (by simp)

theorem runL_exact {get : Idx → Str → Live T (Res F T)} (hget : ∀ i k, get i k = .ret (.error .type)) (w : Idx → Bool) (h : ℕ) (f : Fn F T) {v : RVal F T}
    (hv : value ρ (runL get w h f) = .ok v) : trace ρ (runL get w h f) = [.hold, .free h] := by
  induction f with
  | done r =>
    cases r with
    | ok v => rfl
    | error e => simp only [runL, value] at hv; exact absurd hv (by simp)
  | ask i k next ih =>
    simp only [runL, hget, Live.bind] at hv ⊢
    exact ih _ hv

theorem finish_exact {src : Source F T} {n : ℕ} {key : Str} {s : LMerged F T} (hs : AllVal s.merged) {v : RVal F T}
    (hv : value ρ (finishL src n key s) = .ok v) : s.holder = none ∧ trace ρ (finishL src n key s) = [.hold, .free s.held] := by
  cases hh : s.holder with
  | some e =>
    have : finishL src n key s = .ret (.error e) := by unfold finishL; rw [hh]
    rw [this] at hv
    exact absurd hv (by simp [value])
  | none =>
    refine ⟨rfl, ?_⟩
    unfold finishL at hv ⊢
    rw [hh] at hv ⊢
    simp only at hv ⊢
    apply runL_exact ρ _ _ _ _ hv
    intro i k
    cases i with
    | pos i =>
      simp only [argAt, List.getElem?_map]
      cases (List.range n)[i]? with
      | none => rfl
      | some j =>
        simp only [Option.map_some]
        cases e : s.merged.get? (.pos j) with
        | none => rfl
        | some a => obtain ⟨v, rfl⟩ := hs _ _ e; rfl
    | name k' =>
      simp only [argAt]
      cases e : s.merged.get? (.name k') with
      | none => rfl
      | some a => obtain ⟨v, rfl⟩ := hs _ _ e; rfl

def maxL : List (Option ℕ) → ℕ
  | [] => 0
  | d :: l => max (d.getD 0) (maxL l)

theorem maxDepth_two (x y : Option ℕ) (l : List (Option ℕ)) :
    maxDepth (x :: y :: l) = match x, maxDepth (y :: l) with | some a, some b => some (max a b) | _, _ => none := by
  conv_lhs => unfold maxDepth
  rfl

theorem forall₂_append {A B : Type} {R : A → B → Prop} {l l' : List A} {m m' : List B} (h : List.Forall₂ R l m) (h' : List.Forall₂ R l' m') :
    List.Forall₂ R (l ++ l') (m ++ m') := by
  induction h with
  | nil => exact h'
  | cons a b ih => exact .cons a ih

theorem maxDepth_some : ∀ {l : List (Option ℕ)} {d : ℕ}, maxDepth l = some d → (∀ x ∈ l, x.isSome) ∧ d = maxL l
  | [], d, h => by simp [maxDepth] at h
  | [x], d, h => by
    simp only [maxDepth] at h
    subst h
    exact ⟨by simp, by simp [maxL]⟩
  | x :: y :: l, d, h => by
    rw [maxDepth_two] at h
    cases hx : x with
    | none => rw [hx] at h; simp at h
    | some a =>
      rw [hx] at h
      cases hm : maxDepth (y :: l) with
      | none => rw [hm] at h; simp at h
      | some b =>
        rw [hm] at h
        simp only [Option.some.injEq] at h
        obtain ⟨i1, i2⟩ := maxDepth_some hm
        refine ⟨?_, ?_⟩
        · intro z hz
          rcases List.mem_cons.1 hz with rfl | hz
          · rfl
          · exact i1 z hz
        · rw [← h, i2]; rfl

theorem maxL_append (l l' : List (Option ℕ)) : maxL (l ++ l') = max (maxL l) (maxL l') := by
  induction l with
  | nil => simp [maxL]
  | cons d l ih => simp only [List.cons_append, maxL, ih, max_assoc]

mutual
theorem depth_height : ∀ (v : Val F) {d : ℕ}, depth v = some d → d = height v
  | .lit .., d, h => by simp only [depth, Option.some.injEq] at h; rw [← h]; rfl
  | .model .., d, h => by simp only [depth, Option.some.injEq] at h; rw [← h]; rfl
  | .merge m args kwargs, d, h => by
    simp only [depth] at h
    cases hm : maxDepth (depthL args ++ depthK kwargs) with
    | none => rw [hm] at h; simp at h
    | some b =>
      rw [hm] at h
      simp only [Option.map_eq_map, Option.map_some, Option.some.injEq] at h
      obtain ⟨i1, i2⟩ := maxDepth_some hm
      have e1 := depthL_height args fun x hx => i1 x (List.mem_append_left _ hx)
      have e2 := depthK_height kwargs fun x hx => i1 x (List.mem_append_right _ hx)
      rw [← h, i2, maxL_append, e1, e2]
      simp only [height]
      omega
  | .str _, d, h => by simp [depth] at h
  | .int _, d, h => by simp [depth] at h
  | .float _, d, h => by simp [depth] at h
  | .bool _, d, h => by simp [depth] at h
  | .none, d, h => by simp [depth] at h
  | .tensor _, d, h => by simp [depth] at h
  | .dict _, d, h => by simp [depth] at h
theorem depthL_height : ∀ (l : List (Val F)), (∀ x ∈ depthL l, x.isSome) → maxL (depthL l) = heightL l
  | [], h => rfl
  | v :: l, h => by
    simp only [depthL, maxL, heightL] at h ⊢
    obtain ⟨d, hd⟩ := Option.isSome_iff_exists.1 (h (depth v) (by simp))
    rw [depthL_height l fun x hx => h x (by simp [hx]), ← depth_height v hd, hd]
    rfl
theorem depthK_height : ∀ (l : List (Str × Val F)), (∀ x ∈ depthK l, x.isSome) → maxL (depthK l) = heightK l
  | [], h => rfl
  | (k, v) :: l, h => by
    simp only [depthK, maxL, heightK] at h ⊢
    obtain ⟨d, hd⟩ := Option.isSome_iff_exists.1 (h (depth v) (by simp))
    rw [depthK_height l fun x hx => h x (by simp [hx]), ← depth_height v hd, hd]
    rfl
end

theorem getD_height {v : Val F} (h : (depth v).isSome) : (depth v).getD 0 = height v := by
  obtain ⟨d, hd⟩ := Option.isSome_iff_exists.1 h
  rw [hd]; exact depth_height v hd

theorem visitKeys_mem {A : Type} {get : Str → Except Err A} : ∀ {ks : List Str} {a : A}, visitKeys get ks = .ok a → ∃ k, get k = .ok a
  | [], a, h => by simp [visitKeys] at h
  | [k], a, h => by
    simp only [visitKeys] at h
    cases hg : get k with
    | ok v => rw [hg] at h; exact ⟨k, by rw [hg]; exact h⟩
    | error e => rw [hg] at h; simp only at h; split_ifs at h
  | k :: k' :: ks, a, h => by
    rw [visitKeys_two] at h
    cases hg : get k with
    | ok v => rw [hg] at h; exact ⟨k, by rw [hg]; exact h⟩
    | error e =>
      rw [hg] at h; simp only at h
      split_ifs at h
      exact visitKeys_mem h

theorem trace_plain (P : PWorld F T) {v : Val F} (h : isNode v = false) (h' : ∀ v' c s, v ≠ .lit v' c s) (key : Str) : trace ρ (live P v key) = [] := by
  cases v with
  | lit v c s => exact absurd rfl (h' v c s)
  | model => simp [isNode] at h
  | merge => simp [isNode] at h
  | _ => rfl

theorem get_liveD (P : PWorld F T) {k : Str} {f : Str → Live T (Res F T)} : ∀ {es : List (Str × Val F)}, Dict.get? (liveD P es) k = some f →
    ∃ p ∈ es, f = live P p.2
  | [], h => by simp [liveD, Dict.get?] at h
  | (k', v) :: l, h => by
    simp only [liveD, Dict.get?] at h
    split_ifs at h
    · injection h with h; exact ⟨(k', v), by simp, h.symm⟩
    · obtain ⟨p, hp, hf⟩ := get_liveD P h
      exact ⟨p, by simp [hp], hf⟩

theorem trace_lit (P : PWorld F T) {v : Val F} (c : Option Str) (s : Str) (h : Flat (.lit v c s)) (key : Str) : trace ρ (live P (.lit v c s) key) = [] := by
  by_cases hd : ∃ es, v = .dict es
  · obtain ⟨es, rfl⟩ := hd
    simp only [Flat] at h
    simp only [live]
    cases hv : visitDictL P (liveD P es) c key with
    | error e => rfl
    | ok f =>
      unfold visitDictL at hv
      cases c with
      | none => simp at hv
      | some c =>
        simp only at hv
        cases hc : P.configs c with
        | none => rw [hc] at hv; simp at hv
        | some cfg =>
          rw [hc] at hv
          obtain ⟨k, hk⟩ := visitKeys_mem hv
          cases hg : Dict.get? (liveD P es) k with
          | none => rw [hg] at hk; simp at hk
          | some g =>
            rw [hg] at hk
            injection hk with hk
            obtain ⟨p, hp, hf⟩ := get_liveD P hg
            simp only
            rw [← hk, hf]
            exact trace_plain ρ P (h p hp).1 (h p hp).2 key
  · have h2 : isNode v = false ∧ ∀ v' c s, v ≠ .lit v' c s := by
      cases v with
      | dict es => exact absurd ⟨es, rfl⟩ hd
      | _ => exact h
    have : live P (.lit v c s) key = live P v key := by
      cases v with
      | dict es => exact absurd ⟨es, rfl⟩ hd
      | _ => simp only [live]
    rw [this]
    exact trace_plain ρ P h2.1 h2.2 key

theorem loadFirst_exact (path : Str) : ∀ (ks : List Str) {t : T} (n : ℕ), value ρ (loadFirstL path ks) = .ok t →
    heldAfter n (trace ρ (loadFirstL path ks)) = n + 1 ∧ top n (trace ρ (loadFirstL path ks)) = n + 1
  | [], t, n, h => by simp [loadFirstL, value] at h
  | [k], t, n, h => by
    simp only [loadFirstL, value, trace] at h ⊢
    cases hr : ρ path k with
    | ok v => simp [trace, heldAfter, top]
    | error e =>
      rw [hr] at h
      simp only at h
      split_ifs at h <;> simp [value] at h
  | k :: k' :: ks, t, n, h => by
    simp only [loadFirstL, value, trace] at h ⊢
    cases hr : ρ path k with
    | ok v => simp [trace, heldAfter, top]
    | error e =>
      rw [hr] at h
      simp only at h ⊢
      split_ifs at h ⊢
      · simp only [heldAfter, top]
        exact loadFirst_exact path (k' :: ks) n h
      · simp [value] at h

theorem model_exact (P : PWorld F T) (path : Str) (c s : Option Str) : Exact ρ true 1 (live P (.model path c s)) := by
  intro key n v hv
  simp only [live, value_bind, trace_bind, after_append, top_append] at hv ⊢
  cases hr : value ρ (visitModelL P path c key) with
  | error e => rw [hr] at hv; simp [value] at hv
  | ok t =>
    simp only [trace, heldAfter, top]
    have : heldAfter n (trace ρ (visitModelL P path c key)) = n + 1 ∧ top n (trace ρ (visitModelL P path c key)) = n + 1 := by
      unfold visitModelL at hr ⊢
      cases c with
      | none => simp [value] at hr
      | some c =>
        simp only at hr ⊢
        cases hc : P.configs c with
        | none => rw [hc] at hr; simp [value] at hr
        | some cfg =>
          rw [hc] at hr
          exact loadFirst_exact ρ path _ n hr
    rw [this.1, this.2]
    exact ⟨rfl, max_self _⟩

theorem any_liveL (P : PWorld F T) : ∀ (l : List (Val F)) (i : ℕ), (liveL P i l).any (fun c => c.depth.isNone) = false → ∀ v ∈ l, (depth v).isSome
  | [], i, h => by simp
  | v :: l, i, h => by
    simp only [liveL, List.any_cons, Bool.or_eq_false_iff] at h
    intro x hx
    rcases List.mem_cons.1 hx with rfl | hx
    · have := h.1
      cases hd : depth x with
      | none => rw [hd] at this; simp at this
      | some d => rfl
    · exact any_liveL P l _ h.2 x hx

theorem any_liveK (P : PWorld F T) : ∀ (l : List (Str × Val F)), (liveK P l).any (fun c => c.depth.isNone) = false → ∀ p ∈ l, (depth p.2).isSome
  | [], h => by simp
  | (k, v) :: l, h => by
    simp only [liveK, List.any_cons, Bool.or_eq_false_iff] at h
    intro x hx
    rcases List.mem_cons.1 hx with rfl | hx
    · have := h.1
      cases hd : depth v with
      | none => rw [hd] at this; simp at this
      | some d => simp [hd]
    · exact any_liveK P l h.2 x hx

mutual
theorem live_exact (P : PWorld F T) {k : ℕ} : ∀ (v : Val F), Simple P k v → Exact ρ (fresh v) (bound v) (live P v)
  | .lit v c s, h => by
    intro key n x hx
    rw [trace_lit ρ P c s (by simpa only [Simple] using h) key]
    exact ⟨rfl, by simp [top, bound]⟩
  | .model p c s, h => by
    have := model_exact ρ P p c s
    simpa only [fresh, bound] using this
  | .merge m args kwargs, h => by
    simp only [Simple] at h
    intro key n x hx
    simp only [live, applyMergeL] at hx ⊢
    by_cases hany : (liveL P 0 args ++ liveK P kwargs).any (fun c => c.depth.isNone) = true
    · rw [if_pos hany] at hx; simp [value] at hx
    · rw [if_neg hany] at hx ⊢
      have hany' : (liveL P 0 args ++ liveK P kwargs).any (fun c => c.depth.isNone) = false := by simpa using hany
      rw [List.any_append, Bool.or_eq_false_iff] at hany'
      have r1 := liveL_exact P args 0 h.2.2.1 (any_liveL P args 0 hany'.1)
      have r2 := liveK_exact P kwargs h.2.2.2 (any_liveK P kwargs hany'.2)
      have hrel := sort_rel ρ (forall₂_append r1 r2)
      simp only [value_bind, trace_bind, after_append, top_append] at hx ⊢
      cases hs : value ρ (stepAllL P.conv ((P.source m).types.asDict (some args.length)) key ⟨none, [], 0⟩ (deeperFirstL (liveL P 0 args ++ liveK P kwargs))) with
      | error e => rw [hs] at hx; simp [value] at hx
      | ok s =>
        rw [hs] at hx
        simp only at hx ⊢
        have hall : AllVal s.merged ∧ True := by
          by_cases hh : s.holder = none
          · exact ⟨(stepAll_exact ρ P.conv _ h.1 key hrel n hs hh (by intro i a ha; simp [Dict.get?] at ha)).2.2.1, trivial⟩
          · exfalso
            obtain ⟨e, he⟩ := Option.ne_none_iff_exists'.1 hh
            have : finishL (P.source m) args.length key s = .ret (.error e) := by unfold finishL; rw [he]
            rw [this] at hx
            simp [value] at hx
        obtain ⟨f1, f2⟩ := finish_exact ρ hall.1 hx
        obtain ⟨_, g2, _, g4, g5⟩ := stepAll_exact ρ P.conv _ h.1 key hrel n hs f1 (by intro i a ha; simp [Dict.get?] at ha)
        rw [f2, g4, g5, g2]
        simp only [heldAfter, top, fresh, bound, weight, if_true]
        omega
  | .str _, h => fun key n x hx => ⟨rfl, by simp [live, trace, top, bound]⟩
  | .int _, h => fun key n x hx => ⟨rfl, by simp [live, trace, top, bound]⟩
  | .float _, h => fun key n x hx => ⟨rfl, by simp [live, trace, top, bound]⟩
  | .bool _, h => fun key n x hx => ⟨rfl, by simp [live, trace, top, bound]⟩
  | .none, h => fun key n x hx => ⟨rfl, by simp [live, trace, top, bound]⟩
  | .tensor _, h => fun key n x hx => ⟨rfl, by simp [live, trace, top, bound]⟩
  | .dict _, h => fun key n x hx => ⟨rfl, by simp [live, trace, top, bound]⟩
theorem liveL_exact (P : PWorld F T) {k : ℕ} : ∀ (l : List (Val F)) (i : ℕ), SimpleL P k l → (∀ v ∈ l, (depth v).isSome) →
    List.Forall₂ (RelC ρ) (liveL P i l) (kidsL l)
  | [], i, h, hd => .nil
  | v :: l, i, h, hd => by
    simp only [SimpleL] at h
    simp only [liveL, kidsL]
    exact .cons ⟨rfl, getD_height (hd v (by simp)), live_exact P v h.1⟩ (liveL_exact P l (i + 1) h.2 fun x hx => hd x (by simp [hx]))
theorem liveK_exact (P : PWorld F T) {k : ℕ} : ∀ (l : List (Str × Val F)), SimpleK P k l → (∀ p ∈ l, (depth p.2).isSome) →
    List.Forall₂ (RelC ρ) (liveK P l) (kidsK l)
  | [], h, hd => .nil
  | (k', v) :: l, h, hd => by
    simp only [SimpleK] at h
    simp only [liveK, kidsK]
    exact .cons ⟨rfl, getD_height (hd (k', v) (by simp)), live_exact P v h.1⟩ (liveK_exact P l h.2 fun x hx => hd x (by simp [hx]))
end

end Verif.Held
