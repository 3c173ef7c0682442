import Verif.Proofs.BlocksWhole
import Verif.Model.Readme

/-!
# Methods that ask for the current key only
-/
namespace Verif.Blocks
open Method Recipe Config Eval Eval.Spec Program Program.Spec Whole Spec
variable {F T : Type}

/-- All questions are about `key`. -/
def Asks (key : Str) : Fn F T → Prop
  | .done _ => True
  | .ask _ k next => k = key ∧ ∀ r, Asks key (next r)

theorem result_asks {key : Str} {get get' : Idx → Str → Res F T} (h : ∀ i, get i key = get' i key) : ∀ f : Fn F T, Asks key f → result get f = result get' f
  | .done _, _ => rfl
  | .ask i k next, hf => by
    rw [Asks] at hf
    obtain ⟨rfl, hn⟩ := hf
    rw [result, result, h]
    exact result_asks h _ (hn _)

theorem agree_shape {key : Str} {a a' : Arg F T} (h : AgreeAt key a a') : shape a = shape a' := by cases h <;> rfl

theorem agree_look {key : Str} {a a' : Option (Arg F T)} (h : Option.Rel (AgreeAt key) a a') : look a key = look a' key := by
  cases h with
  | none => rfl
  | some h => cases h with
    | val v => rfl
    | sd h => exact h

theorem agree_at {key : Str} {as as' : List (Arg F T)} {ks ks' : Str → Option (Arg F T)} (h : List.Forall₂ (AgreeAt key) as as')
    (hk : ∀ s, Option.Rel (AgreeAt key) (ks s) (ks' s)) (i : Idx) : Option.Rel (AgreeAt key) (argAt as ks i) (argAt as' ks' i) := by
  cases i with
  | name s => exact hk s
  | pos i =>
    show Option.Rel _ as[i]? as'[i]?
    induction h generalizing i with
    | nil => exact .none
    | cons h1 _ ih => cases i with
      | zero => exact .some h1
      | succ i => exact ih i

theorem local_of_asks (s : Source F T) (h : ∀ as ks key, Asks key (s.body as ks key)) : Local (impl s) := by
  intro as as' ks ks' key ha hk
  show result _ (s.body _ _ key) = result _ (s.body _ _ key)
  have h1 : as.map shape = as'.map shape := by
    induction ha with
    | nil => rfl
    | cons h1 _ ih => rw [List.map_cons, List.map_cons, agree_shape h1, ih]
  have h2 : (fun k => (ks k).map shape) = fun k => (ks' k).map shape := by
    funext k
    have := hk k
    generalize ks k = x at this
    generalize ks' k = y at this
    cases this with
    | none => rfl
    | some h => simp [agree_shape h]
  rw [h1, h2]
  exact result_asks (fun i => agree_look (agree_at ha hk i)) _ (h _ _ _)

theorem local_weighted (T : Readme.Torch) : Local (impl (Readme.weightedSource (F := F) T)) := by
  refine local_of_asks _ fun as ks key => ?_
  unfold Readme.weightedSource
  dsimp only
  repeat' split
  all_goals first | trivial | (simp only [Asks, and_true, true_and, implies_true, forall_const]; try trivial)
  all_goals
    intro r
    repeat' split
    all_goals first | trivial | (simp only [Asks, and_true, true_and, implies_true, forall_const]; try trivial)
  all_goals
    intro r
    repeat' split
    all_goals trivial

end Verif.Blocks
