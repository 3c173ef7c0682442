import Verif.Py.Text
import Lean.Elab.Tactic.Basic
import Mathlib.Tactic.Common

/-!
# Python's string methods: facts, and forms of them the kernel evaluates quickly

The functions in `Fast` are written with recursors and continuations, so that the kernel can run them over whole key tables.  Each is proved
equal to the function of `Verif/Py/Text.lean` it stands for.
-/
namespace Verif

open Lean Elab Tactic in
/-- Closes `t = v` by `rfl`, leaving the evaluation of `t` to the kernel. -/
elab "kernel_rfl" : tactic => do
  let g ← getMainGoal
  let some (_, _, r) := (← instantiateMVars (← g.getType)).eq? | throwError "not an equation"
  g.assign (← Meta.mkEqRefl r)
  replaceMainGoal []

namespace Text

theorem isPrefixOf_iff (p s : Text) : p.isPrefixOf s = true ↔ p <+: s := List.isPrefixOf_iff_prefix

theorem occurs_iff (p s : Text) : occurs p s = true ↔ p <:+: s := by
  induction s with
  | nil => rw [occurs, isPrefixOf_iff, List.prefix_nil, List.infix_nil]
  | cons c s ih => rw [occurs, Bool.or_eq_true, isPrefixOf_iff, ih, List.infix_cons_iff]

theorem startsWith_iff (p s : Text) : startsWith p s = true ↔ p <+: s := isPrefixOf_iff p s

theorem endsWith_iff (p s : Text) : endsWith p s = true ↔ p <:+ s := by
  rw [endsWith, isPrefixOf_iff, List.reverse_prefix]

/-- Nothing is replaced in a string without occurrences. -/
theorem replace_of_not_infix (p r s : Text) (h : ¬ p <:+: s) : replace p r s = s := by
  unfold replace
  induction s with
  | nil => rfl
  | cons c s ih =>
    rw [List.infix_cons_iff, not_or] at h
    rw [replaceFrom, if_neg (by rw [isPrefixOf_iff]; exact h.1), ih h.2]

end Text

namespace Fast
open Text

noncomputable section

/-- `p.isPrefixOf s` -/
def isPrefix (p : Text) : Text → Bool :=
  List.rec (motive := fun _ => Text → Bool) (fun _ => true)
    (fun a _ ih s => List.rec false (fun b bs _ => Bool.rec false (ih bs) (Nat.beq a b)) s) p

theorem isPrefix_eq (p s : Text) : isPrefix p s = p.isPrefixOf s := by
  induction p generalizing s with
  | nil => cases s <;> rfl
  | cons a p ih =>
    cases s with
    | nil => rfl
    | cons b s =>
      show Bool.rec (motive := fun _ => _) false (isPrefix p s) (Nat.beq a b) = (a == b && p.isPrefixOf s)
      have hb : (a == b) = Nat.beq a b := by
        rw [Bool.eq_iff_iff, beq_iff_eq, Nat.beq_eq]
      rw [ih, hb]
      cases Nat.beq a b <;> rfl

/-- `occurs p s` for nonempty `p` -/
def occ (p : Text) : Text → Bool :=
  List.rec false (fun c cs ih => Bool.rec ih true (isPrefix p (c :: cs)))

theorem occ_eq (p s : Text) (hp : p ≠ []) : occ p s = occurs p s := by
  induction s with
  | nil => cases p with
    | nil => exact absurd rfl hp
    | cons a p => rfl
  | cons c s ih =>
    show Bool.rec (motive := fun _ => _) (occ p s) true (isPrefix p (c :: s)) = _
    rw [occurs, ih, isPrefix_eq]
    cases p.isPrefixOf (c :: s) <;> rfl

def append (p : Text) (s : Text) : Text := List.rec s (fun a _ ih => a :: ih) p

theorem append_eq (p s : Text) : append p s = p ++ s := by
  induction p with
  | nil => rfl
  | cons a p ih => show a :: append p s = _; rw [ih]; rfl

def repFrom (p r : Text) (n : ℕ) (s : Text) : ℕ → Text :=
  List.rec (motive := fun _ => ℕ → Text) (fun _ => [])
    (fun c cs ih k => Nat.rec (Bool.rec (c :: ih 0) (append r (ih n)) (isPrefix p (c :: cs))) (fun k _ => ih k) k) s

theorem repFrom_eq (p r s : Text) (k : ℕ) : repFrom p r (p.length - 1) s k = replaceFrom p r k s := by
  induction s generalizing k with
  | nil => cases k <;> rfl
  | cons c s ih =>
    cases k with
    | zero =>
      show Bool.rec (motive := fun _ => _) (c :: repFrom p r (p.length - 1) s 0) (append r (repFrom p r (p.length - 1) s (p.length - 1))) (isPrefix p (c :: s)) = _
      rw [replaceFrom, ih, ih, append_eq, isPrefix_eq]
      cases p.isPrefixOf (c :: s) <;> rfl
    | succ k => exact ih k

/-- Evaluates a list before passing it on. -/
def force {β : Type} (l : Text) (k : Text → β) : β :=
  List.rec (motive := fun _ => (Text → β) → β) (fun k => k []) (fun c _ ih k => ih fun l => k (c :: l)) l k

theorem force_eq {β : Type} (l : Text) (k : Text → β) : force l k = k l := by
  induction l generalizing k with
  | nil => rfl
  | cons c l ih => exact ih _

/-- `k (replaceAll d s)` -/
def repAll {β : Type} (d : List (Text × Text)) (s : Text) (k : Text → β) : β :=
  List.rec (motive := fun _ => Text → β) k
    (fun e _ ih s => Bool.rec (ih s) (force (repFrom e.1 e.2 (e.1.length - 1) s 0) ih) (occ e.1 s)) d s

theorem repAll_eq {β : Type} (d : List (Text × Text)) (s : Text) (k : Text → β) (hd : ∀ e ∈ d, e.1 ≠ []) : repAll d s k = k (replaceAll d s) := by
  induction d generalizing s with
  | nil => rfl
  | cons e d ih =>
    show Bool.rec (motive := fun _ => _) (repAll d s k) (force (repFrom e.1 e.2 (e.1.length - 1) s 0) fun s => repAll d s k) (occ e.1 s) = _
    have hd' : ∀ e ∈ d, e.1 ≠ [] := fun e he => hd e (List.mem_cons_of_mem _ he)
    have h : replaceAll (e :: d) s = replaceAll d (replace e.1 e.2 s) := rfl
    rw [force_eq, repFrom_eq, ih s hd', ih _ hd', occ_eq _ _ (hd e List.mem_cons_self), h]
    cases ho : occurs e.1 s with
    | true => rfl
    | false =>
      have : ¬ e.1 <:+: s := by rw [← occurs_iff, ho]; exact Bool.false_ne_true
      rw [replace_of_not_infix _ _ _ this]

/-- Whether one of some strings occurs -/
def anyOcc (gs : List Text) (s : Text) : Bool := List.rec false (fun g _ ih => Bool.rec ih true (occ g s)) gs

theorem anyOcc_iff (gs : List Text) (s : Text) (hg : ∀ g ∈ gs, g ≠ []) : anyOcc gs s = true ↔ ∃ g ∈ gs, g <:+: s := by
  induction gs with
  | nil => exact ⟨fun h => absurd h Bool.false_ne_true, fun ⟨_, h, _⟩ => absurd h (List.not_mem_nil)⟩
  | cons g gs ih =>
    have ih := ih fun x hx => hg x (List.mem_cons_of_mem _ hx)
    show Bool.rec (motive := fun _ => _) (anyOcc gs s) true (occ g s) = true ↔ _
    rw [occ_eq _ _ (hg g List.mem_cons_self)]
    have ho := occurs_iff g s
    cases h : occurs g s with
    | true => rw [h] at ho; simp [ho.1 rfl]
    | false =>
      rw [h] at ho
      have : ¬ g <:+: s := fun hc => absurd (ho.2 hc) Bool.false_ne_true
      simp [ih, this]

/-- `k (replaceAll d s)`, where one of the strings `gs` occurs in each string to be replaced: as soon as none occurs, nothing more is replaced. -/
def repGuarded {β : Type} (gs : List Text) (d : List (Text × Text)) (s : Text) (k : Text → β) : β :=
  List.rec (motive := fun _ => Text → β) k
    (fun e _ ih s => Bool.rec (ih s) (force (repFrom e.1 e.2 (e.1.length - 1) s 0) fun s => Bool.rec (k s) (ih s) (anyOcc gs s)) (occ e.1 s)) d s

theorem replaceAll_none (gs : List Text) (d : List (Text × Text)) (s : Text) (hd : ∀ e ∈ d, ∃ g ∈ gs, g <:+: e.1) (h : ¬ ∃ g ∈ gs, g <:+: s) :
    replaceAll d s = s := by
  induction d with
  | nil => rfl
  | cons e d ih =>
    have he : replaceAll (e :: d) s = replaceAll d (replace e.1 e.2 s) := rfl
    have : ¬ e.1 <:+: s := by
      intro hc
      obtain ⟨g, hg, hi⟩ := hd e List.mem_cons_self
      exact h ⟨g, hg, hi.trans hc⟩
    rw [he, replace_of_not_infix _ _ _ this]
    exact ih fun e he => hd e (List.mem_cons_of_mem _ he)

theorem repGuarded_eq {β : Type} (gs : List Text) (d : List (Text × Text)) (s : Text) (k : Text → β) (hg : ∀ g ∈ gs, g ≠ [])
    (hd : ∀ e ∈ d, ∃ g ∈ gs, g <:+: e.1) : repGuarded gs d s k = k (replaceAll d s) := by
  induction d generalizing s with
  | nil => rfl
  | cons e d ih =>
    show Bool.rec (motive := fun _ => _) (repGuarded gs d s k) (force (repFrom e.1 e.2 (e.1.length - 1) s 0)
      fun s => Bool.rec (k s) (repGuarded gs d s k) (anyOcc gs s)) (occ e.1 s) = _
    have hd' : ∀ e ∈ d, ∃ g ∈ gs, g <:+: e.1 := fun e he => hd e (List.mem_cons_of_mem _ he)
    have he : e.1 ≠ [] := by
      obtain ⟨g, h1, h2⟩ := hd e List.mem_cons_self
      intro hn
      rw [hn, List.infix_nil] at h2
      exact hg g h1 h2
    have h : replaceAll (e :: d) s = replaceAll d (replace e.1 e.2 s) := rfl
    rw [force_eq, repFrom_eq, ih s hd', ih _ hd', occ_eq _ _ he, h]
    cases ho : occurs e.1 s with
    | true =>
      show Bool.rec (motive := fun _ => _) (k (replace e.1 e.2 s)) (k (replaceAll d (replace e.1 e.2 s))) (anyOcc gs (replace e.1 e.2 s)) = _
      have ha := anyOcc_iff gs (replace e.1 e.2 s) hg
      cases hc : anyOcc gs (replace e.1 e.2 s) with
      | true => rfl
      | false =>
        rw [hc] at ha
        rw [replaceAll_none gs d _ hd' fun hx => absurd (ha.2 hx) Bool.false_ne_true]
    | false =>
      have : ¬ e.1 <:+: s := by rw [← occurs_iff, ho]; exact Bool.false_ne_true
      rw [replace_of_not_infix _ _ _ this]

/-- `join "." (s.split(".").drop n)` for `n ≥ 1`: what follows the `n`-th dot -/
def afterDots (s : Text) : ℕ → Text :=
  List.rec (motive := fun _ => ℕ → Text) (fun _ => [])
    (fun c cs ih n => Nat.rec (motive := fun _ => Text) (c :: cs) (fun m _ => Bool.rec (ih (m + 1)) (ih m) (Nat.beq c 46)) n) s

theorem split_ne_nil (s : Text) : split s ≠ [] := by simp [split]

theorem join_split (s : Text) : join (key% ".") (split s) = s := by
  induction s with
  | nil => rfl
  | cons c s ih =>
    unfold split at ih ⊢
    rw [splitDots]
    by_cases h : c = 46
    · rw [if_pos h, h]
      show [] ++ [46] ++ join _ ((splitDots s).1 :: (splitDots s).2) = 46 :: s
      rw [ih]; rfl
    · rw [if_neg h]
      show join _ ((c :: (splitDots s).1) :: (splitDots s).2) = c :: s
      cases h2 : (splitDots s).2 with
      | nil => rw [h2] at ih; exact congrArg (c :: ·) ih
      | cons a b => rw [h2] at ih; exact congrArg (c :: ·) ih

theorem afterDots_eq (s : Text) (n : ℕ) : afterDots s n = join (key% ".") ((split s).drop n) := by
  induction s generalizing n with
  | nil => cases n with
    | zero => rfl
    | succ n => cases n <;> rfl
  | cons c s ih =>
    cases n with
    | zero => rw [List.drop_zero, join_split]; rfl
    | succ n =>
      show Bool.rec (motive := fun _ => _) (afterDots s (n + 1)) (afterDots s n) (Nat.beq c 46) = _
      rw [ih, ih]
      unfold split
      rw [splitDots]
      by_cases h : c = 46
      · rw [if_pos h, h]; rfl
      · rw [if_neg h]
        have : Nat.beq c 46 = false := Bool.eq_false_iff.2 fun hb => h (Nat.eq_of_beq_eq_true hb)
        rw [this]; rfl

/-- Equality of strings -/
def eq (a b : Text) : Bool :=
  List.rec (motive := fun _ => Text → Bool) (fun b => List.rec true (fun _ _ _ => false) b)
    (fun x _ ih b => List.rec false (fun y ys _ => Bool.rec false (ih ys) (Nat.beq x y)) b) a b

theorem eq_iff (a b : Text) : eq a b = true ↔ a = b := by
  induction a generalizing b with
  | nil => cases b with
    | nil => exact ⟨fun _ => rfl, fun _ => rfl⟩
    | cons y b => exact ⟨fun h => absurd h Bool.false_ne_true, fun h => by cases h⟩
  | cons x a ih =>
    cases b with
    | nil => exact ⟨fun h => absurd h Bool.false_ne_true, fun h => by cases h⟩
    | cons y b =>
      show Bool.rec (motive := fun _ => _) false (eq a b) (Nat.beq x y) = true ↔ _
      cases h : Nat.beq x y with
      | true => rw [ih, Nat.eq_of_beq_eq_true h]; simp
      | false =>
        have : x ≠ y := Nat.ne_of_beq_eq_false h
        simp [this]

end

end Fast
end Verif
