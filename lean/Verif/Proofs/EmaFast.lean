import Verif.Model.Ema
import Verif.Proofs.ConvertFacts

/-! # The keys of averaged weights, for evaluation by the kernel -/
namespace Verif.Fast
open Text Convert Data

noncomputable section

def tail (s : Text) : Text := List.rec [] (fun _ s _ => s) s

theorem tail_eq (s : Text) : tail s = s.drop 1 := by cases s <;> rfl

/-- The key without dots -/
def undot (s : Text) : Text := List.rec [] (fun c _ ih => Bool.rec (motive := fun _ => Text) (c :: ih) ih (Nat.beq c 46)) s

theorem undot_eq (s : Text) : undot s = s.filter (· ≠ 46) := by
  induction s with
  | nil => rfl
  | cons c s ih =>
    show Bool.rec (motive := fun _ => Text) (c :: undot s) (undot s) (Nat.beq c 46) = _
    rw [List.filter_cons, ih]
    cases h : Nat.beq c 46 with
    | true => simp [Nat.eq_of_beq_eq_true h]
    | false => simp [Nat.ne_of_beq_eq_false h]

theorem replace_dot (s : Text) : Text.replace (key% ".") [] s = s.filter (· ≠ 46) := by
  unfold Text.replace
  induction s with
  | nil => rfl
  | cons c s ih =>
    rw [Text.replaceFrom, ih]
    by_cases h : c = 46
    · simp [h, List.isPrefixOf, ih]
    · simp [h, List.isPrefixOf, Ne.symm h]

def toEma (k : Text) : Text := append (key% "model_ema.") (undot (tail (tail (tail (tail (tail (tail k)))))))

theorem toEma_eq (k : Text) : toEma k = Ema.toEma k := by
  unfold toEma Ema.toEma
  rw [append_eq, undot_eq, replace_dot]
  simp only [tail_eq, List.drop_drop]

def emaConv (k : Text) : Option Conv := some (.read (toEma k))
def emaSpec (k : Text) : List Text := [toEma k]

/-- A chunk without its first two entries -/
def rest (l : List Entry) : List Entry := List.rec [] (fun _ l _ => List.rec [] (fun _ l _ => l) l) l

end

end Verif.Fast
