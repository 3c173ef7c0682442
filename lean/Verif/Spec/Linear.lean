import Verif.Spec.Readme
import Verif.Model.Linear

/-!
# Specification: what a recipe of weighted sums, differences and additions stands for
-/
namespace Verif.Linear.Spec
open Ieee Ieee.Spec Method Recipe Config
variable {F : Type}

/-- The number a python float becomes as a parameter of a method: the nearest float32 (`encode` rounds as C103 says) -/
def Weight (v : FV) (w : ℚ) : Prop := val (decode single (encode single v)) = some w

/-- Weights that `weighted_sum` takes for zero, and for one -/
def NearZero (w : ℚ) : Prop := |w| ≤ 1 / 10 ^ 8
def NearOne (w : ℚ) : Prop := |w - 1| ≤ 1 / 10 ^ 8 + 1 / 10 ^ 5

/-- A float given to a method -/
def param (x : F) : Val F := .lit (.float x) none "param".toList

def weightedSum (a b : Val F) (x : F) : Val F := .merge "weighted_sum".toList [a, b, param x] []
def addDifference (a b : Val F) (x : F) : Val F := .merge "add_difference".toList [a, b, param x] []
def subtract (a b : Val F) : Val F := .merge "subtract".toList [a, b] []
def average (l : List (Val F)) : Val F := .merge "n_average".toList l []

/-- The recipes that can be built from models of the config `c` with `weighted_sum`, `n_average`, `add_difference` and `subtract`, their merge space, and the
models whose tensors they need.  `paths` are the models there are, `num` the number a python float is. -/
inductive Linear (num : F → FV) (paths : Str → Prop) (c : Str) : Str → Val F → List Str → Prop
  | model {p s : Str} : paths p → s = "weight".toList ∨ s = "delta".toList → Linear num paths c s (.model p (some c) (some s)) [p]
  | zero {s : Str} {a b : Val F} {l m : List Str} {x : F} {w : ℚ} : Linear num paths c s a l → Linear num paths c s b m → Weight (num x) w → NearZero w →
      Linear num paths c s (weightedSum a b x) l
  | one {s : Str} {a b : Val F} {l m : List Str} {x : F} {w : ℚ} : Linear num paths c s a l → Linear num paths c s b m → Weight (num x) w → ¬ NearZero w → NearOne w →
      Linear num paths c s (weightedSum a b x) m
  | sum {s : Str} {a b : Val F} {l m : List Str} {x : F} {w : ℚ} : Linear num paths c s a l → Linear num paths c s b m → Weight (num x) w → ¬ NearZero w →
      ¬ NearOne w → Linear num paths c s (weightedSum a b x) (l ++ m)
  | mean {s : Str} {n : ℕ} (a : Fin (n + 1) → Val F) (l : Fin (n + 1) → List Str) : (∀ i, Linear num paths c s (a i) (l i)) →
      Linear num paths c s (average (List.ofFn a)) (List.ofFn l).flatten
  | add {a b : Val F} {l m : List Str} {x : F} {w : ℚ} : Linear num paths c "weight".toList a l → Linear num paths c "delta".toList b m → Weight (num x) w →
      Linear num paths c "weight".toList (addDifference a b x) (l ++ m)
  | sub {a b : Val F} {l m : List Str} : Linear num paths c "weight".toList a l → Linear num paths c "weight".toList b m →
      Linear num paths c "delta".toList (subtract a b) (l ++ m)

/-- Stands for underflow -/
def eta : ℚ := (2 : ℚ) ^ (-900 : ℤ)

/-- `Term entry num r v s n g`: in exact arithmetic, the recipe `r` is `v` where the model `p` is `entry p`.  `s` is the same with absolute values
throughout, `n` is how many roundings are nested, and `v` is a multiple of `2^-g`, unless `s` is at least `2^(53 - g)`. -/
inductive Term (entry : Str → Option ℚ) (num : F → FV) : Val F → ℚ → ℚ → ℕ → ℕ → Prop
  | model {p : Str} {c s : Option Str} {a : ℚ} {z : ℤ} {g : ℕ} : entry p = some a → a = z / 2 ^ g → |a| < 2 ^ 1000 → Term entry num (.model p c s) a |a| 0 g
  | zero {a b : Val F} {x : F} {w va sa : ℚ} {na ga : ℕ} : Weight (num x) w → NearZero w → Term entry num a va sa na ga →
      Term entry num (weightedSum a b x) va sa na ga
  | one {a b : Val F} {x : F} {w vb sb : ℚ} {nb gb : ℕ} : Weight (num x) w → ¬ NearZero w → NearOne w → Term entry num b vb sb nb gb →
      Term entry num (weightedSum a b x) vb sb nb gb
  | sum {a b : Val F} {x : F} {w va sa vb sb : ℚ} {na ga nb gb j : ℕ} {z : ℤ} : Weight (num x) w → ¬ NearZero w → ¬ NearOne w → w = z / 2 ^ j →
      Term entry num a va sa na ga → Term entry num b vb sb nb gb → |1 - w| * sa + |w| * sb + eta < 2 ^ 1000 →
      Term entry num (weightedSum a b x) ((1 - w) * va + w * vb) (|1 - w| * sa + |w| * sb + eta) (max na nb + 4) (max ga gb + j)
  | mean {k : ℕ} (a : Fin (k + 1) → Val F) (v s : Fin (k + 1) → ℚ) (m h : Fin (k + 1) → ℕ) {n g : ℕ} :
      (∀ i, Term entry num (a i) (v i) (s i) (m i) (h i)) → (∀ i, m i ≤ n) → (List.ofFn s).sum + eta < 2 ^ 1000 →
      (∃ j, k + 1 = 2 ^ j ∧ ∀ i, h i + j ≤ g) ∨ 2 ^ 53 ≤ ((List.ofFn s).sum / (k + 1 : ℕ) + eta) * 2 ^ g →
      Term entry num (average (List.ofFn a)) ((List.ofFn v).sum / (k + 1 : ℕ)) ((List.ofFn s).sum / (k + 1 : ℕ) + eta) (n + k + 3) g
  | add {a b : Val F} {x : F} {w va sa vb sb : ℚ} {na ga nb gb j : ℕ} {z : ℤ} : Weight (num x) w → w = z / 2 ^ j →
      Term entry num a va sa na ga → Term entry num b vb sb nb gb → sa + |w| * sb + eta < 2 ^ 1000 →
      Term entry num (addDifference a b x) (va + w * vb) (sa + |w| * sb + eta) (max na nb + 2) (max ga gb + j)
  | sub {a b : Val F} {va sa vb sb : ℚ} {na ga nb gb : ℕ} : Term entry num a va sa na ga → Term entry num b vb sb nb gb → sa + sb + eta < 2 ^ 1000 →
      Term entry num (subtract a b) (va - vb) (sa + sb + eta) (max na nb + 1) (max ga gb)

/-! ### What is assumed about `torch.mean` -/

/-- What additions of float64 numbers in some order give.  Sums may begin at zero. -/
inductive Sums : List FV → FV → Prop
  | one (x : FV) : Sums [x] x
  | add {xs ys : List FV} {a b : FV} : Sums xs a → Sums ys b → Sums (xs ++ ys) (Readme.fadd a b)
  | zero {xs : List FV} {a : FV} : Sums xs a → Sums xs (Readme.fadd Readme.zero a)
  | perm {xs ys : List FV} {a : FV} : xs.Perm ys → Sums xs a → Sums ys a

/-- `y` is a float64 number nearest to `x / n`, where these are numbers in range. -/
def Divided (x : FV) (n : ℕ) (y : FV) : Prop :=
  ∀ q, val x = some q → |q / n| < limit double → ∃ r, val y = some r ∧ Has double r ∧ ∀ r', Has double r' → |r - q / n| ≤ |r' - q / n|

/-- Sums divided by how many there are, or multiplied by the reciprocal -/
def Mean (A : Arith) : Prop :=
  ∀ (sh : List ℕ) (i : ℕ) (xs : List FV), xs ≠ [] → ∃ s, Sums xs s ∧
    (Divided s xs.length (A.mean sh i xs) ∨ ∃ c, Divided one xs.length c ∧ A.mean sh i xs = Readme.fmul s c)

/-- The entry `i` of what a model holds for a key, where it is a number -/
def entryOf (opened : Str → Option StreamIn.State) (cfg : ModelConfig) (k : Str) (i : ℕ) (p : Str) : Option ℚ :=
  match Readme.Spec.held opened cfg p k with
  | some u =>
    match (entries u)[i]? with
    | some m => val (read u.dtype m)
    | none => none
  | none => none

/-- `o` are the bits of the float16 number nearest to `x`, or of an infinity if `x` is too large for one -/
structure Stored (x : ℚ) (o : ℕ) : Prop where
  nearest : |x| < 65520 → Readme.Spec.Nearest x o
  above : 65520 ≤ x → decode half o = .inf false
  below : x ≤ -65520 → decode half o = .inf true

end Verif.Linear.Spec
