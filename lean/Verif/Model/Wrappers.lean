import Verif.Model.Builtin

/-!
# Recipe operators and wrapper functions

`+`, `-` of recipes (sd_mecha/recipe_nodes.py:32-47) and the functions of sd_mecha/merge_method_wrappers.py, with the signatures of
the builtin methods they use (sd_mecha/extensions/builtin/merge_methods/__init__.py).
-/
namespace Verif.Wrappers
open Method Recipe Eval
variable {F : Type}

/-- `RecipeNodeOrValue` (recipe_nodes.py:71): a node or literal value, or a path. -/
inductive Operand (F : Type) where
  | value (v : Val F)
  | path (p : Str)

/-- `value_to_node(v)` without expected type (merge_methods.py:548-618).  For a mapping the first value is taken as type, which
fails on an empty one (line 575); a path's type is neither a type variable nor a tensor type (lines 608-618). -/
def operand (E : Env F) : Operand F → Except Err (Val F)
  | .path _ => .error .type
  | .value (.dict []) => .error .stopIteration
  | .value v => valueToNode E v

def weight : Str := "weight".toList
def delta : Str := "delta".toList

/-- A parameter annotated with one merge space -/
def inSpace (s : Str) : Param := ⟨some (.set [s]), none, false⟩

/-- Float constants by their source text. -/
abbrev Floats (F : Type) := String → F

/-- `add_difference` (__init__.py:67-73) -/
def addDifferenceSig (fl : Floats F) : Sig (Val F) :=
  ⟨[("a".toList, inSpace weight), ("b".toList, inSpace delta), ("alpha".toList, plain)], none, [], [.float (fl "1.0")], [],
    .space weight, none⟩

/-- `subtract` (__init__.py:80-84) -/
def subtractSig : Sig (Val F) :=
  ⟨[("a".toList, inSpace weight), ("b".toList, inSpace weight)], none, [], [], [], .space delta, none⟩

/-- `perpendicular_component` (__init__.py:88-92) -/
def perpendicularSig : Sig (Val F) := ⟨[("a".toList, plain), ("b".toList, plain)], none, [], [], [], .none, none⟩

/-- A parameter of a python literal type (`float`, `int`, `bool`) without merge space -/
def number : Param := ⟨none, none, true⟩

/-- `tensor_sum` and `top_k_tensor_sum` (__init__.py:142-148, 163-169); the first one's default width is given by `width`. -/
def regionSig (fl : Floats F) (width : String) : Sig (Val F) :=
  ⟨[("a".toList, plain), ("b".toList, plain), ("width".toList, number), ("offset".toList, number)], none, [],
    [.float (fl width), .float (fl "0.0")], [], .none, none⟩

/-- `rotate` (__init__.py:382-389) -/
def rotateSig (fl : Floats F) : Sig (Val F) :=
  ⟨[("a_dict".toList, plain), ("b_dict".toList, plain), ("alignment".toList, number), ("alpha".toList, plain)], none, [],
    [.float (fl "1.0"), .float (fl "0.0")], [], .none, none⟩

/-- `clamp` (__init__.py:451-456) -/
def clampSig (fl : Floats F) : Sig (Val F) :=
  ⟨[("a".toList, plain)], some ("bounds".toList, plain), [("stiffness".toList, number)], [],
    [("stiffness".toList, .float (fl "0.0"))], .none, none⟩

/-- A method `def f(*deltas: Parameter(Tensor, "delta"), <options>) -> Return(Tensor, "delta")` all of whose options are literals with
defaults. -/
def deltasSig (var : String) (options : Dict Str (Val F)) : Sig (Val F) :=
  ⟨[], some (var.toList, inSpace delta), options.map fun p => (p.1, number), [], options, .space delta, none⟩

def opt (n : String) (v : Val F) : Str × Val F := (n.toList, v)

/-- `ties_sum` (__init__.py:525-530) -/
def tiesSumSig (fl : Floats F) : Sig (Val F) := deltasSig "models" [opt "k" (.float (fl "1.0")), opt "vote_sgn" (.bool false)]

/-- `ties_sum_extended` (__init__.py:486-497) -/
def tiesExtendedSig (fl : Floats F) : Sig (Val F) :=
  deltasSig "models" [opt "k" (.float (fl "0.2")), opt "vote_sgn" (.bool false), opt "apply_stock" (.bool false),
    opt "apply_median" (.bool false), opt "cos_eps" (.float (fl "1e-6")), opt "eps" (.float (fl "1e-6")), opt "maxiter" (.int 100),
    opt "ftol" (.float (fl "1e-20"))]

/-- `dropout` (__init__.py:583-591) -/
def dropoutSig (fl : Floats F) : Sig (Val F) :=
  deltasSig "deltas" [opt "probability" (.float (fl "0.9")), opt "rescale" (.float (fl "1.0")), opt "overlap" (.float (fl "1.0")),
    opt "overlap_emphasis" (.float (fl "0.0")), opt "seed" .none]

/-- `ties_sum_with_dropout` (__init__.py:658-672) -/
def tiesDropoutSig (fl : Floats F) : Sig (Val F) :=
  deltasSig "deltas" [opt "probability" (.float (fl "0.9")), opt "no_rescale" (.bool false), opt "k" (.float (fl "0.2")),
    opt "vote_sgn" (.bool false), opt "apply_stock" (.bool false), opt "cos_eps" (.float (fl "1e-6")),
    opt "apply_median" (.bool false), opt "eps" (.float (fl "1e-6")), opt "maxiter" (.int 100), opt "ftol" (.float (fl "1e-20")),
    opt "seed" .none]

/-- `model_stock` (__init__.py:721-725) -/
def modelStockSig (fl : Floats F) : Sig (Val F) := deltasSig "deltas" [opt "cos_eps" (.float (fl "1e-6"))]

def nAdd : Str := "add_difference".toList
def nSub : Str := "subtract".toList
def nPerp : Str := "perpendicular_component".toList
def nTensorSum : Str := "tensor_sum".toList
def nTopK : Str := "top_k_tensor_sum".toList
def nRotate : Str := "rotate".toList
def nClamp : Str := "clamp".toList
def nTies : Str := "ties_sum".toList
def nTiesExt : Str := "ties_sum_extended".toList
def nDropout : Str := "dropout".toList
def nTiesDropout : Str := "ties_sum_with_dropout".toList
def nStock : Str := "model_stock".toList

/-- The builtin methods are registered. -/
structure Registered (E : Env F) (fl : Floats F) : Prop where
  add : E.resolve nAdd = .ok (addDifferenceSig fl)
  sub : E.resolve nSub = .ok subtractSig
  perp : E.resolve nPerp = .ok perpendicularSig
  tensorSum : E.resolve nTensorSum = .ok (regionSig fl "0.5")
  topK : E.resolve nTopK = .ok (regionSig fl "1.0")
  rotate : E.resolve nRotate = .ok (rotateSig fl)
  clamp : E.resolve nClamp = .ok (clampSig fl)
  ties : E.resolve nTies = .ok (tiesSumSig fl)
  tiesExt : E.resolve nTiesExt = .ok (tiesExtendedSig fl)
  dropout : E.resolve nDropout = .ok (dropoutSig fl)
  tiesDropout : E.resolve nTiesDropout = .ok (tiesDropoutSig fl)
  stock : E.resolve nStock = .ok (modelStockSig fl)

/-! ### Operators -/

/-- `a.__add__(b)` (recipe_nodes.py:32-37) -/
def addNode (E : Env F) (a : Val F) (b : Operand F) : Except Err (Val F) := do
  let b ← operand E b
  let s ← b.space E
  if s = some weight then createRecipe E nAdd [b, a] [] else createRecipe E nAdd [a, b] []

/-- `a.__radd__(b)`, that is `b + a` for a value `b` (recipe_nodes.py:39-41) -/
def raddNode (E : Env F) (a : Val F) (b : Operand F) : Except Err (Val F) := do
  let b ← operand E b
  addNode E b (.value a)

/-- `a.__sub__(b)` (recipe_nodes.py:43-45) -/
def subNode (E : Env F) (a : Val F) (b : Operand F) : Except Err (Val F) := do
  let b ← operand E b
  createRecipe E nSub [a, b] []

/-- `a.__rsub__(b)` (recipe_nodes.py:47-49) -/
def rsubNode (E : Env F) (a : Val F) (b : Operand F) : Except Err (Val F) := do
  let b ← operand E b
  subNode E b (.value a)

/-! ### Wrappers -/

/-- `[value_to_node(m) for m in models]` -/
def operands (E : Env F) : List (Operand F) → Except Err (List (Val F))
  | [] => .ok []
  | o :: l => do .ok ((← operand E o) :: (← operands E l))

/-- An optional third model -/
def operand? (E : Env F) : Option (Operand F) → Except Err (Option (Val F))
  | none => .ok none
  | some o => some <$> operand E o

/-- `subtract(b, c) if c is not None else b` -/
def minus? (E : Env F) (b : Val F) : Option (Val F) → Except Err (Val F)
  | none => .ok b
  | some c => createRecipe E nSub [b, c] []

/-- `add_difference` (merge_method_wrappers.py:16-46) -/
def wAddDifference (E : Env F) (a b : Operand F) (c : Option (Operand F)) (alpha : Val F) (clampToAb : Bool) : Except Err (Val F) := do
  let a ← operand E a
  let originalB ← operand E b
  let c ← operand? E c
  let b ← minus? E originalB c
  let res ← createRecipe E nAdd [a, b] [opt "alpha" alpha]
  let sa ← a.space E
  let so ← originalB.space E
  let b := if sa = so then originalB else b
  if clampToAb then
    let sb ← b.space E
    if sa ≠ sb then .error .type else createRecipe E nClamp [res, a, b] []
  else .ok res

/-- `add_perpendicular` (merge_method_wrappers.py:49-72) -/
def wAddPerpendicular (E : Env F) (a b c : Operand F) (alpha : Val F) : Except Err (Val F) := do
  let a ← operand E a
  let b ← operand E b
  let c ← operand E c
  let ad ← createRecipe E nSub [a, c] []
  let bd ← createRecipe E nSub [b, c] []
  let perp ← createRecipe E nPerp [ad, bd] []
  createRecipe E nAdd [a, perp] [opt "alpha" alpha]

/-- `tuple(subtract(m, base) if m.merge_space == "weight" else m for m in models)` -/
def taskVectors (E : Env F) (base : Val F) : List (Val F) → Except Err (List (Val F))
  | [] => .ok []
  | m :: l => do
    let s ← m.space E
    let d ← if s = some weight then createRecipe E nSub [m, base] [] else .ok m
    .ok (d :: (← taskVectors E base l))

/-- `add_difference_ties` (merge_method_wrappers.py:84-115) -/
def wTies (E : Env F) (base : Operand F) (models : List (Operand F)) (alpha k : Val F) : Except Err (Val F) := do
  let base ← operand E base
  let models ← operands E models
  let ds ← taskVectors E base models
  let res ← createRecipe E nTies ds [opt "k" k]
  wAddDifference E (.value base) (.value res) none alpha false

/-- `add_difference_ties_extended` (merge_method_wrappers.py:118-163) -/
def wTiesExtended (E : Env F) (base : Operand F) (models : List (Operand F))
    (alpha k voteSgn applyStock cosEps applyMedian eps maxiter ftol : Val F) : Except Err (Val F) := do
  let base ← operand E base
  let models ← operands E models
  let ds ← taskVectors E base models
  let res ← createRecipe E nTiesExt ds [opt "k" k, opt "vote_sgn" voteSgn, opt "apply_stock" applyStock, opt "cos_eps" cosEps,
    opt "apply_median" applyMedian, opt "eps" eps, opt "maxiter" maxiter, opt "ftol" ftol]
  wAddDifference E (.value base) (.value res) none alpha false

/-- The end of `copy_region` and `rotate`: `add_difference(c, res, alpha=1.0) if c is not None else res` -/
def plus? (E : Env F) (fl : Floats F) (res : Val F) : Option (Val F) → Except Err (Val F)
  | none => .ok res
  | some c => createRecipe E nAdd [c, res] [opt "alpha" (.float (fl "1.0"))]

/-- `copy_region` (merge_method_wrappers.py:166-198), also exported as `tensor_sum` -/
def wCopyRegion (E : Env F) (fl : Floats F) (a b : Operand F) (c : Option (Operand F)) (width offset : Val F) (topK : Bool) :
    Except Err (Val F) := do
  let a ← operand E a
  let b ← operand E b
  let c ← operand? E c
  let a ← minus? E a c
  let b ← minus? E b c
  let res ← createRecipe E (if topK then nTopK else nTensorSum) [a, b] [opt "width" width, opt "offset" offset]
  plus? E fl res c

/-- `rotate` (merge_method_wrappers.py:204-235); the cache is not part of the recipe. -/
def wRotate (E : Env F) (fl : Floats F) (a b : Operand F) (c : Option (Operand F)) (alignment alpha : Val F) : Except Err (Val F) := do
  let a ← operand E a
  let b ← operand E b
  let c ← operand? E c
  let a ← minus? E a c
  let b ← minus? E b c
  let res ← createRecipe E nRotate [a, b] [opt "alignment" alignment, opt "alpha" alpha]
  plus? E fl res c

/-- `[subtract(model, a) for model in models]` (merge_method_wrappers.py:247-250).  Simplification: `subtract` is given values; a path
would become a model node there. -/
def differences (E : Env F) (a : Val F) : List (Val F) → Except Err (List (Val F))
  | [] => .ok []
  | m :: l => do .ok ((← createRecipe E nSub [m, a] []) :: (← differences E a l))

/-- `dropout` (merge_method_wrappers.py:238-252) -/
def wDropout (E : Env F) (a : Val F) (models : List (Val F)) (probability alpha overlap overlapEmphasis seed : Val F) :
    Except Err (Val F) := do
  let ds ← differences E a models
  let d ← createRecipe E nDropout ds [opt "probability" probability, opt "overlap" overlap, opt "overlap_skew" overlapEmphasis,
    opt "seed" seed]
  createRecipe E nAdd [a, d] [opt "alpha" alpha]

/-- `ties_with_dare` (merge_method_wrappers.py:270-313) -/
def wTiesWithDare (E : Env F) (base : Operand F) (models : List (Operand F))
    (probability rescale alpha seed k voteSgn applyStock cosEps applyMedian eps maxiter ftol : Val F) : Except Err (Val F) := do
  let base ← operand E base
  let models ← operands E models
  let ds ← taskVectors E base models
  let res ← createRecipe E nTiesDropout ds [opt "probability" probability, opt "rescale" rescale, opt "k" k, opt "vote_sgn" voteSgn,
    opt "seed" seed, opt "apply_stock" applyStock, opt "cos_eps" cosEps, opt "apply_median" applyMedian, opt "eps" eps,
    opt "maxiter" maxiter, opt "ftol" ftol]
  createRecipe E nAdd [base, res] [opt "alpha" alpha]

/-- `n_model_stock` (merge_method_wrappers.py:318-340) -/
def wModelStock (E : Env F) (fl : Floats F) (base : Operand F) (models : List (Operand F)) (cosEps : Val F) : Except Err (Val F) := do
  let base ← operand E base
  let models ← operands E models
  let ds ← taskVectors E base models
  let res ← createRecipe E nStock ds [opt "cos_eps" cosEps]
  createRecipe E nAdd [base, res] [opt "alpha" (.float (fl "1.0"))]

/-! ### The functions behind `+` and `-` -/

/-- `add_difference` (__init__.py:66-76): the delta is read before the weight.  `addcmul` is that of torch; a value `None` has no such
method and is rejected as an argument. -/
def addDifferenceImpl {T : Type} (addcmul : T → T → T → T) : Impl F T where
  types := ⟨[.sd .tensor, .sd .tensor, .val .tensor], none, []⟩
  run args _ key :=
    match args with
    | [.sd a _, .sd b _, .val alpha] =>
      match b key with
      | .error e => .error e
      | .ok bv =>
        match a key with
        | .error e => .error e
        | .ok av =>
          match av, bv, alpha with
          | .tensor x, .tensor y, .tensor t => .ok (.tensor (addcmul x y t))
          | .tensor _, _, _ => .error .type
          | _, _, _ => .error .attribute
    | _ => .error .type

/-- `subtract` (__init__.py:79-84) -/
def subtractImpl {T : Type} (sub : T → T → T) : Impl F T where
  types := ⟨[.val .tensor, .val .tensor], none, []⟩
  run args _ _ :=
    match args with
    | [.val (.tensor x), .val (.tensor y)] => .ok (.tensor (sub x y))
    | _ => .error .type

end Verif.Wrappers
