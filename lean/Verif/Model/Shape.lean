import Verif.Model.Broadcast
import Verif.Model.Rank

/-!
# Shapes of what merge methods return

`sd_mecha/extensions/builtin/merge_methods/__init__.py` and `svd.py`, method by method, on shapes of tensors alone.  `none` is an exception.
What a method does depending on the entries of its arguments (`isnan().any()`, `allclose`) is a parameter.  A number given for a parameter
that takes a tensor is a tensor of shape `[]`.  Simplified: devices and types of the entries are left out, as is what raises because of them.
-/
namespace Verif.Shape

abbrev Sh := List Nat

/-! ## Operations of PyTorch -/

/-- `+`, `-`, `*`, `/`, `**`, `torch.maximum`, comparisons -/
abbrev op (a b : Sh) : Option Sh := Power.broadcast a b

/-- `torch.where(c, a, b)`, `a.addcmul(b, c)` -/
def op3 (a b c : Sh) : Option Sh := do op (← op a b) c

/-- `a *= b`: the result has to have the shape of `a`. -/
def opIn (a b : Sh) : Option Sh := if op a b = some a then some a else none

/-- `torch.stack(tensors)` -/
def stack : List Sh → Option Sh
  | [] => none
  | s :: ts => if ts.all (· = s) then some ((ts.length + 1) :: s) else none

/-- `.sum(dim=0)`, `.mean(dim=0)`; a scalar has a dimension 0 for this purpose. -/
def reduce0 (s : Sh) : Sh := s.tail

/-- `torch.unbind(t)`; a scalar cannot be unbound. -/
def unbind : Sh → Option (List Sh)
  | [] => none
  | n :: s => some (List.replicate n s)

/-- `torch.nn.functional.cosine_similarity(a, b, dim=0)` -/
def cosine0 (a b : Sh) : Option Sh := (op a b).map List.tail

/-- `torch.nn.CosineSimilarity(dim=-1)(a, b)` -/
def cosineLast (a b : Sh) : Option Sh := (op a b).map List.dropLast

/-- `torch.flatten(a)`; a scalar becomes a vector. -/
def flatten (s : Sh) : Sh := [s.prod]

/-- `a.reshape(t)` -/
def reshape (s t : Sh) : Option Sh := if s.prod = t.prod then some t else none

/-- `kthvalue(k)` of a vector with `n` entries -/
def kthvalue (n : Nat) (k : Int) : Option Sh := if 1 ≤ k ∧ k ≤ n then some [] else none

/-- `a @ b` of matrices -/
def matmul : Sh → Sh → Option Sh
  | [m, k], [k', n] => if k = k' then some [m, n] else none
  | _, _ => none

/-- `a.T` of a matrix -/
def transpose : Sh → Sh
  | [m, n] => [n, m]
  | s => s

/-- `a.cov(correction=0)` of a matrix: the rows are the variables, and dimensions of size 1 are dropped. -/
def cov : Sh → Option Sh
  | [m, _] => some (if m = 1 then [] else [m, m])
  | _ => none

/-- `torch.linalg.eigh(a)` -/
def eigh : Sh → Option (Sh × Sh)
  | [m, n] => if m = n then some ([m], [m, m]) else none
  | _ => none

/-- `torch.diag_embed(v)` of a vector -/
def diagEmbed : Sh → Option Sh
  | [n] => some [n, n]
  | _ => none

/-- The shape of `torch.fft.rfftn(a, s=a.shape)`; there has to be a dimension and none may be empty. -/
def rfftn (s : Sh) : Option Sh :=
  match s.getLast? with
  | none => none
  | some n => if 0 ∈ s then none else some (s.dropLast ++ [n / 2 + 1])

/-- `torch.fft.irfftn(a, s=t)` -/
def irfftn (a t : Sh) : Option Sh := if a.length = t.length ∧ 0 ∉ t ∧ 0 ∉ a then some t else none

/-! ## Merge methods of two or three tensors -/

/-- `weighted_sum_impl(a, b, alpha)` (lines 34-35) -/
def weightedSumImpl (a b alpha : Sh) : Option Sh := do op (← op alpha a) (← op alpha b)

/-- `weighted_sum(a, b, alpha)` (lines 17-31); `zero` and `one` are the results of the comparisons in lines 26 and 28. -/
def weightedSum (a b alpha : Sh) (zero one : Bool) : Option Sh :=
  if zero then some a else if one then some b else weightedSumImpl a b alpha

/-- `slerp(a, b, alpha=alpha)` (lines 45-64); `nan` is the condition of line 62. -/
def slerp (a b alpha : Sh) (nan : Bool) : Option Sh := do
  let an ← op a []
  let bn ← op b []
  let dot := (fun _ => []) (← op an bn)
  let ac ← op an (← op alpha dot)
  let bc ← op bn (← op alpha dot)
  let res ← op (← op ac bc) dot
  let res ← opIn res (← weightedSumImpl [] [] alpha)
  if nan then weightedSumImpl a b alpha else some res

/-- `add_difference(a, b, alpha)` (lines 67-77) -/
def addDifference (a b alpha : Sh) : Option Sh := op3 a b alpha

/-- `subtract(a, b)` (lines 80-85) -/
def subtract (a b : Sh) : Option Sh := op a b

/-- `perpendicular_component(a, b)` (lines 88-97); `nan` is the condition of line 95. -/
def perpendicular (a b : Sh) (nan : Bool) : Option Sh := do
  let dot := (fun _ => []) (← op (← op a []) (← op b []))
  let res ← op b (← op a dot)
  if nan then some a else some res

/-- `geometric_sum(a, b, alpha)` (lines 100-109) -/
def geometricSum (a b alpha : Sh) : Option Sh := do op (← op a alpha) (← op b alpha)

/-- `add_cosine_generic(a, b, alpha, similarity)` (lines 137-139) -/
def addCosineGeneric (a b alpha similarity : Sh) : Option Sh := do weightedSumImpl a b (← op similarity alpha)

/-- `add_cosine_a(a, b, alpha)` (lines 112-121); `normalize` keeps the shape. -/
def addCosineA (a b alpha : Sh) : Option Sh := do addCosineGeneric a b alpha (← cosine0 a b)

/-- `add_cosine_b(a, b, alpha)` (lines 124-134) -/
def addCosineB (a b alpha : Sh) : Option Sh := do
  let similarity ← cosine0 a b
  let dot := (fun _ => []) (← op a b)
  addCosineGeneric a b alpha (← op similarity (← op dot []))

/-- `tensor_sum(a, b, width, offset)` (lines 142-160); `start`, `stop` and `inverted` are what `ratio_to_region` returns, `wide` is the condition
of line 150.  Slicing a scalar raises. -/
def tensorSum (a b : Sh) (wide : Bool) (start stop : Nat) (inverted : Bool) : Option Sh :=
  match a, b with
  | [], b => some (if wide then b else [])
  | _ :: _, [] => none
  | n :: s, n' :: s' =>
    let part := (min stop n - min start n) :: s
    let part' := (min stop n' - min start n') :: s'
    if inverted then do
      let _ ← opIn part' part
      return b
    else do
      let _ ← opIn part part'
      return a

/-- `kth_abs_value(a, k)` (lines 189-193) of a vector with `n` entries -/
def kthAbsValue (n : Nat) (k : Int) : Option Sh := if k ≤ 0 then some [] else kthvalue n k

/-- `top_k_tensor_sum(a, b, width, offset)` (lines 163-186); `start` and `stop` are what `ratio_to_region` returns. -/
def topKTensorSum (a b : Sh) (start stop : Int) : Option Sh := do
  let aDist := flatten a
  let redist := flatten b
  let startTop ← kthAbsValue a.prod start
  let stopTop ← kthAbsValue a.prod stop
  let mask ← op (← op startTop aDist) (← op aDist stopTop)
  let gathered ← if redist = mask then some redist else none
  let aRedist ← op (← op gathered (flatten a)) (← op gathered redist)
  reshape aRedist a

/-- `train_difference_mask(a, b, c, alpha)` (lines 218-225) -/
def trainDifferenceMask (a b c alpha : Sh) : Option Sh := do
  let ba ← op b a
  op alpha (← op ba (← op ba (← op b c)))

/-- `add_opposite_mask(a, b, c, alpha)` (lines 228-235) -/
def addOppositeMask (a b c alpha : Sh) : Option Sh := do
  let ab ← op a b
  op alpha (← op ab (← op ab (← op ab c)))

/-- `add_strict_opposite_mask(a, b, c, alpha)` (lines 238-246) -/
def addStrictOppositeMask (a b c alpha : Sh) : Option Sh := do
  let threshold ← op (← op a c) (← op b c)
  op alpha (← op (← op (← op c a) (← op b c)) threshold)

/-- `select_max_delta(a, b, alpha)` (lines 249-257) -/
def selectMaxDelta (a b alpha : Sh) : Option Sh := do
  let aAbs ← op (← op a []) []
  let bAbs ← op (← op b []) []
  op3 (← op (← op alpha aAbs) (← op alpha bAbs)) a b

/-- `d` to `a_w, b_w` in `select_max_white_delta` (lines 269-272) -/
def whiten (aNorm bNorm : Sh) : Option (Sh × Sh) := do
  let d := transpose (← stack [flatten aNorm, flatten bNorm])
  let (v, vs) ← eigh (← cov d)
  let w ← matmul (← matmul vs (← diagEmbed v)) (transpose vs)
  match ← unbind (transpose (← matmul w d)) with
  | [aW, bW] => return (aW, bW)
  | _ => none

/-- `select_max_white_delta(a, b, alpha)` (lines 260-274) -/
def selectMaxWhiteDelta (a b alpha : Sh) : Option Sh := do
  let aNorm ← op (← op a []) []
  let bNorm ← op (← op b []) []
  let (aW, bW) ← whiten aNorm bNorm
  op3 (← op (← op alpha aW) (← op alpha bW)) a b

/-- `multiply_quotient(a, b, c, alpha)` (lines 277-296) -/
def multiplyQuotient (a b c alpha : Sh) : Option Sh := do
  let ac ← op a c
  let bc ← op b c
  let threshold ← op ac bc
  let alpha ← opIn alpha (← op (← op ac bc) threshold)
  let res ← op a (← op (← op b c) alpha)
  op3 res a res

/-- The grid of `create_filter(shape, alpha, tilt)` (lines 348-363): one vector for every dimension, of its size (line 349 or the two halves
joined in lines 352-355), meshed -/
def filterShape (s : Sh) : Sh := s.map fun n => (n - n / 2) + n / 2

/-- `crossover(a, b, alpha, tilt)` (lines 299-323) with `create_filter` (lines 327-379); `early` tells whether one of lines 306-311 returns
and what, `close` is the comparison in line 313, `inside` is the check in line 337. -/
def crossover (a b : Sh) (early : Option (Fin 3)) (close inside : Bool) : Option Sh :=
  match early with
  | some 0 => some a
  | some 1 => some b
  | some 2 => weightedSumImpl a b []
  | none =>
    if a.length = 0 ∨ close then weightedSumImpl a b []
    else do
      let aDft ← rfftn a
      let bDft ← if a.length ≤ b.length ∧ 0 ∉ b then some (b.take (b.length - a.length) ++ aDft) else none
      let filter ← if inside then some (filterShape aDft) else none
      let x ← op (← op filter aDft) (← op filter bDft)
      irfftn x a

/-! ## Merge methods of any number of tensors -/

/-- `n_average(*models)` (lines 38-42) -/
def nAverage (models : List Sh) : Option Sh := (stack models).map reduce0

/-- `functools.reduce(op, bounds)`; a TypeError if there are none -/
def foldOp : List Sh → Option Sh
  | [] => none
  | b :: bs => bs.foldlM op b

/-- The loop of lines 467-469: `x` is one of the two tensors it changes. -/
def narrow (average : Sh) : List Sh → Sh → Option Sh
  | [], x => some x
  | b :: bs, x => do narrow average bs (← op3 (← op (← op x b) (← op b average)) b x)

/-- `clamp(a, *bounds, stiffness=stiffness)` (lines 451-474); `stiff` is the condition of line 460. -/
def clamp (a : Sh) (bounds : List Sh) (stiff : Bool) : Option Sh := do
  let maximums ← foldOp bounds
  let minimums ← foldOp bounds
  if stiff then do
    let stacked ← stack bounds
    let average := reduce0 stacked
    let rows ← unbind stacked
    let smallest ← narrow average rows maximums
    let largest ← narrow average rows minimums
    let maximums ← op maximums smallest
    let minimums ← op minimums largest
    op (← op a minimums) maximums
  else op (← op a minimums) maximums

/-- `copy_distribution(a)` (lines 477-481) -/
def copyDistribution (a : Sh) : Option Sh := do op (← op a []) []

/-- `filter_top_k(a, k)` (lines 576-580); `drop` is `int((1 - k) * a.numel())`. -/
def filterTopK (a : Sh) (drop : Nat → Int) : Option Sh := do
  let value ← kthvalue a.prod (max (drop a.prod) 1)
  op a (← op a value)

/-- `ties_sum_deltas(*models, k=k, vote_sgn=vote_sgn)` (lines 537-573): `filtered_delta` and `param_counts` -/
def tiesSumDeltas (models : List Sh) (drop : Nat → Int) : Option (Sh × Sh) := do
  let deltas ← stack (← models.mapM (filterTopK · drop))
  let filters ← op deltas (reduce0 deltas)
  return (← op deltas filters, reduce0 filters)

/-- `ties_sum(*models, k=k, vote_sgn=vote_sgn)` (lines 525-534) -/
def tiesSum (models : List Sh) (drop : Nat → Int) : Option Sh := do
  let (filtered, counts) ← tiesSumDeltas models drop
  op (reduce0 filtered) counts

/-- The similarities of neighbours in `get_model_stock_t` (line 742) -/
def neighbours : List Sh → Option (List Sh)
  | a :: b :: ds => do return (← cosineLast a b) :: (← neighbours (b :: ds))
  | _ => some []

/-- `get_model_stock_t(deltas, cos_eps)` (lines 737-748) -/
def modelStockT (deltas : List Sh) : Option Sh := do
  let theta := reduce0 (← stack (← neighbours deltas))
  return (← op theta theta) ++ [1]

/-- `model_stock(*deltas, cos_eps=cos_eps)` (lines 721-733) -/
def modelStock (deltas : List Sh) : Option Sh := do
  let avg ← nAverage deltas
  op (← modelStockT deltas) avg

/-- `weighted_average_tuple(points, weights)` (lines 781-782) -/
def weightedAverage (points : List Sh) : Option Sh := do op (reduce0 (← stack (← points.mapM (op · [])))) []

/-- The iterations of `geometric_median` (lines 768-776): `n` of them, from the median `m`; `torch.dist` is a scalar. -/
def weiszfeld (models : List Sh) : Nat → Sh → Option Sh
  | 0, m => some m
  | n + 1, m => do
    let _ ← models.mapM (op · m)
    let m ← weightedAverage models
    let _ ← models.mapM (op · m)
    weiszfeld models n m

/-- `geometric_median(*models, …)` (lines 753-778); `n` is the number of iterations that are done.  Without models, line 760 raises. -/
def geometricMedian (models : List Sh) (n : Nat) : Option Sh := do
  if models = [] then none
  let m ← weightedAverage models
  let _ ← models.mapM (op · m)
  let _ ← weiszfeld models n m
  weightedAverage models

/-- `ties_sum_extended(*models, …)` (lines 486-512) -/
def tiesSumExtended (models : List Sh) (drop : Nat → Int) (stock median : Bool) (n : Nat) : Option Sh := do
  let (filtered, counts) ← tiesSumDeltas models drop
  if median then do
    let t ← if stock then some [] else modelStockT (← unbind filtered)
    op (← op (reduce0 filtered) t) counts
  else geometricMedian (← unbind filtered) n

/-- `ties_sum_with_dropout(*deltas, …)` (lines 658-708).  Without deltas, line 674 raises.  Every delta is multiplied with a tensor of its
shape; the rest multiplies or divides by a number. -/
def tiesSumWithDropout (deltas : List Sh) (drop : Nat → Int) (stock median : Bool) (n : Nat) : Option Sh := do
  if deltas = [] then none
  let deltas ← deltas.mapM fun d => op d d
  op (← tiesSumExtended deltas drop stock median n) []

/-- `dropout(*deltas, …)` (lines 583-619) where `overlap % 2` is not 1 (otherwise line 619 raises: C62) and there are deltas; a mask selects
entries of a tensor of its own shape. -/
def dropout (deltas : List Sh) : Option Sh := do
  let stacked ← stack deltas
  let delta0 ← deltas.head?
  let masks ← stack (List.replicate deltas.length delta0)
  let _ ← (← unbind stacked).mapM fun d => if d = delta0 then some d else none
  op delta0 (reduce0 masks)

/-! ## Merge methods of one tensor -/

/-- `torch_svd_lowrank(A, q, full_matrices=False)` (`svd.py` lines 51-79) with `get_approximate_basis` (lines 82-95) of an `m` by `n`
matrix: the shapes of the three factors -/
def svdLowrank (m n q : Nat) : Option (Sh × Sh × Sh) := do
  if ¬ (m < n ∨ n > q) then none
  let start ← matmul [n, m] [m, q]
  let qr : Sh → Option Sh := fun s => match s with
    | [a, b] => some [a, min a b]
    | _ => none
  let q1 ← qr start
  let q2 ← qr (← matmul [m, n] q1)
  let q3 ← qr (← matmul [n, m] q2)
  let q4 ← qr (← matmul [m, n] q3)
  let q5 ← qr (← matmul [n, m] q4)
  let b ← matmul [m, n] q5
  if ¬ (b = [m, q] ∧ q ≤ m) then none
  let v ← matmul q5 [q, q]
  return ([m, q], [q], transpose v)

/-- `truncate_rank(a, rank_ratio)` (lines 789-804) -/
def truncateRank (a : Sh) (ratio : ℚ) : Option Sh :=
  match a with
  | m :: n :: rest => do
    let k := (n :: rest).prod
    let (u, s, vt) ← svdLowrank m k (Rank.targetRank m k ratio)
    let x ← matmul (← matmul u (← diagEmbed s)) vt
    reshape x a
  | _ => some a

/-! ## Recipes -/

/-- Merge methods of two tensors and a weight, with what decides the branches they take -/
inductive Two where
  | weightedSum (zero one : Bool)
  | slerp (nan : Bool)
  | addDifference
  | subtract
  | perpendicular (nan : Bool)
  | geometricSum
  | addCosineA
  | addCosineB
  | tensorSum (wide : Bool) (start stop : Nat) (inverted : Bool)
  | topKTensorSum (start stop : Int)
  | selectMaxDelta
  | crossover (early : Option (Fin 3)) (close inside : Bool)
  | fallback (first : Bool)

def Two.run (m : Two) (a b alpha : Sh) : Option Sh :=
  match m with
  | .weightedSum z o => Shape.weightedSum a b alpha z o
  | .slerp n => Shape.slerp a b alpha n
  | .addDifference => Shape.addDifference a b alpha
  | .subtract => Shape.subtract a b
  | .perpendicular n => Shape.perpendicular a b n
  | .geometricSum => Shape.geometricSum a b alpha
  | .addCosineA => Shape.addCosineA a b alpha
  | .addCosineB => Shape.addCosineB a b alpha
  | .tensorSum w i j v => Shape.tensorSum a b w i j v
  | .topKTensorSum i j => Shape.topKTensorSum a b i j
  | .selectMaxDelta => Shape.selectMaxDelta a b alpha
  | .crossover e c i => Shape.crossover a b e c i
  | .fallback first => some (if first then a else b)

/-- Merge methods of three tensors and a weight -/
inductive Three where
  | trainDifferenceMask | addOppositeMask | addStrictOppositeMask

def Three.run (m : Three) (a b c alpha : Sh) : Option Sh :=
  match m with
  | .trainDifferenceMask => Shape.trainDifferenceMask a b c alpha
  | .addOppositeMask => Shape.addOppositeMask a b c alpha
  | .addStrictOppositeMask => Shape.addStrictOppositeMask a b c alpha

/-- Merge methods of a tensor and any number of further ones.  (All but `clamp` can be called without the first one; they raise then, except
`dropout`, which returns the number 0.) -/
inductive Many where
  | nAverage
  | clamp (stiff : Bool)
  | tiesSum (drop : Nat → Int)
  | tiesSumExtended (drop : Nat → Int) (stock median : Bool) (n : Nat)
  | tiesSumWithDropout (drop : Nat → Int) (stock median : Bool) (n : Nat)
  | dropout
  | modelStock
  | geometricMedian (n : Nat)

def Many.run (m : Many) (a : Sh) (rest : List Sh) : Option Sh :=
  match m with
  | .nAverage => Shape.nAverage (a :: rest)
  | .clamp stiff => Shape.clamp a rest stiff
  | .tiesSum d => Shape.tiesSum (a :: rest) d
  | .tiesSumExtended d s m n => Shape.tiesSumExtended (a :: rest) d s m n
  | .tiesSumWithDropout d s m n => Shape.tiesSumWithDropout (a :: rest) d s m n
  | .dropout => Shape.dropout (a :: rest)
  | .modelStock => Shape.modelStock (a :: rest)
  | .geometricMedian n => Shape.geometricMedian (a :: rest) n

/-- Merge methods of one tensor -/
inductive One where
  | copyDistribution
  | truncateRank (ratio : ℚ)
  | cast
  | component (held : Bool)

def One.run (m : One) (a : Sh) : Option Sh :=
  match m with
  | .copyDistribution => Shape.copyDistribution a
  | .truncateRank ratio => Shape.truncateRank a ratio
  | .cast => some a
  | .component held => if held then some a else none

/-- A recipe, seen from one key: tensors of models, numbers and calls of merge methods (`MergeRecipeNode`, recipe_nodes.py:145-170) -/
inductive Tree where
  | tensor
  | number
  | one (m : One) (a : Tree)
  | two (m : Two) (a b alpha : Tree)
  | three (m : Three) (a b c alpha : Tree)
  | many (m : Many) (a : Tree) (rest : List Tree)

mutual
/-- The shape of the value of a recipe under a key whose tensor has shape `s` in every model -/
def Tree.shape (s : Sh) : Tree → Option Sh
  | .tensor => some s
  | .number => some []
  | .one m a => do m.run (← a.shape s)
  | .two m a b alpha => do m.run (← a.shape s) (← b.shape s) (← alpha.shape s)
  | .three m a b c alpha => do m.run (← a.shape s) (← b.shape s) (← c.shape s) (← alpha.shape s)
  | .many m a rest => do m.run (← a.shape s) (← Tree.shapes s rest)
def Tree.shapes (s : Sh) : List Tree → Option (List Sh)
  | [] => some []
  | t :: ts => do return (← t.shape s) :: (← Tree.shapes s ts)
end

end Verif.Shape
