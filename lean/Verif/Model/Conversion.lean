import Verif.Model.Recipe

/-!
# Config conversion (sd_mecha/conversion.py)

The heap is a list from which the least entry is taken; `heapq` itself is trusted to return it.
Loops carry fuel; `Proofs/Conversion.lean` shows that they finish before it runs out.
-/
namespace Verif.Conversion
open Method Recipe

/-- `Dict[str, List[Tuple[str, Any]]]`: the edges of a config, as target and converter -/
abbrev Graph := Dict Str (List (Str × Str))

/-- A registered converter: name, config of its input, config of its result -/
structure Converter where
  name : Str
  src : Str
  tgt : Str
  deriving DecidableEq, Repr

/-- `d.setdefault(k, [])` -/
def setDefault (g : Graph) (k : Str) : Graph :=
  match g.get? k with
  | some _ => g
  | none => g.set k []

/-- One round of the loop over converters (conversion.py:38-45). -/
def addConverter (g : Graph) (c : Converter) : Graph :=
  let g := setDefault g c.src
  let g := setDefault g c.tgt
  g.set c.src ((g.get? c.src).getD [] ++ [(c.tgt, c.name)])

/-- `converter_paths` (conversion.py:36-45) -/
def buildGraph (cs : List Converter) : Graph := cs.foldl addConverter []

/-! ## `dijkstra` (conversion.py:85-128) -/

/-- The local variables of `dijkstra`.  `distances` has `none` for infinity.  `predecessors` and `edge_used` are always
assigned together and are one mapping here, without the entries that are `None`. -/
structure St where
  dist : Dict Str (Option ℕ)
  pred : Dict Str (Str × Str)
  heap : List (ℕ × Str)
  deriving DecidableEq, Repr

/-- `a < b` for strings: by code points -/
def strLt : Str → Str → Bool
  | [], [] => false
  | [], _ :: _ => true
  | _ :: _, [] => false
  | a :: l, b :: r => if a.toNat < b.toNat then true else if b.toNat < a.toNat then false else strLt l r

/-- `a < b` for tuples `(distance, node)` -/
def entryLt (a b : ℕ × Str) : Bool := decide (a.1 < b.1) || (decide (a.1 = b.1) && strLt a.2 b.2)

/-- `heapq.heappop` -/
def popMin : List (ℕ × Str) → Option ((ℕ × Str) × List (ℕ × Str))
  | [] => none
  | a :: l =>
    match popMin l with
    | none => some (a, [])
    | some (b, r) => if entryLt b a then some (b, a :: r) else some (a, l)

/-- `d < distances[n]` -/
def less (d : ℕ) : Option ℕ → Bool
  | none => true
  | some d' => decide (d < d')

/-- The loop over the neighbours (conversion.py:108-114). -/
def relax (cur : Str) (d : ℕ) : List (Str × Str) → St → Except Err St
  | [], s => .ok s
  | (n, e) :: l, s =>
    match s.dist.get? n with
    | none => .error .key
    | some old =>
      if less (d + 1) old then
        relax cur d l ⟨s.dist.set n (some (d + 1)), s.pred.set n (cur, e), s.heap ++ [(d + 1, n)]⟩
      else relax cur d l s

/-- The main loop (conversion.py:100-114); `none` if the fuel does not suffice. -/
def search (g : Graph) (goal : Str) : ℕ → St → Option (Except Err St)
  | 0, s => if s.heap = [] then some (.ok s) else none
  | fuel + 1, s =>
    match popMin s.heap with
    | none => some (.ok s)
    | some ((d, v), rest) =>
      match s.dist.get? v with
      | none => some (.error .key)
      | some dv =>
        -- `if current_dist > distances[current_node]`
        if (match dv with | some x => decide (x < d) | none => false) then search g goal fuel { s with heap := rest }
        else if v = goal then some (.ok s)
        else
          match g.get? v with
          | none => some (.error .key)
          | some es =>
            match relax v d es { s with heap := rest } with
            | .error e => some (.error e)
            | .ok s' => search g goal fuel s'

/-- The path back from the goal (conversion.py:119-128), already reversed. -/
def walk (pred : Dict Str (Str × Str)) (start : Str) : ℕ → Str → List Str → Option (Except Err (List Str))
  | fuel, v, acc =>
    if v = start then some (.ok acc)
    else
      match fuel with
      | 0 => none
      | fuel + 1 =>
        match pred.get? v with
        -- `predecessors[node]` is `None`, then `edge_used[None]`
        | none => some (.error .key)
        | some (u, e) => walk pred start fuel u (e :: acc)

/-- conversion.py:94-98 -/
def init (g : Graph) (start : Str) : St :=
  ⟨Dict.set (g.map fun p => (p.1, (none : Option ℕ))) start (some 0), [], [(0, start)]⟩

/-- Enough rounds for both loops. -/
def fuelFor (g : Graph) : ℕ := g.length + 2

/-- `dijkstra(graph, start, goal)`; the inner `none` is `None`, the outer one would be a loop that does not end. -/
def dijkstra (g : Graph) (start goal : Str) : Option (Except Err (Option (List Str))) :=
  match search g goal (fuelFor g) (init g start) with
  | none => none
  | some (.error e) => some (.error e)
  | some (.ok s) =>
    match s.dist.get? goal with
    | none => some (.error .key)
    | some none => some (.ok none)
    | some (some _) =>
      match walk s.pred start (fuelFor g) goal [] with
      | none => none
      | some (.error e) => some (.error e)
      | some (.ok p) => some (.ok (some p))

variable {F : Type}

/-- `functools.reduce(lambda v, mm: mm(v), path, recipe)` (conversion.py:82) -/
def applyChain (E : Env F) : List Str → Val F → Except Err (Val F)
  | [], v => .ok v
  | m :: l, v =>
    match createRecipe E m [v] [] with
    | .error e => .error e
    | .ok r => applyChain E l r

/-- `create_conversion_recipe` (conversion.py:78-82) -/
def conversionRecipe (E : Env F) (g : Graph) (recipe : Val F) (src tgt : Str) : Option (Except Err (Option (Val F))) :=
  match dijkstra g src tgt with
  | none => none
  | some (.error e) => some (.error e)
  | some (.ok none) => some (.ok none)
  | some (.ok (some p)) =>
    match applyChain E p recipe with
    | .error e => some (.error e)
    | .ok r => some (.ok (some r))

/-- `convert` on a recipe node whose config is known, to the config `tgt` (conversion.py:64-75).
Opening and closing input files to find the config of a node (open_input_dicts) is left out. -/
def convert (E : Env F) (cs : List Converter) (recipe : Val F) (src tgt : Str) : Option (Except Err (Val F)) :=
  if src = "structural".toList then some (.error .value)
  else
    match conversionRecipe E (buildGraph cs) recipe src tgt with
    | none => none
    | some (.error e) => some (.error e)
    | some (.ok none) => some (.error .value)
    | some (.ok (some r)) => some (.ok r)

/-- `convert` on a mapping: configs that fit its keys are tried in turn (conversion.py:53-62). -/
def convertMapping (E : Env F) (cs : List Converter) (recipe : Val F) (tgt : Str) : List Str → Option (Except Err (Val F))
  | [] => some (.error .value)
  | c :: l =>
    match conversionRecipe E (buildGraph cs) recipe c tgt with
    | none => none
    | some (.error e) => some (.error e)
    | some (.ok (some r)) => some (.ok r)
    | some (.ok none) => convertMapping E cs recipe tgt l

end Verif.Conversion
