import Verif.Model.Method

/-!
# Specification of calls: python's binding rules, merge spaces, configs
-/
namespace Verif.Method.Spec
open Method

variable {α : Type}

/-- The names of the positional parameters. -/
def names (s : Sig α) : List Str := s.args.map (·.1)

/-- The default of the `i`-th positional parameter. -/
def defaultOf (s : Sig α) (i : ℕ) : Option α :=
  if i < s.args.length - s.defaults.length then none else s.defaults[i - (s.args.length - s.defaults.length)]?

/-- No parameter is given both by position and by keyword. -/
def NoDouble (s : Sig α) (args : List α) (kwargs : Dict Str α) : Prop :=
  ∀ i name, (names s)[i]? = some name → i < args.length → name ∉ kwargs.keys

/-- Python's rules for `f(*args, **kwargs)` with `def f(p…, *vararg, kwonly…)`: the call succeeds and binds `b`. -/
structure PyBinds (s : Sig α) (args : List α) (kwargs : Dict Str α) (b : Bound α) : Prop where
  /-- too many positional arguments -/
  noExtra : s.vararg = none → args.length ≤ (names s).length
  /-- unexpected keyword argument -/
  known : ∀ k ∈ kwargs.keys, k ∈ names s ∨ k ∈ s.kwonly.keys
  /-- multiple values for an argument -/
  noDouble : NoDouble s args kwargs
  arg : ∀ i name, (names s)[i]? = some name →
    (b.args[i]?).isSome ∧ b.args[i]? = if i < args.length then args[i]? else (kwargs.get? name).or (defaultOf s i)
  var : ∀ i, (names s).length ≤ i → b.args[i]? = args[i]?
  kw : ∀ k ∈ s.kwonly.keys, (b.kwargs.get? k).isSome ∧ b.kwargs.get? k = (kwargs.get? k).or (s.kwdefaults.get? k)
  kwOnly : ∀ k ∈ b.kwargs.keys, k ∈ s.kwonly.keys

/-- The parameter an argument is given to. -/
def paramOf (s : Sig α) : Idx → Option Param
  | .pos i => if i < s.args.length then (s.args[i]?).map (·.2) else s.vararg.map (·.2)
  | .name k => s.kwonly.get? k

/-- Has the parameter a default value? -/
def hasDefault (s : Sig α) : Idx → Bool
  | .pos i => decide (i < s.args.length) && decide (s.args.length - s.defaults.length ≤ i)
  | .name k => decide (k ∈ s.kwdefaults.keys)

/-- Is the argument one of the variadic ones? -/
def isVar (s : Sig α) : Idx → Bool
  | .pos i => decide (s.args.length ≤ i)
  | .name _ => false

/-- The merge spaces a parameter accepts: those declared; `param` if it has a default or takes a python
literal; otherwise any one space, the same for all such parameters of the method. -/
def spaceOf (s : Sig α) (i : Idx) : Option Space :=
  (paramOf s i).map fun p => p.space.getD
    (if (hasDefault s i || (p.literalType && !isVar s i)) then .set [paramSpace] else .symbol .dflt allSpaces)

/-- An assignment of spaces to symbols explains the spaces of the arguments. -/
def Explains (s : Sig α) (σ : Sym → Option Str) (l : List (Idx × Str)) : Prop :=
  ∀ i sp, (i, sp) ∈ l → ∃ a, spaceOf s i = some a ∧ sp ∈ a.allowed ∧ ∀ id al, a = .symbol id al → σ id = some sp

end Verif.Method.Spec
