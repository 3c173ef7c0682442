import Verif.Model.Declare
import Verif.Spec.Method

/-!
# Specification of declarations of merge methods
-/
namespace Verif.Declare.Spec
open Method

variable {α : Type}

/-- All parameters: positional, variadic, keyword-only -/
def parameters (d : Decl α) : List (Str × Option Param) := d.args ++ d.vararg.toList ++ d.kwonly

/-- A parameter with a default value declares no merge space, or `param` alone. -/
def Fits (p : Param) : Prop := p.space = none ∨ ∃ l, p.space = some (.set l) ∧ l ≠ [] ∧ ∀ x ∈ l, x = "param".toList

/-- What is checked before the result's merge space -/
structure Typed (d : Decl α) : Prop where
  annotated : ∀ p ∈ parameters d, p.2.isSome
  returns : d.ret.isSome
  defaults : ∀ i k p, d.args[i]? = some (k, some p) → d.args.length - d.defaults.length ≤ i → Fits p
  kwdefaults : ∀ k p, (k, some p) ∈ d.kwonly → k ∈ d.kwdefaults.keys → Fits p
  /-- If every parameter declares a config, the result does. -/
  config : (∀ p ∈ parameters d, ∃ q c, p.2 = some q ∧ q.config = some c) → ∃ sp c, d.ret = some (sp, some c)

/-- If the result's merge space is a symbol, then some parameter declares a symbol or a nonempty set of spaces. -/
def Symbols (d : Decl α) : Prop :=
  ∀ id c, d.ret = some (.symbol id, c) → ∃ k p sp, (k, some p) ∈ parameters d ∧ p.space = some sp ∧ sp ≠ .set []

/-- The signature says what the function is annotated with. -/
structure Reads (d : Decl α) (s : Sig α) : Prop where
  args : d.args = s.args.map fun p => (p.1, some p.2)
  vararg : d.vararg = s.vararg.map fun p => (p.1, some p.2)
  kwonly : d.kwonly = s.kwonly.map fun p => (p.1, some p.2)
  defaults : s.defaults = d.defaults
  kwdefaults : s.kwdefaults = d.kwdefaults
  ret : d.ret = some (s.retSpace, s.retConfig)

/-! ## Calls -/

/-- The parameters other than the variadic one -/
def Named (s : Sig α) : Idx → Prop
  | .pos i => i < s.args.length
  | .name k => k ∈ s.kwonly.keys

/-- Arguments for all parameters, with `n` variadic ones -/
structure Complete {β : Type} (s : Sig α) (n : ℕ) (args : List β) (kwargs : Dict Str β) : Prop where
  args : args.length = s.args.length + n
  vararg : n ≠ 0 → s.vararg.isSome
  kwargs : ∀ k, k ∈ kwargs.keys ↔ k ∈ s.kwonly.keys

/-- The merge space of every call can be told: it is declared; or it is a symbol of a parameter other than the variadic one; or it is not declared, and
some parameter other than the variadic one declares none either, or all declare the same single one. -/
def Tells (s : Sig α) : Prop :=
  match s.retSpace with
  | .space _ => True
  | .symbol id => ∃ i al, Named s i ∧ Method.Spec.spaceOf s i = some (.symbol id al)
  | .none => (∃ i al, Named s i ∧ Method.Spec.spaceOf s i = some (.symbol .dflt al)) ∨
      ∃ r, (∃ i, Named s i) ∧ (∀ i, Named s i → Method.Spec.spaceOf s i = some (.set [r])) ∧
        (s.vararg.isSome → Method.Spec.spaceOf s (.pos s.args.length) = some (.set [r]) ∨
          ∃ al, Method.Spec.spaceOf s (.pos s.args.length) = some (.symbol .dflt al))

end Verif.Declare.Spec
