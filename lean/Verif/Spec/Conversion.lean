import Verif.Model.Conversion

/-!
# Chains of converters
-/
namespace Verif.Conversion.Spec
open Method Recipe

/-- `p` is a chain of registered converters from `a` to `b`: each takes what the one before returns. -/
inductive Chain (cs : List Converter) : Str → List Str → Str → Prop where
  | nil (a : Str) : Chain cs a [] a
  | cons {b : Str} {p : List Str} (c : Converter) (hc : c ∈ cs) (h : Chain cs c.tgt p b) : Chain cs c.src (c.name :: p) b

variable {F : Type}

/-- `r` is `v` with the methods of `p` applied to it, the first one innermost, each to one positional argument. -/
inductive Nested : List Str → Val F → Val F → Prop where
  | nil (v : Val F) : Nested [] v v
  | cons {m : Str} {p : List Str} {v r : Val F} (ks : List (Str × Val F)) (h : Nested p (.merge m [v] ks) r) : Nested (m :: p) v r

end Verif.Conversion.Spec
