import Verif.Py.Err
import Mathlib.Data.List.Basic

/-!
# What is claimed about recipes in files
-/
namespace Verif.RecipeFile.Spec

/-- The file is called `<something>.mecha`, in whatever directory. -/
def Mecha (path : List Char) : Prop :=
  ∃ s, s ≠ [] ∧ '/' ∉ s ∧ (path = s ++ ".mecha".toList ∨ ∃ dir, path = dir ++ '/' :: (s ++ ".mecha".toList))

end Verif.RecipeFile.Spec
