import Verif.Model.Selection
import Mathlib.Algebra.BigOperators.Group.Finset.Basic

/-!
# What a selection means
-/

namespace Verif.Selection.Spec

open Verif.Selection

/-- The geos meant by a selection. -/
def geoSelected (geos : List String) (sel : Option (List String)) (g : ℕ) : Prop :=
  match sel with
  | none => True
  | some l => ∃ name ∈ l, geos[g]? = some name

/-- The times meant by a selection: those whose flag is set, or those naming the same day as one of
the given dates. -/
def timeSelected (norm : String → Option String) (times : List String) (sel : Option (List Item))
    (t : ℕ) : Prop :=
  match sel with
  | none => True
  | some l => l[t]? = some (.flag true) ∨
      ∃ s, Item.str s ∈ l ∧ ∃ u, times[t]? = some u ∧ norm s = norm u

end Verif.Selection.Spec
