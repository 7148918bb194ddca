import Mathlib.Data.Nat.Notation
import Mathlib.Data.List.Basic

/-!
# What a right label is
-/

namespace Verif.Labels.Spec

/-- The results are computed for the positions `idx` of the axis with the given names; entry `i`, for
position `idx[i]`, carries the name of that position. -/
def Names (names : List String) (idx : List ℕ) (labels : List String) : Prop :=
  labels.length = idx.length ∧
    ∀ i p : ℕ, idx[i]? = some p → ∃ n, names[p]? = some n ∧ labels[i]? = some n

end Verif.Labels.Spec
