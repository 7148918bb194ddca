import Verif.Spec.GridSearch

/-!
# Specification: comparing two allocations
-/

namespace Verif.Nested.Spec

/-- Every channel gets an amount in both allocations, in the first at most that in the second. -/
def AtMost (xs ys : List (Option ℤ)) : Prop :=
  List.Forall₂ (fun x y => ∃ a b : ℤ, x = some a ∧ y = some b ∧ a ≤ b) xs ys

end Verif.Nested.Spec
