import Mathlib.Order.Defs.LinearOrder
import Mathlib.Data.List.Basic

/-!
# What the tables of R-squared should show
-/

namespace Verif.EdaTables.Spec

/-- The first value is at least the second; a missing value is below all numbers. -/
def AtLeast {κ : Type} [LinearOrder κ] : Option κ → Option κ → Prop
  | _, none => True
  | none, some _ => False
  | some x, some y => y ≤ x

/-- `shown` are the (at most) five largest of `all`, largest first, and `rest` are the others. -/
structure Largest {κ : Type} [LinearOrder κ] (all shown rest : List (String × Option κ)) : Prop where
  complete : (shown ++ rest).Perm all
  sorted : shown.Pairwise fun a b => AtLeast a.2 b.2
  larger : ∀ a ∈ shown, ∀ b ∈ rest, AtLeast a.2 b.2
  count : shown.length = min 5 all.length

end Verif.EdaTables.Spec
