import Verif.Model.Calendar

/-! # What date bucketing means. -/

namespace Verif.DateBuckets.Spec

open Verif.Calendar

/-- The list, from position `i` on, stays in one class of `key` and leaves it at position `j`;
position `i` is where the class was entered. -/
def Run (key : CDate → ℕ) (l : List CDate) (a b : CDate) : Prop :=
  ∃ i j : ℕ, i < j ∧ l[i]? = some a ∧ l[j]? = some b ∧ key b ≠ key a ∧
    (∀ (m : ℕ) x, i ≤ m → m < j → l[m]? = some x → key x = key a) ∧
    (∀ (m : ℕ) x, m + 1 = i → l[m]? = some x → key x ≠ key a)

/-- Same calendar month / quarter / year. -/
def SameMonth (a b : CDate) : Prop := a.y = b.y ∧ a.m = b.m
@[inherit_doc SameMonth] def SameQuarter (a b : CDate) : Prop := a.y = b.y ∧ (a.m - 1) / 3 = (b.m - 1) / 3
@[inherit_doc SameMonth] def SameYear (a b : CDate) : Prop := a.y = b.y

end Verif.DateBuckets.Spec
